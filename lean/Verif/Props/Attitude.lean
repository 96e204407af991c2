import Verif.Lemmas.Attitude
/-
C74: the attitude angles that `add_roll_pitch_yaw` adds to a log.
-/
namespace PyULog
open Spec

theorem entries_map {ms : List Str} {topics : List (Str × Str)} (hl : ms.length = topics.length)
    (he : ∀ p ∈ ms.zip topics, Entry p.1 p.2.1 p.2.2) : ms.map splitMessage = topics := by
  induction ms generalizing topics with
  | nil => cases topics with
    | nil => rfl
    | cons _ _ => simp at hl
  | cons m ms ih => cases topics with
    | nil => simp at hl
    | cons t ts =>
      rw [List.map_cons, ih (by simpa using hl) (fun p hp => he p (by simp [hp])),
        splitMessage_entry (he (m, t) (by simp))]

theorem default_topics : attitudeMessages.map splitMessage = defaultTopics := by decide

/-- **C74**: with entries for different topics, exactly the datasets of these topics get the columns
`roll`, `pitch` and `yaw` of their quaternions; every other dataset and everything else is unchanged. -/
theorem C74_columns {o : AngleOps NpVal} {ms : List Str} {topics : List (Str × Str)} {u u' : ULog}
    (hl : ms.length = topics.length) (he : ∀ p ∈ ms.zip topics, Entry p.1 p.2.1 p.2.2)
    (hn : (topics.map (·.1)).Nodup) (h : addRollPitchYaw o (some ms) u = .ok u') :
    u' = { u with dataList := u'.dataList } ∧ u'.dataList.length = u.dataList.length ∧
    ∀ (i : Nat) (d d' : Dataset), u.dataList[i]? = some d → u'.dataList[i]? = some d' →
      (∀ t ∈ topics, d.name = t.1 → Angled o t.2 d d') ∧ ((∀ t ∈ topics, d.name ≠ t.1) → d' = d) := by
  rw [addRollPitchYaw_eq] at h
  simp only [Option.getD_some] at h
  rw [entries_map hl he] at h
  obtain ⟨g, rfl, hg⟩ := addTopics_ok hn h
  refine ⟨rfl, by simp, ?_⟩
  intro i d d' h1 h2
  simp only [List.getElem?_map, h1, Option.map_some, Option.some.injEq] at h2
  subst h2
  have hd := hg d (List.mem_of_getElem? h1)
  exact ⟨fun t ht e => addAngles_ok (hd.1 t ht e.symm), fun hall => hd.2 fun t ht e => hall t ht e.symm⟩

/-- **C74**, without a list of messages: the topics of the four attitudes. -/
theorem C74_default {o : AngleOps NpVal} {u u' : ULog} (h : addRollPitchYaw o none u = .ok u') :
    u' = { u with dataList := u'.dataList } ∧ u'.dataList.length = u.dataList.length ∧
    ∀ (i : Nat) (d d' : Dataset), u.dataList[i]? = some d → u'.dataList[i]? = some d' →
      (d.name ∈ [py! "vehicle_attitude", py! "vehicle_vision_attitude", py! "vehicle_attitude_groundtruth"] →
        Angled o [] d d') ∧
      (d.name = py! "vehicle_attitude_setpoint" → Angled o (py! "_d") d d') ∧
      (d.name ∉ [py! "vehicle_attitude", py! "vehicle_vision_attitude", py! "vehicle_attitude_groundtruth",
        py! "vehicle_attitude_setpoint"] → d' = d) := by
  have h' : addRollPitchYaw o (some attitudeMessages) u = .ok u' := h
  have hd : ∀ p ∈ attitudeMessages.zip defaultTopics, Entry p.1 p.2.1 p.2.2 := by
    intro p hp
    have hm : ∀ m ∈ attitudeMessages, Entry m (splitMessage m).1 (splitMessage m).2 := fun m _ => entry_split m
    have hz : attitudeMessages.zip defaultTopics = attitudeMessages.map fun m => (m, splitMessage m) := by decide
    rw [hz] at hp
    obtain ⟨m, hmm, rfl⟩ := List.mem_map.mp hp
    exact hm m hmm
  obtain ⟨h1, h2, h3⟩ := C74_columns (topics := defaultTopics) (by decide) hd (by decide) h'
  refine ⟨h1, h2, fun i d d' e1 e2 => ?_⟩
  obtain ⟨a, b⟩ := h3 i d d' e1 e2
  refine ⟨?_, ?_, ?_⟩
  · intro hm
    simp only [List.mem_cons, List.not_mem_nil, or_false] at hm
    rcases hm with e | e | e
    · exact a (py! "vehicle_attitude", []) (by decide) e
    · exact a (py! "vehicle_vision_attitude", []) (by decide) e
    · exact a (py! "vehicle_attitude_groundtruth", []) (by decide) e
  · intro e
    exact a (py! "vehicle_attitude_setpoint", py! "_d") (by decide) e
  · intro hm
    refine b fun t ht e => hm ?_
    have : t.1 ∈ defaultTopics.map (·.1) := List.mem_map_of_mem ht
    rw [← e] at this
    exact this

/-- **C74**: for a loaded log and entries for different topics the call succeeds if every dataset of these
topics has the four columns of the quaternion; otherwise it ends with a KeyError. -/
theorem C74_missing {fuel : Nat} {cfg : Cfg} {bs : Bytes} {u : ULog} (hu : load fuel cfg bs = .ok u)
    {o : AngleOps NpVal} {ms : List Str} {topics : List (Str × Str)}
    (hl : ms.length = topics.length) (he : ∀ p ∈ ms.zip topics, Entry p.1 p.2.1 p.2.2)
    (hn : (topics.map (·.1)).Nodup) :
    ((∀ d ∈ u.dataList, ∀ t ∈ topics, t.1 = d.name → HasQuat t.2 d) →
      ∃ u', addRollPitchYaw o (some ms) u = .ok u') ∧
    ((∃ d ∈ u.dataList, ∃ t ∈ topics, t.1 = d.name ∧ ¬ HasQuat t.2 d) →
      addRollPitchYaw o (some ms) u = .error .keyError) := by
  rw [addRollPitchYaw_eq]
  simp only [Option.getD_some]
  rw [entries_map hl he]
  rcases addTopics_cases (o := o) (u := u) hn (fun d hd p _ _ => by
    obtain ⟨_, _, _, n, _, h⟩ := loaded_dataset hu hd
    exact ⟨n, h⟩) with ⟨h1, h2⟩ | ⟨⟨d, hd, t, ht, h1⟩, h2⟩
  · exact ⟨fun _ => h2, fun ⟨d, hd, t, ht, e, hq⟩ => absurd (h1 d hd t ht e) hq⟩
  · exact ⟨fun hall => absurd (hall d hd t ht h1.1) h1.2, fun _ => h2⟩

/-- the log does not change its written form: no field of the topics has the name of a new column -/
theorem C74_write_partial {o : AngleOps NpVal} {ms : List Str} {topics : List (Str × Str)} {u u' : ULog}
    (hl : ms.length = topics.length) (he : ∀ p ∈ ms.zip topics, Entry p.1 p.2.1 p.2.2)
    (hn : (topics.map (·.1)).Nodup) (h : addRollPitchYaw o (some ms) u = .ok u')
    (hf : ∀ d ∈ u.dataList, ∀ t ∈ topics, t.1 = d.name → ∀ f ∈ d.fields, f.name ∉ angleCols t.2) :
    writeUlog u' = writeUlog u := by
  rw [addRollPitchYaw_eq] at h
  simp only [Option.getD_some] at h
  rw [entries_map hl he] at h
  obtain ⟨g, rfl, hg⟩ := addTopics_ok hn h
  have hsuf : ∀ t ∈ topics, t.2 = py! "_d" ∨ t.2 = [] := by
    intro t ht
    obtain ⟨i, hi, e⟩ := List.getElem_of_mem ht
    have hm := he (ms[i]'(by omega), t) (by
      rw [← e]
      have : (ms.zip topics)[i]'(by simp; omega) = (ms[i]'(by omega), topics[i]) := by simp
      rw [← this]
      exact List.getElem_mem _)
    rcases hm with ⟨_, e⟩ | ⟨_, _, e⟩
    · exact .inl e
    · exact .inr e
  have hts : ∀ t ∈ topics, py! "timestamp" ∉ angleCols t.2 := by
    intro t ht
    rcases hsuf t ht with e | e <;> rw [e] <;> decide
  have key : ∀ d ∈ u.dataList, (g d).msgId = d.msgId ∧ (g d).multiId = d.multiId ∧ (g d).name = d.name ∧
      datasetItems (g d) = datasetItems d := by
    intro d hd
    by_cases hm : ∃ t ∈ topics, t.1 = d.name
    · obtain ⟨t, ht, e⟩ := hm
      have ha := addAngles_ok ((hg d hd).1 t ht e)
      exact ⟨by rw [ha.same], by rw [ha.same], by rw [ha.same],
        datasetItems_angled ha (hf d hd t ht e) (hts t ht)⟩
    · rw [(hg d hd).2 (fun t ht e => hm ⟨t, ht, e⟩)]
      exact ⟨rfl, rfl, rfl, rfl⟩
  exact writeUlog_map (fun d hd => (key d hd).1) (fun d hd => ⟨(key d hd).2.1, (key d hd).2.2.1⟩)
    (fun d hd => (key d hd).2.2.2)

namespace Sample

/-- operations that make every angle 7 -/
def sevens : AngleOps NpVal where
  add a _ := a
  sub a _ := a
  mul a _ := a
  twice a := a
  oneMinus a := a
  arctan2 _ _ := .f32 7
  arcsin _ := .f32 7

/-- an attitude with two rows -/
def att (extra : List FieldData) (cols : Dict Str (List NpVal)) : Dataset where
  multiId := 0
  msgId := 3
  name := py! "vehicle_attitude"
  fields := [⟨py! "timestamp", .u64⟩, ⟨py! "q[0]", .f32⟩, ⟨py! "q[1]", .f32⟩, ⟨py! "q[2]", .f32⟩, ⟨py! "q[3]", .f32⟩] ++
    extra
  tsIdx := 0
  data := [(py! "timestamp", [.int 5, .int 6]), (py! "q[0]", [.f32 1, .f32 2]), (py! "q[1]", [.f32 3, .f32 4]),
    (py! "q[2]", [.f32 5, .f32 6]), (py! "q[3]", [.f32 7, .f32 8])] ++ cols

def attLog (extra : List FieldData) (cols : Dict Str (List NpVal)) : ULog :=
  { compat := [0, 0, 0, 0, 0, 0, 0, 0], incompat := [0, 0, 0, 0, 0, 0, 0, 0], dataList := [att extra cols] }

/-- a field with the name of a new column -/
def rolled : ULog := attLog [⟨py! "roll", .f32⟩] [(py! "roll", [.f32 1, .f32 2])]

end Sample

/-- a logged field named `roll` is replaced by the computed column, so that another log is written -/
theorem C74_overwrites : ∃ u', addRollPitchYaw Sample.sevens none Sample.rolled = .ok u' ∧
    (writeUlog u').toOption.isSome ∧ (writeUlog Sample.rolled).toOption.isSome ∧
    (writeUlog u').toOption ≠ (writeUlog Sample.rolled).toOption := by
  have h : ((addRollPitchYaw Sample.sevens none Sample.rolled).toOption.any fun u' =>
    (writeUlog u').toOption.isSome && ((writeUlog Sample.rolled).toOption.isSome &&
      decide ((writeUlog u').toOption ≠ (writeUlog Sample.rolled).toOption))) = true := by decide +kernel
  revert h
  cases addRollPitchYaw Sample.sevens none Sample.rolled with
  | error e => intro h; cases h
  | ok u' =>
    intro h
    simp only [Except.toOption, Option.any_some, Bool.and_eq_true] at h
    exact ⟨u', rfl, h.1, h.2.1, of_decide_eq_true h.2.2⟩

-- two rows, angles in the columns after the logged ones
example : ((addRollPitchYaw Sample.sevens none (Sample.attLog [] [])).toOption.map fun u =>
    u.dataList.map fun d => (d.data.keys, d.data.get? (py! "yaw"))) =
    some [([py! "timestamp", py! "q[0]", py! "q[1]", py! "q[2]", py! "q[3]", py! "roll", py! "pitch", py! "yaw"],
      some [.f32 7, .f32 7])] := by decide +kernel
example : Entry (py! "vehicle_attitude_setpoint:_d") (py! "vehicle_attitude_setpoint") (py! "_d") := .inl ⟨by decide, rfl⟩
example : Entry (py! "vehicle_attitude") (py! "vehicle_attitude") [] := entry_split _
example : HasQuat [] (Sample.att [] []) := by unfold HasQuat; decide
example : ∀ f ∈ (Sample.att [] []).fields, f.name ∉ angleCols [] := by decide

end PyULog
