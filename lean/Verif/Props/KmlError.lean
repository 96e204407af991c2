import Verif.Lemmas.KmlError
import Verif.Props.CsvError
import Verif.Spec.SampleRun
/-
C98: when ulog2kml raises an exception, and which one.
-/
namespace PyULog
open Spec

/-- **C98**, colours: with any colours a track is divided into the same line strings, and the colours are looked up in
their order; the first mode without a colour decides. -/
theorem C98_track (far : Nat → Bool) (colors : Int → Except PyErr C) (changes : List (Int × Int)) (rows : List (Nat × P)) :
    ∃ kept, Thinned far 0 rows kept ∧
      kmlTrack far colors changes rows = (track colors changes kept).mapM coloured ∧
      ∀ e, kmlTrack far colors changes rows = .error e ↔
        ∃ j ≤ reachedBy changes kept, colors (modeOf changes j) = .error e ∧
          ∀ i < j, ∃ c, colors (modeOf changes i) = .ok c := by
  obtain ⟨kept, hk⟩ := thinned_exists far 0 rows
  have h := kmlTrack_lift far colors changes hk
  refine ⟨kept, hk, h, fun e => ?_⟩
  have hcol : ∀ j e', coloured ⟨modeOf changes j, colors (modeOf changes j), segment changes kept j⟩ = .error e' ↔
      colors (modeOf changes j) = .error e' := by
    intro j e'
    unfold coloured
    dsimp only
    cases colors (modeOf changes j) with
    | ok c => exact ⟨fun h => (by cases h), fun h => (by cases h)⟩
    | error e'' => exact ⟨fun h => (by cases h; rfl), fun h => (by cases h; rfl)⟩
  have hok : ∀ j, (∃ y, coloured ⟨modeOf changes j, colors (modeOf changes j), segment changes kept j⟩ = .ok y) ↔
      ∃ c, colors (modeOf changes j) = .ok c := by
    intro j
    unfold coloured
    dsimp only
    cases colors (modeOf changes j) with
    | ok c => exact ⟨fun _ => ⟨c, rfl⟩, fun _ => ⟨_, rfl⟩⟩
    | error e'' => exact ⟨fun ⟨_, h⟩ => (by cases h), fun ⟨_, h⟩ => (by cases h)⟩
  rw [h, mapM_stops]
  unfold track
  constructor
  · rintro ⟨b, a, r, h1, h2, h3⟩
    have hlen : b.length ≤ reachedBy changes kept := by
      have := congrArg List.length h1
      simp at this
      omega
    have hget : ∀ i, i ≤ reachedBy changes kept → (b ++ a :: r)[i]? =
        some ⟨modeOf changes i, colors (modeOf changes i), segment changes kept i⟩ := by
      intro i hi
      rw [← h1, List.getElem?_map, List.getElem?_range (by omega)]
      rfl
    refine ⟨b.length, hlen, ?_, ?_⟩
    · have := hget b.length hlen
      rw [List.getElem?_append_right (Nat.le_refl _), Nat.sub_self] at this
      injection this with this
      rw [this] at h2
      exact (hcol _ _).mp h2
    · intro i hi
      have := hget i (by omega)
      rw [List.getElem?_append_left hi] at this
      have := h3 _ (List.mem_of_getElem? this)
      exact (hok i).mp this
  · rintro ⟨j, hj, h1, h2⟩
    refine ⟨(List.range j).map fun j => ⟨modeOf changes j, colors (modeOf changes j), segment changes kept j⟩,
      ⟨modeOf changes j, colors (modeOf changes j), segment changes kept j⟩,
      (List.range' (j + 1) (reachedBy changes kept - j)).map fun j =>
        ⟨modeOf changes j, colors (modeOf changes j), segment changes kept j⟩, ?_, (hcol _ _).mpr h1, ?_⟩
    · have hr : List.range (reachedBy changes kept + 1) =
          List.range j ++ j :: List.range' (j + 1) (reachedBy changes kept - j) := by
        rw [List.range_eq_range', List.range_eq_range', ← List.range'_succ]
        have := List.range'_append_1 (s := 0) (m := j) (n := reachedBy changes kept - j + 1)
        rw [Nat.zero_add] at this
        rw [this]
        congr 1
        omega
      rw [hr, List.map_append, List.map_cons]
    · intro x hx
      obtain ⟨i, hi, rfl⟩ := List.mem_map.mp hx
      exact (hok i).mpr (h2 i (List.mem_range.mp hi))

theorem topic_cases (u : ULog) (name : Str) : NoneOf u name ∨ ∃ d, FirstOf u name d := by
  cases hf : (u.dataList.filter (fun d : Dataset => decide (d.name = name ∧ d.multiId = 0)))[0]? with
  | none =>
    refine .inl fun d hd hp => ?_
    have : d ∈ u.dataList.filter (fun d : Dataset => decide (d.name = name ∧ d.multiId = 0)) :=
      List.mem_filter.mpr ⟨hd, by simpa using hp⟩
    have h0 := List.length_pos_of_mem this
    have := List.getElem?_eq_none_iff.mp hf
    omega
  | some d =>
    obtain ⟨pre, post, h1, h2, h3⟩ := filter_first.mp hf
    have h2 := of_decide_eq_true h2
    exact .inr ⟨d, pre, post, h1, h2.1, h2.2, fun e he => by simpa using h3 e he⟩

theorem default_error {m : Int} {e : PyErr} : defaultColors m = .error e ↔ e = .indexError ∧ 18 ≤ m := by
  unfold defaultColors pyIndex
  by_cases h : 18 ≤ m
  · rw [List.getElem?_eq_none (by show 18 ≤ _; omega)]
    exact ⟨fun h' => (by cases h'; exact ⟨rfl, h⟩), fun ⟨h1, _⟩ => (by rw [h1])⟩
  · rw [List.getElem?_eq_getElem (by show _ < 18; omega)]
    exact ⟨fun h' => (by cases h'), fun ⟨_, h'⟩ => absurd h' h⟩

theorem least_nat (p : Nat → Prop) (h : ∃ n, p n) : ∃ n, p n ∧ ∀ m < n, ¬ p m := by
  obtain ⟨n, hn⟩ := h
  induction n using Nat.strongRecOn with
  | _ n ih =>
    by_cases hm : ∃ m < n, p m
    · obtain ⟨m, hlt, hp⟩ := hm
      exact ih m hlt hp
    · exact ⟨n, hn, fun m hlt hp => hm ⟨m, hlt, hp⟩⟩

/-- the camera triggers of a loaded log -/
theorem C98_triggers {fuel : Nat} {cfg : Cfg} {bs : Bytes} {u : ULog} (h : load fuel cfg bs = .ok u) (ht : KmlTypes u)
    (fmt : NpVal → Str) (point : NpVal → NpVal → NpVal → P) (camera : Option Str) {e : PyErr} :
    kmlTriggers fmt point u camera = .error e ↔
      e = .keyError ∧ ∃ c d, camera = some c ∧ FirstOf u c d ∧ (NoCoordinate d ∨ NoField d (py! "seq")) := by
  cases hc : camera with
  | none =>
    rw [C76_triggers (pts := []) .notAsked]
    exact ⟨fun h => (by cases h), fun ⟨_, _, _, h, _⟩ => (by cases h)⟩
  | some c =>
    rcases topic_cases u c with hn | ⟨d, hd⟩
    · rw [C76_triggers (pts := []) (.noTopic hn)]
      refine ⟨fun h => (by cases h), ?_⟩
      rintro ⟨_, c', d, h1, h2, _⟩
      injection h1 with h1
      subst h1
      exact absurd hn (firstOf_noneOf h2)
    · have hm := firstOf_mem hd
      have hl := loaded_data h hm
      have hn : ∀ f ∈ d.fields, f.name ≠ [] := fun f hf => (ht d hm f hf).1
      have hiff : (∃ c' d', some c = some c' ∧ FirstOf u c' d' ∧ (NoCoordinate d' ∨ NoField d' (py! "seq"))) ↔
          NoCoordinate d ∨ NoField d (py! "seq") := by
        constructor
        · rintro ⟨c', d', h1, h2, h3⟩
          injection h1 with h1
          subst h1
          rw [firstOf_unique hd h2]
          exact h3
        · intro h3
          exact ⟨c, d, rfl, hd, h3⟩
      rw [hiff]
      by_cases hbad : NoCoordinate d ∨ NoField d (py! "seq")
      · have : kmlTriggers fmt point u (some c) = .error .keyError := by
          refine C76_missing hd ?_
          unfold NoCoordinate at hbad
          simp only [← column_named hl hn] at hbad
          rcases hbad with (h | h | h) | h
          · exact .inl h
          · exact .inr (.inl h)
          · exact .inr (.inr (.inl h))
          · exact .inr (.inr (.inr h))
        rw [this]
        exact ⟨fun h' => (by cases h'; exact ⟨rfl, hbad⟩), fun ⟨h1, _⟩ => (by rw [h1])⟩
      · have hgood : ∀ {a b : Str}, ¬ (NoField d a ∧ NoField d b) → ∃ col, ColumnOf d a b col := by
          intro a b hab
          rcases either_none hl hn (a := a) (b := b) with ⟨h1, h2, _⟩ | ⟨_, col, h, _⟩
          · exact absurd ⟨h1, h2⟩ hab
          · exact ⟨col, h⟩
        obtain ⟨lon, clon⟩ := hgood (a := py! "lon") (b := py! "longitude_deg") fun h => hbad (.inl (.inl h))
        obtain ⟨lat, clat⟩ := hgood (a := py! "lat") (b := py! "latitude_deg") fun h => hbad (.inl (.inr (.inl h)))
        obtain ⟨alt, calt⟩ := hgood (a := py! "alt") (b := py! "altitude_msl_m") fun h => hbad (.inl (.inr (.inr h)))
        obtain ⟨seq, cseq⟩ : ∃ seq, d.data.get? (py! "seq") = some seq := by
          cases hs : d.data.get? (py! "seq") with
          | some seq => exact ⟨seq, rfl⟩
          | none => exact absurd (.inr ((column_named hl hn).mp hs)) hbad
        obtain ⟨n, _, hlen, _⟩ := hl.rows
        have hcol : ∀ {l : List NpVal}, l.length = n → l = (List.range n).map fun i => (l[i]?).getD (.int 0) := by
          intro l hll
          exact list_range l _ hll (fun i x hx => by rw [hx]; rfl)
        rw [hcol (columnOf_length hlen clon)] at clon
        rw [hcol (columnOf_length hlen clat)] at clat
        rw [hcol (columnOf_length hlen calt)] at calt
        have hsl : seq.length = n := hlen _ (Dict.mem_of_get? _ _ _ cseq)
        rw [hcol hsl] at cseq
        rw [C76_triggers (.points hd cseq clon clat calt)]
        exact ⟨fun h' => (by cases h'), fun ⟨_, h'⟩ => absurd h' hbad⟩

/-- **C98**: exporting a loaded log with the default colours raises exactly for the listed reasons: KeyError if the topic,
a coordinate or the timestamps are missing, IndexError if the track reaches a mode of 18 and more, and otherwise KeyError if
the camera topic has no coordinate or no sequence number. -/
theorem C98_document {fuel : Nat} {cfg : Cfg} {bs : Bytes} {u : ULog} (h : load fuel cfg bs = .ok u) (ht : KmlTypes u)
    (coord : Bool → NpVal → NpVal → NpVal → P) (far : Nat → Bool) (fmt : NpVal → Str) (topic : Str) (camera : Option Str)
    {e : PyErr} :
    kmlDocument coord far fmt (.one topic) (.one defaultColors) camera u = .error e ↔ KmlObstacle coord far u topic camera e := by
  obtain ⟨changes, hch, hmodes⟩ := C36_modes u (loaded_modes h ht)
  have hdoc : kmlDocument coord far fmt (.one topic) (.one defaultColors) camera u = (do
      let l ← kmlPosition coord far defaultColors changes u topic
      let points ← kmlTriggers fmt (coord false) u camera
      .ok ⟨(l.map fun x => (topic, x)), points⟩) := by
    unfold kmlDocument
    rw [hch, ok_bind]
    show (do
      let lines ← [(topic, defaultColors)].mapM fun (p : Str × _) => do
        let l ← kmlPosition coord far p.2 changes u p.1
        .ok (l.map fun x => (p.1, x))
      let points ← kmlTriggers fmt (coord false) u camera
      Except.ok (⟨lines.flatten, points⟩ : KmlDoc Str P)) = _
    rw [List.mapM_cons, List.mapM_nil]
    dsimp only
    cases kmlPosition coord far defaultColors changes u topic with
    | error e => rfl
    | ok l =>
      rw [ok_bind, ok_bind]
      show (do
        let points ← kmlTriggers fmt (coord false) u camera
        Except.ok (⟨[l.map fun x => (topic, x)].flatten, points⟩ : KmlDoc Str P)) = _
      rw [List.flatten_cons, List.flatten_nil, List.append_nil]
      rfl
  have hexcl : ∀ {d rows}, FirstOf u topic d → Positions coord d rows →
      ¬ (NoCoordinate d ∨ NoField d (py! "timestamp")) ∧ positions coord d = .ok rows := by
    intro d rows hd hp
    have hok : positions coord d = .ok rows := by
      obtain ⟨n, t, fix, lon, lat, alt, scaled, h1, h2, h3, h4, h5, h6, h7, h8, hr⟩ := hp
      rw [C36_positions coord d n t fix lon lat alt scaled h1 h2 h3 h4 h5 h6 h7 h8, hr]
    refine ⟨?_, hok⟩
    rcases positions_loaded coord h ht (firstOf_mem hd) with ⟨_, he⟩ | ⟨hno, _⟩
    · rw [hok] at he; cases he
    · exact hno
  have hpos : ∀ e', kmlPosition coord far defaultColors changes u topic = .error e' ↔
      (e' = .keyError ∧ (NoneOf u topic ∨ ∃ d, FirstOf u topic d ∧ (NoCoordinate d ∨ NoField d (py! "timestamp")))) ∨
      (e' = .indexError ∧ ColorObstacle coord far u topic) := by
    intro e'
    unfold kmlPosition
    rcases topic_cases u topic with hn | ⟨d, hd⟩
    · rw [topicData_none hn]
      constructor
      · intro h; cases h; exact .inl ⟨rfl, .inl hn⟩
      · rintro (⟨rfl, _⟩ | ⟨_, d, _, _, _, _, hd, _⟩)
        · rfl
        · exact absurd hn (firstOf_noneOf hd)
    · rw [topicData_of hd, ok_bind]
      rcases positions_loaded coord h ht (firstOf_mem hd) with ⟨hno, he⟩ | ⟨hno, rows, hp, he⟩
      · rw [he]
        constructor
        · intro h; cases h; exact .inl ⟨rfl, .inr ⟨d, hd, hno⟩⟩
        · rintro (⟨rfl, _⟩ | ⟨_, d', rows, _, _, _, hd', hp, _⟩)
          · rfl
          · rw [firstOf_unique hd hd'] at hno
            exact absurd hno (hexcl hd' hp).1
      · rw [he, ok_bind]
        obtain ⟨kept, hk, _, ht'⟩ := C98_track far defaultColors changes rows
        rw [ht']
        constructor
        · rintro ⟨j, hj, h1, _⟩
          obtain ⟨rfl, h18⟩ := default_error.mp h1
          exact .inr ⟨rfl, d, rows, kept, changes, j, hd, hp, hk, hmodes, hj, h18⟩
        · rintro (⟨_, hn | ⟨d', hd', hno'⟩⟩ | ⟨rfl, d', rows', kept', changes', j, hd', hp', hk', hm', hj, h18⟩)
          · exact absurd hn (firstOf_noneOf hd)
          · rw [firstOf_unique hd' hd] at hno'
            exact absurd hno' hno
          · have := firstOf_unique hd' hd
            subst this
            have := (hexcl hd' hp').2
            rw [he] at this
            cases this
            have := thinned_unique hk' hk
            subst this
            have := modes_unique hm' hmodes
            subst this
            have hfirst := least_nat (fun j => 18 ≤ modeOf changes' j) ⟨j, h18⟩
            obtain ⟨i, hi, hmin⟩ := hfirst
            have hij : i ≤ j := Nat.not_lt.mp fun hlt => hmin j hlt h18
            refine ⟨i, by omega, default_error.mpr ⟨rfl, hi⟩, fun k hk => ?_⟩
            cases hdef : defaultColors (modeOf changes' k) with
            | ok c => exact ⟨c, rfl⟩
            | error e => exact absurd (default_error.mp hdef).2 (hmin k hk)
  rw [hdoc]
  constructor
  · intro h
    rcases except_bind_error.mp h with h | ⟨l, hl, h⟩
    · rcases (hpos e).mp h with ⟨rfl, h | ⟨d, h1, h2⟩⟩ | ⟨rfl, h⟩
      · exact .noTopic h
      · exact .noPosition h1 h2
      · exact .color ‹_›
    · rcases except_bind_error.mp h with h | ⟨_, _, h⟩
      · obtain ⟨rfl, c, d, h1, h2, h3⟩ := (C98_triggers (u := u) (by assumption) ht fmt (coord false) camera).mp h
        refine .camera (fun hc => ?_) h1 h2 h3
        rw [(hpos _).mpr (.inr ⟨rfl, hc⟩)] at hl
        cases hl
      · cases h
  · rintro (h | ⟨h1, h2⟩ | h | ⟨h0, h1, h2, h3⟩)
    · exact except_bind_error.mpr (.inl ((hpos _).mpr (.inl ⟨rfl, .inl h⟩)))
    · exact except_bind_error.mpr (.inl ((hpos _).mpr (.inl ⟨rfl, .inr ⟨_, h1, h2⟩⟩)))
    · exact except_bind_error.mpr (.inl ((hpos _).mpr (.inr ⟨rfl, h⟩)))
    · cases hp : kmlPosition coord far defaultColors changes u topic with
      | error e' =>
        rcases (hpos e').mp hp with ⟨rfl, _⟩ | ⟨_, hc⟩
        · rfl
        · exact absurd hc h0
      | ok l =>
        rw [ok_bind]
        exact except_bind_error.mpr (.inl ((C98_triggers (by assumption) ht fmt (coord false) camera).mpr
          ⟨rfl, _, _, h1, h2, h3⟩))

/-- a log with two positions and one flight mode; `alt` is the name of the last coordinate -/
def Sample.kmlLog (mode : UInt8) (alt : Str) : Bytes :=
  Sample.header ++ encMsgs [
    (tyF, Sample.asc (py! "pos:uint64_t timestamp;int32_t lon;int32_t lat;int32_t " ++ alt ++ py! ";")),
    (tyF, Sample.asc (py! "vehicle_status:uint64_t timestamp;uint8_t nav_state;")),
    (tyA, [0, 3, 0] ++ Sample.asc (py! "pos")), (tyA, [0, 4, 0] ++ Sample.asc (py! "vehicle_status")),
    (tyD, leEnc 2 4 ++ leEnc 8 5 ++ [mode]),
    (tyD, leEnc 2 3 ++ leEnc 8 7 ++ leEnc 4 1 ++ leEnc 4 2 ++ leEnc 4 3),
    (tyD, leEnc 2 3 ++ leEnc 8 9 ++ leEnc 4 4 ++ leEnc 4 5 ++ leEnc 4 6)]

/-- what becomes of the log: the topic `topic` is exported, and `camera` is the topic of the camera -/
def Sample.kmlRun (mode : UInt8) (alt topic : Str) (camera : Option Str) : Option (Option PyErr) :=
  match load 40 {} (Sample.kmlLog mode alt) with
  | .ok u => some (Sample.errorOf (kmlDocument Sample.coord (fun x => x > 0) (fun _ => []) (.one topic) (.one defaultColors) camera u))
  | _ => none

/-- non-vacuity: the log is exported; a missing topic, a missing coordinate, the mode 18 and a camera without sequence
numbers are obstacles; the missing colour comes before the camera -/
example :
    Sample.kmlRun 17 (py! "alt") (py! "pos") none = some none ∧
    Sample.kmlRun 17 (py! "alt") (py! "pos") (some (py! "absent")) = some none ∧
    Sample.kmlRun 17 (py! "alt") (py! "absent") none = some (some .keyError) ∧
    Sample.kmlRun 17 (py! "height") (py! "pos") none = some (some .keyError) ∧
    Sample.kmlRun 18 (py! "alt") (py! "pos") none = some (some .indexError) ∧
    Sample.kmlRun 17 (py! "alt") (py! "pos") (some (py! "pos")) = some (some .keyError) ∧
    Sample.kmlRun 18 (py! "alt") (py! "pos") (some (py! "pos")) = some (some .indexError) ∧
    Sample.kmlRun 18 (py! "height") (py! "pos") none = some (some .keyError) := by decide +kernel

/-- the types of the fields of the log -/
def kmlTyped (u : ULog) : Bool :=
  u.dataList.all fun d => d.fields.all fun f => !f.name.isEmpty && (f.name != py! "timestamp" || f.type == .u64) &&
    (!(f.name == py! "nav_state" || f.name == py! "fix_type") || (f.type != .f32 && f.type != .f64))

theorem kmlTypes_of {u : ULog} (h : kmlTyped u = true) : KmlTypes u := by
  intro d hd f hf
  have := List.all_eq_true.mp (List.all_eq_true.mp h d hd) f hf
  simp only [Bool.and_eq_true, Bool.or_eq_true, Bool.not_eq_true', bne_iff_ne, ne_eq, beq_iff_eq, List.isEmpty_eq_false_iff,
    Bool.or_eq_false_iff, beq_eq_false_iff_ne] at this
  obtain ⟨⟨h1, h2⟩, h3⟩ := this
  refine ⟨h1, fun h => h2.resolve_left fun h' => h' h, fun h => h3.resolve_left fun h' => ?_⟩
  rcases h with h | h
  · exact h'.1 h
  · exact h'.2 h

/-- non-vacuity: the types are as required -/
example : (match load 40 {} (Sample.kmlLog 18 (py! "alt")) with
    | .ok u => kmlTyped u
    | _ => false) = true := by decide +kernel

end PyULog
