import Verif.Lemmas.Settle
import Verif.Props.Writer
import Verif.Spec.Sample
/-
Writing a log and reading it back (C20), and writing it again (C21).

`Writable` and `Encodable` (Spec/RoundTrip.lean) say which logs can be written: the texts do not
contain the separators of the format, the columns are those of the formats, numbers and texts fit into
their fields. `ReadBack u v` says field by field what the read log `v` contains.
-/
namespace PyULog
open Spec

/-- **C20**: writing succeeds, and reading the file gives the log back: definitions, information and
parameters are the same, samples and messages are the same in the order of time; the sync count, the
appended offsets and the mark for appended data are dropped. Dropouts and parameter changes have no
timestamp in a file: they get the time of the latest sample before them. -/
theorem C20_round_trip {depth : Nat} {u : ULog} (hu : Writable depth u) (he : Encodable u) :
    ∃ b, writeUlog u = .ok b ∧
      ∀ (cfg : Cfg) (fuel : Nat), cfg.filter = .all → cfg.headerOnly = false → cfg.depth = depth →
        b.length < fuel → b.length ≤ 2 ^ 50 → ∃ v, load fuel cfg b = .ok v ∧ ReadBack u v := by
  obtain ⟨b, hb⟩ := writeUlog_total hu he
  refine ⟨b, hb, ?_⟩
  intro cfg fuel hf ho hd hfuel hlen
  exact ⟨canon u, load_written hu hb hf ho hd hfuel hlen, readBack_canon u⟩

/-- **C20**: a log that is in the order of time, with values as a file holds them, is read back
exactly; only what a file does not hold is reset. -/
theorem C20_exact {depth : Nat} {u : ULog} (hu : Writable depth u) (he : Encodable u)
    (hs : Settled u) :
    ∃ b, writeUlog u = .ok b ∧
      ∀ (cfg : Cfg) (fuel : Nat), cfg.filter = .all → cfg.headerOnly = false → cfg.depth = depth →
        b.length < fuel → b.length ≤ 2 ^ 50 → load fuel cfg b = .ok (cleaned u) := by
  obtain ⟨b, hb⟩ := writeUlog_total hu he
  refine ⟨b, hb, ?_⟩
  intro cfg fuel hf ho hd hfuel hlen
  rw [← canon_settled hu hs]
  exact load_written hu hb hf ho hd hfuel hlen

/-- **C21**: a log read from a written file is a fixed point: it can be written, and reading that file
gives the same log, so all further writes give the same bytes. -/
theorem C21_fixed_point {depth : Nat} {u v : ULog} {b : Bytes} (hu : Writable depth u)
    (he : Encodable u) (hb : writeUlog u = .ok b) {cfg : Cfg} {fuel : Nat} (hf : cfg.filter = .all)
    (ho : cfg.headerOnly = false) (hd : cfg.depth = depth) (hfuel : b.length < fuel)
    (hlen : b.length ≤ 2 ^ 50) (hv : load fuel cfg b = .ok v) :
    ∃ b2, writeUlog v = .ok b2 ∧
      ∀ fuel2, b2.length < fuel2 → b2.length ≤ 2 ^ 50 → load fuel2 cfg b2 = .ok v := by
  have : v = canon u := by
    have h := load_written hu hb hf ho hd hfuel hlen
    rw [hv] at h
    injection h
  subst this
  obtain ⟨b2, hb2⟩ := writeUlog_total (writable_canon hu) (encodable_canon hu he)
  refine ⟨b2, hb2, ?_⟩
  intro fuel2 h1 h2
  rw [load_written (writable_canon hu) hb2 hf ho hd h1 h2, canon_canon hu]

/-- **C21**, partial: writing, reading and writing again gives the same bytes, provided that messages
of different tags never share a timestamp, and dropouts and parameter changes carry the time of the
latest sample before them. Without the first condition the statement is false
(`C21_tags_swap`), without the second one too (`C21_dropout_moves`). -/
theorem C21_same_bytes_partial {depth : Nat} {u v : ULog} {b : Bytes} (hu : Writable depth u)
    (hg : TagsApart u) (ht : Timely u) (hb : writeUlog u = .ok b) {cfg : Cfg} {fuel : Nat}
    (hf : cfg.filter = .all) (ho : cfg.headerOnly = false) (hd : cfg.depth = depth)
    (hfuel : b.length < fuel) (hlen : b.length ≤ 2 ^ 50) (hv : load fuel cfg b = .ok v) :
    writeUlog v = .ok b := by
  have : v = canon u := by
    have h := load_written hu hb hf ho hd hfuel hlen
    rw [hv] at h
    injection h
  subst this
  exact write_rewrite hu hg ht.1 ht.2 hb

/-! ### a log that meets the conditions -/

namespace Sample

/-- a log with one topic, samples out of order, text messages, a dropout and parameters -/
def small : ULog :=
  { startTs := 5
    fileVersion := 1
    incompat := [1, 0, 0, 0, 0, 0, 0, 0]
    appendedOffsets := [77]
    syncCnt := 3
    info := [(py! "sys", .str (py! "PX4")), (py! "n", .int 7)]
    infoTypes := [(py! "sys", py! "char[3]"), (py! "n", py! "int32_t")]
    infoMulti := [(py! "m", [[.str (py! "a"), .str (py! "b")]])]
    infoMultiTypes := [(py! "m", py! "char[1]")]
    initialParams := [(py! "K", .int 1), (py! "B", .bool true)]
    defaultParams := [(1, [(py! "K", .int 0)])]
    changedParams := [(10, py! "K", .int 8)]
    formats := [(py! "t", ⟨py! "t", [⟨py! "uint64_t", 0, py! "timestamp"⟩, ⟨py! "int16_t", 2, py! "v"⟩]⟩)]
    logged := [⟨1, 9, py! "x"⟩, ⟨1, 6, py! "y"⟩]
    tagged := [(4, [⟨1, 4, 20, py! "p"⟩, ⟨1, 4, 7, py! "q"⟩])]
    dropouts := [⟨3, 10⟩]
    dataList := [⟨0, 2, py! "t", [⟨py! "timestamp", .u64⟩, ⟨py! "v[0]", .i16⟩, ⟨py! "v[1]", .i16⟩], 0,
      [(py! "timestamp", [.int 30, .int 10]), (py! "v[0]", [.int 3, .int (-1)]),
       (py! "v[1]", [.int 4, .int 5])]⟩] }

theorem small_check : ∀ f ∈ (small.dataList.headD ⟨0, 0, [], [], 0, []⟩).fields,
    ∀ v ∈ ((small.dataList.headD ⟨0, 0, [], [], 0, []⟩).data.get? f.name).getD [], Typed f.type v := by
  have : ∀ f ∈ (small.dataList.headD ⟨0, 0, [], [], 0, []⟩).fields,
    ∀ v ∈ ((small.dataList.headD ⟨0, 0, [], [], 0, []⟩).data.get? f.name).getD [],
      (match f.type, v with
        | .i16, .int n => decide (-2 ^ 15 ≤ n ∧ n < 2 ^ 15)
        | .u64, .int n => decide (0 ≤ n ∧ n < 2 ^ 64)
        | _, _ => false) = true := by decide +kernel
  intro f hf v hv
  refine typed_of_check ?_
  have := this f hf v hv
  generalize f.type = t at this ⊢
  split at this
  · exact of_decide_eq_true this
  · exact of_decide_eq_true this
  · cases this

theorem small_writable : Writable 5 small where
  flags := by decide
  formats := by
    intro p hp
    simp only [small, List.mem_singleton] at hp
    subst hp
    refine ⟨rfl, by decide, ?_⟩
    intro f hf
    have : f = ⟨py! "uint64_t", 0, py! "timestamp"⟩ ∨ f = ⟨py! "int16_t", 2, py! "v"⟩ := by simpa using hf
    rcases this with rfl | rfl <;> exact ⟨by decide, by decide, by decide, by decide⟩
  formats_nodup := by decide
  info := rfl
  info_nodup := by decide
  info_ok := by
    intro p hp ty hty
    simp only [small, List.mem_cons, List.not_mem_nil, or_false] at hp hty
    rcases hp with rfl | rfl
    · rcases hty with hty | hty
      · have : ty = py! "char[3]" := (Prod.mk.inj hty).2
        subst this
        exact ⟨by decide, by decide, Or.inl ⟨⟨_, rfl⟩, _, rfl⟩⟩
      · exact absurd (Prod.mk.inj hty).1 (by decide)
    · rcases hty with hty | hty
      · exact absurd (Prod.mk.inj hty).1 (by decide)
      · have : ty = py! "int32_t" := (Prod.mk.inj hty).2
        subst this
        exact ⟨by decide, by decide, Or.inr (Or.inr ⟨.i32, [7, 0, 0, 0], rfl, rfl⟩)⟩
  multi := rfl
  multi_nodup := by decide
  multi_ok := by
    intro p hp ty hty
    simp only [small, List.mem_singleton] at hp hty
    subst hp
    have : ty = py! "char[1]" := (Prod.mk.inj hty).2
    subst this
    refine ⟨by decide, by decide, by decide, ?_⟩
    intro s hs
    rw [List.mem_singleton] at hs
    subst hs
    refine ⟨by decide, ?_⟩
    intro v hv
    simp only [List.mem_cons, List.not_mem_nil, or_false] at hv
    rcases hv with rfl | rfl <;> exact Or.inl ⟨⟨_, rfl⟩, _, rfl⟩
  initial_nodup := by decide
  initial := by
    intro p hp
    simp only [small, List.mem_cons, List.not_mem_nil, or_false] at hp
    rcases hp with rfl | rfl
    · exact ⟨by decide, Or.inl ⟨1, rfl, by decide, by decide⟩⟩
    · exact ⟨by decide, Or.inr (Or.inl ⟨true, rfl⟩)⟩
  defaults_nodup := by decide
  defaults := by
    intro p hp
    simp only [small, List.mem_singleton] at hp
    subst hp
    refine ⟨by decide, by decide, by decide, ?_⟩
    intro q hq
    rw [List.mem_singleton] at hq
    subst hq
    exact ⟨by decide, Or.inl ⟨0, rfl, by decide, by decide⟩⟩
  changed := by
    intro p hp
    simp only [small, List.mem_singleton] at hp
    subst hp
    exact ⟨by decide, Or.inl ⟨8, rfl, by decide, by decide⟩⟩
  ids := by decide
  data := by
    intro d hd
    simp only [small, List.mem_singleton] at hd
    subst hd
    refine ⟨ok_of_toOption (by decide +kernel), by decide, by decide, by decide, by decide, by decide, ?_,
      by decide⟩
    intro f hf col hc v hv
    exact small_check f hf v (by
      have e := congrArg (fun o => Option.getD o []) hc
      dsimp only [Option.getD_some] at e
      rw [← e] at hv
      exact hv)
  order := by simp [small]
  starts := by intro h; cases h

theorem small_encodable : Encodable small where
  version := by decide
  start := by decide
  compat := by decide
  incompat := by decide
  formats := by decide +kernel
  info := by
    intro p hp ty hty
    have : ∀ p ∈ small.info, ∀ q ∈ small.infoTypes, utf8Size q.2 + 1 + utf8Size p.1 < 256 ∧
      utf8Size q.2 + 1 + utf8Size p.1 + valueSize p.2 + 10 < 65536 := by decide +kernel
    exact this p hp _ hty
  multi := by
    intro p hp ty hty
    have : ∀ p ∈ small.infoMulti, ∀ q ∈ small.infoMultiTypes, ∀ s ∈ p.2, ∀ v ∈ s,
      utf8Size q.2 + 1 + utf8Size p.1 < 256 ∧
      utf8Size q.2 + 1 + utf8Size p.1 + valueSize v + 10 < 65536 := by decide +kernel
    exact this p hp _ hty
  initial := by decide +kernel
  defaults := by decide +kernel
  changed := by decide +kernel
  data := by decide +kernel
  chars := by
    intro d hd f hf hc
    have : ∀ d ∈ small.dataList, ∀ f ∈ d.fields, f.type ≠ .char := by decide
    exact absurd hc (this d hd f hf)
  logged := by decide +kernel
  tagged := by decide +kernel
  dropouts := by decide

end Sample

/-- the conditions of `C20_round_trip` and `C21_fixed_point` hold for a log with all kinds of content -/
example : Writable 5 Sample.small ∧ Encodable Sample.small := ⟨Sample.small_writable, Sample.small_encodable⟩

/-- the condition of `C20_exact` holds too, for the log that is read back -/
example : Settled (canon Sample.small) ∧ Writable 5 (canon Sample.small) ∧ Encodable (canon Sample.small) ∧
    (canon Sample.small).dataList.length = 1 ∧ (canon Sample.small).dropouts.length = 1 :=
  ⟨settled_canon Sample.small_writable, writable_canon Sample.small_writable,
    encodable_canon Sample.small_writable Sample.small_encodable, by decide +kernel, by decide +kernel⟩

/-- the conditions of `C21_same_bytes_partial` -/
example : TagsApart Sample.small ∧ Timely Sample.small := by
  refine ⟨?_, ?_, ?_⟩
  · have : ∀ a ∈ (Sample.small.tagged.map (·.2)).flatten, ∀ b ∈ (Sample.small.tagged.map (·.2)).flatten,
      a.ts = b.ts → a.tag = b.tag := by decide +kernel
    exact this
  · decide +kernel
  · decide +kernel

/-- the file of the sample can be read and is short enough -/
example : ((writeUlog Sample.small).toOption.map fun b => decide (b.length ≤ 2 ^ 50)) = some true := by
  decide +kernel

/-! ### where the statements fail -/

namespace Sample

/-- two tags share the timestamp 5, and their order in the file differs from the order of their first
messages -/
def swap : ULog :=
  { small with
    dataList := []
    dropouts := []
    changedParams := []
    tagged := [(1, [⟨1, 1, 7, py! "a"⟩, ⟨1, 1, 5, py! "c"⟩]), (2, [⟨1, 2, 3, py! "b"⟩, ⟨1, 2, 5, py! "d"⟩])] }

/-- a dropout after the last sample and a text message between them -/
def late : ULog := { small with dropouts := [⟨3, 40⟩], logged := [⟨1, 35, py! "x"⟩] }

def rewritten (u : ULog) : Option (Bytes × Bytes) := do
  let b ← (writeUlog u).toOption
  let v ← match load 40 {} b with
    | .ok v => some v
    | _ => none
  let b2 ← (writeUlog v).toOption
  return (b, b2)

end Sample

/-- C21 fails when messages of different tags share a timestamp: the dictionary of tags is rebuilt in
the order of the file, so equal timestamps change their order. -/
theorem C21_tags_swap : ∃ u b b2 v, writeUlog u = .ok b ∧ load 40 {} b = .ok v ∧
    writeUlog v = .ok b2 ∧ b2 ≠ b ∧ Timely u := by
  have h : ((Sample.rewritten Sample.swap).map fun p => decide (p.2 ≠ p.1)) = some true := by
    decide +kernel
  unfold Sample.rewritten at h
  cases hb : writeUlog Sample.swap with
  | error e => rw [hb] at h; cases h
  | ok b =>
    rw [hb] at h
    cases hv : load 40 {} b with
    | ok v =>
      simp only [hv, Except.toOption, Option.bind_eq_bind, Option.bind_some] at h
      cases h2 : writeUlog v with
      | error e => rw [h2] at h; cases h
      | ok b2 =>
        simp only [h2, Option.bind_some] at h
        exact ⟨_, b, b2, v, hb, hv, h2, by simpa using h, by
          constructor
          · intro m hm; cases hm
          · intro m hm; cases hm⟩
    | _ => simp [hv, Except.toOption] at h

/-- C21 fails when a dropout lies after the last sample: it is read with the time of that sample, so
the second file has it before messages that came before it. -/
theorem C21_dropout_moves : ∃ u b b2 v, Writable 5 u ∧ writeUlog u = .ok b ∧ load 40 {} b = .ok v ∧
    writeUlog v = .ok b2 ∧ b2 ≠ b ∧ TagsApart u := by
  have h : ((Sample.rewritten Sample.late).map fun p => decide (p.2 ≠ p.1)) = some true := by
    decide +kernel
  unfold Sample.rewritten at h
  cases hb : writeUlog Sample.late with
  | error e => rw [hb] at h; cases h
  | ok b =>
    rw [hb] at h
    cases hv : load 40 {} b with
    | ok v =>
      simp only [hv, Except.toOption, Option.bind_eq_bind, Option.bind_some] at h
      cases h2 : writeUlog v with
      | error e => rw [h2] at h; cases h
      | ok b2 =>
        simp only [h2, Option.bind_some] at h
        refine ⟨_, b, b2, v, ?_, hb, hv, h2, by simpa using h, ?_⟩
        · have w := Sample.small_writable
          exact ⟨w.flags, w.formats, w.formats_nodup, w.info, w.info_nodup, w.info_ok, w.multi,
            w.multi_nodup, w.multi_ok, w.initial_nodup, w.initial, w.defaults_nodup, w.defaults,
            w.changed, w.ids, w.data, w.order, fun h => by cases h⟩
        · have : ∀ a ∈ (Sample.late.tagged.map (·.2)).flatten, ∀ b ∈ (Sample.late.tagged.map (·.2)).flatten,
            a.ts = b.ts → a.tag = b.tag := by decide +kernel
          exact this
    | _ => simp [hv, Except.toOption] at h

/-! ### logs that can be read but not written -/

namespace Sample

/-- one topic with a `char` field -/
def charMsgs (c : UInt8) : List (Nat × Bytes) :=
  [(tyA, [0] ++ leEnc 2 0 ++ encStr (py! "t")), (tyD, leEnc 2 0 ++ leEnc 8 9 ++ [c])]

def charFile (c : UInt8) : Bytes :=
  header ++ encMsgs [(tyF, encStr (py! "t:uint64_t timestamp;char c;"))] ++ encMsgs (charMsgs c)

end Sample

/-- A log with a byte above 127 in a `char` field can be read, but `write_ulog` raises `ValueError`:
numpy gives a negative number, which `chr` refuses. This is why `Encodable` has the field `chars`. -/
theorem C20_char_not_writable : ∃ b v, load 20 {} b = .ok v ∧ v.fileCorrupt = false ∧
    v.dataList.length = 1 ∧ writeUlog v = .error .valueError := by
  have h : (match load 20 {} (Sample.charFile 200) with
    | .ok v => decide (v.fileCorrupt = false ∧ v.dataList.length = 1) &&
        (match writeUlog v with
        | .error .valueError => true
        | _ => false)
    | _ => false) = true := by decide +kernel
  split at h
  · rename_i v hv
    rw [Bool.and_eq_true, decide_eq_true_eq] at h
    refine ⟨_, v, hv, h.1.1, h.1.2, ?_⟩
    have h2 := h.2
    split at h2
    · assumption
    · cases h2
  · cases h

/-- the same log with a byte below 128 is written -/
example : (match load 20 {} (Sample.charFile 65) with
    | .ok v => (writeUlog v).toOption.isSome
    | _ => false) = true := by decide +kernel

/-- A parameter change in a log without samples is read as an initial parameter: the data section is
entered only when a subscription or a text message is met. This is why `Writable` has the field
`starts`. -/
theorem C20_change_without_samples : ∃ u b v, u.changedParams = [(9, py! "K", .int 2)] ∧
    u.initialParams = [(py! "K", .int 1)] ∧ writeUlog u = .ok b ∧ load 20 {} b = .ok v ∧
    v.changedParams = [] ∧ v.initialParams = [(py! "K", .int 2)] := by
  have h : ∃ b v, writeUlog { initialParams := [(py! "K", .int 1)], changedParams := [(9, py! "K", .int 2)] }
      = .ok b ∧ load 20 {} b = .ok v ∧ v.changedParams = [] ∧ v.initialParams = [(py! "K", .int 2)] := by
    have h : (match writeUlog { initialParams := [(py! "K", .int 1)], changedParams := [(9, py! "K", .int 2)] } with
      | .ok b => (match load 20 {} b with
        | .ok v => decide (v.changedParams = [] ∧ v.initialParams = [(py! "K", .int 2)])
        | _ => false)
      | _ => false) = true := by decide +kernel
    split at h
    · rename_i b hb
      split at h
      · rename_i v hv
        rw [decide_eq_true_eq] at h
        exact ⟨b, v, hb, hv, h.1, h.2⟩
      · cases h
    · cases h
  obtain ⟨b, v, h1, h2, h3, h4⟩ := h
  exact ⟨_, b, v, rfl, rfl, h1, h2, h3, h4⟩

end PyULog
