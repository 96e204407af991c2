import Verif.Lemmas.RoundDefs
/-
Reading back the data section of a written log: the messages are events that act on the collected
data, in the order of the file.
-/
namespace PyULog
open Spec

/-- an item of the data section -/
inductive Ev where
  | row (id : Nat) (bytes : Bytes) (ts : Nat)
  | log (m : LogMsg)
  | tag (m : TagMsg)
  | drop (m : Dropout)
  | par (p : Nat × Str × Value)

/-- time of an event -/
def Ev.key : Ev → Int
  | .row _ _ ts => ts
  | .log m => m.ts
  | .tag m => m.ts
  | .drop m => m.ts
  | .par p => p.1

/-- samples come first among events of the same time -/
def Ev.cls : Ev → Nat
  | .row .. => 0
  | _ => 1

/-- message type of an event -/
def Ev.type : Ev → Nat
  | .row .. => tyD
  | .log _ => tyL
  | .tag _ => tyC
  | .drop _ => tyO
  | .par _ => tyP

/-- what is collected while reading the data section; `buf` is the buffer of each subscription -/
structure Coll where
  buf : Nat → Bytes
  last : Nat
  logged : List LogMsg
  tagged : Dict Nat (List TagMsg)
  dropouts : List Dropout
  changed : List (Nat × Str × Value)

/-- effect of an event -/
def Coll.step (c : Coll) : Ev → Coll
  | .row id b ts => { c with
      buf := fun i => if i = id then c.buf i ++ b else c.buf i
      last := max c.last ts }
  | .log m => { c with logged := c.logged ++ [m] }
  | .tag m => { c with tagged := c.tagged.set m.tag ((c.tagged.get? m.tag).getD [] ++ [m]) }
  | .drop m => { c with dropouts := c.dropouts ++ [⟨m.duration, c.last⟩] }
  | .par p => { c with changed := c.changed ++ [(c.last, p.2.1, asParam p.2.2)] }

/-- topic of a dataset -/
def topicOf (d : Dataset) : Topic := ⟨d.multiId, d.msgId, d.name, d.fields, d.tsIdx⟩

/-- subscriptions of datasets -/
def subsOf (ds : List Dataset) (buf : Nat → Bytes) : Dict Nat Sub :=
  ds.map fun d => (d.msgId, mkSub (topicOf d) (buf d.msgId))

/-- the object while the data section is read -/
def Coll.obj (base : ULog) (ds : List Dataset) (c : Coll) : ULog :=
  { base with
    subs := subsOf ds c.buf
    lastTs := c.last
    logged := c.logged
    tagged := c.tagged
    dropouts := c.dropouts
    changedParams := c.changed }

theorem subsOf_get {ds : List Dataset} (hn : (ds.map (·.msgId)).Nodup) {buf : Nat → Bytes}
    {d : Dataset} (hd : d ∈ ds) :
    (subsOf ds buf).get? d.msgId = some (mkSub (topicOf d) (buf d.msgId)) := by
  apply Dict.get?_of_mem
  · simpa [subsOf, Dict.keys, Function.comp_def] using hn
  · exact List.mem_map_of_mem (f := fun d : Dataset => (d.msgId, mkSub (topicOf d) (buf d.msgId))) hd

theorem subsOf_set {ds : List Dataset} (hn : (ds.map (·.msgId)).Nodup) {buf : Nat → Bytes}
    {d : Dataset} (hd : d ∈ ds) (b : Bytes) :
    (subsOf ds buf).set d.msgId (mkSub (topicOf d) (buf d.msgId ++ b))
      = subsOf ds (fun i => if i = d.msgId then buf i ++ b else buf i) := by
  have other : ∀ l : List Dataset, d.msgId ∉ l.map (·.msgId) →
      subsOf l buf = subsOf l (fun i => if i = d.msgId then buf i ++ b else buf i) := by
    intro l hl
    unfold subsOf
    apply List.map_congr_left
    intro x hx
    have : x.msgId ≠ d.msgId := fun e => hl (e ▸ List.mem_map_of_mem hx)
    simp [this]
  induction ds with
  | nil => cases hd
  | cons x ds ih =>
    rw [List.map_cons, List.nodup_cons] at hn
    by_cases e : x.msgId = d.msgId
    · have hx : x = d := by
        rcases List.mem_cons.mp hd with h | h
        · exact h.symm
        · exact absurd (List.mem_map_of_mem h) (e ▸ hn.1)
      subst hx
      have := other ds hn.1
      unfold subsOf at this ⊢
      rw [List.map_cons, List.map_cons]
      simp only [Dict.set, if_true]
      rw [this]
    · have hd' : d ∈ ds := by
        rcases List.mem_cons.mp hd with h | h
        · exact absurd (h ▸ rfl) e
        · exact h
      have := ih hn.2 hd'
      unfold subsOf at this ⊢
      rw [List.map_cons, List.map_cons]
      simp only [Dict.set]
      rw [if_neg e, this]
      simp [e]

/-- the message `x` has the effect of the event `e` -/
def Does (cfg : Cfg) (base : ULog) (ds : List Dataset) (e : Ev) (x : Timed) : Prop :=
  x.1 = e.key ∧ x.2.1 = e.type ∧ DataFrame x.2 ∧
    ∀ c : Coll, handleData cfg (c.obj base ds) x.2.1 x.2.2 = some (.ok ((c.step e).obj base ds))

theorem runData_events {cfg : Cfg} {base : ULog} {ds : List Dataset} (l : List (Ev × Timed))
    (h : ∀ p ∈ l, Does cfg base ds p.1 p.2) (c : Coll) :
    runData cfg (l.map fun p => p.2.2) (c.obj base ds)
      = .done (((l.map (·.1)).foldl Coll.step c).obj base ds) := by
  induction l generalizing c with
  | nil => rfl
  | cons p l ih =>
    simp only [List.map_cons, runData, List.foldl_cons]
    rw [(h p (List.mem_cons_self ..)).2.2.2 c]
    exact ih (fun q hq => h q (List.mem_cons_of_mem _ hq)) _

/-! ### each kind of message -/

theorem does_log {cfg : Cfg} {base : ULog} {ds : List Dataset} {m : LogMsg} {x : Timed}
    (hf : Fits x.2) (h1 : x.1 = (m.ts : Int)) (h2 : x.2.1 = tyL)
    (h3 : ∀ ign, parseLogging ign x.2.2 = .ok m) : Does cfg base ds (.log m) x := by
  refine ⟨h1, h2, ⟨hf, Or.inl (by rw [h2]; decide)⟩, ?_⟩
  intro c
  rw [h2, show tyL = MSG_TYPE_LOGGING from rfl, handleData_L, h3]
  rfl

theorem does_tag {cfg : Cfg} {base : ULog} {ds : List Dataset} {m : TagMsg} {x : Timed}
    (hf : Fits x.2) (h1 : x.1 = (m.ts : Int)) (h2 : x.2.1 = tyC)
    (h3 : ∀ ign, parseLoggingTagged ign x.2.2 = .ok m) : Does cfg base ds (.tag m) x := by
  refine ⟨h1, h2, ⟨hf, Or.inl (by rw [h2]; decide)⟩, ?_⟩
  intro c
  rw [h2, show tyC = MSG_TYPE_LOGGING_TAGGED from rfl, handleData_C, h3]
  rfl

theorem does_drop {cfg : Cfg} {base : ULog} {ds : List Dataset} {m : Dropout} {x : Timed}
    (hf : Fits x.2) (h1 : x.1 = (m.ts : Int)) (h2 : x.2 = (tyO, leEnc 2 m.duration))
    (h3 : m.duration < 256 ^ 2) : Does cfg base ds (.drop m) x := by
  refine ⟨h1, by rw [h2]; rfl, ⟨hf, Or.inl (by rw [h2]; show isDataType tyO; decide)⟩, ?_⟩
  intro c
  rw [h2]
  show handleData cfg _ MSG_TYPE_DROPOUT _ = _
  rw [handleData_O]
  unfold parseDropout
  simp only
  rw [unpackU_leEnc h3]
  rfl

theorem does_par {cfg : Cfg} {base : ULog} {ds : List Dataset} {p : Nat × Str × Value} {x : Timed}
    (hf : Fits x.2) (h1 : x.1 = (p.1 : Int)) (h2 : x.2.1 = tyP)
    (h3 : ∀ ign, parseInfo ign x.2.2
      = .ok { cont := 0, type := paramType p.2.2, key := p.2.1, value := asParam p.2.2 }) :
    Does cfg base ds (.par p) x := by
  refine ⟨h1, h2, ⟨hf, Or.inl (by rw [h2]; decide)⟩, ?_⟩
  intro c
  rw [h2, show tyP = MSG_TYPE_PARAMETER from rfl, handleData_P, h3]
  rfl

/-- where the timestamp is -/
theorem tsOffset_of {fs : List FieldData} (hn : (fs.map (·.name)).Nodup)
    (ht : ⟨py! "timestamp", .u64⟩ ∈ fs) :
    ∃ k, ∃ (h : k < fs.length), fs[k] = ⟨py! "timestamp", .u64⟩ ∧ tsOffset fs = rowSize (fs.take k) := by
  induction fs with
  | nil => cases ht
  | cons f fs ih =>
    rw [List.map_cons, List.nodup_cons] at hn
    rcases List.mem_cons.mp ht with h | h
    · subst h
      exact ⟨0, by simp, rfl, by simp [tsOffset, rowSize]⟩
    · obtain ⟨k, hk, h1, h2⟩ := ih hn.2 h
      refine ⟨k + 1, by simpa using hk, by simpa using h1, ?_⟩
      have : f.name ≠ py! "timestamp" := fun e => hn.1 (e ▸ List.mem_map_of_mem (f := (·.name)) h)
      rw [List.take_succ_cons, rowSize_cons]
      simp only [tsOffset]
      rw [if_neg this, h2]

/-- a data message of the right size -/
theorem addData_hit {u : ULog} {d : Bytes} {s : Sub} {id : Nat}
    (hid : leNat (d.take 2) = id) (hg : u.subs.get? id = some s) (hm : s.maxSize = s.itemSize)
    (hl : d.length = 2 + s.itemSize) (ht : s.tsOff + 8 ≤ s.itemSize) :
    addData u d = .ok { u with
      subs := u.subs.set id { s with buffer := s.buffer ++ d.drop 2 }
      lastTs := max u.lastTs (leNat (slice (s.tsOff + 2) (s.tsOff + 10) d)) } := by
  unfold addData
  rw [unpackU_ok (by simp; omega)]
  simp only [hid, hg]
  rw [if_neg (by omega), if_neg (by omega), unpackU_ok (by simp; omega)]
  simp only
  generalize leNat (slice (s.tsOff + 2) (s.tsOff + 10) d) = t
  by_cases hgt : t > u.lastTs
  · rw [if_pos hgt, Nat.max_eq_right (by omega)]
  · rw [if_neg hgt, Nat.max_eq_left (by omega)]

theorem does_row {cfg : Cfg} {base : ULog} {ds : List Dataset} (hn : (ds.map (·.msgId)).Nodup)
    {d : Dataset} (hd : d ∈ ds) (hnames : (d.fields.map (·.name)).Nodup)
    (ht : ⟨py! "timestamp", .u64⟩ ∈ d.fields) {i : Nat} {x : Timed} (hf : Fits x.2)
    (h : IsRow d i x) : Does cfg base ds (.row d.msgId (x.2.2.drop 2) x.1.toNat) x := by
  obtain ⟨h1, h2, h3, h4, h5⟩ := h
  obtain ⟨k, hk, e1, e2⟩ := tsOffset_of hnames ht
  obtain ⟨v, g1, g2⟩ := h5 k hk
  rw [e1] at g1 g2
  rw [h4] at g1
  injection g1 with g1
  subst g1
  have g2 : NpVal.int ((leAt (x.2.2.drop 2) (rowSize (d.fields.take k)) 8 : Nat) : Int)
      = .int x.1 := g2
  injection g2 with g2
  have hsz : tsOffset d.fields + 8 ≤ rowSize d.fields := by
    have := rowSize_take_succ d.fields k hk
    rw [e1] at this
    rw [e2]; exact this
  refine ⟨?_, h1, ⟨hf, Or.inl (by rw [h1]; decide)⟩, ?_⟩
  · show x.1 = ((x.1.toNat : Nat) : Int)
    omega
  · intro c
    rw [h1]
    show handleData cfg _ MSG_TYPE_DATA _ = _
    rw [handleData_D]
    congr 1
    have hl : x.2.2.length = 2 + fieldsSize d.fields := by rw [h2, rowSize_eq]
    have hsz' : tsOffset d.fields + 8 ≤ fieldsSize d.fields := by rw [← rowSize_eq]; exact hsz
    have hid : leNat (x.2.2.take 2) = d.msgId := by
      rw [← h3, leAt_slice _ _ _ (by omega), slice_zero]
    rw [addData_hit hid (subsOf_get hn hd (buf := c.buf)) rfl hl hsz']
    have ets : leNat (slice (tsOffset d.fields + 2) (tsOffset d.fields + 10) x.2.2) = x.1.toNat := by
      have e3 : slice (tsOffset d.fields + 2) (tsOffset d.fields + 10) x.2.2
          = slice (tsOffset d.fields) (tsOffset d.fields + 8) (x.2.2.drop 2) := by
        unfold slice
        rw [List.drop_take, List.drop_take, List.drop_drop]
        congr 1
        · omega
        · rw [Nat.add_comm]
      rw [e3, ← leAt_slice _ _ _ (by simp; omega), e2]
      omega
    have hs := subsOf_set hn hd (buf := c.buf) (x.2.2.drop 2)
    simp only [Coll.obj, Coll.step]
    rw [← hs, ← ets]
    rfl

end PyULog
