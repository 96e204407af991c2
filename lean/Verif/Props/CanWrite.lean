import Verif.Lemmas.ComesBack
import Verif.Props.Appended
import Verif.Props.RoundTrip
/-
Which logs `write_ulog` can write (C83). `CanWrite` and `LoadedFits` (Spec/CanWrite.lean) say it in
terms of the sizes of the fields of a file.
-/
namespace PyULog
open Spec

/-- **C83**: `write_ulog` writes a log if and only if all its numbers, texts and columns fit into the
fields of a file; in all other cases it raises an exception -/
theorem C83_exact (u : ULog) (ht : IntegerTimes u) : (∃ b, writeUlog u = .ok b) ↔ CanWrite u :=
  canWrite_iff u ht

/-- **C83**: of a log that was loaded from a file only this remains to be asked: info messages have
types the writer knows, the messages of a key with several values share a type, parameters are numbers
that fit into 32 bits, the bits of default parameters are below 3, every topic has a timestamp, and the
bytes of `char` columns are below 128 -/
theorem C83_loaded {fuel : Nat} {cfg : Cfg} {bs : Bytes} {u : ULog} (h : load fuel cfg bs = .ok u)
    (ht : IntegerTimes u) : (∃ b, writeUlog u = .ok b) ↔ LoadedFits u :=
  (canWrite_iff u ht).trans (loaded_canWrite h)

/-- **C83**: a loaded log that can be written (`LoadedFits`) comes back when the file is loaded: the new
object contains what the old one contains (`ReadBack`, as in C20), for every file without negative array
sizes, with parameters of the types `int32_t` and `float`, default bits 0 and 1, one dataset for each
instance and each id, and 64-bit timestamps -/
theorem C83_comes_back {fuel : Nat} {cfg : Cfg} {bs : Bytes} {u : ULog} (h : load fuel cfg bs = .ok u)
    (hf : LoadedFits u) (hc : ComesBack u) :
    ∃ b, writeUlog u = .ok b ∧
      ∀ (cfg2 : Cfg) (fuel2 : Nat), cfg2.filter = .all → cfg2.headerOnly = false → cfg2.depth = cfg.depth →
        b.length < fuel2 → b.length ≤ 2 ^ 50 → ∃ v, load fuel2 cfg2 b = .ok v ∧ ReadBack u v := by
  obtain ⟨b, hb⟩ := (C83_loaded h (loaded_integerTimes h hc.times)).mpr hf
  refine ⟨b, hb, ?_⟩
  intro cfg2 fuel2 h1 h2 h3 h4 h5
  exact ⟨canon u, load_written (loaded_writable h hf.info hf.named hc) hb h1 h2 h3 h4 h5, readBack_canon u⟩

/-- **C83**: when moreover the content of the file is in the order of time, the object is the same,
except for what a file does not hold -/
theorem C83_same_object {fuel : Nat} {cfg : Cfg} {bs : Bytes} {u : ULog} (h : load fuel cfg bs = .ok u)
    (hf : LoadedFits u) (hc : ComesBack u) (hs : Settled u) :
    ∃ b, writeUlog u = .ok b ∧
      ∀ (cfg2 : Cfg) (fuel2 : Nat), cfg2.filter = .all → cfg2.headerOnly = false → cfg2.depth = cfg.depth →
        b.length < fuel2 → b.length ≤ 2 ^ 50 → load fuel2 cfg2 b = .ok (cleaned u) := by
  obtain ⟨b, hb⟩ := (C83_loaded h (loaded_integerTimes h hc.times)).mpr hf
  refine ⟨b, hb, ?_⟩
  intro cfg2 fuel2 h1 h2 h3 h4 h5
  have hw := loaded_writable h hf.info hf.named hc
  rw [← canon_settled hw hs]
  exact load_written hw hb h1 h2 h3 h4 h5

/-! ### concrete cases -/

/-- the timestamps of the log are integers, as a check -/
def Sample.intTimes (u : ULog) : Bool :=
  u.dataList.all fun d => ((d.data.get? (py! "timestamp")).getD []).all fun
    | .int _ => true
    | _ => false

theorem integerTimes_of {u : ULog} (h : Sample.intTimes u = true) : IntegerTimes u := by
  intro d hd col hc v hv
  have h1 := List.all_eq_true.mp (List.all_eq_true.mp h d hd) v (by rw [hc]; exact hv)
  split at h1
  · exact ⟨_, rfl⟩
  · cases h1

namespace Sample

/-- a file with these definitions and one sample of a topic with a timestamp -/
def fileWith (defs : List (Nat × Bytes)) : Bytes :=
  header ++ encMsgs (defs ++ [(tyF, encStr (py! "t:uint64_t timestamp;"))])
    ++ encMsgs [(tyA, [0] ++ leEnc 2 0 ++ encStr (py! "t")), (tyD, leEnc 2 0 ++ leEnc 8 9)]

/-- an info or parameter message -/
def keyed (ty : Nat) (key : Str) (v : Bytes) : Nat × Bytes := (ty, [UInt8.ofNat (encStr key).length] ++ encStr key ++ v)

/-- a message with a byte before the key -/
def keyed1 (ty : Nat) (b : UInt8) (key : Str) (v : Bytes) : Nat × Bytes :=
  (ty, [b, UInt8.ofNat (encStr key).length] ++ encStr key ++ v)

/-- the file is loaded without mark of corruption, and the log has a sample -/
def loads (bs : Bytes) (p : ULog → Bool) : Bool :=
  match load 20 {} bs with
  | .ok v => decide (v.fileCorrupt = false ∧ v.dataList.length = 1) && intTimes v && p v
  | _ => false

def writes (u : ULog) : Bool := (writeUlog u).toOption.isSome

def writeFails (e : PyErr) (u : ULog) : Bool :=
  match writeUlog u with
  | .error e' => decide (e' = e)
  | _ => false

/-- info, several values of a key, parameters of all kinds that can be written -/
def goodDefs : List (Nat × Bytes) :=
  [keyed tyI (py! "char[3] sys") (asc (py! "PX4")), keyed tyI (py! "uint8_t[2] raw") [1, 255],
   keyed tyI (py! "bool ok") [7], keyed tyI (py! "char c") [200],
   keyed1 tyM 0 (py! "char[2] m") (asc (py! "ab")), keyed1 tyM 1 (py! "char[1] m") (asc (py! "c")),
   keyed tyP (py! "int64_t A") (leEnc 8 2147483647), keyed tyP (py! "double D") (leEnc 8 0),
   keyed tyP (py! "bool B") [1], keyed1 tyQ 3 (py! "float K") (leEnc 4 0)]

end Sample

theorem loads_of {bs : Bytes} {p : ULog → Bool} (h : Sample.loads bs p = true) :
    ∃ v, load 20 {} bs = .ok v ∧ v.fileCorrupt = false ∧ v.dataList.length = 1 ∧ IntegerTimes v ∧ p v = true := by
  unfold Sample.loads at h
  split at h
  · rename_i v hv
    simp only [Bool.and_eq_true, decide_eq_true_eq] at h
    exact ⟨v, hv, h.1.1.1, h.1.1.2, integerTimes_of h.1.2, h.2⟩
  · cases h

theorem writes_of {u : ULog} (h : Sample.writes u = true) : ∃ b, writeUlog u = .ok b := by
  unfold Sample.writes at h
  cases hb : writeUlog u with
  | ok b => exact ⟨b, rfl⟩
  | error e => rw [hb] at h; cases h

theorem writeFails_of {e : PyErr} {u : ULog} (h : Sample.writeFails e u = true) : writeUlog u = .error e := by
  unfold Sample.writeFails at h
  split at h
  · rename_i e' he
    rw [he, of_decide_eq_true h]
  · cases h

/-- a loaded log with values of all kinds meets the conditions of `C83_loaded` and `C83_exact` and is
written -/
example : ∃ v, load 20 {} (Sample.fileWith Sample.goodDefs) = .ok v ∧ IntegerTimes v ∧ v.info.length = 4 ∧
    v.infoMulti.length = 1 ∧ v.initialParams.length = 3 ∧ v.defaultParams.length = 2 ∧
    LoadedFits v ∧ CanWrite v := by
  obtain ⟨v, hv, -, -, ht, hp⟩ := loads_of (bs := Sample.fileWith Sample.goodDefs)
    (p := fun v => decide (v.info.length = 4 ∧ v.infoMulti.length = 1 ∧ v.initialParams.length = 3 ∧
      v.defaultParams.length = 2) && Sample.writes v) (by decide +kernel)
  rw [Bool.and_eq_true, decide_eq_true_eq] at hp
  exact ⟨v, hv, ht, hp.1.1, hp.1.2.1, hp.1.2.2.1, hp.1.2.2.2, (C83_loaded hv ht).mp (writes_of hp.2),
    (C83_exact v ht).mp (writes_of hp.2)⟩

/-- **C83**, what can be loaded but not written: an info value of an array type, messages of one key
with different types, a parameter of a text type, a parameter above 32 bits, a default parameter with
an unknown bit, a topic without timestamp. Each log is loaded without a mark of corruption; the writer
raises the exception given. -/
theorem C83_not_writable :
    (∃ v, load 20 {} (Sample.fileWith [Sample.keyed tyI (py! "float[2] x") (leEnc 8 0)]) = .ok v ∧
      v.fileCorrupt = false ∧ writeUlog v = .error .keyError) ∧
    (∃ v, load 20 {} (Sample.fileWith [Sample.keyed1 tyM 0 (py! "uint8_t m") [1],
        Sample.keyed1 tyM 0 (py! "char[1] m") (Sample.asc (py! "x"))]) = .ok v ∧
      v.fileCorrupt = false ∧ writeUlog v = .error .structError) ∧
    (∃ v, load 20 {} (Sample.fileWith [Sample.keyed tyP (py! "char[1] P") (Sample.asc (py! "x"))]) = .ok v ∧
      v.fileCorrupt = false ∧ writeUlog v = .error .typeError) ∧
    (∃ v, load 20 {} (Sample.fileWith [Sample.keyed tyP (py! "int64_t P") (leEnc 8 2147483648)]) = .ok v ∧
      v.fileCorrupt = false ∧ writeUlog v = .error .structError) ∧
    (∃ v, load 20 {} (Sample.fileWith [Sample.keyed1 tyQ 255 (py! "int32_t P") (leEnc 4 0)]) = .ok v ∧
      v.fileCorrupt = false ∧ writeUlog v = .error .structError) ∧
    (∃ v, load 20 {} (Sample.header ++ encMsgs [(tyF, encStr (py! "t:uint64_t time;"))]
        ++ encMsgs [(tyA, [0] ++ leEnc 2 0 ++ encStr (py! "t")), (tyD, leEnc 2 0 ++ leEnc 8 9)]) = .ok v ∧
      v.fileCorrupt = false ∧ writeUlog v = .error .keyError) := by
  have key : ∀ {bs : Bytes} {e : PyErr}, Sample.loads bs (Sample.writeFails e) = true →
      ∃ v, load 20 {} bs = .ok v ∧ v.fileCorrupt = false ∧ writeUlog v = .error e := by
    intro bs e h
    obtain ⟨v, hv, hc, -, -, hp⟩ := loads_of h
    exact ⟨v, hv, hc, writeFails_of hp⟩
  exact ⟨key (by decide +kernel), key (by decide +kernel), key (by decide +kernel), key (by decide +kernel),
    key (by decide +kernel), key (by decide +kernel)⟩

theorem comesBack_of {depth : Nat} {u : ULog} (h : Writable depth u) : ComesBack u where
  arrays := fun p hp f hf => ((h.formats p hp).2.2 f hf).arr
  multi := fun p hp sets hg s hs v hv => ((h.multi_ok _ (Dict.mem_of_get? _ _ _ hg) p.2 hp).2.2.2 s hs).2 v hv
  initial := fun p hp => (h.initial p hp).2
  defaults := fun p hp => ⟨(h.defaults p hp).1, fun q hq => ((h.defaults p hp).2.2.2 q hq).2⟩
  changed := fun p hp => (h.changed p hp).2
  ids := h.ids
  instances := by
    rw [List.Nodup, List.pairwise_map]
    exact h.order.imp fun hne e => hne.2 ⟨(Prod.mk.inj e).1, (Prod.mk.inj e).2⟩
  times := fun d hd => (h.data d hd).timestamp
  starts := h.starts

/-- **C83**: for loaded logs that can be written the conditions of `C83_comes_back` are those of the round
trip (C20): none is hidden in the words of `Writable` -/
theorem C83_conditions {fuel : Nat} {cfg : Cfg} {bs : Bytes} {u : ULog} (h : load fuel cfg bs = .ok u)
    (hf : LoadedFits u) : Writable cfg.depth u ↔ ComesBack u :=
  ⟨comesBack_of, loaded_writable h hf.info hf.named⟩

/-- the conditions of `C83_comes_back` and `C83_same_object` hold for a loaded log with samples, text
messages, a dropout, parameters and info messages -/
example : ∃ bs u, load 9999 { depth := 5 } bs = .ok u ∧ LoadedFits u ∧ ComesBack u ∧ Settled u ∧
    u.dataList.length = 1 ∧ u.dropouts.length = 1 ∧ u.info.length = 2 ∧ u.infoMulti.length = 1 ∧
    u.initialParams.length = 2 ∧ u.logged.length = 2 := by
  obtain ⟨b, hb⟩ := writeUlog_total Sample.small_writable Sample.small_encodable
  have hlen : b.length < 9999 := by
    have h : ((writeUlog Sample.small).toOption.map fun b => decide (b.length < 9999)) = some true := by
      decide +kernel
    rw [hb] at h
    exact of_decide_eq_true (Option.some.inj h)
  have hl := load_written (cfg := { depth := 5 }) Sample.small_writable hb rfl rfl rfl hlen
    (Nat.le_trans (Nat.le_of_lt hlen) (by decide))
  have hw := writable_canon Sample.small_writable
  have hc := comesBack_of hw
  obtain ⟨b2, hb2⟩ := writeUlog_total hw (encodable_canon Sample.small_writable Sample.small_encodable)
  exact ⟨b, _, hl, (C83_loaded hl (loaded_integerTimes hl hc.times)).mp ⟨b2, hb2⟩, hc,
    settled_canon Sample.small_writable, by decide +kernel, by decide +kernel, by decide +kernel, by decide +kernel,
    by decide +kernel, by decide +kernel⟩

/-! ### what does not come back -/

/-- written and loaded again -/
def Sample.again (bs : Bytes) (p : ULog → ULog → Bool) : Bool :=
  match load 20 {} bs with
  | .ok u =>
    match writeUlog u with
    | .ok b =>
      match load 40 {} b with
      | .ok v => decide (u.fileCorrupt = false ∧ v.fileCorrupt = false) && p u v
      | _ => false
    | _ => false
  | _ => false

theorem again_of {bs : Bytes} {p : ULog → ULog → Bool} (h : Sample.again bs p = true) :
    ∃ u b v, load 20 {} bs = .ok u ∧ writeUlog u = .ok b ∧ load 40 {} b = .ok v ∧ u.fileCorrupt = false ∧
      v.fileCorrupt = false ∧ p u v = true := by
  unfold Sample.again at h
  split at h
  · rename_i u hu
    split at h
    · rename_i b hb
      split at h
      · rename_i v hv
        rw [Bool.and_eq_true, decide_eq_true_eq] at h
        exact ⟨u, b, v, hu, hb, hv, h.1.1, h.1.2, h.2⟩
      · cases h
    · cases h
  · cases h

/-- **C83**, what is loaded, written without an exception and different afterwards: a default parameter
for bit 2 of the mask is loaded under the key 3, written with bit 3 and loaded under the key 7; a
parameter of type `double` is rounded to `float`; a negative array size is lost; two datasets with the
same id (a log with appended data) become one dataset with the samples of both -/
theorem C83_changed :
    (∃ u b v, load 20 {} (Sample.fileWith [Sample.keyed1 tyQ 4 (py! "int32_t P") (leEnc 4 5)]) = .ok u ∧
      writeUlog u = .ok b ∧ load 40 {} b = .ok v ∧
      u.defaultParams = [(3, [(py! "P", .int 5)])] ∧ v.defaultParams = [(7, [(py! "P", .int 5)])]) ∧
    (∃ u b v, load 20 {} (Sample.fileWith [Sample.keyed tyP (py! "double P") (leEnc 8 0x3ff0000000000001)]) = .ok u ∧
      writeUlog u = .ok b ∧ load 40 {} b = .ok v ∧
      u.initialParams = [(py! "P", .float 0x3ff0000000000001)] ∧
      v.initialParams = [(py! "P", .float 0x3ff0000000000000)]) ∧
    (∃ u b v, load 20 {} (Sample.fileWith [(tyF, encStr (py! "n:float[-2] x"))]) = .ok u ∧
      writeUlog u = .ok b ∧ load 40 {} b = .ok v ∧
      u.formats.get? (py! "n") = some ⟨py! "n", [⟨py! "float", -2, py! "x"⟩]⟩ ∧
      v.formats.get? (py! "n") = some ⟨py! "n", [⟨py! "float", 0, py! "x"⟩]⟩) ∧
    (∃ u b v, load 20 {} Sample.appFile = .ok u ∧ writeUlog u = .ok b ∧ load 40 {} b = .ok v ∧
      u.dataList.map (fun d => (d.msgId, d.data.map (·.2)))
        = [(3, [[.int 110], [.int 7]]), (3, [[.int 130], [.int 9]])] ∧
      v.dataList.map (fun d => (d.msgId, d.data.map (·.2))) = [(3, [[.int 110, .int 130], [.int 7, .int 9]])]) := by
  refine ⟨?_, ?_, ?_, ?_⟩
  · obtain ⟨u, b, v, h1, h2, h3, -, -, h4⟩ := again_of
      (bs := Sample.fileWith [Sample.keyed1 tyQ 4 (py! "int32_t P") (leEnc 4 5)])
      (p := fun u v => decide (u.defaultParams = [(3, [(py! "P", .int 5)])] ∧
        v.defaultParams = [(7, [(py! "P", .int 5)])])) (by decide +kernel)
    rw [decide_eq_true_eq] at h4
    exact ⟨u, b, v, h1, h2, h3, h4.1, h4.2⟩
  · obtain ⟨u, b, v, h1, h2, h3, -, -, h4⟩ := again_of
      (bs := Sample.fileWith [Sample.keyed tyP (py! "double P") (leEnc 8 0x3ff0000000000001)])
      (p := fun u v => decide (u.initialParams = [(py! "P", .float 0x3ff0000000000001)] ∧
        v.initialParams = [(py! "P", .float 0x3ff0000000000000)])) (by decide +kernel)
    rw [decide_eq_true_eq] at h4
    exact ⟨u, b, v, h1, h2, h3, h4.1, h4.2⟩
  · obtain ⟨u, b, v, h1, h2, h3, -, -, h4⟩ := again_of (bs := Sample.fileWith [(tyF, encStr (py! "n:float[-2] x"))])
      (p := fun u v => decide (u.formats.get? (py! "n") = some ⟨py! "n", [⟨py! "float", -2, py! "x"⟩]⟩ ∧
        v.formats.get? (py! "n") = some ⟨py! "n", [⟨py! "float", 0, py! "x"⟩]⟩)) (by decide +kernel)
    rw [decide_eq_true_eq] at h4
    exact ⟨u, b, v, h1, h2, h3, h4.1, h4.2⟩
  · obtain ⟨u, b, v, h1, h2, h3, -, -, h4⟩ := again_of (bs := Sample.appFile)
      (p := fun u v => decide (u.dataList.map (fun d => (d.msgId, d.data.map (·.2)))
        = [(3, [[.int 110], [.int 7]]), (3, [[.int 130], [.int 9]])] ∧
      v.dataList.map (fun d => (d.msgId, d.data.map (·.2))) = [(3, [[.int 110, .int 130], [.int 7, .int 9]])]))
      (by decide +kernel)
    rw [decide_eq_true_eq] at h4
    exact ⟨u, b, v, h1, h2, h3, h4.1, h4.2⟩

/-- the truth value of a python object: numbers other than zero, texts and bytes that are not empty -/
def Spec.TrueValue : Value → Prop
  | .int n => n ≠ 0
  | .bool b => b = true
  | .float x => x ≠ 0 ∧ x ≠ 2 ^ 63
  | .str s => s ≠ []
  | .bytes b => b ≠ []

/-- **C83**: under the type `bool` every value can be written: as 1 if it is true, as 0 if not. -/
theorem C83_truth (v : Value) (hv : ∀ x, v = .float x → x < 2 ^ 64) :
    (TrueValue v → packScalar .bool v = .ok [1]) ∧ (¬TrueValue v → packScalar .bool v = .ok [0]) := by
  unfold TrueValue packScalar
  cases v with
  | int n => exact ⟨fun h => by dsimp only; rw [if_pos h], fun h => by dsimp only; rw [if_neg h]⟩
  | bool b => exact ⟨fun h => by dsimp only at h ⊢; rw [if_pos h], fun h => by dsimp only at h ⊢; rw [if_neg h]⟩
  | float x =>
    have := hv x rfl
    exact ⟨fun h => by dsimp only at h ⊢; rw [if_pos (by omega)], fun h => by dsimp only at h ⊢; rw [if_neg (by omega)]⟩
  | str s => exact ⟨fun h => by dsimp only; rw [if_pos h], fun h => by dsimp only; rw [if_neg h]⟩
  | bytes b => exact ⟨fun h => by dsimp only; rw [if_pos h], fun h => by dsimp only; rw [if_neg h]⟩

/-- -0.0 is false, NaN is true -/
example : ¬TrueValue (.float 0x8000000000000000) ∧ TrueValue (.float 0x7ff8000000000000) ∧ TrueValue (.str (py! "0")) := by
  refine ⟨fun h => h.2 rfl, ⟨by decide, by decide⟩, by show (py! "0") ≠ []; decide⟩

/-- elements of columns that are zero, among them both zeros of the floating-point types -/
def Spec.ZeroElement : NpVal → Prop
  | .int n => n = 0
  | .f32 x => x = 0 ∨ x = 2 ^ 31
  | .f64 x => x = 0 ∨ x = 2 ^ 63

/-- **C83**: an element of a column is written in a `bool` field as 0 if it is zero, as 1 otherwise. -/
theorem C83_truth_element (v : NpVal) (h4 : ∀ x, v = .f32 x → x < 2 ^ 32) (h8 : ∀ x, v = .f64 x → x < 2 ^ 64) :
    (ZeroElement v → packNp .bool v = .ok [0]) ∧ (¬ZeroElement v → packNp .bool v = .ok [1]) := by
  unfold ZeroElement packNp
  cases v with
  | int n => exact ⟨fun h => by dsimp only at h ⊢; rw [if_neg (by omega)], fun h => by dsimp only at h ⊢; rw [if_pos (by omega)]⟩
  | f32 x =>
    have := h4 x rfl
    exact ⟨fun h => by dsimp only at h ⊢; rw [if_neg (by omega)], fun h => by dsimp only at h ⊢; rw [if_pos (by omega)]⟩
  | f64 x =>
    have := h8 x rfl
    exact ⟨fun h => by dsimp only at h ⊢; rw [if_neg (by omega)], fun h => by dsimp only at h ⊢; rw [if_pos (by omega)]⟩

/-- -0.0 of both types, and the smallest number that is not zero -/
example : packNp .bool (.f32 0x80000000) = .ok [0] ∧ packNp .bool (.f64 0x8000000000000000) = .ok [0] ∧
    packNp .bool (.f32 1) = .ok [1] :=
  ⟨(C83_truth_element (.f32 0x80000000) (fun x h => by cases h; decide) (fun x h => by cases h)).1 (.inr (by decide)),
    (C83_truth_element (.f64 0x8000000000000000) (fun x h => by cases h) (fun x h => by cases h; decide)).1 (.inr (by decide)),
    (C83_truth_element (.f32 1) (fun x h => by cases h; decide) (fun x h => by cases h)).2
      (fun h => h.elim (by decide) (by decide))⟩

end PyULog
