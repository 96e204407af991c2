import Verif.Model.Tools
import Verif.Props.Csv
import Verif.Lemmas.DbLoad
/-
Property theorems: C31 (GPS dump), C32 (parameter export), C33 (log message listing), C35 (RC names),
C55 (vehicle type and estimator).
-/
namespace PyULog
open Spec

/-! ### C31 -/

/-- the part of a stream with one direction: the data of the messages of the required instance; a message consists of its
instance, its `len` byte and the elements of `data` as they are in the file -/
def Spec.gpsElements (required : Int) (toDev : Bool) (msgs : List (Int × Nat × List Bytes)) : Bytes :=
  msgs.flatMap fun m =>
    if m.1 = required ∧ decide (128 ≤ m.2.1) = toDev then (m.2.2.take (m.2.1 % 128)).flatten else []

/-- the same for elements of one byte -/
def Spec.gpsStream (required : Int) (toDev : Bool) (msgs : List (Int × Nat × List UInt8)) : Bytes :=
  msgs.flatMap fun m =>
    if m.1 = required ∧ decide (128 ≤ m.2.1) = toDev then m.2.2.take (m.2.1 % 128) else []

/-- every field of this name has the type, and there is one -/
def Spec.FieldOf (d : Dataset) (name : Str) (t : BT) : Prop :=
  (∃ f ∈ d.fields, f.name = name) ∧ ∀ f ∈ d.fields, f.name = name → f.type = t

/-- message `i` of a dataset: instance, `len` byte and the bytes of the elements -/
structure Spec.GpsElem (d : Dataset) (lens instances : List NpVal) (i : Nat) (m : Int × Nat × List Bytes) :
    Prop where
  inst : instances[i]? = some (.int m.1)
  len : lens[i]? = some (.int (m.2.1 : Int))
  lt : m.2.1 < 256
  enough : m.2.1 % 128 ≤ m.2.2.length
  data : ∀ k b, m.2.2[k]? = some b → k < m.2.1 % 128 →
    ∃ t, FieldOf d (elemName (py! "data") k) t ∧ b.length = width t ∧
      ∃ col, d.data.get? (elemName (py! "data") k) = some col ∧ col[i]? = some (valueAt t b 0)

/-- message `i` of a dataset: instance, `len` byte and payload -/
structure Spec.GpsMsg (d : Dataset) (lens instances : List NpVal) (i : Nat) (m : Int × Nat × List UInt8) :
    Prop where
  inst : instances[i]? = some (.int m.1)
  len : lens[i]? = some (.int (m.2.1 : Int))
  lt : m.2.1 < 256
  enough : m.2.1 % 128 ≤ m.2.2.length
  data : ∀ k b, m.2.2[k]? = some b → k < m.2.1 % 128 → FieldOf d (elemName (py! "data") k) .u8 ∧
    ∃ col, d.data.get? (elemName (py! "data") k) = some col ∧ col[i]? = some (.int (b.toNat : Int))

theorem colType_of {d : Dataset} {name : Str} {t : BT} (h : FieldOf d name t) : colType d name = some t := by
  unfold colType
  obtain ⟨⟨f, hf, hn⟩, h⟩ := h
  cases hx : d.fields.find? fun f => f.name = name with
  | none =>
    have := List.find?_eq_none.mp hx f hf
    exact absurd (decide_eq_true hn) this
  | some g =>
    have h1 := List.find?_some hx
    have h2 := List.mem_of_find?_eq_some hx
    show some g.type = _
    rw [h g h2 (of_decide_eq_true h1)]

theorem gpsElem_spec {d : Dataset} {i k : Nat} {t : BT} {b : Bytes} {col : List NpVal}
    (ht : FieldOf d (elemName (py! "data") k) t) (hb : b.length = width t)
    (hc : d.data.get? (elemName (py! "data") k) = some col) (hv : col[i]? = some (valueAt t b 0)) :
    gpsElem d i k = .ok b := by
  have he : py! "data[" ++ natDec k ++ py! "]" = elemName (py! "data") k := rfl
  have hw : b.length = t.size := by rw [hb]; cases t <;> rfl
  unfold gpsElem
  rw [he]
  dsimp only
  have h1 : dictGet d.data (elemName (py! "data") k) = .ok col := by unfold dictGet; rw [hc]
  have h2 : pyIndex col i = .ok (valueAt t b 0) := by unfold pyIndex; rw [hv]
  rw [h1, ok_bind, h2, ok_bind, colType_of ht, valueAt_zero hw]
  exact npEncode_decode hw

theorem gpsBytes_spec {d : Dataset} {i len : Nat} {payload : List Bytes} (hl : len ≤ payload.length)
    (h : ∀ k b, payload[k]? = some b → k < len →
      ∃ t, FieldOf d (elemName (py! "data") k) t ∧ b.length = width t ∧
        ∃ col, d.data.get? (elemName (py! "data") k) = some col ∧ col[i]? = some (valueAt t b 0)) :
    gpsBytes d i len = .ok (payload.take len).flatten := by
  unfold gpsBytes
  rw [mapM_ok (g := fun k => payload.getD k [])]
  · show Except.ok (List.flatten _) = _
    congr 2
    apply List.ext_getElem
    · simp; omega
    · intro k h1 h2
      simp at h1 h2
      simp [List.getD_eq_getElem?_getD, List.getElem?_eq_getElem (by omega : k < payload.length)]
  · intro k hk
    have hk := List.mem_range.mp hk
    have hkl : k < payload.length := by omega
    obtain ⟨b, hbk⟩ : ∃ b, payload[k]? = some b := ⟨_, List.getElem?_eq_getElem hkl⟩
    obtain ⟨t, ht, hb, col, h1, h2⟩ := h k b hbk hk
    rw [gpsElem_spec ht hb h1 h2, List.getD_eq_getElem?_getD, hbk]
    rfl

theorem gpsLen_u8 {d : Dataset} (h : FieldOf d (py! "len") .u8) {n : Nat} (hn : n < 256) :
    gpsLen (colType d (py! "len")) (.int (n : Int)) = .ok n := by
  rw [colType_of h]
  unfold gpsLen
  dsimp only
  rw [if_pos ⟨by decide, by omega, by omega⟩, Int.toNat_natCast]

theorem gpsStep_spec {d : Dataset} {lens instances : List NpVal} {i : Nat} {m : Int × Nat × List Bytes}
    (h : GpsElem d lens instances i m) (ht : FieldOf d (py! "len") .u8) (required : Int) (files : Bytes × Bytes) :
    gpsStep d lens instances required files i = .ok
      (files.1 ++ gpsElements required true [m], files.2 ++ gpsElements required false [m]) := by
  unfold gpsStep pyIndex
  rw [h.inst, h.len]
  show (if npEqInt (.int m.1) required = true then _ else _) = _
  rw [npEqInt_int]
  by_cases hi : m.1 = required
  · rw [if_pos (by simpa using hi)]
    have hlt := h.lt
    show (gpsLen (colType d (py! "len")) (.int (m.2.1 : Int))).bind _ = _
    rw [gpsLen_u8 ht hlt]
    show (if m.2.1 / 128 % 2 = 1 then _ else _) = _
    by_cases hb : 128 ≤ m.2.1
    · rw [if_pos (by omega)]
      show (gpsBytes d i (m.2.1 % 128)).bind _ = _
      rw [gpsBytes_spec h.enough h.data]
      have : ¬ m.2.1 < 128 := by omega
      show Except.ok _ = _
      simp [gpsElements, hi, hb, this]
    · rw [if_neg (by omega)]
      have hm : m.2.1 % 128 = m.2.1 := Nat.mod_eq_of_lt (by omega)
      have he := h.enough
      have hd := h.data
      rw [hm] at he hd
      show (gpsBytes d i m.2.1).bind _ = _
      rw [gpsBytes_spec he hd]
      show Except.ok _ = _
      simp [gpsElements, hi, hb, hm]
  · rw [if_neg (by simpa using hi)]
    simp [gpsElements, hi]

theorem foldlM_range {β : Type} (f : β → Nat → Except PyErr β) (g : β → Nat → β) (n : Nat) (b : β)
    (h : ∀ b i, i < n → f b i = .ok (g b i)) :
    (List.range n).foldlM f b = .ok ((List.range n).foldl g b) := by
  have : ∀ (l : List Nat) (b : β), (∀ i ∈ l, i < n) → l.foldlM f b = .ok (l.foldl g b) := by
    intro l
    induction l with
    | nil => intro b _; rfl
    | cons x xs ih =>
      intro b hl
      rw [List.foldlM_cons, h b x (hl x (by simp))]
      exact ih _ (fun i hi => hl i (by simp [hi]))
  exact this _ b (fun i hi => List.mem_range.mp hi)

/-- **C31**: both files are the concatenation, in order, of the elements of the messages of their direction, as they are in
the log file and whatever their types; `len & 0x7f` is the number of elements, bit 7 the direction. -/
theorem C31_elements (u : ULog) (required : Int) (d : Dataset) (rest : List Dataset)
    (hu : u.dataList = d :: rest) (hlen : FieldOf d (py! "len") .u8)
    (hdata : py! "data[0]" ∈ d.fields.map (·.name)) (msgs : List (Int × Nat × List Bytes))
    (lens instances ts : List NpVal) (hl : d.data.get? (py! "len") = some lens)
    (ht : d.data.get? (py! "timestamp") = some ts) (htl : ts.length = msgs.length)
    (hi : d.data.get? (py! "instance") = some instances ∨
      d.data.get? (py! "instance") = none ∧ instances = List.replicate lens.length (.int 0))
    (hm : ∀ i m, msgs[i]? = some m → GpsElem d lens instances i m) :
    gpsDump u required = .ok
      (.files (gpsElements required true msgs) (gpsElements required false msgs)) := by
  have hlen' : py! "len" ∈ d.fields.map (·.name) := List.mem_map.mpr hlen.1
  unfold gpsDump
  rw [hu]
  dsimp only
  rw [if_neg (by rintro (h | h) <;> exact absurd (by assumption) h)]
  show (dictGet d.data _).bind _ = _
  unfold dictGet
  rw [hl]
  dsimp only [Except.bind]
  have hinst : (d.data.get? (py! "instance")).getD (List.replicate lens.length (.int 0)) = instances := by
    rcases hi with h | ⟨h, e⟩
    · rw [h]; rfl
    · rw [h, e]; rfl
  rw [hinst, ht]
  show Except.bind ((List.range ts.length).foldlM (gpsStep d lens instances required) ([], [])) _ = _
  rw [htl, foldlM_range _ (fun (files : Bytes × Bytes) i => match msgs[i]? with
      | some m => (files.1 ++ gpsElements required true [m], files.2 ++ gpsElements required false [m])
      | none => files)]
  · show Except.ok _ = _
    have key : ∀ n, n ≤ msgs.length → (List.range n).foldl (fun (files : Bytes × Bytes) i =>
        match msgs[i]? with
        | some m => (files.1 ++ gpsElements required true [m], files.2 ++ gpsElements required false [m])
        | none => files) ([], [])
        = (gpsElements required true (msgs.take n), gpsElements required false (msgs.take n)) := by
      intro n
      induction n with
      | zero => intro _; rfl
      | succ n ih =>
        intro hn
        have hlt : n < msgs.length := by omega
        rw [List.range_succ, List.foldl_append, ih (by omega), List.foldl_cons, List.foldl_nil,
          List.getElem?_eq_getElem hlt]
        have htake : msgs.take (n + 1) = msgs.take n ++ [msgs[n]] := by
          rw [List.take_add_one, List.getElem?_eq_getElem hlt]
          rfl
        have happ : ∀ b l m, gpsElements required b (l ++ [m]) = gpsElements required b l ++ gpsElements required b [m] := by
          intro b l m
          unfold gpsElements
          rw [List.flatMap_append]
        rw [htake, happ, happ]
    rw [key _ (Nat.le_refl _), List.take_length]
  · intro b i hi
    rw [List.getElem?_eq_getElem hi]
    exact gpsStep_spec (hm i msgs[i] (List.getElem?_eq_getElem hi)) hlen required b

/-- **C31**: with elements of one byte the files are the concatenations of the payloads; `len & 0x7f` is the number of bytes,
bit 7 the direction. -/
theorem C31_streams (u : ULog) (required : Int) (d : Dataset) (rest : List Dataset)
    (hu : u.dataList = d :: rest) (hlen : FieldOf d (py! "len") .u8)
    (hdata : py! "data[0]" ∈ d.fields.map (·.name)) (msgs : List (Int × Nat × List UInt8))
    (lens instances ts : List NpVal) (hl : d.data.get? (py! "len") = some lens)
    (ht : d.data.get? (py! "timestamp") = some ts) (htl : ts.length = msgs.length)
    (hi : d.data.get? (py! "instance") = some instances ∨
      d.data.get? (py! "instance") = none ∧ instances = List.replicate lens.length (.int 0))
    (hm : ∀ i m, msgs[i]? = some m → GpsMsg d lens instances i m) :
    gpsDump u required = .ok
      (.files (gpsStream required true msgs) (gpsStream required false msgs)) := by
  have hs : ∀ b, gpsElements required b (msgs.map fun m => (m.1, m.2.1, m.2.2.map fun x => [x])) = gpsStream required b msgs := by
    intro b
    unfold gpsElements gpsStream
    rw [List.flatMap_map]
    congr 1
    funext m
    dsimp only
    rw [← List.map_take]
    split
    · induction m.2.2.take (m.2.1 % 128) with
      | nil => rfl
      | cons x l ih => rw [List.map_cons, List.flatten_cons, ih]; rfl
    · rfl
  rw [← hs, ← hs]
  refine C31_elements u required d rest hu hlen hdata _ lens instances ts hl ht (by rw [List.length_map, htl]) hi ?_
  intro i m hmi
  rw [List.getElem?_map] at hmi
  cases hx : msgs[i]? with
  | none => rw [hx] at hmi; cases hmi
  | some m' =>
    rw [hx] at hmi
    injection hmi with hmi
    subst hmi
    have hg := hm i m' hx
    refine ⟨hg.inst, hg.len, hg.lt, by rw [List.length_map]; exact hg.enough, ?_⟩
    intro k b hb hk
    dsimp only at hb
    rw [List.getElem?_map] at hb
    cases hy : m'.2.2[k]? with
    | none => rw [hy] at hb; cases hb
    | some x =>
      rw [hy] at hb
      injection hb with hb
      subst hb
      obtain ⟨h1, col, h2, h3⟩ := hg.data k x hy hk
      refine ⟨.u8, h1, rfl, col, h2, ?_⟩
      rw [h3, valueAt_zero rfl]
      show _ = some (NpVal.int ((leNat [x] : Nat) : Int))
      simp [leNat]

/-- **C31**: without gps_dump messages, or with another format, no file is written. -/
theorem C31_no_output (u : ULog) (required : Int) :
    (u.dataList = [] → gpsDump u required = .ok .noMessages) ∧
    (∀ d rest, u.dataList = d :: rest →
      (py! "len" ∉ d.fields.map (·.name) ∨ py! "data[0]" ∉ d.fields.map (·.name)) →
      gpsDump u required = .ok .wrongFormat) := by
  constructor
  · intro h; unfold gpsDump; rw [h]
  · intro d rest h hw
    unfold gpsDump
    rw [h]
    dsimp only
    rw [if_pos hw]

/-- a gps_dump dataset: a message to the device, one from the device, and one of another instance -/
def Sample.gps : Dataset :=
  { multiId := 0
    msgId := 3
    name := py! "gps_dump"
    fields := [⟨py! "timestamp", .u64⟩, ⟨py! "instance", .u8⟩, ⟨py! "len", .u8⟩, ⟨py! "data[0]", .u8⟩,
      ⟨py! "data[1]", .u8⟩]
    tsIdx := 0
    data := [(py! "timestamp", [.int 1, .int 2, .int 3]), (py! "instance", [.int 0, .int 0, .int 1]),
      (py! "len", [.int 130, .int 1, .int 2]), (py! "data[0]", [.int 181, .int 36, .int 9]),
      (py! "data[1]", [.int 98, .int 0, .int 9])] }

example : (gpsDump { dataList := [Sample.gps] } 0).toOption = some (.files [181, 98] [36]) := by
  decide +kernel

/-- the hypotheses of `C31_streams` hold for it -/
example : ∀ i m, [((0 : Int), 130, [(181 : UInt8), 98]), (0, 1, [36, 0]), (1, 2, [9, 9])][i]? = some m →
    GpsMsg Sample.gps [.int 130, .int 1, .int 2] [.int 0, .int 0, .int 1] i m := by
  intro i m h
  have hlt : i < 3 := by
    obtain ⟨h, _⟩ := List.getElem?_eq_some_iff.mp h
    exact h
  have hdat : ∀ (payload : List UInt8) (col0 col1 : NpVal), payload.length = 2 →
      payload[0]?.map (fun b => NpVal.int (b.toNat : Int)) = some col0 →
      payload[1]?.map (fun b => NpVal.int (b.toNat : Int)) = some col1 →
      ([NpVal.int 181, .int 36, .int 9][i]? = some col0) → ([NpVal.int 98, .int 0, .int 9][i]? = some col1) →
      ∀ k b, payload[k]? = some b → FieldOf Sample.gps (elemName (py! "data") k) .u8 ∧ ∃ col, Sample.gps.data.get? (elemName (py! "data") k) = some col ∧
        col[i]? = some (.int (b.toNat : Int)) := by
    intro payload c0 c1 hp h0 h1 g0 g1 k b hb
    have hk : k < 2 := by
      obtain ⟨h, _⟩ := List.getElem?_eq_some_iff.mp hb
      omega
    rcases (show k = 0 ∨ k = 1 by omega) with rfl | rfl
    · rw [hb] at h0
      exact ⟨⟨by decide +kernel, by decide +kernel⟩, _, rfl, by rw [g0, ← h0]; rfl⟩
    · rw [hb] at h1
      exact ⟨⟨by decide +kernel, by decide +kernel⟩, _, rfl, by rw [g1, ← h1]; rfl⟩
  rcases (show i = 0 ∨ i = 1 ∨ i = 2 by omega) with rfl | rfl | rfl
  · injection h with h; subst h
    exact ⟨rfl, rfl, by decide, by decide, fun k b hb _ => hdat _ _ _ rfl rfl rfl rfl rfl k b hb⟩
  · injection h with h; subst h
    exact ⟨rfl, rfl, by decide, by decide, fun k b hb _ => hdat _ _ _ rfl rfl rfl rfl rfl k b hb⟩
  · injection h with h; subst h
    exact ⟨rfl, rfl, by decide, by decide, fun k b hb _ => hdat _ _ _ rfl rfl rfl rfl rfl k b hb⟩

/-- elements of two bytes and a float: the memory of the elements is written -/
def Sample.gpsWide : Dataset :=
  { multiId := 0
    msgId := 3
    name := py! "gps_dump"
    fields := [⟨py! "timestamp", .u64⟩, ⟨py! "len", .u8⟩, ⟨py! "data[0]", .i16⟩, ⟨py! "data[1]", .f32⟩]
    tsIdx := 0
    data := [(py! "timestamp", [.int 1, .int 2]), (py! "len", [.int 130, .int 1]), (py! "data[0]", [.int (-2), .int 258]),
      (py! "data[1]", [.f32 0x3f800000, .f32 0])] }

example : (gpsDump { dataList := [Sample.gpsWide] } 0).toOption = some (.files [254, 255, 0, 0, 128, 63] [2, 1]) ∧
    gpsElements 0 true [(0, 130, [[254, 255], [0, 0, 128, 63]]), (0, 1, [[2, 1]])] = [254, 255, 0, 0, 128, 63] ∧
    gpsElements 0 false [(0, 130, [[254, 255], [0, 0, 128, 63]]), (0, 1, [[2, 1]])] = [2, 1] := by
  decide +kernel

/-- the hypotheses of `C31_elements` hold for its first message -/
example : GpsElem Sample.gpsWide [.int 130, .int 1] [.int 0, .int 0] 0 (0, 130, [[254, 255], [0, 0, 128, 63]]) := by
  refine ⟨rfl, rfl, by decide, by decide, ?_⟩
  intro k b hb hk
  have hk : k < 2 := hk
  rcases (show k = 0 ∨ k = 1 by omega) with rfl | rfl
  · injection hb with hb; subst hb
    exact ⟨.i16, ⟨by decide +kernel, by decide +kernel⟩, rfl, _, rfl, by decide +kernel⟩
  · injection hb with hb; subst hb
    exact ⟨.f32, ⟨by decide +kernel, by decide +kernel⟩, rfl, _, rfl, by decide +kernel⟩

/-! ### C32 -/

/-- the values of a parameter: at the start, and after each change, in the order of the log -/
def Spec.history (u : ULog) (key : Str) (v : Value) : List Value :=
  v :: (u.changedParams.filter fun c => c.2.1 = key).map fun c => c.2.2

/-- the times of the changes of a parameter -/
def Spec.changeTimes (u : ULog) (key : Str) : List Nat :=
  (u.changedParams.filter fun c => c.2.1 = key).map fun c => c.1

theorem changesOf_vals (u : ULog) (key : Str) :
    (changesOf u key).map (·.2) = (u.changedParams.filter fun c => c.2.1 = key).map fun c => c.2.2 := by
  unfold changesOf
  induction u.changedParams with
  | nil => rfl
  | cons c cs ih =>
    rw [List.filterMap_cons, List.filter_cons]
    by_cases h : c.2.1 = key
    · simp [h, ih]
    · simp [h, ih]

theorem changesOf_times (u : ULog) (key : Str) :
    (changesOf u key).map (·.1) = changeTimes u key := by
  unfold changesOf changeTimes
  induction u.changedParams with
  | nil => rfl
  | cons c cs ih =>
    rw [List.filterMap_cons, List.filter_cons]
    by_cases h : c.2.1 = key
    · simp [h, ih]
    · simp [h, ih]

theorem delimited_eq (delim x : Str) (l : List Str) :
    x ++ delimited delim l = ((x :: l).intersperse delim).flatten := by
  induction l generalizing x with
  | nil => simp [delimited]
  | cons y ys ih =>
    have h1 : delimited delim (y :: ys) = delim ++ (y ++ delimited delim ys) := by
      simp [delimited]
    rw [h1, ih y]
    simp

/-- keys in ascending order of code points -/
def Spec.Ascending (keys : List Str) : Prop := (keys.map (·.map Char.toNat)).Pairwise (· < ·)

theorem sortedKeys_spec {α : Type} (d : Dict Str α) (h : d.keys.Nodup) :
    (sortedKeys d).Perm d.keys ∧ Ascending (sortedKeys d) := by
  have hp : (sortedKeys d).Perm d.keys := ssort_perm _ _
  refine ⟨hp, ?_⟩
  have hs : Sorted strLe (sortedKeys d) := ssort_sorted ⟨strLe_trans, strLe_total⟩ _
  have hn : (sortedKeys d).Nodup := hp.nodup_iff.mpr h
  unfold Ascending
  rw [List.pairwise_map]
  exact (hs.and hn).imp fun h => strLe_lt h.1 h.2

theorem paramsText_lines (fmt : Value → Str) (o : ParamOpts) (u : ULog) (params : Dict Str Value)
    (hp : selectParams o u = .ok params) :
    paramsText fmt o u = .ok ((sortedKeys params).map fun key =>
      paramText fmt o u key ((params.get? key).getD (.int 0))).flatten := by
  unfold paramsText
  rw [hp]
  show Except.bind ((sortedKeys params).mapM _) _ = _
  rw [mapM_ok (g := fun key => paramText fmt o u key ((params.get? key).getD (.int 0)))]
  · rfl
  · intro key hk
    have hk : key ∈ params.keys := (ssort_perm _ _).mem_iff.mp hk
    obtain ⟨v, hv⟩ := Option.isSome_iff_exists.mp ((Dict.mem_keys_iff params key).mp hk)
    unfold dictGet
    rw [hv]
    rfl

/-- **C32**, csv: one line for every parameter, in ascending order of the names, with the value at
the start and after each change. -/
theorem C32_csv (fmt : Value → Str) (o : ParamOpts) (u : ULog) (hf : o.format = py! "csv")
    (hi : o.initial = false) (hd : o.default = none) (ht : o.timestamps = false)
    (hn : u.initialParams.keys.Nodup) :
    ∃ keys, keys.Perm u.initialParams.keys ∧ Ascending keys ∧
      paramsText fmt o u = .ok (keys.map fun k => csvRow o.delim
        (k :: (history u k ((u.initialParams.get? k).getD (.int 0))).map fmt)).flatten := by
  obtain ⟨h1, h2⟩ := sortedKeys_spec u.initialParams hn
  refine ⟨sortedKeys u.initialParams, h1, h2, ?_⟩
  rw [paramsText_lines fmt o u u.initialParams (by unfold selectParams; rw [hd])]
  congr 2
  apply List.map_congr_left
  intro k _
  unfold paramText
  dsimp only
  rw [if_pos hf]
  unfold paramCsv csvRow history
  rw [ht, hi, hd]
  simp only [Bool.false_eq_true, if_false, Bool.or_self, Option.isSome_none]
  rw [← changesOf_vals]
  have := delimited_eq o.delim k (((u.initialParams.get? k).getD (.int 0) :: (changesOf u k).map (·.2)).map fmt)
  rw [← this]
  simp [delimited, List.map_map, Function.comp_def]

/-- the default parameters that `--default` selects -/
def Spec.DefaultsAre (u : ULog) (which : Str) (params : Dict Str Value) : Prop :=
  u.compat.getD 0 0 % 2 = 1 ∧
    ((which = py! "system" ∧ params = (u.defaultParams.get? 0).getD []) ∨
     (which = py! "current_setup" ∧ params = (u.defaultParams.get? 1).getD []))

theorem getDefaults_of {u : ULog} {which : Str} {params : Dict Str Value} (h : Spec.DefaultsAre u which params) :
    getDefaults u which = .ok params := by
  unfold getDefaults hasDefaultParameters
  rw [if_pos (by simpa using h.1)]
  rcases h.2 with ⟨rfl, rfl⟩ | ⟨rfl, rfl⟩
  · rfl
  · rfl

/-- **C32**, `--default` of a log that does not store default parameters fails -/
theorem C32_no_defaults (fmt : Value → Str) (o : ParamOpts) (u : ULog) {which : Str} (hd : o.default = some which)
    (hc : u.compat.getD 0 0 % 2 = 0) : paramsText fmt o u = .error .assertionError := by
  unfold paramsText selectParams getDefaults hasDefaultParameters
  rw [hd]
  dsimp only
  rw [if_neg (by rw [hc]; decide)]
  rfl

example : paramsText (fun _ => []) { default := some (py! "system") } { compat := [0, 0, 0, 0, 0, 0, 0, 0] } =
    .error .assertionError := C32_no_defaults _ _ _ rfl (by decide)

/-- **C32**, csv with `--initial` or `--default`: only the selected values. -/
theorem C32_csv_initial (fmt : Value → Str) (o : ParamOpts) (u : ULog) (params : Dict Str Value)
    (hf : o.format = py! "csv") (ht : o.timestamps = false)
    (hsel : (o.default = none ∧ o.initial = true ∧ params = u.initialParams) ∨
      (∃ which, o.default = some which ∧ Spec.DefaultsAre u which params))
    (hn : params.keys.Nodup) :
    ∃ keys, keys.Perm params.keys ∧ Ascending keys ∧
      paramsText fmt o u = .ok (keys.map fun k => csvRow o.delim
        [k, fmt ((params.get? k).getD (.int 0))]).flatten := by
  obtain ⟨h1, h2⟩ := sortedKeys_spec params hn
  refine ⟨sortedKeys params, h1, h2, ?_⟩
  rw [paramsText_lines fmt o u params (by
    unfold selectParams
    rcases hsel with ⟨h, _, e⟩ | ⟨w, h, e⟩
    · rw [h, e]
    · rw [h]; exact getDefaults_of e)]
  congr 2
  apply List.map_congr_left
  intro k _
  unfold paramText
  dsimp only
  rw [if_pos hf]
  have hin : (o.initial || o.default.isSome) = true := by
    rcases hsel with ⟨_, h, _⟩ | ⟨w, h, _⟩
    · rw [h]; rfl
    · rw [h]; simp
  unfold paramCsv csvRow
  rw [ht, hin]
  simp

/-- **C32**, csv with `--timestamps`: every parameter has a line with its values and a line with the
times of the changes, 0 for the value at the start. -/
theorem C32_csv_timestamps (fmt : Value → Str) (o : ParamOpts) (u : ULog) (hf : o.format = py! "csv")
    (hd : o.default = none) (ht : o.timestamps = true) (hn : u.initialParams.keys.Nodup) :
    ∃ keys, keys.Perm u.initialParams.keys ∧ Ascending keys ∧
      paramsText fmt o u = .ok (keys.map fun k =>
        csvRow o.delim (k :: (history u k ((u.initialParams.get? k).getD (.int 0))).map fmt) ++
        csvRow o.delim (py! "timestamp" :: (0 :: changeTimes u k).map natDec)).flatten := by
  obtain ⟨h1, h2⟩ := sortedKeys_spec u.initialParams hn
  refine ⟨sortedKeys u.initialParams, h1, h2, ?_⟩
  rw [paramsText_lines fmt o u u.initialParams (by unfold selectParams; rw [hd])]
  congr 2
  apply List.map_congr_left
  intro k _
  unfold paramText
  dsimp only
  rw [if_pos hf]
  unfold paramCsv csvRow history
  rw [ht]
  simp only [if_true]
  rw [← changesOf_vals, ← changesOf_times]
  rw [← delimited_eq, ← delimited_eq]
  have h0 : natDec 0 = py! "0" := by decide
  simp [delimited, List.map_map, Function.comp_def, h0]

/-- **C32**, qgc: one line for every parameter, with the name, the value and the type (9 for floating
point numbers, 6 for integers). -/
theorem C32_qgc (fmt : Value → Str) (o : ParamOpts) (u : ULog) (hf : o.format = py! "qgc")
    (hd : o.default = none) (hn : u.initialParams.keys.Nodup) :
    ∃ keys, keys.Perm u.initialParams.keys ∧ Ascending keys ∧
      paramsText fmt o u = .ok (keys.map fun k => csvRow (py! "\t")
        [py! "1", py! "1", k, fmt ((u.initialParams.get? k).getD (.int 0)),
          match u.initialParams.get? k with
          | some (.float _) => py! "9"
          | _ => py! "6"]).flatten := by
  obtain ⟨h1, h2⟩ := sortedKeys_spec u.initialParams hn
  refine ⟨sortedKeys u.initialParams, h1, h2, ?_⟩
  rw [paramsText_lines fmt o u u.initialParams (by unfold selectParams; rw [hd])]
  congr 2
  apply List.map_congr_left
  intro k hk
  have hk : k ∈ u.initialParams.keys := h1.mem_iff.mp hk
  obtain ⟨v, hv⟩ := Option.isSome_iff_exists.mp ((Dict.mem_keys_iff _ k).mp hk)
  unfold paramText
  dsimp only
  rw [if_neg (by rw [hf]; decide), if_neg (by rw [hf]; decide), if_pos hf, hv]
  unfold paramQgc csvRow isFloat
  cases v <;> simp

/-- **C32**, octave: one block for every parameter, a scalar or a row of all its values. -/
theorem C32_octave (fmt : Value → Str) (o : ParamOpts) (u : ULog) (hf : o.format = py! "octave")
    (hi : o.initial = false) (hd : o.default = none) (hn : u.initialParams.keys.Nodup) :
    ∃ keys, keys.Perm u.initialParams.keys ∧ Ascending keys ∧
      paramsText fmt o u = .ok (keys.map fun k =>
        let vs := history u k ((u.initialParams.get? k).getD (.int 0))
        if vs.length = 1 then py! "# name " ++ k ++ py! "\n# type: scalar\n" ++
            (vs.map fmt).flatten ++ py! "\n"
        else py! "# name " ++ k ++ py! "\n# type: matrix\n# rows: 1\n# columns: " ++ natDec vs.length ++
            py! "\n" ++ (vs.map fun v => fmt v ++ py! " ").flatten ++ py! "\n").flatten := by
  obtain ⟨h1, h2⟩ := sortedKeys_spec u.initialParams hn
  refine ⟨sortedKeys u.initialParams, h1, h2, ?_⟩
  rw [paramsText_lines fmt o u u.initialParams (by unfold selectParams; rw [hd])]
  congr 2
  apply List.map_congr_left
  intro k _
  unfold paramText
  dsimp only
  rw [if_neg (by rw [hf]; decide), if_pos hf]
  unfold paramOctave history
  rw [hi, hd]
  simp only [Bool.false_eq_true, if_false, Bool.or_self, Option.isSome_none]
  rw [← changesOf_vals]
  cases hc : (changesOf u k).map (·.2) with
  | nil => simp
  | cons x xs => simp

/-- two parameters, one of which changes twice -/
def Sample.params : ULog :=
  { initialParams := [(py! "B", .int 2), (py! "A", .float 0)]
    changedParams := [(10, py! "B", .int 3), (20, py! "A", .float 1), (30, py! "B", .int 4)] }

def Sample.fmtV : Value → Str
  | .int n => intDec n
  | .float n => natDec n ++ py! ".0"
  | _ => []

example : (paramsText Sample.fmtV {} Sample.params).toOption = some (py! "A,0.0,1.0\nB,2,3,4\n") := by
  decide +kernel
example : (paramsText Sample.fmtV { timestamps := true } Sample.params).toOption
    = some (py! "A,0.0,1.0\ntimestamp,0,20\nB,2,3,4\ntimestamp,0,10,30\n") := by decide +kernel
example : (paramsText Sample.fmtV { format := py! "qgc" } Sample.params).toOption
    = some (py! "1\t1\tA\t0.0\t9\n1\t1\tB\t2\t6\n") := by decide +kernel
example : Sample.params.initialParams.keys.Nodup := by decide
example : Spec.DefaultsAre { compat := [1, 0, 0, 0, 0, 0, 0, 0], defaultParams := [(0, []), (1, [(py! "A", .int 1)])] }
    (py! "current_setup") [(py! "A", .int 1)] := ⟨by decide, .inr ⟨rfl, rfl⟩⟩

/-! ### C33 -/

/-- **C33**, levels: the bytes `'0'` to `'7'` are the syslog levels in order, all others are unknown. -/
theorem C33_levels (level : Nat) :
    logLevelStr level =
      if h : 48 ≤ level ∧ level < 56 then
        [py! "EMERGENCY", py! "ALERT", py! "CRITICAL", py! "ERROR", py! "WARNING", py! "NOTICE",
          py! "INFO", py! "DEBUG"][level - 48]'(by simp; omega)
      else py! "UNKNOWN" := by
  split
  · rename_i h
    rcases (show level = 48 ∨ level = 49 ∨ level = 50 ∨ level = 51 ∨ level = 52 ∨ level = 53 ∨ level = 54 ∨
      level = 55 by omega) with rfl | rfl | rfl | rfl | rfl | rfl | rfl | rfl <;> rfl
  · rename_i h
    unfold logLevelStr
    simp only [Dict.get?]
    rw [if_neg (by omega), if_neg (by omega), if_neg (by omega), if_neg (by omega), if_neg (by omega),
      if_neg (by omega), if_neg (by omega), if_neg (by omega)]
    rfl

/-- **C33**, times: minutes and seconds are below 60 and the parts add up to the whole seconds. -/
theorem C33_parts (t : Nat) : (hms t).2.1 < 60 ∧ (hms t).2.2 < 60 ∧
    3600 * (hms t).1 + 60 * (hms t).2.1 + (hms t).2.2 = wholeSeconds t := by
  unfold hms
  dsimp only
  omega

/-- **C33**, times: for timestamps below 2^53 microseconds (285 years) the whole seconds are exact. -/
theorem C33_seconds_partial (t : Nat) (ht : t < 2 ^ 53) : wholeSeconds t = t / 1000000 := by
  unfold wholeSeconds
  have hr : rnd53 t = t := by unfold rnd53; rw [if_pos ht]
  rw [hr]
  dsimp only
  have hd : t / 1000000 < 2 ^ 34 := by
    have : (2 : Nat) ^ 53 / 1000000 < 2 ^ 34 := by decide
    have := Nat.div_le_div_right (c := 1000000) (Nat.le_of_lt ht)
    omega
  have he : (t / 1000000).log2 < 34 := by
    rcases Nat.eq_zero_or_pos (t / 1000000) with h | h
    · rw [h]; decide
    · exact (Nat.log2_lt (by omega)).mpr hd
  rw [if_pos (by omega)]
  generalize (t / 1000000).log2 = e at he
  obtain ⟨K, hK⟩ : ∃ K, 52 - e = K := ⟨_, rfl⟩
  rw [hK]
  have hK19 : 2 ^ 19 ≤ 2 ^ K := Nat.pow_le_pow_right (by omega) (by omega)
  have hpos : 0 < 2 ^ K := Nat.two_pow_pos K
  obtain ⟨b1, b2⟩ := rneDiv_bounds (t * 2 ^ K) 1000000 (by omega)
  generalize rneDiv (t * 2 ^ K) 1000000 = m at b1 b2
  have h1 := Nat.div_add_mod t 1000000
  have h2 := Nat.mod_lt t (show 0 < 1000000 by omega)
  generalize t / 1000000 = d at h1
  generalize t % 1000000 = r at h1 h2
  subst h1
  generalize 2 ^ K = P at *
  have e1 : (1000000 * d + r) * P = 1000000 * (d * P) + r * P := by
    rw [Nat.add_mul, Nat.mul_assoc]
  rw [e1] at b1 b2
  have hrP : r * P ≤ 999999 * P := Nat.mul_le_mul_right _ (by omega)
  have hlow : d * P ≤ m := by omega
  have hhigh : m < d * P + P := by
    have : (2 : Nat) ^ 19 = 524288 := by decide
    omega
  apply Nat.div_eq_of_lt_le
  · exact hlow
  · rw [Nat.add_mul, Nat.one_mul]; exact hhigh

/-- the conversion of a 64 bit number to binary64 changes it by 1024 at most -/
theorem rnd53_close (t : Nat) (ht : t < 2 ^ 64) : rnd53 t ≤ t + 1024 ∧ t ≤ rnd53 t + 1024 := by
  unfold rnd53
  split
  · omega
  · rename_i h
    have hl : t.log2 < 64 := (Nat.log2_lt (by omega)).mpr ht
    obtain ⟨k, hk⟩ : ∃ k, t.log2 - 52 = k := ⟨_, rfl⟩
    have hP : 2 ^ k ≤ 2 ^ 11 := Nat.pow_le_pow_right (by omega) (by omega)
    rw [hk]
    unfold rne
    dsimp only
    have h1 := Nat.div_add_mod t (2 ^ k)
    have h2 := Nat.mod_lt t (Nat.two_pow_pos k)
    have hP1 := Nat.two_pow_pos k
    generalize 2 ^ k = P at *
    generalize t / P = q at *
    generalize t % P = r at *
    have e1 : q * P = P * q := Nat.mul_comm _ _
    have e2 : (q + 1) * P = P * q + P := by rw [Nat.add_mul, e1, Nat.one_mul]
    split
    · rw [e1]; omega
    · split
      · rw [e2]; omega
      · split
        · rw [e1]; omega
        · rcases (show q % 2 = 0 ∨ q % 2 = 1 by omega) with h5 | h5
          · rw [h5, Nat.add_zero, e1]; omega
          · rw [h5, e2]; omega

/-- **C33**, times: for every 64 bit timestamp the printed second is right up to 3 ms: it can differ
only when the timestamp is within 3 ms of a full second. -/
theorem C33_seconds_close (t : Nat) (ht : t < 2 ^ 64) :
    wholeSeconds t * 1000000 < t + 3000 ∧ t < (wholeSeconds t + 1) * 1000000 + 3000 := by
  obtain ⟨c1, c2⟩ := rnd53_close t ht
  unfold wholeSeconds
  dsimp only
  generalize rnd53 t = p at c1 c2
  have hd : p / 1000000 < 2 ^ 45 := by
    have h1 : p ≤ 2 ^ 64 + 1024 := by omega
    have h2 := Nat.div_le_div_right (c := 1000000) h1
    have h3 : (2 ^ 64 + 1024) / 1000000 < 2 ^ 45 := by decide
    omega
  have he : (p / 1000000).log2 < 45 := by
    rcases Nat.eq_zero_or_pos (p / 1000000) with h | h
    · rw [h]; decide
    · exact (Nat.log2_lt (by omega)).mpr hd
  rw [if_pos (by omega)]
  generalize (p / 1000000).log2 = e at he
  obtain ⟨K, hK⟩ : ∃ K, 52 - e = K := ⟨_, rfl⟩
  rw [hK]
  have hP : 2 ^ 8 ≤ 2 ^ K := Nat.pow_le_pow_right (by omega) (by omega)
  obtain ⟨b1, b2⟩ := rneDiv_bounds (p * 2 ^ K) 1000000 (by omega)
  generalize rneDiv (p * 2 ^ K) 1000000 = m at b1 b2
  have h1 := Nat.div_add_mod m (2 ^ K)
  have h2 := Nat.mod_lt m (Nat.two_pow_pos K)
  generalize 2 ^ K = P at *
  generalize m / P = s at *
  generalize m % P = r at *
  have key : ∀ x y : Nat, x * P < y * P → x < y := fun x y h => Nat.lt_of_mul_lt_mul_right h
  have e0 : s * 1000000 * P = 1000000 * (P * s) := by
    rw [Nat.mul_comm s, Nat.mul_assoc, Nat.mul_comm s]
  have u1 : s * 1000000 < p + 1954 := by
    apply key
    rw [e0, Nat.add_mul]
    omega
  have u2 : p < (s + 1) * 1000000 + 1 := by
    apply key
    have e3 : ((s + 1) * 1000000 + 1) * P = 1000000 * (P * s) + 1000000 * P + P := by
      rw [Nat.add_mul, Nat.add_mul, Nat.add_mul, e0]; omega
    rw [e3]
    omega
  omega

/-- So the second is at most one off, and it is exact away from full seconds. -/
theorem C33_seconds_away (t : Nat) (ht : t < 2 ^ 64)
    (hm : 3000 ≤ t % 1000000 ∧ t % 1000000 ≤ 997000) : wholeSeconds t = t / 1000000 := by
  have := C33_seconds_close t ht
  omega

/-- the failing part of **C33**: for later timestamps the printed second can be too large -/
theorem C33_seconds_large : wholeSeconds (2 ^ 34 * 1000000 + 999999) = 2 ^ 34 + 1 := by decide +kernel

/-- or too small, at a full second -/
theorem C33_seconds_small : wholeSeconds (1099511627693 * 1000000) = 1099511627692 := by decide +kernel

example : (3000 ≤ 1099511627693500000 % 1000000 ∧ 1099511627693500000 % 1000000 ≤ 997000) ∧
    2 ^ 53 < 1099511627693500000 ∧ 1099511627693500000 < 2 ^ 64 := by decide

/-- **C33**: logs of other systems: every message gives a line, in log order. -/
theorem C33_lines (u : ULog) (events : Except PyErr (List (Nat × Str × Str)))
    (h : u.info.get? (py! "sys_name") ≠ some (.str (py! "PX4"))) :
    messageLines u events = .ok (u.logged.map fun m =>
      messageLine (m.ts, logLevelStr m.level, m.msg)) := by
  unfold messageLines allMessages
  dsimp only
  rw [if_neg h]
  show Except.ok _ = _
  rw [List.map_map]
  rfl

theorem mergeMessages_spec (ms events : List (Nat × Str × Str)) (h : ∀ m ∈ ms, m.2.2 ≠ []) :
    mergeMessages ms events = .ok (events ++ ms.filter fun m => m.2.2.getLast? ≠ some '\t') := by
  induction ms generalizing events with
  | nil => simp [mergeMessages]
  | cons m ms ih =>
    unfold mergeMessages
    have hm := h m (by simp)
    obtain ⟨c, hc⟩ : ∃ c, m.2.2.getLast? = some c := by
      cases hl : m.2.2.getLast? with
      | none => exact absurd (List.getLast?_eq_none_iff.mp hl) hm
      | some c => exact ⟨c, rfl⟩
    rw [hc]
    dsimp only
    rw [ih _ (fun m hm => h m (by simp [hm])), List.filter_cons, hc]
    by_cases ht : c = '\t'
    · simp [ht]
    · simp [ht]

/-- **C33**: PX4 logs: the lines are those of the events and of the messages without a trailing tab,
sorted by time; at the same time events come before messages, and each in its order. -/
theorem C33_lines_px4 (u : ULog) (ev : List (Nat × Str × Str))
    (h : u.info.get? (py! "sys_name") = some (.str (py! "PX4"))) (hne : ∀ m ∈ u.logged, m.msg ≠ []) :
    ∃ all : List (Nat × Str × Str), messageLines u (.ok ev) = .ok (all.map messageLine) ∧
      all.Perm (ev ++ (u.logged.filter fun m => m.msg.getLast? ≠ some '\t').map
        fun m => (m.ts, logLevelStr m.level, m.msg)) ∧
      (all.map (·.1)).Pairwise (· ≤ ·) ∧
      ∀ t, all.filter (fun m => m.1 = t) = ev.filter (fun m => m.1 = t) ++
        ((u.logged.filter fun m => m.msg.getLast? ≠ some '\t' ∧ m.ts = t).map
          fun m => (m.ts, logLevelStr m.level, m.msg)) := by
  have hmerge := mergeMessages_spec (u.logged.map fun m => (m.ts, logLevelStr m.level, m.msg)) ev (by
    intro m hm
    obtain ⟨x, hx, rfl⟩ := List.mem_map.mp hm
    exact hne x hx)
  have hpre : TotalPre (fun (a b : Nat × Str × Str) => decide (a.1 ≤ b.1)) :=
    ⟨fun a b c => by simp only [decide_eq_true_eq]; omega,
      fun a b => by simp only [decide_eq_true_eq]; omega⟩
  have hf : (u.logged.map fun m => (m.ts, logLevelStr m.level, m.msg)).filter
      (fun m => m.2.2.getLast? ≠ some '\t')
      = (u.logged.filter fun m => m.msg.getLast? ≠ some '\t').map
        fun m => (m.ts, logLevelStr m.level, m.msg) := by
    rw [List.filter_map]
    rfl
  rw [hf] at hmerge
  refine ⟨ssort (fun (a b : Nat × Str × Str) => decide (a.1 ≤ b.1)) (ev ++ (u.logged.filter fun m =>
    m.msg.getLast? ≠ some '\t').map fun m => (m.ts, logLevelStr m.level, m.msg)), ?_, ssort_perm _ _, ?_, ?_⟩
  · unfold messageLines allMessages
    dsimp only
    rw [if_pos h]
    show Except.bind (Except.bind (mergeMessages _ _) _) _ = _
    rw [hmerge]
    rfl
  · rw [List.pairwise_map]
    exact (ssort_sorted hpre _).imp fun h => by simpa using h
  · intro t
    have := ssort_stable hpre (t, [], []) (ev ++ (u.logged.filter fun m =>
      m.msg.getLast? ≠ some '\t').map fun m => (m.ts, logLevelStr m.level, m.msg))
    have hp : (fun x : Nat × Str × Str => (decide (t ≤ x.1) && decide (x.1 ≤ t)))
        = fun m => decide (m.1 = t) := by
      funext x
      rw [← Bool.decide_and, decide_eq_decide]
      omega
    dsimp only at this
    rw [hp] at this
    rw [this, List.filter_append, List.filter_map, List.filter_filter]
    congr 3
    funext m
    simp [Bool.and_comm]

/-- finding: an empty message in a PX4 log stops `ulog_messages` with IndexError -/
theorem C33_empty_message (u : ULog) (ev : List (Nat × Str × Str))
    (h : u.info.get? (py! "sys_name") = some (.str (py! "PX4"))) (hne : ∃ m ∈ u.logged, m.msg = []) :
    messageLines u (.ok ev) = .error .indexError := by
  have key : ∀ (ms events : List (Nat × Str × Str)), (∃ m ∈ ms, m.2.2 = []) →
      mergeMessages ms events = .error .indexError := by
    intro ms
    induction ms with
    | nil => rintro _ ⟨_, h, _⟩; cases h
    | cons m ms ih =>
      intro events he
      unfold mergeMessages
      cases hl : m.2.2.getLast? with
      | none => rfl
      | some c =>
        dsimp only
        apply ih
        obtain ⟨x, hx, hx2⟩ := he
        rcases List.mem_cons.mp hx with rfl | hx
        · rw [hx2] at hl; cases hl
        · exact ⟨x, hx, hx2⟩
  unfold messageLines allMessages
  dsimp only
  rw [if_pos h]
  show Except.bind (Except.bind (mergeMessages _ _) _) _ = _
  rw [key _ _ (by
    obtain ⟨m, hm, hm2⟩ := hne
    exact ⟨_, List.mem_map.mpr ⟨m, hm, rfl⟩, hm2⟩)]
  rfl

example : messageLine (3723000000, py! "INFO", py! "hi") = py! "1:02:03 INFO: hi" := by decide +kernel
/-- a PX4 log with two messages -/
def Sample.px4Msgs : ULog :=
  { info := [(py! "sys_name", .str (py! "PX4"))]
    logged := [⟨54, 5000000, py! "b"⟩, ⟨51, 2000000, py! "a\t"⟩] }

example : (messageLines Sample.px4Msgs (.ok [(7000000, py! "INFO", py! "e")])).toOption
    = some [py! "0:00:05 INFO: b", py! "0:00:07 INFO: e"] := by decide +kernel

/-! ### C35 -/

/-- the value is the number `n`: an integer, a bool (0 or 1), or a finite floating point number whose
magnitude in units of 2^-1074 and sign are those of `n` -/
def Spec.NumEq (v : Value) (n : Int) : Prop :=
  match v with
  | .int k => k = n
  | .bool b => n = if b then 1 else 0
  | .float b => finite64 b ∧ mag64 b = n.natAbs * 2 ^ 1074 ∧ (n = 0 ∨ (b.testBit 63 = true ↔ n < 0))
  | _ => False

theorem floatEqInt_spec (b : Nat) (n : Int) :
    floatEqInt b n = true ↔ NumEq (.float b) n := by
  have hs : b.testBit 63 = true ↔ b / 2 ^ 63 % 2 = 1 := by
    rw [Nat.testBit_eq_decide_div_mod_eq, decide_eq_true_eq]
  have hlt : b / 2 ^ 52 % 2048 < 2048 := Nat.mod_lt _ (by omega)
  have he : (2 : Nat) ^ 11 = 2048 := by decide
  unfold floatEqInt NumEq finite64 mag64 exp64 frac64
  dsimp only
  rw [hs, he]
  generalize b / 2 ^ 63 % 2 = s
  generalize b / 2 ^ 52 % 2048 = e at hlt
  generalize b % 2 ^ 52 = m
  generalize 2 ^ 52 = q
  generalize n.natAbs = k
  by_cases h7 : e = 2047
  · rw [if_pos h7]
    exact ⟨fun h => absurd h (by decide), fun h => absurd h7 h.1⟩
  · rw [if_neg h7]
    have hmag : ((if e = 0 then m else m + q) * 2 ^ (max e 1 - 1075) = k * 2 ^ (1075 - max e 1)) ↔
        (if e = 0 then m else (q + m) * 2 ^ (e - 1)) = k * 2 ^ 1074 := by
      have h1 : (if e = 0 then m else (q + m) * 2 ^ (e - 1)) = (if e = 0 then m else m + q) * 2 ^ (max e 1 - 1) := by
        by_cases h0 : e = 0
        · subst h0; simp
        · rw [if_neg h0, if_neg h0, Nat.add_comm, show max e 1 = e by omega]
      rw [h1]
      generalize (if e = 0 then m else m + q) = M
      obtain ⟨E, hE⟩ : ∃ E, max e 1 = E := ⟨_, rfl⟩
      have hE1 : 1 ≤ E := by omega
      rw [hE]
      by_cases hle : 1075 ≤ E
      · obtain ⟨d, rfl⟩ : ∃ d, E = 1075 + d := ⟨E - 1075, by omega⟩
        rw [show 1075 + d - 1075 = d by omega, show 1075 - (1075 + d) = 0 by omega,
          show 1075 + d - 1 = d + 1074 by omega, Nat.pow_zero, Nat.mul_one, Nat.pow_add, ← Nat.mul_assoc]
        exact ⟨fun h => by rw [h], fun h => Nat.eq_of_mul_eq_mul_right (Nat.two_pow_pos 1074) h⟩
      · obtain ⟨d, hd⟩ : ∃ d, 1075 - E = d := ⟨_, rfl⟩
        rw [hd, show E - 1075 = 0 by omega, Nat.pow_zero, Nat.mul_one]
        have hp : (2 : Nat) ^ 1074 = 2 ^ d * 2 ^ (E - 1) := by
          rw [← Nat.pow_add, show d + (E - 1) = 1074 by omega]
        rw [hp, ← Nat.mul_assoc]
        exact ⟨fun h => by rw [h], fun h => Nat.eq_of_mul_eq_mul_right (Nat.two_pow_pos _) h⟩
    rw [Bool.and_eq_true, decide_eq_true_eq, hmag, Bool.or_eq_true, decide_eq_true_eq, decide_eq_true_eq]
    constructor
    · rintro ⟨h1, h2⟩
      refine ⟨h7, h1, ?_⟩
      rcases h2 with h2 | h2
      · exact Or.inl h2
      · exact Or.inr (by rw [h2])
    · rintro ⟨_, h1, h2⟩
      refine ⟨h1, ?_⟩
      rcases h2 with h2 | h2
      · exact Or.inl h2
      · exact Or.inr (propext h2)

theorem valueEq_int (v : Value) (n : Int) : valueEq v (.int n) = true ↔ NumEq v n := by
  cases v with
  | str s => simp [valueEq, NumEq]
  | bytes s => simp [valueEq, NumEq]
  | int k => simp [valueEq, NumEq]
  | bool b =>
    unfold valueEq NumEq boolInt
    rw [decide_eq_true_eq]
    exact eq_comm
  | float b => exact floatEqInt_spec b n

theorem numEq_unique {v : Value} {i j : Nat} (hi : NumEq v i) (hj : NumEq v j) : i = j := by
  cases v with
  | str s => exact hi.elim
  | bytes s => exact hi.elim
  | int k => have h1 : k = (i : Int) := hi; have h2 : k = (j : Int) := hj; omega
  | bool b =>
    have h1 : (i : Int) = if b then 1 else 0 := hi
    have h2 : (j : Int) = if b then 1 else 0 := hj
    omega
  | float b =>
    have h1 := hi.2.1
    have h2 := hj.2.1
    rw [Int.natAbs_natCast] at h1 h2
    exact Nat.eq_of_mul_eq_mul_right (Nat.two_pow_pos 1074) (h1.symm.trans h2)

theorem find_zipIdx {l : List Str} {v : Value} {k i : Nat} {s : Str} (hs : l[i]? = some s) (hv : NumEq v (k + i : Nat)) :
    (l.zipIdx k).find? (fun p => valueEq v (.int p.2)) = some (s, k + i) := by
  induction l generalizing k i with
  | nil => simp at hs
  | cons x xs ih =>
    rw [List.zipIdx_cons, List.find?_cons]
    cases i with
    | zero =>
      rw [show valueEq v (.int ((x, k) : Str × Nat).2) = true from (valueEq_int v k).mpr (by simpa using hv)]
      simp at hs
      simp [hs]
    | succ i =>
      have hne : valueEq v (.int ((x, k) : Str × Nat).2) = false := by
        rw [← Bool.not_eq_true]
        intro h
        have := numEq_unique ((valueEq_int v k).mp h) hv
        omega
      rw [hne]
      have := ih (k := k + 1) (i := i) (by simpa using hs) (by rw [show k + 1 + i = k + (i + 1) by omega]; exact hv)
      rw [show k + (i + 1) = k + 1 + i by omega]
      exact this

theorem lookupIndex_some {l : List Str} {v : Value} {i : Nat} {s : Str} (hs : l[i]? = some s) (hv : NumEq v i) :
    lookupIndex l v = some s := by
  unfold lookupIndex
  rw [find_zipIdx (k := 0) (i := i) hs (by simpa using hv)]
  rfl

theorem lookupIndex_none {l : List Str} {v : Value} (h : ∀ i : Nat, i < l.length → ¬ NumEq v i) :
    lookupIndex l v = none := by
  unfold lookupIndex
  rw [Option.map_eq_none_iff, List.find?_eq_none]
  rintro ⟨s, i⟩ hp hc
  have := List.mem_zipIdx hp
  exact h i (by omega) ((valueEq_int v i).mp hc)

instance (v : Value) (n : Int) : Decidable (NumEq v n) := decidable_of_iff _ (valueEq_int v n)

/-- the parameter maps the channel -/
def Spec.Mapped (channel : Int) (p : Str × Value) : Prop := (py! "RC_MAP_") <+: p.1 ∧ NumEq p.2 (channel + 1)

instance (c : Int) (p : Str × Value) : Decidable (Mapped c p) :=
  decidable_of_iff ((py! "RC_MAP_").isPrefixOf p.1 = true ∧ NumEq p.2 (c + 1)) (by
    unfold Mapped; rw [List.isPrefixOf_iff_prefix])

/-- **C35**: the names are those of the parameters that map the channel, without the prefix and in
order of the parameters; None if there are no such parameters. -/
theorem C35_rc_names (cap : Str → Str) (u : ULog) (channel : Int) :
    rcInputNames cap u channel =
      if u.initialParams.filter (Mapped channel) = [] then none
      else some ((u.initialParams.filter (Mapped channel)).map fun p => cap (p.1.drop 7)) := by
  have hfm : ∀ l : Dict Str Value, l.filterMap (fun p =>
      if startsWith (py! "RC_MAP_") p.1 ∧ valueEq p.2 (.int (channel + 1)) = true then some (cap (p.1.drop 7))
      else none) = (l.filter (Mapped channel)).map fun p => cap (p.1.drop 7) := by
    intro l
    induction l with
    | nil => rfl
    | cons p ps ih =>
      rw [List.filterMap_cons, List.filter_cons, ih]
      have hiff : (startsWith (py! "RC_MAP_") p.1 ∧ valueEq p.2 (.int (channel + 1)) = true) ↔ Mapped channel p := by
        unfold startsWith Mapped
        rw [valueEq_int, List.isPrefixOf_iff_prefix]
      by_cases h : Mapped channel p
      · rw [if_pos (hiff.mpr h), if_pos (by simpa using h)]
        rfl
      · rw [if_neg (fun hc => h (hiff.mp hc)), if_neg (by simpa using h)]
  unfold rcInputNames
  dsimp only
  rw [hfm]
  generalize u.initialParams.filter (Mapped channel) = L
  cases L with
  | nil => rfl
  | cons x xs => simp

example : rcInputNames (fun s => s) { initialParams := [(py! "RC_MAP_ROLL", .int 1), (py! "RC_MAP_YAW", .int 4),
    (py! "X", .int 4), (py! "RC_MAP_AUX1", .float 0x4010000000000000)] } 3
    = some [py! "YAW", py! "AUX1"] := by decide +kernel

/-! ### C55 -/

/-- the MAVLink vehicle types (`MAV_TYPE`) -/
def Spec.vehicleTypes : List Str := [
  py! "Generic", py! "Fixed Wing", py! "Quadrotor", py! "Coaxial helicopter",
  py! "Normal helicopter with tail rotor", py! "Ground installation", py! "Ground Control Station",
  py! "Airship, controlled", py! "Free balloon, uncontrolled", py! "Rocket", py! "Ground Rover",
  py! "Surface Vessel, Boat, Ship", py! "Submarine", py! "Hexarotor", py! "Octorotor", py! "Tricopter",
  py! "Flapping wing", py! "Kite", py! "Onboard Companion Controller", py! "Two-rotor VTOL (Tailsitter)",
  py! "Quad-rotor VTOL (Tailsitter)", py! "Tiltrotor VTOL", py! "VTOL Standard", py! "VTOL Tailsitter",
  py! "VTOL reserved 4", py! "VTOL reserved 5", py! "Onboard Gimbal", py! "Onboard ADSB Peripheral"]

/-- **C55**, vehicle type: the name belongs to the value of `MAV_TYPE` at the start; missing and unknown
values give "unknown type". -/
theorem C55_vehicle_type (u : ULog) :
    (∀ v i s, u.initialParams.get? (py! "MAV_TYPE") = some v → vehicleTypes[i]? = some s → NumEq v (i : Nat) →
      getMavType u = s) ∧
    ((∀ v, u.initialParams.get? (py! "MAV_TYPE") = some v → ∀ i < 28, ¬ NumEq v (i : Nat)) →
      getMavType u = py! "unknown type") := by
  constructor
  · intro v i s hv hs hn
    unfold getMavType
    rw [hv]
    dsimp only
    rw [lookupIndex_some (l := mavTypes) (i := i) (s := s) hs hn]
    rfl
  · intro h
    unfold getMavType
    cases hv : u.initialParams.get? (py! "MAV_TYPE") with
    | none => rfl
    | some v =>
      dsimp only
      rw [lookupIndex_none (l := mavTypes) (h v hv)]
      rfl

/-- **C55**, estimator: fixed wing vehicles use EKF2; otherwise the parameter `SYS_MC_EST_GROUP`
selects it, 2 when it is missing. -/
theorem C55_estimator (fmt : Value → Str) (u : ULog) :
    ((∃ v, u.initialParams.get? (py! "MAV_TYPE") = some v ∧ NumEq v 1) → getEstimator fmt u = py! "EKF2") ∧
    ((∀ v, u.initialParams.get? (py! "MAV_TYPE") = some v → ¬ NumEq v 1) →
      (u.initialParams.get? (py! "SYS_MC_EST_GROUP") = none → getEstimator fmt u = py! "EKF2") ∧
      ∀ v, u.initialParams.get? (py! "SYS_MC_EST_GROUP") = some v →
        (NumEq v 0 → getEstimator fmt u = py! "INAV") ∧
        (NumEq v 1 → getEstimator fmt u = py! "LPE") ∧
        (NumEq v 2 → getEstimator fmt u = py! "EKF2") ∧
        (NumEq v 3 → getEstimator fmt u = py! "Q") ∧
        ((∀ i < 4, ¬ NumEq v (i : Nat)) → getEstimator fmt u = py! "unknown (" ++ fmt v ++ py! ")")) := by
  constructor
  · rintro ⟨v, hv, hn⟩
    unfold getEstimator isFixedWing
    rw [hv]
    dsimp only
    rw [if_pos ((valueEq_int v 1).mpr hn)]
  · intro h
    have hfw : ¬ isFixedWing u = true := by
      unfold isFixedWing
      cases hv : u.initialParams.get? (py! "MAV_TYPE") with
      | none => simp
      | some v => exact fun hc => h v hv ((valueEq_int v 1).mp hc)
    unfold getEstimator
    dsimp only
    rw [if_neg hfw]
    constructor
    · intro hv
      rw [hv]
      rfl
    · intro v hv
      rw [hv]
      dsimp only [Option.getD_some]
      refine ⟨fun hn => ?_, fun hn => ?_, fun hn => ?_, fun hn => ?_, fun hn => ?_⟩
      · rw [lookupIndex_some (i := 0) rfl hn]; rfl
      · rw [lookupIndex_some (i := 1) rfl hn]; rfl
      · rw [lookupIndex_some (i := 2) rfl hn]; rfl
      · rw [lookupIndex_some (i := 3) rfl hn]; rfl
      · rw [lookupIndex_none (l := [py! "INAV", py! "LPE", py! "EKF2", py! "Q"]) hn]; rfl

example : getMavType { initialParams := [(py! "MAV_TYPE", .int 13)] } = py! "Hexarotor" := by decide +kernel
example : getMavType { initialParams := [(py! "MAV_TYPE", .float 0x4000000000000000)] } = py! "Quadrotor" := by
  decide +kernel
example : getEstimator (fun _ => []) { initialParams := [(py! "SYS_MC_EST_GROUP", .int 3)] } = py! "Q" := by
  decide +kernel

end PyULog
