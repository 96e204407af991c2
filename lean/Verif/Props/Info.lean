import Verif.Lemmas.Info
import Verif.Spec.SampleRun
import Verif.Props.Datasets
import Verif.Props.Ros2
/-
C70, C71, C72: what `ulog_info` prints.
-/
namespace PyULog
open Spec

/-! ### C70: the listing -/

/-- **C70**: the listing of a loaded log with times and dropouts below 2^53, a readable version and a
`timestamp` column in each dataset: the times and dropouts in exact arithmetic, every info message
(those with `perf_` only when verbose) in ascending order of the keys, every multi info message in
ascending order, and every dataset with the number of its samples. -/
theorem C70_listing_partial {fuel : Nat} {cfg : Cfg} {bs : Bytes} {u : ULog} (h : load fuel cfg bs = .ok u)
    (fmt : Value → Str) (fl : List (List Value) → Str) (verbose : Bool) {version : Option Str}
    (hv : getVersionInfoStr u = .ok version) (ht : u.lastTs < 2 ^ 53)
    (hs : (u.dropouts.map (·.duration)).sum < 2 ^ 53)
    (hd : ∀ d ∈ u.dataList, py! "timestamp" ∈ d.data.keys) :
    ∃ (line : Str) (infos : List (Str × Value)) (multis : List (Str × List (List Value)))
      (rows : List (Dataset × Nat)),
      DropoutLine (u.dropouts.map (·.duration)) line ∧
      infos.Perm (u.info.filter fun e => shownKey verbose e.1) ∧ Ascending (infos.map (·.1)) ∧
      multis.Perm u.infoMulti ∧ Ascending (multis.map (·.1)) ∧
      TableOrder u.dataList (rows.map (·.1)) ∧ (∀ r ∈ rows, 0 < r.2 ∧ ∀ c ∈ r.1.data, c.2.length = r.2) ∧
      showInfo fmt fl verbose u = .ok (listing u.fileCorrupt (timesText u.startTs u.lastTs) line version
        (infos.map fun e => py! " " ++ e.1 ++ py! ": " ++ fmt e.2) (multiText fl verbose multis)
        (rows.map fun r => rowText r.1.name r.1.multiId (rowSize r.1.fields) r.2 (rowSize r.1.fields * r.2))) := by
  have hk := load_dicts h
  obtain ⟨infos, i1, i2, i3⟩ := infoLines_spec fmt verbose hk.info
  obtain ⟨multis, m1, m2, m3⟩ := multiLines_spec fl verbose hk.infoMulti
  have hto := tableOrder_spec u.dataList
  have hcount : ∀ d ∈ tableOrder u.dataList, ∃ n, 0 < n ∧ ∀ c ∈ d.data, c.2.length = n := fun d hm =>
    (loaded_dataset h (hto.1.mem_iff.mp hm)).2.2.2
  obtain ⟨count, hc⟩ : ∃ count : Dataset → Nat, ∀ d ∈ tableOrder u.dataList,
      0 < count d ∧ ∀ c ∈ d.data, c.2.length = count d := by
    refine ⟨fun d => if hm : d ∈ tableOrder u.dataList then Classical.choose (hcount d hm) else 0, ?_⟩
    intro d hm
    simp only [dif_pos hm]
    exact Classical.choose_spec (hcount d hm)
  refine ⟨dropoutLine u, infos, multis, (tableOrder u.dataList).map fun d => (d, count d), dropoutLine_spec hs,
    i1, i2, m1, m2, ?_, ?_, ?_⟩
  · rw [List.map_map]
    have : ((fun x : Dataset × Nat => x.1) ∘ fun d => (d, count d)) = id := rfl
    rw [this, List.map_id]; exact hto
  · intro r hr
    obtain ⟨d, hm, rfl⟩ := List.mem_map.mp hr
    exact hc d hm
  · have hrows : (tableOrder u.dataList).mapM tableLine = .ok ((tableOrder u.dataList).map fun d =>
        rowText d.name d.multiId (rowSize d.fields) (count d) (rowSize d.fields * count d)) := by
      refine mapM_ok ?_
      intro d hm
      exact tableLine_spec (hc d hm).2 (hd d (hto.1.mem_iff.mp hm))
    have hts : u.startTs ≤ u.lastTs := by
      rw [C04_last_timestamp fuel cfg bs u h]
      exact (foldl_max_spec _ _).2.1
    have htime : timeLine u = .ok (timesText u.startTs u.lastTs) := by
      unfold timeLine timesText
      rw [if_neg (by omega), hmsStr_eq (by omega), hmsStr_eq (by omega)]
    unfold showInfo
    rw [htime, hv, i3, m3, hrows, List.map_map]
    show Except.ok _ = _
    unfold listing
    cases version <;> simp [tableHead, Function.comp_def]

/-- a log with a topic without `timestamp` -/
def Sample.untimed : Bytes :=
  Sample.header ++ encMsgs [(tyF, Sample.asc (py! "a:int16_t x;")), (tyA, [0, 3, 0] ++ Sample.asc (py! "a")),
    (tyD, leEnc 2 3 ++ leEnc 2 7)]

theorem mapM_each {α β : Type} {f : α → Except PyErr β} : ∀ {xs : List α} {ys : List β}, xs.mapM f = .ok ys →
    ∀ x ∈ xs, ∃ y, f x = .ok y
  | [], _, _, x, hx => by cases hx
  | a :: xs, ys, hm, x, hx => by
    rw [List.mapM_cons] at hm
    obtain ⟨y, h1, h2⟩ := except_bind_ok.mp hm
    obtain ⟨zs, h3, h4⟩ := except_bind_ok.mp h2
    rcases List.mem_cons.mp hx with rfl | hx
    · exact ⟨y, h1⟩
    · exact mapM_each h3 x hx

/-- the failing part of **C70**: a log with a topic without `timestamp` loads, and the listing is a
KeyError -/
theorem C70_untimed : ∃ u, load 20 {} Sample.untimed = .ok u ∧ u.dataList.length = 1 ∧
    ∀ fmt fl verbose lines, showInfo fmt fl verbose u ≠ .ok lines := by
  have h : (match load 20 {} Sample.untimed with
      | .ok u => decide (u.dataList.length = 1) && (tableOrder u.dataList).any fun d => (d.data.get? (py! "timestamp")).isNone
      | _ => false) = true := by decide +kernel
  cases hl : load 20 {} Sample.untimed with
  | ok u =>
    rw [hl] at h
    simp only [Bool.and_eq_true, decide_eq_true_eq, List.any_eq_true] at h
    refine ⟨u, rfl, h.1, ?_⟩
    intro fmt fl verbose lines hs
    obtain ⟨d, hd, hn⟩ := h.2
    have hbad : ∀ rows, (tableOrder u.dataList).mapM tableLine ≠ .ok rows := by
      intro rows hr
      obtain ⟨r, hr⟩ := mapM_each hr d hd
      unfold tableLine dictGet at hr
      cases hg : d.data.get? (py! "timestamp") with
      | none => rw [hg] at hr; cases hr
      | some v => rw [hg] at hn; cases hn
    unfold showInfo at hs
    obtain ⟨_, _, hs⟩ := except_bind_ok.mp hs
    obtain ⟨_, _, hs⟩ := except_bind_ok.mp hs
    obtain ⟨_, _, hs⟩ := except_bind_ok.mp hs
    obtain ⟨_, _, hs⟩ := except_bind_ok.mp hs
    obtain ⟨rows, hr, hs⟩ := except_bind_ok.mp hs
    exact hbad rows hr
  | _ => rw [hl] at h; cases h

/-- non-vacuity: the listing of the sample -/
example : (showInfo Sample.fmtV (fun _ => py! "L") false Sample.loaded).toOption = some [
    py! "Warning: file has data corruption(s)",
    py! "Logging start time: 0:00:00, duration: 0:00:00",
    py! "Dropouts: count: 1, total duration: 0.0 s, max: 20 ms, mean: 20 ms",
    py! "Info Messages:", py! " sys: ", py! "Info Multiple Messages: [m: 2]", [],
    py! "Name (multi id, message size in bytes)    number of data points, total bytes",
    py! " a (0, 10)                                      2         20",
    py! " b (1, 28)                                      1         28"] := by decide +kernel

example : (∀ d ∈ Sample.loaded.dataList, py! "timestamp" ∈ d.data.keys) ∧ Sample.loaded.lastTs = 120 ∧
    (getVersionInfoStr Sample.loaded).toOption = some none := by decide +kernel

/-! ### C71: the table -/

theorem sum_const {α : Type} {f : α → Nat} {n : Nat} : ∀ {l : List α}, (∀ a ∈ l, f a = n) →
    (l.map f).sum = n * l.length
  | [], _ => rfl
  | a :: l, h => by
    rw [List.map_cons, List.sum_cons, h a (List.mem_cons_self ..),
      sum_const fun b hb => h b (List.mem_cons_of_mem _ hb), List.length_cons, Nat.mul_add, Nat.mul_one, Nat.add_comm]

/-- **C71**: the row of a dataset of a loaded log with a `timestamp` column shows the topic, the instance,
the size of a sample, the number of messages that carried a sample for the last subscription with its id,
and the bytes that these messages had together. -/
theorem C71_row {fuel : Nat} {cfg : Cfg} {bs : Bytes} {u : ULog} (h : load fuel cfg bs = .ok u) {d : Dataset}
    (hd : d ∈ u.dataList) (ht : py! "timestamp" ∈ d.fields.map (·.name)) :
    ∃ t ∈ fileTrace fuel cfg bs, ∃ tp post, lastSub cfg d.msgId t = some (tp, post) ∧
      let samples := post.filterMap (sampleOf d.msgId (rowSize tp.fields))
      tableLine d = .ok (rowText tp.name tp.multiId (rowSize tp.fields) samples.length
        (samples.map List.length).sum) := by
  obtain ⟨t, htr, tp, post, hl, hpos, hne, he⟩ := (C06_datasets h d).mp hd
  refine ⟨t, htr, tp, post, hl, ?_⟩
  dsimp only
  have hlen : ∀ s ∈ post.filterMap (sampleOf d.msgId (rowSize tp.fields)), s.length = rowSize tp.fields := by
    intro s hs
    obtain ⟨x, _, hx⟩ := List.mem_filterMap.mp hs
    unfold sampleOf at hx
    split at hx
    · rename_i hc
      cases hx
      rw [List.length_drop, hc.2.1]; omega
    · cases hx
  rw [sum_const hlen]
  generalize post.filterMap (sampleOf d.msgId (rowSize tp.fields)) = samples at he
  have hf : d.fields = tp.fields := by rw [he]; rfl
  have hn : d.name = tp.name := by rw [he]; rfl
  have hm : d.multiId = tp.multiId := by rw [he]; rfl
  have hdat : d.data = columnsOf tp.fields samples := by rw [he]; rfl
  have := tableLine_spec (d := d) (n := samples.length) (by
    intro c hc
    rw [hdat] at hc
    obtain ⟨p, _, rfl⟩ := List.mem_map.mp hc
    exact List.length_map ..) (by
    show py! "timestamp" ∈ d.data.map (·.1)
    rw [hdat]
    unfold columnsOf
    rw [List.map_map]
    rw [hf] at ht
    obtain ⟨f, hf1, hf2⟩ := List.mem_map.mp ht
    obtain ⟨i, hi, hfi⟩ := List.mem_iff_getElem.mp hf1
    refine List.mem_map.mpr ⟨(f, i), ?_, (columnName_named i (by rw [hf2]; exact fun h => nomatch h)).trans hf2⟩
    rw [List.mem_iff_getElem]
    exact ⟨i, by simpa using hi, by simp [hfi]⟩)
  rw [hn, hm, hf] at this
  exact this

/-- **C71**: every dataset has exactly one row, rows are ascending by the text of name and instance, and
datasets with the same text keep their order. -/
theorem C71_order (l : List Dataset) : TableOrder l (tableOrder l) := tableOrder_spec l

theorem dec_digit {n : Nat} (h : n < 10) : dec n = [Char.ofNat (48 + n)] := by
  have : ∀ n : Fin 10, dec n.val = [Char.ofNat (48 + n.val)] := by decide
  exact this ⟨n, h⟩

/-- **C71**: among the instances of a topic below ten, the rows are in order of the instance. -/
theorem C71_instances_partial (l : List Dataset) :
    (tableOrder l).Pairwise fun a b => a.name = b.name → a.multiId < 10 → b.multiId < 10 →
      a.multiId ≤ b.multiId := by
  refine (tableOrder_spec l).2.1.imp ?_
  intro a b h hn ha hb
  unfold infoKey at h
  rw [hn, dec_digit ha, dec_digit hb, List.map_append, List.map_append] at h
  rcases Nat.lt_or_ge b.multiId a.multiId with hlt | hle
  · exfalso
    have hchar : ∀ n : Fin 10, (Char.ofNat (48 + n.val)).toNat = 48 + n.val := by decide
    have ea := hchar ⟨a.multiId, ha⟩
    have eb := hchar ⟨b.multiId, hb⟩
    dsimp only at ea eb
    simp only [List.map_cons, List.map_nil, ea, eb] at h
    have hgt : ∀ (p : List Nat) (x y : Nat), y < x → p ++ [y] < p ++ [x] := by
      intro p x y hxy
      induction p with
      | nil => exact List.Lex.rel hxy
      | cons c p ih => exact List.Lex.cons ih
    exact absurd (hgt (b.name.map Char.toNat) _ _ (show 48 + b.multiId < 48 + a.multiId by omega)) (List.not_lt.mpr h)
  · exact hle

/-- the failing part of **C71**: instance 10 comes before instance 2 -/
theorem C71_ten_before_two : ¬ ∀ l : List Dataset,
    (tableOrder l).Pairwise fun a b => a.name = b.name → a.multiId ≤ b.multiId := by
  intro h
  have := h [Sample.named (py! "a") 2, Sample.named (py! "a") 10]
  revert this
  decide +kernel

example : ((tableOrder [Sample.named (py! "b") 0, Sample.named (py! "a") 10, Sample.named (py! "a") 2]).map
    fun d => (d.name, d.multiId)) = [(py! "a", 10), (py! "a", 2), (py! "b", 0)] := by decide +kernel

example : Sample.loaded.dataList.map (fun d => (d.name, decide (py! "timestamp" ∈ d.fields.map (·.name))))
    = [(py! "a", true), (py! "b", true)] := by decide +kernel

/-! ### C72: one multi info message -/

theorem hexVal_digit {n : Nat} (h : n < 16) : hexVal (hexDigit n) = some n := by
  have : ∀ n : Fin 16, hexVal (hexDigit n.val) = some n.val := by decide
  exact this ⟨n, h⟩

theorem hex2_vals (b : UInt8) : (hex2 b).filterMap hexVal = [b.toNat / 16, b.toNat % 16] := by
  have hb : b.toNat < 256 := b.toNat_lt
  unfold hex2
  simp [List.filterMap, hexVal_digit (n := b.toNat / 16) (by omega), hexVal_digit (n := b.toNat % 16) (by omega)]

theorem pyJoin_vals {sep : Str} (hs : sep.filterMap hexVal = []) : ∀ l : List Str,
    (pyJoin sep l).filterMap hexVal = (l.map fun s => s.filterMap hexVal).flatten
  | [] => rfl
  | [x] => by simp [pyJoin]
  | x :: y :: l => by
    show (x ++ sep ++ pyJoin sep (y :: l)).filterMap hexVal = _
    rw [List.filterMap_append, List.filterMap_append, hs, pyJoin_vals hs (y :: l), List.append_nil]
    rfl

theorem pairUp_bytes (b : Bytes) :
    pairUp (b.map fun x => [x.toNat / 16, x.toNat % 16]).flatten = b.map (·.toNat) := by
  induction b with
  | nil => rfl
  | cons x b ih =>
    show (16 * (x.toNat / 16) + x.toNat % 16) :: pairUp (b.map fun x => [x.toNat / 16, x.toNat % 16]).flatten = _
    rw [ih, Nat.div_add_mod]
    rfl

/-- the bytes of one item -/
theorem hexItem_vals (b : Bytes) :
    (pyJoin (py! " ") (b.map hex2)).filterMap hexVal = (b.map fun x => [x.toNat / 16, x.toNat % 16]).flatten := by
  rw [pyJoin_vals (by decide), List.map_map]
  congr 1
  apply List.map_congr_left
  intro x _
  exact hex2_vals x

/-- **C72**, bytes: parts that are bytes give a line with the index and the number of bytes, and a line of
hexadecimal digits in which all the bytes can be read back. -/
theorem C72_bytes (newline : Bool) (name : Str) (i : Nat) {parts : List Bytes} (h : parts ≠ []) :
    ∃ body, dumpLines (if newline then py! "\n" else []) name i (parts.map Value.bytes) =
        .ok [py! "# " ++ name ++ py! " " ++ dec i ++ py! " (len: " ++ dec parts.flatten.length ++ py! "):", body] ∧
      unhex body = parts.flatten.map (·.toNat) := by
  refine ⟨pyJoin (if newline then py! "\n" else []) (parts.map fun b => pyJoin (py! " ") (b.map hex2)), ?_, ?_⟩
  · cases parts with
    | nil => exact absurd rfl h
    | cons p ps =>
      have e1 : ((p :: ps).map Value.bytes).mapM itemLen = .ok ((p :: ps).map List.length) :=
        mapM_map_ok (h := Value.bytes) fun a _ => rfl
      have e2 : ((p :: ps).map Value.bytes).mapM hexItem
          = .ok ((p :: ps).map fun b => pyJoin (py! " ") (b.map hex2)) :=
        mapM_map_ok (h := Value.bytes) fun a _ => rfl
      rw [List.map_cons] at e1 e2 ⊢
      unfold dumpLines
      dsimp only
      rw [e1, e2]
      show Except.ok _ = _
      rw [natDec_eq, natDec_eq, List.length_flatten]
  · unfold unhex
    rw [pyJoin_vals (by cases newline <;> decide), List.map_map, ← pairUp_bytes]
    congr 1
    induction parts with
    | nil => rfl
    | cons p ps ih =>
      rw [List.map_cons, List.flatten_cons, List.flatten_cons, List.map_append, List.flatten_append]
      congr 1
      · exact hexItem_vals p
      · cases ps with
        | nil => rfl
        | cons q qs => exact ih (by simp)

/-- **C72**, text: parts that are texts are joined, with line ends between them on request. -/
theorem C72_text (newline : Bool) (name : Str) (i : Nat) (parts : List Str) :
    dumpLines (if newline then py! "\n" else []) name i (parts.map Value.str) =
      .ok [py! "# " ++ name ++ py! " " ++ dec i ++ py! ":",
        if newline then List.intercalate (py! "\n") parts else parts.flatten] := by
  have e : (parts.map Value.str).mapM strItem = .ok parts := by
    have := mapM_map_ok (f := strItem) (h := Value.str) (g := id) (l := parts) fun a _ => rfl
    rwa [List.map_id] at this
  have hd : dumpLines (if newline then py! "\n" else []) name i (parts.map Value.str) =
      .ok [py! "# " ++ name ++ py! " " ++ natDec i ++ py! ":", pyJoin (if newline then py! "\n" else []) parts] := by
    cases parts with
    | nil => rfl
    | cons p ps =>
      rw [List.map_cons] at e ⊢
      unfold dumpLines
      dsimp only
      rw [e]
      rfl
  rw [hd, natDec_eq]
  cases newline with
  | true =>
    simp only [if_true]
    rw [pyJoin_eq]
    rfl
  | false =>
    simp only [Bool.false_eq_true, if_false]
    have : ∀ l : List Str, pyJoin [] l = l.flatten := by
      intro l
      induction l with
      | nil => rfl
      | cons x l ih =>
        cases l with
        | nil => simp [pyJoin]
        | cons y l =>
          show x ++ [] ++ pyJoin [] (y :: l) = _
          rw [ih, List.append_nil]; rfl
    rw [this]

/-- **C72**: all the lists under a name are shown, in order; a name without entry gives a message. -/
theorem C72_message (newline : Bool) (u : ULog) (name : Str) :
    (∀ lists, u.infoMulti.get? name = some lists → ∀ out : List (List Str), out.length = lists.length →
      (∀ i (h1 : i < lists.length) (h2 : i < out.length),
        dumpLines (if newline then py! "\n" else []) name i lists[i] = .ok out[i]) →
      showMessage newline u name = .ok out.flatten) ∧
    (u.infoMulti.get? name = none → showMessage newline u name = .ok [py! "message " ++ name ++ py! " not found"]) := by
  constructor
  · intro lists hg out hlen hout
    unfold showMessage
    rw [hg]
    dsimp only
    have : lists.zipIdx.mapM (fun p => dumpLines (if newline then py! "\n" else []) name p.2 p.1) = .ok out := by
      have hg : ∀ p ∈ lists.zipIdx, dumpLines (if newline then py! "\n" else []) name p.2 p.1 =
          .ok ((fun p : List Value × Nat => out[p.2]?.getD []) p) := by
        rintro ⟨m, i⟩ hp
        obtain ⟨h1, h2⟩ := List.mk_mem_zipIdx_iff_getElem?.mp hp |> List.getElem?_eq_some_iff.mp
        have := hout i h1 (by omega)
        dsimp only
        rw [h2] at this
        rw [this, List.getElem?_eq_getElem (by omega)]
        rfl
      rw [mapM_ok hg]
      congr 1
      apply List.ext_getElem
      · simp [hlen]
      · intro i h1 h2
        simp [List.getElem?_eq_getElem h2]
    rw [this]
    rfl
  · intro hg
    unfold showMessage
    rw [hg]

/-- a multi info message with a number -/
def Sample.numbered : Bytes :=
  Sample.header ++ encMsgs [(tyM, 0 :: Sample.kv (py! "uint8_t m") [7])]

/-- the failing part of **C72**: parts that are numbers are stored, and showing them is a TypeError -/
theorem C72_numbers : ∃ u, load 20 {} Sample.numbered = .ok u ∧
    u.infoMulti.get? (py! "m") = some [[.int 7]] ∧ ∀ newline, showMessage newline u (py! "m") = .error .typeError := by
  have h : (match load 20 {} Sample.numbered with
      | .ok u => decide (u.infoMulti.get? (py! "m") = some [[.int 7]])
      | _ => false) = true := by decide +kernel
  cases hl : load 20 {} Sample.numbered with
  | ok u =>
    rw [hl] at h
    have h := of_decide_eq_true h
    refine ⟨u, rfl, h, ?_⟩
    intro newline
    unfold showMessage
    rw [h]
    rfl
  | _ => rw [hl] at h; cases h

example : (showMessage false Sample.loaded (py! "m")).toOption
    = some [py! "# m 0:", py! "uv", py! "# m 1:", py! "w"] ∧
    (showMessage true Sample.loaded (py! "m")).toOption
    = some [py! "# m 0:", py! "u\nv", py! "# m 1:", py! "w"] ∧
    (showMessage true Sample.loaded (py! "n")).toOption = some [py! "message n not found"] ∧
    (dumpLines [] (py! "h") 3 [.bytes [1, 255], .bytes [16]]).toOption
      = some [py! "# h 3 (len: 3):", py! "01 ff10"] := by decide +kernel

theorem mapM_one_error {f : α → Except PyErr β} {e : PyErr} {l : List α} (hf : ∀ a ∈ l, ∀ e', f a = .error e' → e' = e)
    {x : α} (hx : x ∈ l) (h : f x = .error e) : l.mapM f = .error e := by
  induction l with
  | nil => cases hx
  | cons a l ih =>
    rw [List.mapM_cons]
    cases ha : f a with
    | error e' =>
      rw [hf a (List.mem_cons_self ..) e' ha]
      rfl
    | ok b =>
      rcases List.mem_cons.mp hx with rfl | hx
      · rw [ha] at h
        cases h
      · have := ih (fun a' h' => hf a' (List.mem_cons_of_mem _ h')) hx
        show ((l.mapM f) >>= _) = _
        rw [this]
        rfl

/-- a number among the parts -/
def Spec.isNumberPart : Value → Prop
  | .int _ | .float _ | .bool _ => True
  | _ => False

/-- **C72**, mixed parts: a number among them, or bytes after a text, is a TypeError; a text that is not empty after
bytes is a ValueError. -/
theorem C72_mixed (sep name : Str) (i : Nat) (v : Value) (m : List Value) :
    ((∃ x ∈ v :: m, isNumberPart x) → dumpLines sep name i (v :: m) = .error .typeError) ∧
    ((∃ s, v = .str s) → (∃ b, .bytes b ∈ m) → dumpLines sep name i (v :: m) = .error .typeError) ∧
    ((∃ b, v = .bytes b) → (∀ x ∈ m, ¬isNumberPart x) → (∃ s, s ≠ [] ∧ .str s ∈ m) →
      dumpLines sep name i (v :: m) = .error .valueError) := by
  have hlen : ∀ x e, itemLen x = .error e → e = .typeError := by
    intro x e h
    cases x <;> first | (cases h; done) | (cases h; rfl)
  have hstr : ∀ x e, strItem x = .error e → e = .typeError := by
    intro x e h
    cases x <;> first | (cases h; done) | (cases h; rfl)
  have text : ∀ {x}, x ∈ v :: m → strItem x = .error .typeError → (∀ b, v ≠ .bytes b) →
      dumpLines sep name i (v :: m) = .error .typeError := by
    intro x hx h hv
    have := mapM_one_error (fun a _ e => hstr a e) hx h
    unfold dumpLines
    cases v with
    | bytes b => exact absurd rfl (hv b)
    | _ => dsimp only; rw [this]; rfl
  refine ⟨?_, ?_, ?_⟩
  · rintro ⟨x, hx, hn⟩
    have e1 : itemLen x = .error .typeError := by cases x <;> first | rfl | exact hn.elim
    have e2 : strItem x = .error .typeError := by cases x <;> first | rfl | exact hn.elim
    cases v with
    | bytes b =>
      have := mapM_one_error (fun a _ e => hlen a e) hx e1
      unfold dumpLines
      dsimp only
      rw [this]
      rfl
    | _ => exact text hx e2 (fun b h => by cases h)
  · rintro ⟨s, rfl⟩ ⟨b, hb⟩
    exact text (List.mem_cons_of_mem _ hb) rfl (fun b h => by cases h)
  · rintro ⟨b, rfl⟩ hm ⟨s, hs, hx⟩
    have e1 : (Value.bytes b :: m).mapM itemLen
        = .ok ((Value.bytes b :: m).map fun x => (itemLen x).toOption.getD 0) := by
      refine mapM_ok fun x hx => ?_
      rcases List.mem_cons.mp hx with rfl | hx
      · rfl
      · cases x with
        | bytes _ => rfl
        | str _ => rfl
        | _ => exact (hm _ hx trivial).elim
    have e2 : (Value.bytes b :: m).mapM hexItem = .error .valueError := by
      refine mapM_one_error (x := .str s) (fun a ha e h => ?_) (List.mem_cons_of_mem _ hx) ?_
      · rcases List.mem_cons.mp ha with rfl | ha
        · cases h
        · cases a with
          | bytes _ => cases h
          | str t =>
            cases t with
            | nil => cases h
            | cons _ _ => injection h with h; exact h.symm
          | _ => exact (hm _ ha trivial).elim
      · cases s with
        | nil => exact absurd rfl hs
        | cons _ _ => rfl
    unfold dumpLines
    dsimp only
    rw [e1]
    show ((Value.bytes b :: m).mapM hexItem >>= _) = _
    rw [e2]
    rfl

example : (∃ x ∈ [Value.str (py! "a"), .int 3], isNumberPart x) ∧ (∃ b, Value.bytes b ∈ [.str [], .bytes [7]]) ∧
    (∃ s, s ≠ [] ∧ Value.str s ∈ [.bytes [], .str (py! "x")]) :=
  ⟨⟨.int 3, by simp, trivial⟩, ⟨[7], by simp⟩, ⟨py! "x", by decide, by simp⟩⟩

/-! ### lines of messages -/

/-- **C33**, lines: a line is the time, the level and the text. -/
theorem C33_line_partial (t : Nat) (level text : Str) (h : t < 2 ^ 53) :
    messageLine (t, level, text) = hourText (t / 1000000) ++ py! " " ++ level ++ py! ": " ++ text := by
  unfold messageLine
  rw [hmsStr_eq h]

example : messageLine (3610999999, py! "INFO", py! "armed") = py! "1:00:10 INFO: armed" := by decide +kernel

end PyULog
