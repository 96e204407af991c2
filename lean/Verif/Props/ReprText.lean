import Verif.Spec.ReprText
import Verif.Model.ReprText
import Verif.Props.NumberText
import Verif.Props.BytesText
import Verif.Props.Info
import Verif.Props.Equal
import Verif.Props.Params
/-
Property theorems: C88 (the verbose listing of multi info messages can be read back).
-/
namespace PyULog
open Spec

/-! ### texts -/

theorem hexVal_hexC {d : Nat} (h : d < 16) : hexVal (hexC d) = some d := by
  have tbl : ∀ d : Fin 16, hexVal (hexC d.1) = some d.1 := by decide
  exact tbl ⟨d, h⟩

theorem valid_toNat (c : Char) : c.toNat.isValidChar := c.valid

theorem codeOf_eq {ds : Str} {l : List Nat} {c : Char} (h : ds.mapM hexVal = some l)
    (hn : l.foldl (fun a d => 16 * a + d) 0 = c.toNat) : codeOf ds = some c := by
  unfold codeOf
  rw [h]
  dsimp only
  rw [hn, if_pos (valid_toNat c), Char.ofNat_toNat]

theorem toNat_lt_max (c : Char) : c.toNat < 1114112 := by
  have := valid_toNat c
  unfold Nat.isValidChar at this
  omega

/-- one character that is read back -/
theorem textUpTo_char (pr : Char → Bool) {q : Char} (hq : q = '\'' ∨ q = '"') (c : Char) {r s rest : Str}
    (h : textUpTo q r = some (s, rest)) : textUpTo q (charRepr pr q c ++ r) = some (c :: s, rest) := by
  have hmax := toNat_lt_max c
  have hx : ∀ n, n < 16 → hexVal (hexC n) = some n := fun n hn => hexVal_hexC hn
  unfold charRepr
  dsimp only
  by_cases h1 : c = '\\' ∨ c = q
  · rw [if_pos h1]
    have : c = '\\' ∨ c = '\'' ∨ c = '"' := by
      rcases h1 with h1 | h1
      · exact .inl h1
      · rcases hq with hq | hq <;> simp [h1, hq]
    rcases this with rfl | rfl | rfl
    all_goals
      show front _ (textUpTo q r) = _
      rw [h]
      rfl
  rw [if_neg h1]
  have escape : ∀ e : Char, e = 't' ∨ e = 'n' ∨ e = 'r' → ((unescape e).map Char.ofNat = some c) →
      textUpTo q (['\\', e] ++ r) = some (c :: s, rest) := by
    intro e he hu
    have : textUpTo q (['\\', e] ++ r) = front ((unescape e).map Char.ofNat) (textUpTo q r) := by
      rcases he with rfl | rfl | rfl <;> rfl
    rw [this, hu, h]
    rfl
  by_cases h2 : c.toNat = 9
  · rw [if_pos h2]
    refine escape 't' (by simp) ?_
    show some (Char.ofNat 9) = _
    rw [← h2, Char.ofNat_toNat]
  rw [if_neg h2]
  by_cases h3 : c.toNat = 10
  · rw [if_pos h3]
    refine escape 'n' (by simp) ?_
    show some (Char.ofNat 10) = _
    rw [← h3, Char.ofNat_toNat]
  rw [if_neg h3]
  by_cases h4 : c.toNat = 13
  · rw [if_pos h4]
    refine escape 'r' (by simp) ?_
    show some (Char.ofNat 13) = _
    rw [← h4, Char.ofNat_toNat]
  rw [if_neg h4]
  by_cases h5 : 32 ≤ c.toNat ∧ c.toNat < 127 ∨ 128 ≤ c.toNat ∧ pr c = true
  · rw [if_pos h5]
    show textUpTo q (c :: r) = _
    have hb : c ≠ '\\' := fun e => h1 (.inl e)
    rw [textUpTo]
    · rw [if_neg hb, if_neg (fun e => h1 (.inr e)), if_neg (by omega), h]
      rfl
    all_goals
      intros
      first
        | (rename_i e _; exact hb e)
        | (rename_i e; exact hb e)
  rw [if_neg h5]
  by_cases h6 : c.toNat < 256
  · rw [if_pos h6]
    show front (codeOf [hexC (c.toNat / 16), hexC (c.toNat % 16)]) (textUpTo q r) = _
    rw [codeOf_eq (c := c) (l := [c.toNat / 16, c.toNat % 16]), h]
    · rfl
    · simp only [List.mapM_cons, List.mapM_nil, hx _ (by omega : c.toNat / 16 < 16), hx _ (by omega : c.toNat % 16 < 16)]
      rfl
    · simp only [List.foldl_cons, List.foldl_nil]
      omega
  rw [if_neg h6]
  by_cases h7 : c.toNat < 65536
  · rw [if_pos h7]
    show front (codeOf [hexC (c.toNat / 4096), hexC (c.toNat / 256 % 16), hexC (c.toNat / 16 % 16), hexC (c.toNat % 16)])
      (textUpTo q r) = _
    rw [codeOf_eq (c := c) (l := [c.toNat / 4096, c.toNat / 256 % 16, c.toNat / 16 % 16, c.toNat % 16]), h]
    · rfl
    · simp only [List.mapM_cons, List.mapM_nil, hx _ (by omega : c.toNat / 4096 < 16), hx _ (by omega : c.toNat / 256 % 16 < 16),
        hx _ (by omega : c.toNat / 16 % 16 < 16), hx _ (by omega : c.toNat % 16 < 16)]
      rfl
    · simp only [List.foldl_cons, List.foldl_nil]
      omega
  rw [if_neg h7]
  show front (codeOf ['0', '0', hexC (c.toNat / 1048576), hexC (c.toNat / 65536 % 16), hexC (c.toNat / 4096 % 16),
    hexC (c.toNat / 256 % 16), hexC (c.toNat / 16 % 16), hexC (c.toNat % 16)]) (textUpTo q r) = _
  rw [codeOf_eq (c := c) (l := [0, 0, c.toNat / 1048576, c.toNat / 65536 % 16, c.toNat / 4096 % 16, c.toNat / 256 % 16,
    c.toNat / 16 % 16, c.toNat % 16]), h]
  · rfl
  · simp only [List.mapM_cons, List.mapM_nil, hx _ (by omega : c.toNat / 1048576 < 16), hx _ (by omega : c.toNat / 65536 % 16 < 16),
      hx _ (by omega : c.toNat / 4096 % 16 < 16), hx _ (by omega : c.toNat / 256 % 16 < 16),
      hx _ (by omega : c.toNat / 16 % 16 < 16), hx _ (by omega : c.toNat % 16 < 16), show hexVal '0' = some 0 from rfl]
    rfl
  · simp only [List.foldl_cons, List.foldl_nil]
    omega

theorem textUpTo_text (pr : Char → Bool) {q : Char} (hq : q = '\'' ∨ q = '"') (s rest : Str) :
    textUpTo q (s.flatMap (charRepr pr q) ++ q :: rest) = some (s, rest) := by
  induction s with
  | nil => rcases hq with rfl | rfl <;> rfl
  | cons c s ih =>
    rw [List.flatMap_cons, List.append_assoc]
    exact textUpTo_char pr hq c ih

/-- the `repr` of a text is read back, whatever the text is -/
theorem strRepr_reads (pr : Char → Bool) (s rest : Str) : readElem (strRepr pr s ++ rest) = some (.text s, rest) := by
  have key : ∀ q, q = '\'' ∨ q = '"' → readElem (q :: (s.flatMap (charRepr pr q) ++ [q]) ++ rest) = some (.text s, rest) := by
    intro q hq
    have := textUpTo_text pr hq s rest
    rcases hq with rfl | rfl
    · show (textUpTo '\'' (s.flatMap (charRepr pr '\'') ++ ['\''] ++ rest)).map _ = _
      rw [List.append_assoc, List.singleton_append, this]
      rfl
    · show (textUpTo '"' (s.flatMap (charRepr pr '"') ++ ['"'] ++ rest)).map _ = _
      rw [List.append_assoc, List.singleton_append, this]
      rfl
  unfold strRepr
  dsimp only
  split
  · exact key _ (.inr rfl)
  · exact key _ (.inl rfl)

/-! ### bytes -/

/-- a byte is written like the character with its code, none outside of ASCII being printable -/
theorem byteRepr_char : ∀ n : Fin 256, ∀ q ∈ ['\'', '"'],
    byteRepr q (UInt8.ofNat n.1) = charRepr (fun _ => false) q (Char.ofNat n.1) ∧ (Char.ofNat n.1).toNat = n.1 := by
  decide +kernel

theorem byteRepr_eq {q : Char} (hq : q = '\'' ∨ q = '"') (b : UInt8) :
    byteRepr q b = charRepr (fun _ => false) q (Char.ofNat b.toNat) ∧ (Char.ofNat b.toNat).toNat = b.toNat := by
  have := byteRepr_char ⟨b.toNat, b.toNat_lt⟩ q (by rcases hq with rfl | rfl <;> simp)
  rw [UInt8.ofNat_toNat] at this
  exact this

theorem bytesText_reads (b : Bytes) (rest : Str) : readElem (bytesText b ++ rest) = some (.bytes (b.map (·.toNat)), rest) := by
  have key : ∀ q, q = '\'' ∨ q = '"' → readElem ('b' :: q :: (b.flatMap (byteRepr q) ++ [q]) ++ rest)
      = some (.bytes (b.map (·.toNat)), rest) := by
    intro q hq
    have e : b.flatMap (byteRepr q) = (b.map fun x => Char.ofNat x.toNat).flatMap (charRepr (fun _ => false) q) := by
      rw [List.flatMap_map]
      congr 1
      funext x
      exact (byteRepr_eq hq x).1
    have e2 : (b.map fun x => Char.ofNat x.toNat).map (·.toNat) = b.map (·.toNat) := by
      rw [List.map_map]
      apply List.map_congr_left
      intro x _
      exact (byteRepr_eq hq x).2
    have := textUpTo_text (fun _ => false) hq (b.map fun x => Char.ofNat x.toNat) rest
    rw [← e] at this
    rcases hq with rfl | rfl
    · show (textUpTo '\'' (b.flatMap (byteRepr '\'') ++ ['\''] ++ rest)).map _ = _
      rw [List.append_assoc, List.singleton_append, this]
      show some (Elem.bytes _, rest) = _
      rw [e2]
    · show (textUpTo '"' (b.flatMap (byteRepr '"') ++ ['"'] ++ rest)).map _ = _
      rw [List.append_assoc, List.singleton_append, this]
      show some (Elem.bytes _, rest) = _
      rw [e2]
  unfold bytesText
  dsimp only
  split
  · exact key _ (.inr rfl)
  · exact key _ (.inl rfl)

/-! ### elements -/

/-- the pattern of a float fits into 64 bits -/
def Spec.FloatOk : Value → Prop
  | .float b => b < 2 ^ 64
  | _ => True

/-- the element that is read for a value -/
def elemOf : Value → Elem
  | .str s => .text s
  | .bytes b => .bytes (b.map (·.toNat))
  | v => .word (pyText v)

theorem word_reads {w rest : Str} (hc : ∀ c ∈ w, c ≠ ',' ∧ c ≠ ']' ∧ c ≠ '\'' ∧ c ≠ '"' ∧ c ≠ 'b') (hne : w ≠ [])
    (hr : ∃ c t, rest = c :: t ∧ (c = ',' ∨ c = ']')) : readElem (w ++ rest) = some (.word w, rest) := by
  obtain ⟨c, t, rfl, hct⟩ := hr
  have h1 : (w ++ c :: t).takeWhile (fun c => c ≠ ',' && c ≠ ']') = w := by
    rw [List.takeWhile_append_of_pos]
    · rcases hct with rfl | rfl <;> simp
    · intro x hx
      simp [(hc x hx).1, (hc x hx).2.1]
  have h2 : (w ++ c :: t).dropWhile (fun c => c ≠ ',' && c ≠ ']') = c :: t := by
    rw [List.dropWhile_append_of_pos]
    · rcases hct with rfl | rfl <;> simp
    · intro x hx
      simp [(hc x hx).1, (hc x hx).2.1]
  cases w with
  | nil => exact absurd rfl hne
  | cons x w =>
    have hx := hc x (List.mem_cons_self ..)
    rw [List.cons_append] at h1 h2 ⊢
    rw [readElem]
    · rw [h1, h2]
    all_goals
      intros
      first
        | (rename_i e _; first | exact hx.2.2.2.2 e | exact hx.2.2.1 e | exact hx.2.2.2.1 e)
        | (rename_i e; injection e with e _; first | exact hx.2.2.2.2 e | exact hx.2.2.1 e | exact hx.2.2.2.1 e)

theorem numberChars_word {c : Char} (h : c ∈ numberChars) : c ≠ ',' ∧ c ≠ ']' ∧ c ≠ '\'' ∧ c ≠ '"' ∧ c ≠ 'b' := by
  have : ∀ c ∈ numberChars, c ≠ ',' ∧ c ≠ ']' ∧ c ≠ '\'' ∧ c ≠ '"' ∧ c ≠ 'b' := by decide
  exact this c h

theorem f64Text_ne_nil {b : Nat} (hb : b < 2 ^ 64) : f64Text b ≠ [] := by
  intro h
  have := C84_float64 hb
  rw [h] at this
  unfold ReadsAs64 at this
  split at this
  · split at this
    · cases this
    · split at this <;> cases this
  · obtain ⟨n, k, h1, _⟩ := this
    cases h1

theorem intDec_ne_nil (n : Int) : intDec n ≠ [] := by
  intro h
  have := C84_int n
  rw [h] at this
  cases this

/-- where an element ends -/
def Stops (rest : Str) : Prop := ∃ c t, rest = c :: t ∧ (c = ',' ∨ c = ']')

theorem valueRepr_reads (pr : Char → Bool) {v : Value} (hv : FloatOk v) {rest : Str} (hr : Stops rest) :
    readElem (valueRepr pr v ++ rest) = some (elemOf v, rest) := by
  cases v with
  | str s => exact strRepr_reads pr s rest
  | bytes b => exact bytesText_reads b rest
  | int n => exact word_reads (fun c hc => numberChars_word (intDec_number n c hc)) (intDec_ne_nil n) hr
  | float b => exact word_reads (fun c hc => numberChars_word (floatText_number _ _ _ _ _ c hc)) (f64Text_ne_nil hv) hr
  | bool b =>
    cases b
    · exact word_reads (w := py! "False") (by decide) (by decide) hr
    · exact word_reads (w := py! "True") (by decide) (by decide) hr

theorem elemOf_is {v : Value} (hv : FloatOk v) : ElemIs (elemOf v) v := by
  cases v with
  | str s => exact rfl
  | bytes b => exact rfl
  | int n => exact C84_int n
  | float b => exact C84_float64 hv
  | bool b => cases b <;> rfl

theorem strRepr_head (pr : Char → Bool) (s : Str) : ∃ c t, strRepr pr s = c :: t ∧ c ≠ ']' := by
  unfold strRepr
  dsimp only
  split <;> exact ⟨_, _, rfl, by decide⟩

/-- an element does not begin with a closing bracket -/
theorem valueRepr_head (pr : Char → Bool) {v : Value} (hv : FloatOk v) : ∃ c t, valueRepr pr v = c :: t ∧ c ≠ ']' := by
  have word : ∀ w : Str, w ≠ [] → (∀ c ∈ w, c ∈ numberChars) → ∃ c t, w = c :: t ∧ c ≠ ']' := by
    intro w hw hc
    cases w with
    | nil => exact absurd rfl hw
    | cons c t => exact ⟨c, t, rfl, (numberChars_word (hc c (List.mem_cons_self ..))).2.1⟩
  cases v with
  | str s => exact strRepr_head pr s
  | bytes b => exact ⟨'b', _, rfl, by decide⟩
  | int n => exact word _ (intDec_ne_nil n) (intDec_number n)
  | float b => exact word _ (f64Text_ne_nil hv) (floatText_number _ _ _ _ _)
  | bool b => cases b <;> exact ⟨_, _, rfl, by decide⟩

/-! ### lists -/

theorem readRest_list {α β : Type} {item : Str → Option (α × Str)} {txt : β → Str} {val : β → α} (l : List β)
    (H : ∀ x ∈ l, ∀ rest, Stops rest → item (txt x ++ rest) = some (val x, rest)) (hl : l ≠ []) (n : Nat) (hn : l.length ≤ n)
    (r : Str) : readRest item n (pyJoin (py! ", ") (l.map txt) ++ ']' :: r) = some (l.map val, r) := by
  induction l generalizing n with
  | nil => exact absurd rfl hl
  | cons x l ih =>
    obtain ⟨n, rfl⟩ : ∃ m, n = m + 1 := ⟨n - 1, by simp only [List.length_cons] at hn; omega⟩
    cases l with
    | nil =>
      show readRest item (n + 1) (txt x ++ ']' :: r) = _
      rw [readRest, H x (by simp) _ ⟨']', r, rfl, .inr rfl⟩]
      rfl
    | cons y l =>
      have hi := ih (fun z hz => H z (List.mem_cons_of_mem _ hz)) (by simp) n (by simp only [List.length_cons] at hn ⊢; omega)
      show readRest item (n + 1) (txt x ++ (py! ", ") ++ pyJoin (py! ", ") ((y :: l).map txt) ++ ']' :: r) = _
      rw [List.append_assoc, List.append_assoc, readRest,
        H x (by simp) ((py! ", ") ++ (pyJoin (py! ", ") ((y :: l).map txt) ++ ']' :: r)) ⟨',', ' ' :: (pyJoin (py! ", ") ((y :: l).map txt) ++ ']' :: r), rfl, .inl rfl⟩]
      show ((readRest item n (pyJoin (py! ", ") ((y :: l).map txt) ++ ']' :: r)).map _) = _
      rw [hi]
      rfl

theorem pyJoin_length {sep : Str} (l : List Str) (h : ∀ x ∈ l, x ≠ []) : l.length ≤ (pyJoin sep l).length := by
  induction l with
  | nil => simp
  | cons x l ih =>
    have hx := List.length_pos_iff.mpr (h x (List.mem_cons_self ..))
    have hi := ih fun y hy => h y (List.mem_cons_of_mem _ hy)
    cases l with
    | nil =>
      show 1 ≤ x.length
      exact hx
    | cons y l =>
      show _ ≤ (x ++ sep ++ pyJoin sep (y :: l)).length
      rw [List.length_append, List.length_append, List.length_cons]
      omega

theorem readList_list {α β : Type} {item : Str → Option (α × Str)} {txt : β → Str} {val : β → α} (l : List β)
    (H : ∀ x ∈ l, ∀ rest, Stops rest → item (txt x ++ rest) = some (val x, rest))
    (hh : ∀ x ∈ l, ∃ c t, txt x = c :: t ∧ c ≠ ']') (r : Str) :
    readList item (reprList (l.map txt) ++ r) = some (l.map val, r) := by
  unfold reprList
  rw [List.cons_append, List.append_assoc, List.singleton_append]
  cases l with
  | nil => rfl
  | cons x l =>
    have hj := readRest_list (x :: l) H (by simp) (pyJoin (py! ", ") ((x :: l).map txt) ++ ']' :: r).length (by
      have := pyJoin_length (sep := py! ", ") ((x :: l).map txt) (by
        intro y hy
        obtain ⟨z, hz, rfl⟩ := List.mem_map.mp hy
        obtain ⟨c, t, h1, _⟩ := hh z hz
        rw [h1]
        simp)
      rw [List.length_map] at this
      rw [List.length_append]
      omega) r
    obtain ⟨c, t, h1, h2⟩ := hh x (List.mem_cons_self ..)
    have hs : ∃ t', pyJoin (py! ", ") ((x :: l).map txt) ++ ']' :: r = c :: t' := by
      cases l with
      | nil => exact ⟨t ++ ']' :: r, by show txt x ++ _ = _; rw [h1]; rfl⟩
      | cons y l =>
        refine ⟨t ++ (py! ", ") ++ pyJoin (py! ", ") ((y :: l).map txt) ++ ']' :: r, ?_⟩
        show txt x ++ (py! ", ") ++ pyJoin (py! ", ") ((y :: l).map txt) ++ ']' :: r = _
        rw [h1]
        rfl
    obtain ⟨t', ht⟩ := hs
    rw [ht] at hj ⊢
    rw [readList]
    · exact hj
    · intro r' e
      injection e with e _
      exact h2 e

/-- **C88**: the lists of a multi info message, as they are printed, are read back element by element: texts and bytes
exactly, numbers as by C84. The characters that are printed as they are may be chosen freely outside of ASCII. -/
theorem C88_lists (pr : Char → Bool) (l : List (List Value)) (hl : ∀ m ∈ l, ∀ v ∈ m, FloatOk v) :
    ∃ items, readLists (listsRepr pr l) = some items ∧ ElemsAre items l := by
  refine ⟨l.map fun m => m.map elemOf, ?_, ?_⟩
  · have h := readList_list (item := readList readElem) (txt := fun m => reprList (m.map (valueRepr pr)))
      (val := fun m => m.map elemOf) l (fun m hm rest _ => readList_list m (fun v hv rest' hr => valueRepr_reads pr (hl m hm v hv) hr)
        (fun v hv => valueRepr_head pr (hl m hm v hv)) rest)
      (fun m _ => ⟨'[', _, rfl, by decide⟩) []
    rw [List.append_nil] at h
    unfold readLists listsRepr
    rw [h]
  · refine ⟨List.length_map .., fun i h1 h2 => ?_⟩
    rw [List.getElem_map]
    refine ⟨List.length_map .., fun j h3 h4 => ?_⟩
    rw [List.getElem_map]
    exact elemOf_is (hl _ (List.getElem_mem h2) _ (List.getElem_mem h4))

/-! ### loaded logs -/

theorem parseInfo_floatOk {ign : Bool} {d : Bytes} {m : InfoMsg} (h : parseInfo ign d = .ok m) : FloatOk m.value := by
  obtain ⟨keyLen, _, _, _, h4⟩ := parseInfo_parts h
  unfold parseInfoValue at h4
  split at h4
  · cases hp : parseString ign (d.drop (1 + keyLen)) with
    | error e => rw [hp] at h4; cases h4
    | ok s =>
      rw [hp] at h4
      injection h4 with h4
      rw [← h4]
      trivial
  · split at h4
    · rename_i t _
      unfold unpackScalar at h4
      split at h4
      · cases h4
      · rename_i hb
        have hb := Decidable.not_not.mp hb
        have hlt := leNat_lt (d.drop (1 + keyLen))
        rw [hb] at hlt
        cases t <;> injection h4 with h4 <;> rw [← h4] <;> try trivial
        exact widen_lt hlt
    · injection h4 with h4
      rw [← h4]
      trivial

theorem loaded_multi_floatOk {fuel : Nat} {cfg : Cfg} {bs : Bytes} {u : ULog} (h : load fuel cfg bs = .ok u) {key : Str}
    {l : List (List Value)} (hk : u.infoMulti.get? key = some l) : ∀ m ∈ l, ∀ v ∈ m, FloatOk v := by
  intro m hm v hv
  obtain ⟨h1, _⟩ := C11_info_multiple fuel cfg bs u h key
  rw [hk] at h1
  generalize hr : (defTrace fuel cfg bs ++ (fileTrace fuel cfg bs).flatten).filterMap (infoMultiOf cfg.ign) = r at h1
  generalize hg : ((r.filter fun m => m.2.2.1 = key).map fun m => (m.1, m.2.2.2)) = g at h1
  have hl : l = groups g := by
    unfold entry at h1
    split at h1
    · cases h1
    · injection h1
  have hmem : v ∈ g.map (·.2) := by
    rw [← (C11_groups_lossless g 0 v).1, ← hl]
    exact List.mem_flatten.mpr ⟨m, hm, hv⟩
  rw [← hg, List.map_map] at hmem
  obtain ⟨x, hx, rfl⟩ := List.mem_map.mp hmem
  have hx := (List.mem_filter.mp hx).1
  rw [← hr] at hx
  obtain ⟨tr, _, htr⟩ := List.mem_filterMap.mp hx
  unfold infoMultiOf at htr
  split at htr
  · rw [keyValue_eq] at htr
    cases hp : parseInfo cfg.ign (tr.2.2.drop 1) with
    | error e => rw [hp] at htr; cases htr
    | ok im =>
      rw [hp] at htr
      have htr : some (byteAt tr.2.2 0, im.type, im.key, im.value) = some x := htr
      injection htr with htr
      rw [← htr]
      exact parseInfo_floatOk hp
  · cases htr

/-- **C88**: for a loaded log, `ulog_info -v` lists every multi info message once, in ascending order of the names, and the
printed lists are read back as the lists that were loaded. -/
theorem C88_loaded {fuel : Nat} {cfg : Cfg} {bs : Bytes} {u : ULog} (h : load fuel cfg bs = .ok u) (pr : Char → Bool)
    (hne : u.infoMulti ≠ []) :
    ∃ es : List (Str × Str × List (List Elem)), Ascending (es.map (·.1)) ∧ (es.map (·.1)).Perm u.infoMulti.keys ∧
      multiLines (listsRepr pr) true u = .ok (py! "Info Multiple Messages:" :: es.map fun e => py! " " ++ e.1 ++ py! ": " ++ e.2.1) ∧
      (∀ lines, showInfoText pr true u = .ok lines → ∃ before after, lines = before ++
        (py! "Info Multiple Messages:" :: es.map fun e => py! " " ++ e.1 ++ py! ": " ++ e.2.1) ++ after) ∧
      ∀ e ∈ es, readLists e.2.1 = some e.2.2 ∧ ∃ l, u.infoMulti.get? e.1 = some l ∧ ElemsAre e.2.2 l := by
  have hd := (load_dicts h).infoMulti
  obtain ⟨es, h1, h2, h3⟩ := multiLines_spec (listsRepr pr) true hd
  have hget : ∀ e ∈ es, u.infoMulti.get? e.1 = some e.2 := fun e he =>
    Dict.get?_of_mem _ _ _ hd (h1.mem_iff.mp he)
  have hlines : multiLines (listsRepr pr) true u = .ok (py! "Info Multiple Messages:" ::
      (es.map fun e => (e.1, listsRepr pr e.2, e.2.map fun m => m.map elemOf)).map fun e => py! " " ++ e.1 ++ py! ": " ++ e.2.1) := by
    rw [h3, List.map_map]
    unfold multiText
    cases es with
    | nil => exact absurd (List.nil_perm.mp h1) hne
    | cons e es => rfl
  refine ⟨es.map fun e => (e.1, listsRepr pr e.2, e.2.map fun m => m.map elemOf), ?_, ?_, hlines, ?_, ?_⟩
  · rw [List.map_map]
    exact h2
  · rw [List.map_map]
    exact h1.map (·.1)
  · intro lines hs
    unfold showInfoText showInfo at hs
    obtain ⟨times, _, hs⟩ := except_bind_ok.mp hs
    obtain ⟨version, _, hs⟩ := except_bind_ok.mp hs
    obtain ⟨infos, _, hs⟩ := except_bind_ok.mp hs
    rw [hlines] at hs
    obtain ⟨multis, hm, hs⟩ := except_bind_ok.mp hs
    obtain ⟨rows, _, hs⟩ := except_bind_ok.mp hs
    injection hm with hm
    injection hs with hs
    rw [← hs, ← hm]
    exact ⟨_, [[], tableHead] ++ rows, List.append_assoc _ _ _⟩
  · intro e he
    obtain ⟨x, hx, rfl⟩ := List.mem_map.mp he
    have hf := loaded_multi_floatOk h (hget x hx)
    obtain ⟨items, r1, r2⟩ := C88_lists pr x.2 hf
    have : items = x.2.map fun m => m.map elemOf := by
      have h := readList_list (item := readList readElem) (txt := fun m => reprList (m.map (valueRepr pr)))
        (val := fun m => m.map elemOf) x.2 (fun m hm rest _ => readList_list m (fun v hv rest' hr => valueRepr_reads pr (hf m hm v hv) hr)
          (fun v hv => valueRepr_head pr (hf m hm v hv)) rest)
        (fun m _ => ⟨'[', _, rfl, by decide⟩) []
      rw [List.append_nil] at h
      unfold readLists listsRepr at r1
      rw [h] at r1
      injection r1 with r1
      exact r1.symm
    rw [this] at r1 r2
    exact ⟨r1, x.2, hget x hx, r2⟩

/-- a log that meets the hypotheses -/
example : ∃ u, load 20 {} Sample.numbered = .ok u ∧ u.infoMulti ≠ [] := by
  obtain ⟨u, h1, h2, _⟩ := C72_numbers
  exact ⟨u, h1, fun h => by rw [h] at h2; cases h2⟩

/-- examples of what is printed: quotes, escapes, characters that are not printable, all kinds of values -/
example : listsRepr (fun c => c = 'ä') [[.str (py! "it's"), .str ['"', '\'', '\\', '\n', Char.ofNat 0x7f, 'ä', Char.ofNat 0xad]], [],
    [.bytes [0, 0x41], .int (-3), .bool true, .float 0x3fe0000000000000],
    [.str [Char.ofNat 0x200b, Char.ofNat 0x1f601]]]
    = py! "[[\"it's\", '\"\\'\\\\\\n\\x7fä\\xad'], [], [b'\\x00A', -3, True, 0.5], ['\\u200b\\U0001f601']]" := by decide +kernel

end PyULog
