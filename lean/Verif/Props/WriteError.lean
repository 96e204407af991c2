import Verif.Lemmas.WriteError
import Verif.Props.CanWrite
/-
The exceptions of `write_ulog` (C89).
-/
namespace PyULog
open Spec

/-! ### obstacles are real -/

theorem valueObstacle_real {ty : Str} {v : Value} {e : PyErr} (h : ValueObstacle ty v e) (n : Nat) : ¬WrittenIn ty v n := by
  intro hw
  have hb : py! "char[" <+: ty → basicType ty = none := by
    rintro ⟨r, rfl⟩
    simp [basicType, typeTable]
  have hu : py! "uint8_t[" <+: ty → basicType ty = none := fun h => by
    rw [basicType_eq]; exact ofName_uint8arr (List.isPrefixOf_iff_prefix.mpr h)
  have hcu : py! "char[" <+: ty → ¬ py! "uint8_t[" <+: ty := by
    rintro ⟨r, rfl⟩ ⟨r', h⟩
    cases h
  cases h with
  | unknown h =>
    rcases hw with ⟨h1, _⟩ | ⟨h1, _⟩ | ⟨t, h1, _⟩
    · exact h (Or.inl h1)
    · exact h (Or.inr (Or.inl h1))
    · exact h (Or.inr (Or.inr ⟨t, h1⟩))
  | noText h hs =>
    rcases hw with ⟨_, s, h1, _⟩ | ⟨h1, _⟩ | ⟨t, h1, _⟩
    · exact hs s h1
    · exact hcu h h1
    · rw [hb h] at h1; cases h1
  | noBytes h hs he =>
    rcases hw with ⟨h1, _⟩ | ⟨_, ⟨b, h1, _⟩ | ⟨h1, _⟩⟩ | ⟨t, h1, _⟩
    · exact hcu h1 h
    · exact hs b h1
    · exact he h1
    · rw [hu h] at h1; cases h1
  | big h hv =>
    rcases hw with ⟨h1, _⟩ | ⟨h1, _⟩ | ⟨t, h1, h2, _⟩
    · rw [hb h1] at h; cases h
    · rw [hu h1] at h; cases h
    · rw [h] at h1
      have h1 := Option.some.inj h1
      subst h1
      cases v with
      | float x => exact hv h2
      | int n => exact hv.2 h2
      | _ => exact hv
  | range t h hv _ =>
    rcases hw with ⟨h1, _⟩ | ⟨h1, _⟩ | ⟨t', h1, h2, _⟩
    · rw [hb h1] at h; cases h
    · rw [hu h1] at h; cases h
    · rw [h] at h1
      have h1 := Option.some.inj h1
      subst h1
      exact hv h2

theorem writtenIn_unique {ty : Str} {v : Value} {n m : Nat} (h : WrittenIn ty v n) (h' : WrittenIn ty v m) : n = m := by
  obtain ⟨b, h1, h2⟩ := (infoValueBytes_iff ty v n).mpr h
  obtain ⟨c, h3, h4⟩ := (infoValueBytes_iff ty v m).mpr h'
  rw [h1] at h3
  injection h3 with h3
  rw [← h2, ← h4, h3]

theorem infoObstacle_real {x : Nat} {ty k : Str} {v : Value} {e : PyErr} (h : InfoObstacle x ty k v e) : ¬InfoFits x ty k v := by
  rintro ⟨h1, n, h2, h3⟩
  cases h with
  | key h => omega
  | value h => exact valueObstacle_real h n h2
  | size m hm h =>
    rw [writtenIn_unique hm h2] at h
    omega

theorem paramObstacle_real {k : Str} {v : Value} {e : PyErr} (h : ParamObstacle k v e) : ¬ParamFits k v := by
  intro hf
  cases h with
  | text s h => rw [h] at hf; exact hf
  | bytes s h => rw [h] at hf; exact hf
  | big x h hx => rw [h] at hf; exact hx hf.1
  | range n h hn => rw [h] at hf; exact hn hf.1
  | name h hk =>
    cases v with
    | int n => have := hf.2; omega
    | bool b => have hf : utf8Size k < 248 := hf; omega
    | float x => exact h x rfl
    | str s => exact hf
    | bytes s => exact hf
  | floatName x h hk => rw [h] at hf; have := hf.2; omega

theorem cellObstacle_real {t : BT} {v : NpVal} {e : PyErr} (h : CellObstacle t v e) : ¬HoldsNp t v := by
  cases h with
  | negative n h1 h2 h3 => subst h1 h2; exact fun h => absurd h.1 (by omega)
  | noChar h1 h2 =>
    subst h1
    cases v with
    | int n => exact absurd rfl (h2 n)
    | f32 x => exact id
    | f64 x => exact id
  | big h1 h2 =>
    subst h1
    cases v with
    | int n => exact h2.2
    | f32 x => exact fun _ => h2
    | f64 x => exact h2
  | range h _ _ => exact h

theorem rowObstacle_real {d : Dataset} {i : Nat} {e : PyErr} (h : RowObstacle d i e) : ¬RowFits d i := by
  intro hr
  cases h with
  | noTime h =>
    obtain ⟨v, hv⟩ := hr.time
    unfold cell at hv
    rw [h] at hv
    cases hv
  | shortTime col h hl =>
    obtain ⟨v, hv⟩ := hr.time
    unfold cell at hv
    rw [h] at hv
    have hv : col[i]? = some v := hv
    rw [List.getElem?_eq_none_iff.mpr hl] at hv
    cases hv
  | noColumn f hf h =>
    obtain ⟨v, hv, _⟩ := hr.values f hf
    unfold cell at hv
    rw [h] at hv
    cases hv
  | short f col hf h hl =>
    obtain ⟨v, hv, _⟩ := hr.values f hf
    unfold cell at hv
    rw [h] at hv
    have hv : col[i]? = some v := hv
    rw [List.getElem?_eq_none_iff.mpr hl] at hv
    cases hv
  | value f v hf h hc =>
    obtain ⟨w, hw, hh⟩ := hr.values f hf
    rw [h] at hw
    have hw := Option.some.inj hw
    subst hw
    exact cellObstacle_real hc hh
  | size h => have := hr.size; omega

theorem obstacle_real {u : ULog} {e : PyErr} (h : Obstacle u e) : ¬CanWrite u := by
  intro hw
  cases h with
  | head h => exact h ⟨hw.version, hw.start⟩
  | compat h => exact h hw.compat
  | noFlags h =>
    have := hw.incompat.1
    rw [h] at this
    cases this
  | incompat _ h => exact h hw.incompat
  | format p hp h => have := hw.formats p hp; omega
  | noType p hp h =>
    obtain ⟨ty, h1, _⟩ := hw.info p hp
    rw [h] at h1
    cases h1
  | info p ty hp h hi =>
    obtain ⟨ty', h1, h2⟩ := hw.info p hp
    rw [h] at h1
    have h1 := Option.some.inj h1
    subst h1
    exact infoObstacle_real hi h2
  | noMultiType p hp h =>
    obtain ⟨ty, h1, _⟩ := hw.multi p hp
    rw [h] at h1
    cases h1
  | multi p ty s v hp h hs hv hi =>
    obtain ⟨ty', h1, h2⟩ := hw.multi p hp
    rw [h] at h1
    have h1 := Option.some.inj h1
    subst h1
    exact infoObstacle_real hi (h2 s hs v hv)
  | initial p hp h => exact paramObstacle_real h (hw.initial p hp)
  | bit p hp hne h =>
    obtain ⟨q, hq⟩ := List.exists_mem_of_ne_nil _ hne
    have := (hw.defaults p hp q hq).1
    omega
  | default p q hp hq h => exact paramObstacle_real h (hw.defaults p hp q hq).2
  | changed p hp h => exact paramObstacle_real h (hw.changed p hp)
  | sub d hd h => exact h (hw.subs d hd)
  | noField d hd h =>
    obtain ⟨f, rest, col, h1, _⟩ := hw.data d hd
    rw [h] at h1
    cases h1
  | noFirst d f rest hd h hg =>
    obtain ⟨f', rest', col, h1, h2, _⟩ := hw.data d hd
    rw [h] at h1
    injection h1 with h1
    subst h1
    rw [hg] at h2
    cases h2
  | row d f rest col i hd h hg hi hr =>
    obtain ⟨f', rest', col', h1, h2, h3⟩ := hw.data d hd
    rw [h] at h1
    injection h1 with h1
    subst h1
    rw [hg] at h2
    injection h2 with h2
    subst h2
    exact rowObstacle_real hr (h3 i hi)
  | logged m hm h => exact h (hw.logged m hm)
  | tagged m hm h => exact h (hw.tagged m hm)
  | dropout m hm h => exact h (hw.dropouts m hm)

/-! ### the property -/

/-- **C89**: if `write_ulog` raises an exception, the log has an obstacle (Spec/WriteError.lean) that this
exception stands for -/
theorem C89_exception (u : ULog) (ht : IntegerTimes u) (e : PyErr) (h : writeUlog u = .error e) : Obstacle u e :=
  writeUlog_err ht h

/-- **C89**: a log with an obstacle is not written; if it has obstacles of one kind only, the exception is
that of this kind -/
theorem C89_obstacle (u : ULog) (ht : IntegerTimes u) (e : PyErr) (h : Obstacle u e) :
    (∃ e', writeUlog u = .error e') ∧ ((∀ e', Obstacle u e' → e' = e) → writeUlog u = .error e) := by
  cases hw : writeUlog u with
  | ok b => exact absurd ((C83_exact u ht).mp ⟨b, hw⟩) (obstacle_real h)
  | error e' => exact ⟨⟨e', rfl⟩, fun ho => by rw [ho e' (writeUlog_err ht hw)]⟩

/-- **C89**: a log that was loaded from a file is only refused for its formats (with `struct.error`), for info
types that the writer does not know (`KeyError`), for messages of one key with different types, for its
parameters, for a topic without timestamp or with a column without a name (`KeyError`) and for a `char` above 127 (`ValueError`); an
`IndexError` is impossible -/
theorem C89_loaded {fuel : Nat} {cfg : Cfg} {bs : Bytes} {u : ULog} (h : load fuel cfg bs = .ok u)
    (ht : IntegerTimes u) (e : PyErr) (he : writeUlog u = .error e) : LoadedObstacle u e ∧ e ≠ .indexError := by
  have hs := load_sizes h
  have hd := load_dicts h
  have ha := load_aligned h
  have key : LoadedObstacle u e := by
    cases writeUlog_err ht he with
    | head h => exact absurd ⟨hs.version, hs.start⟩ h
    | compat h => exact absurd hs.compat h
    | noFlags h =>
      have := hs.incompat.1
      rw [h] at this
      cases this
    | incompat _ h => exact absurd ⟨hs.incompat.1, fun x hx => hs.incompat.2 x (List.mem_of_mem_drop hx)⟩ h
    | format p hp h => exact .format p hp h
    | noType p hp h =>
      obtain ⟨ty, h1, _⟩ := hs.info p.1 p.2 (Dict.get?_of_mem _ _ _ hd.info hp)
      rw [h] at h1
      cases h1
    | info p ty hp h hi =>
      obtain ⟨ty', h1, h2, h3⟩ := hs.info p.1 p.2 (Dict.get?_of_mem _ _ _ hd.info hp)
      rw [h] at h1
      have h1 := Option.some.inj h1
      subst h1
      have hw : ¬WritableType ty := fun hw => infoObstacle_real hi (h3 hw)
      have he : e = .keyError := by
        cases hi with
        | key h => omega
        | value h =>
          cases h with
          | unknown => rfl
          | noText h => exact absurd (Or.inl h) hw
          | noBytes h => exact absurd (Or.inr (Or.inl h)) hw
          | big h => exact absurd (Or.inr (Or.inr ⟨_, h⟩)) hw
          | range t h => exact absurd (Or.inr (Or.inr ⟨_, h⟩)) hw
        | size n h =>
          rcases h with h | h | ⟨t, h, _⟩
          · exact absurd (Or.inl h.1) hw
          · exact absurd (Or.inr (Or.inl h.1)) hw
          · exact absurd (Or.inr (Or.inr ⟨_, h⟩)) hw
      rw [he]
      exact .type (p.1, ty) (Dict.mem_of_get? _ _ _ h) hw
    | noMultiType p hp h =>
      have hk : p.1 ∈ u.infoMultiTypes.keys := by
        rw [ha.multiTypes]; exact List.mem_map.mpr ⟨_, hp, rfl⟩
      obtain ⟨⟨k', ty⟩, ht, hk⟩ := List.mem_map.mp hk
      have hk : k' = p.1 := hk
      subst hk
      rw [Dict.get?_of_mem _ _ _ hd.infoMultiTypes ht] at h
      cases h
    | multi p ty s v hp h hs hv hi =>
      exact .multi (p.1, ty) p.2 s v (Dict.mem_of_get? _ _ _ h) (Dict.get?_of_mem _ _ _ hd.infoMulti hp) hs hv hi
    | initial p hp h => exact .initial p hp h
    | bit p hp _ h => exact .bit p hp h
    | default p q hp hq h => exact .default p q hp hq h
    | changed p hp h => exact .changed p hp h
    | sub d hdl h' => exact absurd (loaded_data h hdl).ids h'
    | noField d hdl h' =>
      obtain ⟨f, rest, h1⟩ := (loaded_data h hdl).first
      rw [h'] at h1
      cases h1
    | noFirst d f rest hdl h' hg =>
      obtain ⟨n, _, _, hr⟩ := (loaded_data h hdl).rows
      have hfm : f ∈ d.fields := by rw [h']; exact List.mem_cons_self
      refine .unnamed d f hdl hfm (Classical.byContradiction fun hne => ?_)
      obtain ⟨col, h1, _⟩ := hr f hfm hne
      rw [hg] at h1
      cases h1
    | row d f rest col i hdl h' hg hi hr =>
      have hld := loaded_data h hdl
      obtain ⟨n, hn, hall, hrows⟩ := hld.rows
      have hin : i < n := by
        rw [← hall _ (Dict.mem_of_get? _ _ _ hg)]
        exact hi
      cases hr with
      | noTime hg =>
        refine .noTime d hdl fun f hf hname => ?_
        obtain ⟨c, h1, _⟩ := hrows f hf (by rw [hname]; exact fun h => nomatch h)
        rw [hname, hg] at h1
        cases h1
      | shortTime col hg hl =>
        have := hall _ (Dict.mem_of_get? _ _ _ hg)
        dsimp only at this
        omega
      | noColumn f hf hg =>
        refine .unnamed d f hdl hf (Classical.byContradiction fun hne => ?_)
        obtain ⟨c, h1, _⟩ := hrows f hf hne
        rw [hg] at h1
        cases h1
      | short f col hf hg hl =>
        have := hall _ (Dict.mem_of_get? _ _ _ hg)
        dsimp only at this
        omega
      | value f v hf hv hc =>
        have hne : f.name ≠ [] := by
          intro hn
          unfold cell at hv
          cases hg : d.data.get? f.name with
          | none => rw [hg] at hv; cases hv
          | some col =>
            obtain ⟨k, g, _, hk, _⟩ := hld.named _ _ hg
            exact columnName_ne _ _ (hk.trans hn)
        obtain ⟨c, h1, h2, h3⟩ := hrows f hf hne
        unfold cell at hv
        rw [h1] at hv
        have hv := List.mem_of_getElem? (show c[i]? = some v from hv)
        have h3 := h3 v hv
        by_cases hch : f.type = .char
        · rw [if_pos hch] at h3
          obtain ⟨k, rfl, hk⟩ := h3
          cases hc with
          | negative m _ hm hneg =>
            injection hm with hm
            subst hm
            exact .char d f c k hdl hf hch h1 hv hneg
          | noChar _ hno => exact absurd rfl (hno k)
          | big hf32 => rw [hch] at hf32; cases hf32
          | range hh hpos _ =>
            obtain ⟨m, hm, h0⟩ := hpos hch
            injection hm with hm
            subst hm
            rw [hch] at hh
            exact absurd ⟨h0, hk⟩ hh
        · rw [if_neg hch] at h3
          exact absurd h3 (cellObstacle_real hc)
      | size h => have := hld.size; omega
    | logged m hm h => exact absurd (hs.logged m hm) h
    | tagged m hm h =>
      obtain ⟨l, hl, hm⟩ := List.mem_flatten.mp hm
      obtain ⟨p, hp, rfl⟩ := List.mem_map.mp hl
      exact absurd (hs.tagged p hp m hm) h
    | dropout m hm h => exact absurd (hs.dropouts m hm) h
  refine ⟨key, ?_⟩
  have hv : ∀ {ty v}, ¬ValueObstacle ty v .indexError := fun h => by cases h
  have hi : ∀ {x ty k v}, ¬InfoObstacle x ty k v .indexError := fun h => by
    cases h with
    | value h => exact hv h
  have hp : ∀ {k v}, ¬ParamObstacle k v .indexError := fun h => by cases h
  rintro rfl
  cases key with
  | multi p sets s v _ _ _ _ h => exact hi h
  | initial p _ h => exact hp h
  | default p q _ _ h => exact hp h
  | changed p _ h => exact hp h

/-- loaded logs with each of the exceptions: `KeyError`, `TypeError`, `struct.error`, `OverflowError` (a `double`
parameter of 1e300) and `ValueError` (a `char` of 200) -/
theorem C89_examples :
    (∃ v, load 20 {} (Sample.fileWith [Sample.keyed tyP (py! "double P") (leEnc 8 0x7e37e43c8800759c)]) = .ok v ∧
      v.fileCorrupt = false ∧ IntegerTimes v ∧ writeUlog v = .error .overflowError) ∧
    (∃ v, load 20 {} (Sample.header ++ encMsgs [(tyF, encStr (py! "t:uint64_t timestamp;char c;"))]
        ++ encMsgs [(tyA, [0] ++ leEnc 2 0 ++ encStr (py! "t")), (tyD, leEnc 2 0 ++ leEnc 8 9 ++ [200])]) = .ok v ∧
      v.fileCorrupt = false ∧ IntegerTimes v ∧ writeUlog v = .error .valueError) ∧
    (∃ v, load 20 {} (Sample.fileWith [Sample.keyed1 tyM 0 (py! "char[1] m") (Sample.asc (py! "x")),
        Sample.keyed1 tyM 0 (py! "uint8_t m") [1]]) = .ok v ∧
      v.fileCorrupt = false ∧ IntegerTimes v ∧ writeUlog v = .error .typeError) ∧
    (∃ v, load 20 {} (Sample.fileWith [Sample.keyed1 tyM 0 (py! "uint8_t[1] m") [1],
        Sample.keyed1 tyM 0 (py! "uint8_t m") [1]]) = .ok v ∧
      v.fileCorrupt = false ∧ IntegerTimes v ∧ writeUlog v = .error .typeError) := by
  have key : ∀ {bs : Bytes} {e : PyErr}, Sample.loads bs (Sample.writeFails e) = true →
      ∃ v, load 20 {} bs = .ok v ∧ v.fileCorrupt = false ∧ IntegerTimes v ∧ writeUlog v = .error e := by
    intro bs e h
    obtain ⟨v, hv, hc, -, ht, hp⟩ := loads_of h
    exact ⟨v, hv, hc, ht, writeFails_of hp⟩
  exact ⟨key (by decide +kernel), key (by decide +kernel), key (by decide +kernel), key (by decide +kernel)⟩

/-- **C89**: a loaded log with a column without a name cannot be written -/
theorem C89_unnamed {fuel : Nat} {cfg : Cfg} {bs : Bytes} {u : ULog} (h : load fuel cfg bs = .ok u)
    (ht : IntegerTimes u) {d : Dataset} (hd : d ∈ u.dataList) {f : FieldData} (hf : f ∈ d.fields) (hn : f.name = []) :
    ∃ e, writeUlog u = .error e := by
  cases hw : writeUlog u with
  | error e => exact ⟨e, rfl⟩
  | ok b => exact absurd hn (((C83_loaded h ht).mp ⟨b, hw⟩).named d hd f hf)

/-- such a log is read without corruption, and it raises `KeyError` -/
example : ∃ v, load 20 {} (Sample.header ++ encMsgs [(tyF, Sample.asc (py! "t:uint64_t timestamp;uint8_t ;"))]
      ++ encMsgs [(tyA, [0] ++ leEnc 2 0 ++ encStr (py! "t")), (tyD, leEnc 2 0 ++ leEnc 8 9 ++ [200])]) = .ok v ∧
    v.fileCorrupt = false ∧ IntegerTimes v ∧ (∃ d ∈ v.dataList, ∃ f ∈ d.fields, f.name = []) ∧
    writeUlog v = .error .keyError := by
  have h : Sample.loads (Sample.header ++ encMsgs [(tyF, Sample.asc (py! "t:uint64_t timestamp;uint8_t ;"))]
      ++ encMsgs [(tyA, [0] ++ leEnc 2 0 ++ encStr (py! "t")), (tyD, leEnc 2 0 ++ leEnc 8 9 ++ [200])])
      (fun v => Sample.writeFails .keyError v && decide (∃ d ∈ v.dataList, ∃ f ∈ d.fields, f.name = [])) = true := by
    decide +kernel
  obtain ⟨v, hv, hc, -, ht, hp⟩ := loads_of h
  rw [Bool.and_eq_true] at hp
  exact ⟨v, hv, hc, ht, of_decide_eq_true hp.2, writeFails_of hp.1⟩

/-- an object that was changed after loading can have the other obstacles: no incompatibility flags -/
example : ∃ u : ULog, IntegerTimes u ∧ Obstacle u .indexError ∧ writeUlog u = .error .indexError := by
  refine ⟨{ Sample.loaded with incompat := [] }, integerTimes_of (by decide +kernel), .noFlags rfl,
    writeFails_of (by decide +kernel)⟩

end PyULog
