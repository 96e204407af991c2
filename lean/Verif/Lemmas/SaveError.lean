import Verif.Spec.SaveError
import Verif.Lemmas.DbTotal
import Verif.Lemmas.WriteError
import Verif.Lemmas.CanWrite
import Verif.Props.DbObject
/-
Helper lemmas: the errors of the statements of `save`.
-/
namespace PyULog
open Spec

theorem runAll_errMem : ∀ {ss : List Stmt} {r : Reg} {e : PyErr}, runAll ss r = .error e → ∃ s ∈ ss, ∃ r', s r' = .error e
  | [], r, e, h => by cases h
  | s :: ss, r, e, h => by
    rw [runAll_cons] at h
    rcases except_bind_error.mp h with h | ⟨a, _, h⟩
    · exact ⟨s, List.mem_cons_self, r, h⟩
    · obtain ⟨s', hs, h'⟩ := runAll_errMem h
      exact ⟨s', List.mem_cons_of_mem _ hs, h'⟩

theorem insert_err {α : Type} {add : Reg → α → DB} {g : Except PyErr α} {r : Reg} {e : PyErr}
    (h : insert add g r = .error e) : g = .error e := by
  unfold insert at h
  rcases except_bind_error.mp h with h | ⟨a, _, h⟩
  · exact h
  · cases h

theorem runAll_insert_err {α β : Type} {add : Reg → α → DB} {g : β → Except PyErr α} {xs : List β} {r : Reg} {e : PyErr}
    (h : runAll (xs.map fun x => insert add (g x)) r = .error e) : ∃ x ∈ xs, g x = .error e := by
  obtain ⟨s, hs, r', h⟩ := runAll_errMem h
  obtain ⟨x, hx, rfl⟩ := List.mem_map.mp hs
  exact ⟨x, hx, insert_err h⟩

theorem bindNat_err {n : Nat} {e : PyErr} (h : bindNat n = .error e) : e = .overflowError ∧ ¬ n < 2 ^ 63 := by
  unfold bindNat at h
  split at h
  · cases h
  · rename_i hn; cases h; exact ⟨rfl, hn⟩

theorem bindInt_err {n : Int} {e : PyErr} (h : bindInt n = .error e) : e = .overflowError ∧ ¬ fitsInt n := by
  unfold bindInt at h
  split at h
  · cases h
  · rename_i hn; cases h; exact ⟨rfl, hn⟩

theorem bindVal_err {v : DVal} {e : PyErr} (h : bindVal v = .error e) : e = .overflowError ∧ ¬ valueFits v := by
  have hn : ¬ valueFits v := by
    intro hv
    obtain ⟨s, hs⟩ := bindVal_total hv
    rw [hs] at h; cases h
  refine ⟨?_, hn⟩
  cases v with
  | none => cases h
  | some v =>
    cases v with
    | int n =>
      have h : (bindInt n).map SqlVal.int = .error e := h
      cases hb : bindInt n with
      | ok m => rw [hb] at h; cases h
      | error e' => rw [hb] at h; cases h; exact (bindInt_err hb).1
    | _ => cases h

theorem bindText_err {v : DVal} {e : PyErr} (h : bindText v = .error e) : e = .overflowError ∧ ¬ valueFits v := by
  unfold bindText at h
  rcases except_bind_error.mp h with h | ⟨s, _, h⟩
  · exact bindVal_err h
  · cases s <;> cases h

theorem bindVal_ok {v : DVal} {s : SqlVal} (h : bindVal v = .ok s) : valueFits v := by
  intro n hn
  subst hn
  have h : (bindInt n).map SqlVal.int = .ok s := h
  cases hb : bindInt n with
  | error e => rw [hb] at h; cases h
  | ok m =>
    unfold bindInt at hb
    split at hb
    · assumption
    · cases hb

theorem bindText_ok {v : DVal} {s : SqlVal} (h : bindText v = .ok s) : valueFits v := by
  unfold bindText at h
  obtain ⟨s', h, _⟩ := except_bind_ok.mp h
  exact bindVal_ok h

theorem bindNat_lt {n m : Nat} (h : bindNat n = .ok m) : n < 2 ^ 63 := by
  unfold bindNat at h
  split at h
  · assumption
  · cases h

theorem bindInt_fits {n m : Int} (h : bindInt n = .ok m) : fitsInt n := by
  unfold bindInt at h
  split at h
  · assumption
  · cases h

theorem dictGet_err {κ α : Type} [DecidableEq κ] {d : Dict κ α} {k : κ} {e : PyErr} (h : dictGet d k = .error e) :
    e = .keyError ∧ d.get? k = none := by
  unfold dictGet at h
  split at h
  · cases h
  · cases h; exact ⟨rfl, by assumption⟩

theorem dictGet_some {κ α : Type} [DecidableEq κ] {d : Dict κ α} {k : κ} {v : α} (h : dictGet d k = .ok v) :
    d.get? k = some v := by
  unfold dictGet at h
  split at h
  · cases h; assumption
  · cases h

/-! ### the rows -/

theorem npEncode_err {t : BT} {v : NpVal} {e : PyErr} (h : npEncode t v = .error e) : e = .unmodelled ∧ ¬ SameKind t v := by
  cases t <;> cases v <;> first | (cases h; done) | (cases h; exact ⟨rfl, id⟩)

theorem npEncode_kind {t : BT} {v : NpVal} {b : Bytes} (h : npEncode t v = .ok b) : SameKind t v := by
  cases t <;> cases v <;> first | trivial | cases h

theorem negInf_iff (v : NpVal) : isNegInf v = true ↔ NegInfinite v := by
  unfold NegInfinite
  cases v <;> simp [isNegInf]

/-- the dictionary of the JSON column -/
def jsonDict (ps : List (Int × NpVal)) : Dict Int NpVal := ps.foldl (fun j p => Dict.set j p.1 p.2) []

theorem jsonDict_nodup (ps : List (Int × NpVal)) : ((jsonDict ps).map (·.1)).Nodup := by
  have key : ∀ (ps : List (Int × NpVal)) (acc : Dict Int NpVal), (acc.map (·.1)).Nodup →
      ((ps.foldl (fun j p => Dict.set j p.1 p.2) acc).map (·.1)).Nodup := by
    intro ps
    induction ps with
    | nil => intro acc h; exact h
    | cons p ps ih => intro acc h; exact ih _ (Dict.keys_nodup_set _ _ _ h)
  exact key ps [] List.nodup_nil

theorem jsonDict_any (ps : List (Int × NpVal)) : ((jsonDict ps).any fun p => isNegInf p.2) = true ↔
    ∃ t v, (ps.reverse.find? fun p => decide (p.1 = t)) = some (t, v) ∧ NegInfinite v := by
  have hget : ∀ t, (jsonDict ps).get? t = (ps.reverse.find? fun p => decide (p.1 = t)).map (·.2) := by
    intro t
    exact (get?_foldl_set ps [] t).trans Option.or_none
  rw [List.any_eq_true]
  constructor
  · rintro ⟨p, hp, hv⟩
    refine ⟨p.1, p.2, ?_, (negInf_iff _).mp hv⟩
    have h1 := hget p.1
    rw [Dict.get?_of_mem _ _ _ (jsonDict_nodup ps) hp] at h1
    cases hf : ps.reverse.find? fun q => decide (q.1 = p.1) with
    | none => rw [hf] at h1; cases h1
    | some q =>
      rw [hf] at h1
      have h2 : q.1 = p.1 := by simpa using List.find?_some hf
      have h1 : p.2 = q.2 := Option.some.inj h1
      obtain ⟨q1, q2⟩ := q
      simp only at h1 h2
      rw [h1, ← h2]
  · rintro ⟨t, v, hf, hv⟩
    have h1 := hget t
    rw [hf] at h1
    exact ⟨(t, v), Dict.mem_of_get? _ _ _ h1, (negInf_iff v).mpr hv⟩

theorem find_int (keys : List Int) (vals : List NpVal) (t : Int) (v : NpVal) :
    (((keys.map NpVal.int).zip vals).reverse.find? fun q => decide (q.1 = .int t)) = some (.int t, v) ↔
      ((keys.zip vals).reverse.find? fun p => decide (p.1 = t)) = some (t, v) := by
  rw [List.zip_map_left, ← List.map_reverse, List.find?_map]
  have : (fun (q : NpVal × NpVal) => decide (q.1 = NpVal.int t)) ∘ Prod.map NpVal.int id =
      fun p : Int × NpVal => decide (p.1 = t) := by
    funext p
    simp
  rw [this]
  cases ((keys.zip vals).reverse.find? fun p => decide (p.1 = t)) with
  | none => simp
  | some q =>
    obtain ⟨a, b⟩ := q
    simp

theorem ints_of {ts : List NpVal} {keys : List Int} (h : ts.mapM (fun t => match t with
    | .int n => Except.ok n
    | _ => .error PyErr.unmodelled) = .ok keys) : ts = keys.map NpVal.int := by
  have := mapM_map_eq (h := NpVal.int) (g := id) (fun x _ y hy => by
    cases x with
    | int n => cases hy; rfl
    | _ => cases hy) h
  simpa using this.symm

theorem jsonOf_err {d : Dataset} {col : List NpVal} {e : PyErr} (h : jsonOf d col = .error e) :
    (e = .keyError ∧ d.data.get? (py! "timestamp") = none) ∨
    (∃ ts, d.data.get? (py! "timestamp") = some ts ∧
      ((e = .unmodelled ∧ ∃ v ∈ ts, ∀ n, v ≠ .int n) ∨
        (e = .operationalError ∧ ∃ t v, ((ts.zip col).reverse.find? fun q => decide (q.1 = .int t)) = some (.int t, v) ∧
          NegInfinite v))) := by
  unfold jsonOf at h
  rcases except_bind_error.mp h with h | ⟨ts, h1, h⟩
  · exact .inl (dictGet_err h)
  · refine .inr ⟨ts, dictGet_some h1, ?_⟩
    rcases except_bind_error.mp h with h | ⟨keys, h2, h⟩
    · obtain ⟨v, hv, h⟩ := mapM_errMem h
      cases v with
      | int n => cases h
      | _ => cases h; exact .inl ⟨rfl, _, hv, fun n hn => by cases hn⟩
    · right
      have h : (if ((jsonDict (keys.zip col)).any fun p => isNegInf p.2) = true then Except.error PyErr.operationalError
        else pure (jsonDict (keys.zip col))) = Except.error e := h
      split at h
      · rename_i hany
        cases h
        obtain ⟨t, v, hf, hv⟩ := (jsonDict_any _).mp hany
        exact ⟨rfl, t, v, by rw [ints_of h2]; exact (find_int keys col t v).mpr hf, hv⟩
      · cases h

theorem jsonOf_good {d : Dataset} {col : List NpVal} {j : Dict Int NpVal} (h : jsonOf d col = .ok j) :
    ∃ ts, d.data.get? (py! "timestamp") = some ts ∧ (∀ v ∈ ts, ∃ n, v = .int n) ∧
      ∀ t v, ((ts.zip col).reverse.find? fun q => decide (q.1 = .int t)) = some (.int t, v) → ¬ NegInfinite v := by
  unfold jsonOf at h
  obtain ⟨ts, h1, h⟩ := except_bind_ok.mp h
  obtain ⟨keys, h2, h⟩ := except_bind_ok.mp h
  have e := ints_of h2
  refine ⟨ts, dictGet_some h1, ?_, ?_⟩
  · intro v hv
    rw [e] at hv
    obtain ⟨n, _, rfl⟩ := List.mem_map.mp hv
    exact ⟨n, rfl⟩
  · intro t v hf hv
    have h : (if ((jsonDict (keys.zip col)).any fun p => isNegInf p.2) = true then Except.error PyErr.operationalError
      else pure (jsonDict (keys.zip col))) = Except.ok j := h
    rw [if_pos ((jsonDict_any _).mpr ⟨t, v, by rw [e] at hf; exact (find_int keys col t v).mp hf, hv⟩)] at h
    cases h

theorem fieldRow_err {json : Bool} {l : DbLog} {d : Dataset} {f : FieldData} {e : PyErr} (hd : d ∈ l.dataList)
    (hf : f ∈ d.fields) (h : fieldRow json d f = .error e) : SaveObstacle json l e := by
  unfold fieldRow at h
  rcases except_bind_error.mp h with h | ⟨col, h1, h⟩
  · obtain ⟨rfl, hbad⟩ := dictGet_err h
    exact .column hd hf hbad
  · have h1 := dictGet_some h1
    rcases except_bind_error.mp h with h | ⟨b, h2, h⟩
    · unfold npBytes at h
      cases hm : col.mapM (npEncode f.type) with
      | ok bs => rw [hm] at h; cases h
      | error e' =>
        rw [hm] at h
        cases h
        obtain ⟨v, hv, h⟩ := mapM_errMem hm
        obtain ⟨rfl, hbad⟩ := npEncode_err h
        exact .kind hd hf h1 hv hbad
    · cases json with
      | false => cases h
      | true =>
        rcases except_bind_error.mp (show (Except.map some (jsonOf d col) >>= _) = .error e from h) with h | ⟨j, _, h⟩
        · cases hj : jsonOf d col with
          | ok j => rw [hj] at h; cases h
          | error e' =>
            rw [hj] at h
            cases h
            have hne : d.fields ≠ [] := List.ne_nil_of_mem hf
            rcases jsonOf_err hj with ⟨rfl, ht⟩ | ⟨ts, ht, ⟨rfl, v, hv, hn⟩ | ⟨rfl, t, v, hfind, hv⟩⟩
            · exact .noTime rfl hd hne ht
            · exact .time rfl hd hne ht hv hn
            · exact .negInf rfl hd hf h1 ht hfind hv
        · cases h

theorem datasetRow_err {json : Bool} {l : DbLog} {d : Dataset} {e : PyErr} (hd : d ∈ l.dataList)
    (h : datasetRow d = .error e) : SaveObstacle json l e := by
  unfold datasetRow at h
  rcases except_bind_error.mp h with h | ⟨_, h1, h⟩
  · obtain ⟨rfl, hbad⟩ := bindNat_err h
    exact .dataset hd fun hx => hbad hx.1
  · rcases except_bind_error.mp h with h | ⟨_, h2, h⟩
    · obtain ⟨rfl, hbad⟩ := bindNat_err h
      exact .dataset hd fun hx => hbad hx.2.1
    · rcases except_bind_error.mp h with h | ⟨_, _, h⟩
      · obtain ⟨rfl, hbad⟩ := bindInt_err h
        exact .dataset hd fun hx => hbad hx.2.2
      · cases h

theorem datasetStmt_err {d : Dataset} {r : Reg} {e : PyErr} (h : datasetStmt d r = .error e) :
    datasetRow d = .error e ∨ e = .integrityError ∧ ∃ row, datasetRow d = .ok row ∧ ¬ NoClash r row := by
  unfold datasetStmt at h
  rcases except_bind_error.mp h with h | ⟨row, h1, h⟩
  · exact .inl h
  · right
    split at h
    · rename_i hany
      cases h
      refine ⟨rfl, row, h1, fun hc => ?_⟩
      obtain ⟨p, hp, hb⟩ := List.any_eq_true.mp hany
      simp only [Bool.and_eq_true, decide_eq_true_eq] at hb
      exact hc p hp hb.1.1 hb.1.2 hb.2
    · cases h

theorem datasets_err {json : Bool} {l : DbLog} : ∀ {ds : List Dataset} {r : Reg} {e : PyErr}, (∀ d ∈ ds, d ∈ l.dataList) →
    (ds.map fun d => (d.name, d.multiId)).Nodup → (∀ d ∈ ds, NoClash r (dsRowOf d)) →
    runAll (ds.flatMap (datasetStmts json)) r = .error e → SaveObstacle json l e
  | [], r, e, hm, hn, hc, h => by cases h
  | d :: ds, r, e, hm, hn, hc, h => by
    rw [List.flatMap_cons, runAll_append] at h
    rw [List.map_cons, List.nodup_cons] at hn
    have hd := hm d List.mem_cons_self
    rcases except_bind_error.mp h with h | ⟨r1, h1, h⟩
    · unfold datasetStmts at h
      rw [runAll_cons] at h
      rcases except_bind_error.mp h with h | ⟨r2, _, h⟩
      · rcases datasetStmt_err h with h | ⟨_, row, h2, h3⟩
        · exact datasetRow_err hd h
        · rw [datasetRow_eq h2] at h3
          exact absurd (hc d List.mem_cons_self) h3
      · obtain ⟨f, hf, h⟩ := runAll_insert_err h
        exact fieldRow_err hd hf h
    · obtain ⟨row, fs, h2, _, _, rfl⟩ := runAll_dataset.mp h1
      refine datasets_err (fun x hx => hm x (List.mem_cons_of_mem _ hx)) hn.2 ?_ h
      intro x hx p hp e1 e2 e3
      rcases List.mem_append.mp hp with hp | hp
      · exact hc x (List.mem_cons_of_mem _ hx) p hp e1 e2 e3
      · rw [List.mem_singleton] at hp
        rw [hp] at e2 e3
        have h2 := datasetRow_eq h2
        subst h2
        refine hn.1 (List.mem_map.mpr ⟨x, hx, ?_⟩)
        have e2 : d.name = x.name := e2
        have e3 : d.multiId = x.multiId := e3
        rw [e2, e3]

theorem chrStr_err {flags : List Nat} {e : PyErr} (h : chrStr flags = .error e) :
    ∃ x ∈ flags, (e = .unicodeError ∧ 0xD800 ≤ x ∧ x ≤ 0xDFFF) ∨ e = .valueError ∧ 0x110000 ≤ x := by
  obtain ⟨x, hx, h⟩ := mapM_errMem h
  refine ⟨x, hx, ?_⟩
  split at h
  · cases h
  · rename_i hv
    have hv : ¬ (x < 0xd800 ∨ (0xdfff < x ∧ x < 0x110000)) := hv
    split at h
    · cases h; exact .inl ⟨rfl, by omega, by omega⟩
    · cases h; exact .inr ⟨rfl, by omega⟩

theorem chrStr_good {flags : List Nat} {s : Str} (h : chrStr flags = .ok s) :
    ∀ x ∈ flags, x < 0xD800 ∨ 0xDFFF < x ∧ x < 0x110000 := by
  intro x hx
  obtain ⟨c, h⟩ := mapM_can.mp ⟨s, h⟩ x hx
  split at h
  · rename_i hv
    exact hv
  · split at h <;> cases h

theorem metaRow_err {json : Bool} {l : DbLog} {sha : Str} {e : PyErr} (h : metaRow l sha = .error e) : SaveObstacle json l e := by
  unfold metaRow at h
  rcases except_bind_error.mp h with h | ⟨_, _, h⟩
  · obtain ⟨x, hx, ⟨rfl, h1, h2⟩ | ⟨rfl, h1⟩⟩ := chrStr_err h
    · exact .surrogate (List.mem_append_left _ hx) h1 h2
    · exact .noChar (List.mem_append_left _ hx) h1
  · rcases except_bind_error.mp h with h | ⟨_, _, h⟩
    · obtain ⟨x, hx, ⟨rfl, h1, h2⟩ | ⟨rfl, h1⟩⟩ := chrStr_err h
      · exact .surrogate (List.mem_append_right _ hx) h1 h2
      · exact .noChar (List.mem_append_right _ hx) h1
    · rcases except_bind_error.mp h with h | ⟨_, _, h⟩
      · obtain ⟨rfl, hbad⟩ := bindNat_err h
        exact .header fun hx => hbad hx.1
      · rcases except_bind_error.mp h with h | ⟨_, _, h⟩
        · obtain ⟨rfl, hbad⟩ := bindNat_err h
          exact .header fun hx => hbad hx.2.1
        · rcases except_bind_error.mp h with h | ⟨_, _, h⟩
          · obtain ⟨rfl, hbad⟩ := bindNat_err h
            exact .header fun hx => hbad hx.2.2.1
          · rcases except_bind_error.mp h with h | ⟨_, _, h⟩
            · obtain ⟨rfl, hbad⟩ := bindNat_err h
              exact .header fun hx => hbad hx.2.2.2
            · cases h

theorem zipIdx_mem {α : Type} {l : List α} {p : α × Nat} (h : p ∈ l.zipIdx) : p.1 ∈ l := by
  have := List.mem_map_of_mem (f := (·.1)) h
  rwa [List.zipIdx_map_fst] at this

theorem datasets_twice {json : Bool} {l : DbLog} {r : Reg} {e : PyErr}
    (hn : ¬ (l.dataList.map fun d => (d.name, d.multiId)).Nodup)
    (h : runAll (l.dataList.flatMap (datasetStmts json)) r = .error e) : SaveObstacle json l e := by
  obtain ⟨s, hs, r', h⟩ := runAll_errMem h
  obtain ⟨d, hd, hs⟩ := List.mem_flatMap.mp hs
  rcases List.mem_cons.mp hs with rfl | hs
  · rcases datasetStmt_err h with h | ⟨rfl, _⟩
    · exact datasetRow_err hd h
    · exact .twice hn
  · obtain ⟨f, hf, rfl⟩ := List.mem_map.mp hs
    exact fieldRow_err hd hf (insert_err h)

/-- the errors of the statements after the first one -/
theorem rest_err {json : Bool} {l : DbLog} {r : Reg} {e : PyErr}
    (hc : ∀ p ∈ r.db.datasets, p.2.1 ≠ r.pk) (h : runAll (restStmts json l) r = .error e) : SaveObstacle json l e := by
  unfold restStmts at h
  simp only [runAll_append] at h
  rcases except_bind_error.mp h with h | ⟨_, -, h⟩
  rcases except_bind_error.mp h with h | ⟨_, -, h⟩
  rcases except_bind_error.mp h with h | ⟨_, -, h⟩
  rcases except_bind_error.mp h with h | ⟨_, -, h⟩
  rcases except_bind_error.mp h with h | ⟨_, -, h⟩
  rcases except_bind_error.mp h with h | ⟨_, -, h⟩
  rcases except_bind_error.mp h with h | ⟨_, -, h⟩
  rcases except_bind_error.mp h with h | ⟨_, -, h⟩
  rcases except_bind_error.mp h with h | ⟨_, -, h⟩
  rcases except_bind_error.mp h with h | ⟨r1, h1, h⟩
  · obtain ⟨p, hp, h⟩ := runAll_insert_err h
    rcases except_bind_error.mp h with h | ⟨_, -, h⟩
    · obtain ⟨rfl, hbad⟩ := bindNat_err h
      exact .offset (zipIdx_mem hp) (by omega)
    · cases h
  · obtain ⟨c1, _, rfl⟩ := runAll_insert.mp h1
    have hds : ∀ (rows : List (Nat × Nat)) (r : Reg), (rows.foldl (fun r x =>
        { r with db := { r.db with offsets := r.db.offsets ++ [(r.pk, x)] } }) r).db.datasets = r.db.datasets ∧
        (rows.foldl (fun r x => { r with db := { r.db with offsets := r.db.offsets ++ [(r.pk, x)] } }) r).pk = r.pk := by
      intro rows
      induction rows with
      | nil => intro r; exact ⟨rfl, rfl⟩
      | cons x rows ih => intro r; exact ih _
    by_cases hn : (l.dataList.map fun d => (d.name, d.multiId)).Nodup
    case neg => exact datasets_twice hn h
    refine datasets_err (fun d hd => hd) hn ?_ h
    intro d _ p hp e1 _ _
    rw [(hds c1 r).1] at hp
    rw [(hds c1 r).2] at e1
    exact hc p hp e1
  · obtain ⟨d, hd, h⟩ := runAll_insert_err h
    rcases except_bind_error.mp h with h | ⟨_, -, h⟩
    · obtain ⟨rfl, hbad⟩ := bindNat_err h
      exact .dropout hd fun hx => hbad hx.1
    · rcases except_bind_error.mp h with h | ⟨_, -, h⟩
      · obtain ⟨rfl, hbad⟩ := bindNat_err h
        exact .dropout hd fun hx => hbad hx.2
      · cases h
  · obtain ⟨m, hm, h⟩ := runAll_insert_err h
    rcases except_bind_error.mp h with h | ⟨_, -, h⟩
    · obtain ⟨rfl, hbad⟩ := bindNat_err h
      exact .logged hm fun hx => hbad hx.1
    · rcases except_bind_error.mp h with h | ⟨_, -, h⟩
      · obtain ⟨rfl, hbad⟩ := bindNat_err h
        exact .logged hm fun hx => hbad hx.2
      · cases h
  · obtain ⟨q, hq, h⟩ := runAll_insert_err h
    obtain ⟨p, hp, hq⟩ := List.mem_flatMap.mp hq
    obtain ⟨m, hm, rfl⟩ := List.mem_map.mp hq
    rcases except_bind_error.mp h with h | ⟨_, -, h⟩
    · obtain ⟨rfl, hbad⟩ := bindNat_err h
      exact .tagged hp hm fun hx => hbad hx.1
    · rcases except_bind_error.mp h with h | ⟨_, -, h⟩
      · obtain ⟨rfl, hbad⟩ := bindNat_err h
        exact .tagged hp hm fun hx => hbad hx.2.1
      · rcases except_bind_error.mp h with h | ⟨_, -, h⟩
        · obtain ⟨rfl, hbad⟩ := bindNat_err h
          exact .tagged hp hm fun hx => hbad hx.2.2
        · cases h
  · obtain ⟨s, hs, r', h⟩ := runAll_errMem h
    obtain ⟨p, hp, hs⟩ := List.mem_flatMap.mp hs
    rcases List.mem_cons.mp hs with rfl | hs
    · cases h
    · obtain ⟨f, hf, rfl⟩ := List.mem_map.mp hs
      have h := insert_err h
      unfold formatFieldRow at h
      rcases except_bind_error.mp h with h | ⟨_, -, h⟩
      · obtain ⟨rfl, hbad⟩ := bindInt_err h
        exact .format hp hf hbad
      · cases h
  · obtain ⟨s, hs, r', h⟩ := runAll_errMem h
    rcases List.mem_cons.mp hs with rfl | hs
    · dsimp only at h
      split at h
      · cases h
      · rename_i hall
        cases h
        have : ∃ p ∈ l.info, l.infoTypes.has p.1 = false := by
          rw [List.all_eq_true] at hall
          by_cases hex : ∃ p ∈ l.info, l.infoTypes.has p.1 = false
          · exact hex
          · exact absurd (fun p hp => by
              cases hb : l.infoTypes.has p.1 with
              | true => rfl
              | false => exact absurd ⟨p, hp, hb⟩ hex) hall
        obtain ⟨p, hp, hb⟩ := this
        refine .infoType hp ?_
        cases hg : l.infoTypes.get? p.1 with
        | none => rfl
        | some t => unfold Dict.has at hb; rw [hg] at hb; cases hb
    · obtain ⟨p, hp, rfl⟩ := List.mem_map.mp hs
      have h := insert_err h
      rcases except_bind_error.mp h with h | ⟨_, -, h⟩
      · obtain ⟨rfl, hbad⟩ := dictGet_err h
        exact .infoType hp hbad
      · rcases except_bind_error.mp h with h | ⟨_, -, h⟩
        · obtain ⟨rfl, hbad⟩ := bindVal_err h
          exact .info hp hbad
        · cases h
  · obtain ⟨s, hs, r', h⟩ := runAll_errMem h
    obtain ⟨p, hp, hs⟩ := List.mem_flatMap.mp hs
    rcases List.mem_cons.mp hs with rfl | hs
    · unfold multiStmt at h
      rcases except_bind_error.mp h with h | ⟨_, -, h⟩
      · obtain ⟨rfl, hbad⟩ := dictGet_err h
        exact .multiType hp hbad
      · cases h
    · obtain ⟨q, hq, hs⟩ := List.mem_flatMap.mp hs
      rcases List.mem_cons.mp hs with rfl | hs
      · cases h
      · obtain ⟨x, hx, rfl⟩ := List.mem_map.mp hs
        have h := insert_err h
        rcases except_bind_error.mp h with h | ⟨_, -, h⟩
        · obtain ⟨rfl, hbad⟩ := bindText_err h
          exact .multi hp (zipIdx_mem hq) (zipIdx_mem hx) hbad
        · cases h
  · obtain ⟨p, hp, h⟩ := runAll_insert_err h
    rcases except_bind_error.mp h with h | ⟨_, -, h⟩
    · obtain ⟨rfl, hbad⟩ := bindVal_err h
      exact .initial hp hbad
    · cases h
  · obtain ⟨x, hx, h⟩ := runAll_insert_err h
    obtain ⟨p, hp, hq⟩ := List.mem_flatMap.mp hx
    obtain ⟨q, hq', rfl⟩ := List.mem_map.mp hq
    rcases except_bind_error.mp h with h | ⟨_, -, h⟩
    · obtain ⟨rfl, hbad⟩ := bindNat_err h
      exact .default hp hq' fun hx => hbad hx.1
    · rcases except_bind_error.mp h with h | ⟨_, -, h⟩
      · obtain ⟨rfl, hbad⟩ := bindVal_err h
        exact .default hp hq' fun hx => hbad hx.2
      · cases h
  · obtain ⟨p, hp, h⟩ := runAll_insert_err h
    rcases except_bind_error.mp h with h | ⟨_, -, h⟩
    · obtain ⟨rfl, hbad⟩ := bindNat_err h
      exact .changed hp fun hx => hbad hx.1
    · rcases except_bind_error.mp h with h | ⟨_, -, h⟩
      · obtain ⟨rfl, hbad⟩ := bindVal_err h
        exact .changed hp fun hx => hbad hx.2
      · cases h

/-- when all rows can be made there is no obstacle -/
theorem rows_good {json : Bool} {sha : Str} {l : DbLog} {c : Content} (h : dbRows json sha l = .ok c)
    (hn : (l.dataList.map fun d => (d.name, d.multiId)).Nodup) (e : PyErr) : ¬ SaveObstacle json l e := by
  obtain ⟨row, h0, -, h1, h2, h3, h4, h5, h6, h7, h8, h9, h10, h11⟩ := dbRows_iff.mp h
  have hds : ∀ d ∈ l.dataList, (∃ row, datasetRow d = .ok row) ∧ ∀ f ∈ d.fields, ∃ fr, fieldRow json d f = .ok fr := by
    intro d hd
    obtain ⟨b, hb⟩ := mapM_can.mp ⟨_, h2⟩ d hd
    obtain ⟨row, hr, hb⟩ := except_bind_ok.mp hb
    obtain ⟨fs, hfs, _⟩ := except_bind_ok.mp hb
    exact ⟨⟨row, hr⟩, mapM_can.mp ⟨_, hfs⟩⟩
  have hfield : ∀ d ∈ l.dataList, ∀ f ∈ d.fields, ∃ col, d.data.get? f.name = some col ∧
      (∀ v ∈ col, SameKind f.type v) ∧ (json = true → ∃ j, jsonOf d col = .ok j) := by
    intro d hd f hf
    obtain ⟨fr, hfr⟩ := (hds d hd).2 f hf
    unfold fieldRow at hfr
    obtain ⟨col, hc, hfr⟩ := except_bind_ok.mp hfr
    obtain ⟨b, hb, hfr⟩ := except_bind_ok.mp hfr
    refine ⟨col, dictGet_some hc, ?_, ?_⟩
    · intro v hv
      unfold npBytes at hb
      cases hm : col.mapM (npEncode f.type) with
      | error e => rw [hm] at hb; cases hb
      | ok bs =>
        obtain ⟨x, hx⟩ := mapM_can.mp ⟨_, hm⟩ v hv
        exact npEncode_kind hx
    · rintro rfl
      obtain ⟨j, hj, _⟩ := except_bind_ok.mp (show (Except.map some (jsonOf d col) >>= _) = .ok fr from hfr)
      cases hj' : jsonOf d col with
      | error e => rw [hj'] at hj; cases hj
      | ok j' => exact ⟨j', rfl⟩
  have hjson : ∀ d ∈ l.dataList, json = true → ∀ f ∈ d.fields, ∀ col, d.data.get? f.name = some col →
      ∃ ts, d.data.get? (py! "timestamp") = some ts ∧ (∀ v ∈ ts, ∃ n, v = .int n) ∧
      ∀ t v, ((ts.zip col).reverse.find? fun q => decide (q.1 = .int t)) = some (.int t, v) → ¬ NegInfinite v := by
    intro d hd hj f hf col hcol
    obtain ⟨col', hc', _, h'⟩ := hfield d hd f hf
    rw [hcol] at hc'
    cases hc'
    obtain ⟨j, h'⟩ := h' hj
    exact jsonOf_good h'
  have hmeta := h0
  unfold metaRow at hmeta
  obtain ⟨_, m1, hmeta⟩ := except_bind_ok.mp hmeta
  obtain ⟨_, m2, hmeta⟩ := except_bind_ok.mp hmeta
  obtain ⟨_, m3, hmeta⟩ := except_bind_ok.mp hmeta
  obtain ⟨_, m4, hmeta⟩ := except_bind_ok.mp hmeta
  obtain ⟨_, m5, hmeta⟩ := except_bind_ok.mp hmeta
  obtain ⟨_, m6, hmeta⟩ := except_bind_ok.mp hmeta
  have hflag : ∀ x ∈ l.compat ++ l.incompat, x < 0xD800 ∨ 0xDFFF < x ∧ x < 0x110000 := by
    intro x hx
    rcases List.mem_append.mp hx with hx | hx
    · exact chrStr_good m1 x hx
    · exact chrStr_good m2 x hx
  intro ho
  cases ho with
  | surrogate hx a b => have := hflag _ hx; omega
  | noChar hx a => have := hflag _ hx; omega
  | header hx => exact hx ⟨bindNat_lt m3, bindNat_lt m4, bindNat_lt m5, bindNat_lt m6⟩
  | @offset n hx a =>
    obtain ⟨i, hi⟩ := List.getElem?_of_mem hx
    have hmem : (n, i) ∈ l.appendedOffsets.zipIdx := List.mem_zipIdx_iff_getElem?.mpr hi
    obtain ⟨b, hb⟩ := mapM_can.mp ⟨_, h1⟩ _ hmem
    obtain ⟨m, hm, _⟩ := except_bind_ok.mp hb
    have := bindNat_lt hm
    omega
  | dataset hd hx =>
    obtain ⟨row, hr⟩ := (hds _ hd).1
    unfold datasetRow at hr
    obtain ⟨_, a1, hr⟩ := except_bind_ok.mp hr
    obtain ⟨_, a2, hr⟩ := except_bind_ok.mp hr
    obtain ⟨_, a3, hr⟩ := except_bind_ok.mp hr
    exact hx ⟨bindNat_lt a1, bindNat_lt a2, bindInt_fits a3⟩
  | twice hx => exact hx hn
  | column hd hf hx =>
    obtain ⟨col, hc, _⟩ := hfield _ hd _ hf
    rw [hx] at hc; cases hc
  | kind hd hf hx hv hk =>
    obtain ⟨col, hc, hk', _⟩ := hfield _ hd _ hf
    rw [hx] at hc
    cases hc
    exact hk (hk' _ hv)
  | noTime hj hd hne hx =>
    obtain ⟨f, hf⟩ := List.exists_mem_of_ne_nil _ hne
    obtain ⟨col, hc, _⟩ := hfield _ hd _ hf
    obtain ⟨ts, ht, _⟩ := hjson _ hd hj f hf col hc
    rw [hx] at ht; cases ht
  | time hj hd hne hx hv hv' =>
    obtain ⟨f, hf⟩ := List.exists_mem_of_ne_nil _ hne
    obtain ⟨col, hc, _⟩ := hfield _ hd _ hf
    obtain ⟨ts, ht, ht', _⟩ := hjson _ hd hj f hf col hc
    rw [hx] at ht
    cases ht
    obtain ⟨n, hn⟩ := ht' _ hv
    exact hv' n hn
  | negInf hj hd hf hc hx hfind hv =>
    obtain ⟨ts, ht, _, ht'⟩ := hjson _ hd hj _ hf _ hc
    rw [hx] at ht
    cases ht
    exact ht' _ _ hfind hv
  | dropout hd hx =>
    obtain ⟨b, hb⟩ := mapM_can.mp ⟨_, h3⟩ _ hd
    obtain ⟨_, a1, hb⟩ := except_bind_ok.mp hb
    obtain ⟨_, a2, hb⟩ := except_bind_ok.mp hb
    exact hx ⟨bindNat_lt a1, bindNat_lt a2⟩
  | logged hd hx =>
    obtain ⟨b, hb⟩ := mapM_can.mp ⟨_, h4⟩ _ hd
    obtain ⟨_, a1, hb⟩ := except_bind_ok.mp hb
    obtain ⟨_, a2, hb⟩ := except_bind_ok.mp hb
    exact hx ⟨bindNat_lt a1, bindNat_lt a2⟩
  | @tagged p m hp hm hx =>
    obtain ⟨b, hb⟩ := mapM_can.mp ⟨_, h5⟩ (p.1, m) (List.mem_flatMap.mpr ⟨p, hp, List.mem_map.mpr ⟨m, hm, rfl⟩⟩)
    obtain ⟨_, a1, hb⟩ := except_bind_ok.mp hb
    obtain ⟨_, a2, hb⟩ := except_bind_ok.mp hb
    obtain ⟨_, a3, hb⟩ := except_bind_ok.mp hb
    exact hx ⟨bindNat_lt a1, bindNat_lt a2, bindNat_lt a3⟩
  | format hp hf hx =>
    obtain ⟨b, hb⟩ := mapM_can.mp ⟨_, h6⟩ _ hp
    obtain ⟨fs, hfs, _⟩ := except_bind_ok.mp hb
    obtain ⟨b, hb⟩ := mapM_can.mp ⟨_, hfs⟩ _ hf
    unfold formatFieldRow at hb
    obtain ⟨_, a1, hb⟩ := except_bind_ok.mp hb
    exact hx (bindInt_fits a1)
  | infoType hp hx =>
    obtain ⟨b, hb⟩ := mapM_can.mp ⟨_, h7⟩ _ hp
    obtain ⟨_, a1, hb⟩ := except_bind_ok.mp hb
    rw [dictGet_some a1] at hx
    cases hx
  | info hp hx =>
    obtain ⟨b, hb⟩ := mapM_can.mp ⟨_, h7⟩ _ hp
    obtain ⟨_, a1, hb⟩ := except_bind_ok.mp hb
    obtain ⟨_, a2, hb⟩ := except_bind_ok.mp hb
    exact hx (bindVal_ok a2)
  | multiType hp hx =>
    obtain ⟨b, hb⟩ := mapM_can.mp ⟨_, h8⟩ _ hp
    unfold multiRow at hb
    obtain ⟨_, a1, hb⟩ := except_bind_ok.mp hb
    rw [dictGet_some a1] at hx
    cases hx
  | @multi p vs v hp hvs hv hx =>
    obtain ⟨b, hb⟩ := mapM_can.mp ⟨_, h8⟩ _ hp
    unfold multiRow at hb
    obtain ⟨_, a1, hb⟩ := except_bind_ok.mp hb
    obtain ⟨ls, a2, hb⟩ := except_bind_ok.mp hb
    obtain ⟨i, hi⟩ := List.getElem?_of_mem hvs
    obtain ⟨b, hb⟩ := mapM_can.mp ⟨_, a2⟩ (vs, i) (List.mem_zipIdx_iff_getElem?.mpr hi)
    obtain ⟨es, a3, _⟩ := except_bind_ok.mp hb
    obtain ⟨k, hk⟩ := List.getElem?_of_mem hv
    obtain ⟨b, hb⟩ := mapM_can.mp ⟨_, a3⟩ (v, k) (List.mem_zipIdx_iff_getElem?.mpr hk)
    obtain ⟨_, a4, _⟩ := except_bind_ok.mp hb
    exact hx (bindText_ok a4)
  | initial hp hx =>
    obtain ⟨b, hb⟩ := mapM_can.mp ⟨_, h9⟩ _ hp
    obtain ⟨_, a1, hb⟩ := except_bind_ok.mp hb
    exact hx (bindVal_ok a1)
  | @default p q hp hq hx =>
    obtain ⟨b, hb⟩ := mapM_can.mp ⟨_, h10⟩ (p.1, q) (List.mem_flatMap.mpr ⟨p, hp, List.mem_map.mpr ⟨q, hq, rfl⟩⟩)
    obtain ⟨_, a1, hb⟩ := except_bind_ok.mp hb
    obtain ⟨_, a2, hb⟩ := except_bind_ok.mp hb
    exact hx ⟨bindNat_lt a1, bindVal_ok a2⟩
  | changed hp hx =>
    obtain ⟨b, hb⟩ := mapM_can.mp ⟨_, h11⟩ _ hp
    obtain ⟨_, a1, hb⟩ := except_bind_ok.mp hb
    obtain ⟨_, a2, hb⟩ := except_bind_ok.mp hb
    exact hx ⟨bindNat_lt a1, bindVal_ok a2⟩

end PyULog
