import Verif.Lemmas.DbReach
import Verif.Lemmas.RoundDefs
import Verif.Lemmas.WriteDecode
/-
Helper lemmas: `load` depends on the content of the log only, and gives back what `save` stored.
-/
namespace PyULog
open Spec

/-! ### loading from a content -/

/-- one dataset of a content -/
def readC (c : Content) (name : Str) (multi : Nat) (lazy : Bool) : Except PyErr Dataset :=
  match c.datasets.find? fun p => p.1.name = name && p.1.multiId = multi with
  | none => .error .keyError
  | some (row, fs) =>
    if lazy then
      .ok { multiId := multi, msgId := row.msgId, name := name, fields := [], tsIdx := row.tsIdx, data := [] }
    else do
      let cols ← fs.mapM fun f =>
        match BT.ofName f.type with
        | none => .error .keyError
        | some t => do return (({ name := f.name, type := t } : FieldData), ← npRead t f.data)
      return { multiId := multi, msgId := row.msgId, name := name, fields := cols.map (·.1), tsIdx := row.tsIdx,
               data := cols.foldl (fun d c => d.set c.1.name c.2) [] }

theorem readDataset_content (db : DB) (k : Nat) (name : Str) (multi : Nat) (lazy : Bool) :
    readDataset db (some k) name multi lazy = readC (content db k) name multi lazy := by
  have h : (content db k).datasets.find? (fun p => p.1.name = name && p.1.multiId = multi) =
      (db.datasets.find? fun p => some p.2.1 = some k && p.2.2.name = name && p.2.2.multiId = multi).map
        fun p => (p.2.2, owned p.1 db.fields) := by
    show (Spec.nest db.datasets (fun i => owned i db.fields) k).find? _ = _
    unfold Spec.nest
    rw [List.find?_map, List.find?_filter]
    congr 2
    funext p
    by_cases e : p.2.1 = k <;> simp [e]
  unfold readDataset readC
  rw [h]
  cases db.datasets.find? fun p => some p.2.1 = some k && p.2.2.name = name && p.2.2.multiId = multi with
  | none => rfl
  | some p => rfl

/-- `load` from a content -/
def loadC (c : Content) (lazy : Bool) (o : DbLog) : Except PyErr (Str × DbLog) :=
  match c.row with
  | [row] => do
    let dataList ← (ssort dsRowLe (c.datasets.map (·.1))).mapM fun r => readC c r.name r.multiId lazy
    return (row.sha, { o with
      fileVersion := row.fileVersion
      startTs := row.startTs
      lastTs := row.lastTs
      compat := row.compat.map Char.toNat
      incompat := row.incompat.map Char.toNat
      syncCnt := row.syncCnt
      hasSync := row.hasSync
      appendedOffsets := o.appendedOffsets ++ (ssort (fun a b => decide (a.1 ≤ b.1)) c.offsets).map (·.2)
      dataList := dataList
      dropouts := o.dropouts ++ c.dropouts
      logged := o.logged ++ c.logging
      tagged := c.tagged.foldl addTaggedRow o.tagged
      formats := (c.formats.flatMap fun p => p.2.map fun f => (p.1, f)).foldl addFormatRow o.formats
      info := c.info.foldl (fun d r => d.set r.1 (pyVal r.2.2)) o.info
      infoTypes := c.info.foldl (fun d r => d.set r.1 r.2.1) o.infoTypes
      infoMulti := c.multi.foldl (fun d p => d.set p.1.1
        ((ssort (fun a b => decide (a.1 ≤ b.1)) p.2).map fun l =>
          (ssort (fun a b => decide (a.1 ≤ b.1)) l.2).map fun e => pyVal e.2)) o.infoMulti
      infoMultiTypes := c.multi.foldl (fun d p => d.set p.1.1 p.1.2) o.infoMultiTypes
      initialParams := c.initial.foldl (fun d r => d.set r.1 (pyVal r.2)) o.initialParams
      defaultParams := c.defaults.foldl
        (fun d r => d.set r.1 (((d.get? r.1).getD []).set r.2.1 (pyVal r.2.2))) o.defaultParams
      changedParams := o.changedParams ++ c.changed.map fun r => (r.1, r.2.1, pyVal r.2.2) })
  | _ => .error .keyError

theorem owned_filter {α : Type} (k : Nat) (t : List (Nat × α)) : owned k t = (t.filter fun p => p.1 = k).map (·.2) := by
  unfold owned
  induction t with
  | nil => rfl
  | cons p t ih =>
    rw [List.filterMap_cons, List.filter_cons]
    by_cases e : p.1 = k <;> simp [e, ih]

theorem multiLists_content (db : DB) (i : Nat) : multiLists db i =
    (ssort (fun a b => decide (a.1 ≤ b.1)) (Spec.nest db.multiLists (fun j => owned j db.multiElems) i)).map fun l =>
      (ssort (fun a b => decide (a.1 ≤ b.1)) l.2).map fun e => pyVal e.2 := by
  unfold multiLists Spec.nest
  rw [← ssort_map (le := fun a b => decide (a.2.2 ≤ b.2.2)) (le' := fun a b => decide (a.1 ≤ b.1))
    (fun p : Nat × Nat × Nat => (p.2.2, owned p.1 db.multiElems)) (fun a b => rfl), List.map_map]
  rfl

/-- the log loaded for an id depends on its content only -/
theorem dbLoad_content (db : DB) (k : Nat) (lazy : Bool) (o : DbLog) :
    dbLoad db k lazy o = loadC (content db k) lazy o := by
  have hrow : (content db k).row = (db.ulog.filter fun p => p.1 = k).map (·.2) := owned_filter k db.ulog
  have hfind : db.ulog.find? (fun p => p.1 = k) = (db.ulog.filter fun p => p.1 = k).head? :=
    (List.head?_filter ..).symm
  have hds : (content db k).datasets.map (·.1) = (db.datasets.filter fun p => p.2.1 = k).map (·.2.2) := by
    show (Spec.nest db.datasets (fun i => owned i db.fields) k).map (·.1) = _
    unfold Spec.nest
    rw [List.map_map]
    rfl
  have hfm : (content db k).formats.flatMap (fun p => p.2.map fun f => (p.1, f)) = formatRows db k := by
    show (Spec.nest db.formats (fun i => owned i db.formatFields) k).flatMap _ = _
    unfold Spec.nest formatRows
    rw [List.flatMap_map]
  have hm1 : ∀ d : Dict Str (List (List DVal)), (content db k).multi.foldl (fun d p => d.set p.1.1
        ((ssort (fun a b => decide (a.1 ≤ b.1)) p.2).map fun l =>
          (ssort (fun a b => decide (a.1 ≤ b.1)) l.2).map fun e => pyVal e.2)) d =
      (db.multi.filter fun p => p.2.1 = k).foldl (fun d p => d.set p.2.2.1 (multiLists db p.1)) d := by
    intro d
    show (Spec.nest db.multi _ k).foldl _ _ = _
    rw [Spec.nest, List.foldl_map]
    congr 1
    funext d p
    rw [multiLists_content]
  have hm2 : ∀ d : Dict Str Str, (content db k).multi.foldl (fun d p => d.set p.1.1 p.1.2) d =
      (db.multi.filter fun p => p.2.1 = k).foldl (fun d p => d.set p.2.2.1 p.2.2.2) d := by
    intro d
    show (Spec.nest db.multi _ k).foldl _ _ = _
    rw [Spec.nest, List.foldl_map]
  unfold dbLoad loadC existsInDb
  rw [hrow, hfind, hds, hfm, hm1, hm2]
  clear hrow hfind hds hfm hm1 hm2
  generalize (db.ulog.filter fun p => p.1 = k) = L
  rcases L with _ | ⟨p, _ | ⟨q, l⟩⟩
  · rfl
  · simp only [List.length_singleton, decide_true, Bool.not_true, Bool.false_eq_true, if_false, List.head?_cons,
      List.map_cons, List.map_nil, readDataset_content]
    rfl
  · simp

/-! ### values -/

theorem mapM_map_eq {α β γ : Type} {f : α → Except PyErr β} {h : β → γ} {g : α → γ}
    {xs : List α} {ys : List β} (hf : ∀ x ∈ xs, ∀ y, f x = .ok y → h y = g x) (hm : xs.mapM f = .ok ys) :
    ys.map h = xs.map g := by
  induction xs generalizing ys with
  | nil => cases hm; rfl
  | cons x xs ih =>
    rw [List.mapM_cons] at hm
    obtain ⟨y, h1, h2⟩ := except_bind_ok.mp hm
    obtain ⟨ys', h3, h4⟩ := except_bind_ok.mp h2
    cases h4
    rw [List.map_cons, List.map_cons, hf x List.mem_cons_self y h1,
      ih (fun x hx => hf x (List.mem_cons_of_mem _ hx)) h3]

theorem mapM_id_eq {α : Type} {f : α → Except PyErr α} {xs ys : List α}
    (hf : ∀ x ∈ xs, ∀ y, f x = .ok y → y = x) (hm : xs.mapM f = .ok ys) : ys = xs := by
  have := mapM_map_eq (h := id) (g := id) hf hm
  simpa using this

theorem bindNat_ok {n m : Nat} (h : bindNat n = .ok m) : m = n := by
  unfold bindNat at h
  split at h <;> cases h
  rfl

theorem bindInt_ok {n m : Int} (h : bindInt n = .ok m) : m = n := by
  unfold bindInt at h
  split at h <;> cases h
  rfl

theorem isNan64_iff (x : Nat) : isNan64 x = true ↔ exp64 x = 2047 ∧ frac64 x ≠ 0 := by
  unfold isNan64 exp64 frac64
  simp

theorem bindVal_back {v : DVal} {s : SqlVal} (h : bindVal v = .ok s) : pyVal s = valueBack v := by
  unfold bindVal at h
  split at h
  · cases h; rfl
  · cases h; rfl
  · cases h; rfl
  · rename_i n
    unfold bindInt at h
    split at h <;> cases h
    rfl
  · rename_i x
    cases h
    show _ = if exp64 x = 2047 ∧ frac64 x ≠ 0 then none else some (Value.float x)
    by_cases e : exp64 x = 2047 ∧ frac64 x ≠ 0
    · rw [if_pos ((isNan64_iff x).mpr e), if_pos e]; rfl
    · rw [if_neg (fun hc => e ((isNan64_iff x).mp hc)), if_neg e]; rfl
  · rename_i b
    cases h
    cases b <;> rfl

theorem bindText_back {v : DVal} {s : SqlVal} (h : bindText v = .ok s) : pyVal s = textBack v := by
  unfold bindText at h
  obtain ⟨t, h1, h2⟩ := except_bind_ok.mp h
  unfold bindVal at h1
  split at h1
  · cases h1; cases h2; rfl
  · cases h1; cases h2; rfl
  · cases h1; cases h2; rfl
  · rename_i n
    unfold bindInt at h1
    split at h1 <;> cases h1
    cases h2; rfl
  · rename_i x
    cases h1
    show _ = if exp64 x = 2047 ∧ frac64 x ≠ 0 then none else some (Value.str (realText x))
    by_cases hx : isNan64 x
    · rw [if_pos hx] at h2
      rw [if_pos ((isNan64_iff x).mp hx)]
      cases h2
      rfl
    · rw [if_neg hx] at h2
      rw [if_neg fun e => hx ((isNan64_iff x).mpr e)]
      cases h2
      rfl
  · rename_i b
    cases h1
    cases h2
    cases b <;> decide

theorem chrStr_back {flags : List Nat} {s : Str} (h : chrStr flags = .ok s) : s.map Char.toNat = flags := by
  unfold chrStr at h
  have := mapM_map_eq (h := Char.toNat) (g := id) (fun n _ c hc => by
    split at hc
    · rename_i hv
      cases hc
      show (Char.ofNat n).toNat = n
      unfold Char.ofNat
      rw [dif_pos hv]
      rfl
    · split at hc <;> cases hc) h
  simpa using this

/-! ### columns -/

theorem npEncode_decode {t : BT} {c : Bytes} (hc : c.length = t.size) : npEncode t (npDecode t c) = .ok c := by
  have hlt := leNat_lt c
  have hen := leEnc_leNat c
  have hpos : 0 < t.size := t.size_pos
  rw [hc] at hlt hen
  have hs := ofSigned_toSigned t.size hpos (leNat c) hlt
  have hu : ofSigned t.size (leNat c : Int) = leNat c := by
    unfold ofSigned
    rw [if_neg (by omega)]
    rfl
  cases t
  all_goals
    show Except.ok (leEnc _ _) = Except.ok c
    congr 1
  all_goals first
    | exact hen
    | exact (congrArg (leEnc _) hs).trans hen
    | exact (congrArg (leEnc _) hu).trans hen

theorem chunks_flatten {n : Nat} (hn : 0 < n) : ∀ (bs : List Bytes) (f : Nat), (∀ b ∈ bs, b.length = n) →
    bs.flatten.length ≤ f → chunks n f bs.flatten = bs
  | [], f, _, _ => by cases f <;> rfl
  | b :: bs, f, h, hf => by
    have hb := h b List.mem_cons_self
    rw [List.flatten_cons] at hf ⊢
    rw [List.length_append] at hf
    cases f with
    | zero => omega
    | succ f =>
      rw [chunks, if_neg]
      · rw [← hb, List.take_left, List.drop_left, hb,
          chunks_flatten hn bs f (fun b h' => h b (List.mem_cons_of_mem _ h')) (by omega)]
      · intro e
        have := (List.append_eq_nil_iff.mp e).1
        rw [this, List.length_nil] at hb
        omega

theorem flatten_length_mul {n : Nat} : ∀ {bs : List Bytes}, (∀ b ∈ bs, b.length = n) →
    bs.flatten.length = bs.length * n
  | [], _ => by simp
  | b :: bs, h => by
    rw [List.flatten_cons, List.length_append, h b List.mem_cons_self,
      flatten_length_mul fun b h' => h b (List.mem_cons_of_mem _ h'), List.length_cons, Nat.succ_mul, Nat.add_comm]

/-- the bytes of a column read back -/
theorem npRead_bytes {t : BT} {vs : List NpVal} {b : Bytes} (hv : ∀ v ∈ vs, Typed t v) (h : npBytes t vs = .ok b) :
    npRead t b = .ok vs := by
  unfold npBytes at h
  cases hm : vs.mapM (npEncode t) with
  | error e => rw [hm] at h; cases h
  | ok bs =>
    rw [hm] at h
    cases h
    have hlen : ∀ b ∈ bs, b.length = t.size := by
      have := mapM_map_eq (h := List.length) (g := fun _ => t.size) (fun v hv' b hb => by
        obtain ⟨c, hc, rfl⟩ := typed_iff.mp (hv v hv')
        rw [npEncode_decode hc] at hb
        cases hb
        exact hc) hm
      intro b hb
      have h1 := List.mem_map_of_mem (f := List.length) hb
      rw [this] at h1
      obtain ⟨_, _, e⟩ := List.mem_map.mp h1
      exact e.symm
    have hdec : bs.map (npDecode t) = vs.map id := mapM_map_eq (fun v hv' b hb => by
      obtain ⟨c, hc, rfl⟩ := typed_iff.mp (hv v hv')
      rw [npEncode_decode hc] at hb
      cases hb
      rfl) hm
    unfold npRead
    rw [if_pos, chunks_flatten t.size_pos bs _ hlen (Nat.le_refl _), hdec, List.map_id]
    rw [flatten_length_mul hlen]
    exact Nat.mul_mod_left ..

theorem npBytes_total {t : BT} {vs : List NpVal} (hv : ∀ v ∈ vs, Typed t v) : ∃ b, npBytes t vs = .ok b := by
  have : ∃ bs, vs.mapM (npEncode t) = .ok bs := by
    induction vs with
    | nil => exact ⟨[], rfl⟩
    | cons v vs ih =>
      obtain ⟨bs, hbs⟩ := ih fun v h => hv v (List.mem_cons_of_mem _ h)
      obtain ⟨c, hc, e⟩ := typed_iff.mp (hv v List.mem_cons_self)
      refine ⟨c :: bs, ?_⟩
      rw [List.mapM_cons, e, npEncode_decode hc, hbs]
      rfl
  obtain ⟨bs, h⟩ := this
  exact ⟨bs.flatten, by unfold npBytes; rw [h]; rfl⟩

theorem BT.ofName_name (t : BT) : BT.ofName t.name = some t := by
  cases t <;> decide

/-! ### dictionaries -/

/-- setting distinct keys in an empty dictionary -/
theorem foldl_set_new {κ α β : Type} [DecidableEq κ] (f : β → α) (key : β → κ) (l : List β) (hn : (l.map key).Nodup) :
    l.foldl (fun d b => Dict.set d (key b) (f b)) ([] : Dict κ α) = l.map fun b => (key b, f b) := by
  have := foldl_set_map f key l [] hn (fun b _ h => by cases h)
  simpa using this

theorem dict_ext_keys {κ α : Type} [DecidableEq κ] : ∀ {a b : Dict κ α}, a.map (·.1) = b.map (·.1) →
    (b.map (·.1)).Nodup → (∀ p ∈ a, b.get? p.1 = some p.2) → a = b
  | [], [], _, _, _ => rfl
  | [], _ :: _, h, _, _ => by cases h
  | _ :: _, [], h, _, _ => by cases h
  | (k, v) :: a, (k', v') :: b, h, hn, hg => by
    rw [List.map_cons, List.map_cons, List.cons.injEq] at h
    obtain ⟨h1, h2⟩ := h
    simp only at h1
    subst h1
    rw [List.map_cons, List.nodup_cons] at hn
    have hv := hg (k, v) List.mem_cons_self
    rw [Dict.get?_cons, if_pos rfl, Option.some.injEq] at hv
    subst hv
    congr 1
    refine dict_ext_keys h2 hn.2 fun p hp => ?_
    have := hg p (List.mem_cons_of_mem _ hp)
    rw [Dict.get?_cons, if_neg] at this
    · exact this
    · intro e
      refine hn.1 ?_
      show k ∈ b.map (·.1)
      rw [e, ← h2]
      exact List.mem_map.mpr ⟨p, hp, rfl⟩

theorem get?_append_new {κ α : Type} [DecidableEq κ] {d : Dict κ α} {k : κ} {v : α} (h : k ∉ d.map (·.1)) :
    (d ++ [(k, v)] : Dict κ α).get? k = some v := by
  rw [Dict.get?_append, (Dict.get?_eq_none_iff d k).mpr h]
  simp [Dict.get?]

theorem set_append_new {κ α : Type} [DecidableEq κ] {d : Dict κ α} {k : κ} {v w : α} (h : k ∉ d.map (·.1)) :
    Dict.set (d ++ [(k, v)] : Dict κ α) k w = d ++ [(k, w)] := by
  induction d with
  | nil => simp [Dict.set]
  | cons p d ih =>
    obtain ⟨k', v'⟩ := p
    rw [List.map_cons, List.mem_cons, not_or] at h
    rw [List.cons_append, Dict.set, if_neg (fun e => h.1 e.symm), ih h.2]
    rfl

/-- the messages of one tag -/
theorem tagged_block {acc : Dict Nat (List TagMsg)} {k : Nat} (hk : k ∉ acc.map (·.1)) :
    ∀ (ms done : List TagMsg), done ≠ [] → (∀ m ∈ ms, m.tag = k) →
      ms.foldl addTaggedRow (acc ++ [(k, done)]) = acc ++ [(k, done ++ ms)]
  | [], done, _, _ => by simp
  | m :: ms, done, hd, ht => by
    have hm := ht m List.mem_cons_self
    rw [List.foldl_cons]
    have : addTaggedRow (acc ++ [(k, done)]) m = acc ++ [(k, done ++ [m])] := by
      unfold addTaggedRow
      rw [hm, get?_append_new hk, set_append_new hk]
      rfl
    rw [this, tagged_block hk ms (done ++ [m]) (by simp) (fun m' h => ht m' (List.mem_cons_of_mem _ h)),
      List.append_assoc]
    rfl

theorem tagged_fold : ∀ (d acc : Dict Nat (List TagMsg)), (d.map (·.1)).Nodup →
    (∀ k ∈ d.map (·.1), k ∉ acc.map (·.1)) → (∀ p ∈ d, p.2 ≠ [] ∧ ∀ m ∈ p.2, m.tag = p.1) →
    (d.flatMap (·.2)).foldl addTaggedRow acc = acc ++ d
  | [], acc, _, _, _ => by simp
  | (k, ms) :: d, acc, hn, hk, ht => by
    rw [List.map_cons, List.nodup_cons] at hn
    have hk0 := hk k (by simp)
    obtain ⟨h1, h2⟩ := ht (k, ms) List.mem_cons_self
    rw [List.flatMap_cons, List.foldl_append]
    have : ms.foldl addTaggedRow acc = acc ++ [(k, ms)] := by
      cases ms with
      | nil => exact absurd rfl h1
      | cons m ms =>
        rw [List.foldl_cons]
        have hm : m.tag = k := h2 m List.mem_cons_self
        have : addTaggedRow acc m = acc ++ [(k, [m])] := by
          unfold addTaggedRow
          rw [hm, (Dict.get?_eq_none_iff acc k).mpr hk0, Dict.set_of_not_mem _ _ _ hk0]
          rfl
        rw [this, tagged_block hk0 ms [m] (by simp) (fun m' h => h2 m' (List.mem_cons_of_mem _ h))]
        rfl
    show (d.flatMap (·.2)).foldl addTaggedRow (ms.foldl addTaggedRow acc) = _
    rw [this, tagged_fold d _ hn.2 ?_ (fun p hp => ht p (List.mem_cons_of_mem _ hp)), List.append_assoc]
    · rfl
    · intro j hj
      rw [List.map_append, List.mem_append, not_or]
      refine ⟨hk j (List.mem_cons_of_mem _ hj), ?_⟩
      intro e
      rw [List.map_singleton, List.mem_singleton] at e
      exact hn.1 (e ▸ hj)

/-- the fields of one format -/
theorem format_block {acc : Dict Str MsgFormat} {k : Str} (hk : k ∉ acc.map (·.1)) :
    ∀ (fs done : List FieldDef),
      (fs.map fun f => (k, f)).foldl addFormatRow (acc ++ [(k, ⟨k, done⟩)]) = acc ++ [(k, ⟨k, done ++ fs⟩)]
  | [], done => by simp
  | f :: fs, done => by
    rw [List.map_cons, List.foldl_cons]
    have : addFormatRow (acc ++ [(k, ⟨k, done⟩)]) (k, f) = acc ++ [(k, ⟨k, done ++ [f]⟩)] := by
      unfold addFormatRow
      rw [get?_append_new hk]
      exact set_append_new hk
    rw [this, format_block hk fs (done ++ [f]), List.append_assoc]
    rfl

theorem formats_fold : ∀ (d : List (Str × List FieldDef)) (acc : Dict Str MsgFormat), (d.map (·.1)).Nodup →
    (∀ k ∈ d.map (·.1), k ∉ acc.map (·.1)) →
    (d.flatMap fun p => p.2.map fun f => (p.1, f)).foldl addFormatRow acc =
      acc ++ (d.filter fun p => !p.2.isEmpty).map fun p => (p.1, ⟨p.1, p.2⟩)
  | [], acc, _, _ => by simp
  | (k, fs) :: d, acc, hn, hk => by
    rw [List.map_cons, List.nodup_cons] at hn
    have hk0 := hk k (by simp)
    rw [List.flatMap_cons, List.foldl_append]
    cases fs with
    | nil =>
      show (d.flatMap fun p => p.2.map fun f => (p.1, f)).foldl addFormatRow acc = _
      rw [formats_fold d acc hn.2 fun k h => hk k (List.mem_cons_of_mem _ h)]
      simp
    | cons f fs =>
      have : ((f :: fs).map fun f => (k, f)).foldl addFormatRow acc = acc ++ [(k, ⟨k, f :: fs⟩)] := by
        rw [List.map_cons, List.foldl_cons]
        have : addFormatRow acc (k, f) = acc ++ [(k, ⟨k, [f]⟩)] := by
          unfold addFormatRow
          rw [(Dict.get?_eq_none_iff acc k).mpr hk0]
          exact Dict.set_of_not_mem _ _ _ hk0
        rw [this, format_block hk0 fs [f]]
        rfl
      show (d.flatMap fun p => p.2.map fun f => (p.1, f)).foldl addFormatRow
        (((f :: fs).map fun f => (k, f)).foldl addFormatRow acc) = _
      rw [this, formats_fold d _ hn.2 ?_, List.append_assoc]
      · simp
      · intro j hj
        rw [List.map_append, List.mem_append, not_or]
        refine ⟨hk j (List.mem_cons_of_mem _ hj), ?_⟩
        intro e
        rw [List.map_singleton, List.mem_singleton] at e
        exact hn.1 (e ▸ hj)

/-- one row of the table of defaults -/
def addDefaultRow (d : Dict Nat (Dict Str DVal)) (r : Nat × Str × DVal) : Dict Nat (Dict Str DVal) :=
  d.set r.1 (((d.get? r.1).getD []).set r.2.1 r.2.2)

theorem default_block {acc : Dict Nat (Dict Str DVal)} {k : Nat} (hk : k ∉ acc.map (·.1)) :
    ∀ (ms done : Dict Str DVal), (ms.map (·.1)).Nodup → (∀ x ∈ ms.map (·.1), x ∉ done.map (·.1)) →
      (ms.map fun q => (k, q)).foldl addDefaultRow (acc ++ [(k, done)]) = acc ++ [(k, done ++ ms)]
  | [], done, _, _ => by simp
  | m :: ms, done, hn, hd => by
    rw [List.map_cons, List.nodup_cons] at hn
    rw [List.map_cons, List.foldl_cons]
    have : addDefaultRow (acc ++ [(k, done)]) (k, m) = acc ++ [(k, done ++ [m])] := by
      unfold addDefaultRow
      rw [get?_append_new hk, set_append_new hk]
      show acc ++ [(k, Dict.set done m.1 m.2)] = _
      rw [Dict.set_of_not_mem done m.1 m.2 (hd m.1 (by simp))]
    rw [this, default_block hk ms (done ++ [m]) hn.2 ?_, List.append_assoc]
    · rfl
    · intro x hx
      rw [List.map_append, List.mem_append, not_or]
      refine ⟨hd x (List.mem_cons_of_mem _ hx), ?_⟩
      intro e
      rw [List.map_singleton, List.mem_singleton] at e
      exact hn.1 (e ▸ hx)

theorem defaults_fold : ∀ (d acc : Dict Nat (Dict Str DVal)), (d.map (·.1)).Nodup →
    (∀ k ∈ d.map (·.1), k ∉ acc.map (·.1)) → (∀ p ∈ d, p.2 ≠ [] ∧ (p.2.map (·.1)).Nodup) →
    (d.flatMap fun p => p.2.map fun q => (p.1, q)).foldl addDefaultRow acc = acc ++ d
  | [], acc, _, _, _ => by simp
  | (k, ms) :: d, acc, hn, hk, ht => by
    rw [List.map_cons, List.nodup_cons] at hn
    have hk0 := hk k (by simp)
    obtain ⟨h1, h2⟩ := ht (k, ms) List.mem_cons_self
    rw [List.flatMap_cons, List.foldl_append]
    have : (ms.map fun q => (k, q)).foldl addDefaultRow acc = acc ++ [(k, ms)] := by
      cases ms with
      | nil => exact absurd rfl h1
      | cons m ms =>
        rw [List.map_cons, List.foldl_cons]
        have : addDefaultRow acc (k, m) = acc ++ [(k, [m])] := by
          unfold addDefaultRow
          rw [(Dict.get?_eq_none_iff acc k).mpr hk0]
          exact Dict.set_of_not_mem _ _ _ hk0
        simp only [List.map_cons, List.nodup_cons] at h2
        rw [this, default_block hk0 ms [m] h2.2 ?_]
        · rfl
        · intro x hx e
          rw [List.map_singleton, List.mem_singleton] at e
          exact h2.1 (e ▸ hx)
    show (d.flatMap fun p => p.2.map fun q => (p.1, q)).foldl addDefaultRow
      ((ms.map fun q => (k, q)).foldl addDefaultRow acc) = _
    rw [this, defaults_fold d _ hn.2 ?_ (fun p hp => ht p (List.mem_cons_of_mem _ hp)), List.append_assoc]
    · rfl
    · intro j hj
      rw [List.map_append, List.mem_append, not_or]
      refine ⟨hk j (List.mem_cons_of_mem _ hj), ?_⟩
      intro e
      rw [List.map_singleton, List.mem_singleton] at e
      exact hn.1 (e ▸ hj)

end PyULog
