import Verif.Spec.KmlError
import Verif.Lemmas.ToolError
/-
Lemmas about the exceptions of ulog2kml: tracks with modes that have no colour, positions of loaded topics.
-/
namespace PyULog
open Spec

/-! ### colours -/

/-- the state of the loop with the colours of its line strings -/
def liftState (st : KmlState (Except PyErr C) P) : Except PyErr (KmlState C P) := do
  let done ← st.done.mapM coloured
  let cur ← coloured st.cur
  .ok ⟨done, cur, st.idx, st.lastT⟩

theorem mapM_snoc {α β : Type} {f : α → Except PyErr β} (l : List α) (x : α) :
    (l ++ [x]).mapM f = (do
      let a ← l.mapM f
      let b ← f x
      .ok (a ++ [b])) := by
  rw [List.mapM_append, List.mapM_cons, List.mapM_nil]
  cases l.mapM f with
  | error e => rfl
  | ok a =>
    cases f x with
    | error e => rfl
    | ok b => rfl

theorem liftState_next (st : KmlState (Except PyErr C) P) (m : Int) (c : Except PyErr C) (ps : List P) (i t : Nat) :
    liftState { done := st.done ++ [st.cur], cur := ⟨m, c, ps⟩, idx := i, lastT := t } = (do
      let s ← liftState st
      let color ← c
      .ok ⟨s.done ++ [s.cur], ⟨m, color, ps⟩, i, t⟩) := by
  unfold liftState
  dsimp only
  rw [mapM_snoc]
  cases st.done.mapM coloured with
  | error e => rfl
  | ok a =>
    cases coloured st.cur with
    | error e => rfl
    | ok b =>
      cases c with
      | error e => rfl
      | ok c => rfl

theorem liftState_fields {st : KmlState (Except PyErr C) P} {s : KmlState C P} (h : liftState st = .ok s) :
    s.idx = st.idx ∧ s.lastT = st.lastT := by
  unfold liftState at h
  obtain ⟨a, _, h⟩ := except_bind_ok.mp h
  obtain ⟨b, _, h⟩ := except_bind_ok.mp h
  cases h
  exact ⟨rfl, rfl⟩

theorem liftState_point (st : KmlState (Except PyErr C) P) (p : P) (t : Nat) :
    liftState { done := st.done, cur := ⟨st.cur.mode, st.cur.color, st.cur.points ++ [p]⟩, idx := st.idx, lastT := t } = (do
      let s ← liftState st
      .ok ⟨s.done, ⟨s.cur.mode, s.cur.color, s.cur.points ++ [p]⟩, s.idx, t⟩) := by
  unfold liftState
  dsimp only
  cases st.done.mapM coloured with
  | error e => rfl
  | ok a =>
    unfold coloured
    dsimp only
    cases st.cur.color with
    | error e => rfl
    | ok b => rfl

theorem modeLoop_lift (colors : Int → Except PyErr C) (changes : List (Int × Int)) (t : Nat) (p : P) (fuel : Nat)
    (st : KmlState (Except PyErr C) P) :
    (liftState st >>= modeLoop colors changes t p fuel) =
      (modeLoop (fun m => .ok (colors m)) changes t p fuel st >>= liftState) := by
  induction fuel generalizing st with
  | zero =>
    show (liftState st >>= fun s => .ok s) = liftState st
    cases liftState st <;> rfl
  | succ fuel ih =>
    have hstep : ∀ s, liftState st = .ok s → modeLoop colors changes t p (fuel + 1) s =
        match changes[st.idx + 1]? with
        | none => .ok s
        | some c =>
          if c.1 ≤ (t : Int) then
            match colors c.2 with
            | .error e => .error e
            | .ok color => modeLoop colors changes t p fuel ⟨s.done ++ [s.cur], ⟨c.2, color, [p]⟩, st.idx + 1, st.lastT⟩
          else .ok s := by
      intro s h
      obtain ⟨h1, h2⟩ := liftState_fields h
      rw [modeLoop, h1, h2]
      rfl
    rw [modeLoop]
    cases hc : changes[st.idx + 1]? with
    | none =>
      dsimp only
      rw [ok_bind]
      cases hl : liftState st with
      | error e => rfl
      | ok s =>
        rw [ok_bind, hstep s hl, hc]
    | some c =>
      dsimp only
      by_cases hr : c.1 ≤ (t : Int)
      · rw [if_pos hr, ← ih, liftState_next]
        cases hl : liftState st with
        | error e => rfl
        | ok s =>
          rw [ok_bind, hstep s hl, hc]
          dsimp only
          rw [if_pos hr, ok_bind]
          cases colors c.2 with
          | error e => rfl
          | ok color => rfl
      · rw [if_neg hr, ok_bind]
        cases hl : liftState st with
        | error e => rfl
        | ok s =>
          rw [ok_bind, hstep s hl, hc]
          dsimp only
          rw [if_neg hr]

theorem kmlStep_lift (far : Nat → Bool) (colors : Int → Except PyErr C) (changes : List (Int × Int))
    (st : KmlState (Except PyErr C) P) (row : Nat × P) :
    (liftState st >>= fun s => kmlStep far colors changes s row) =
      (kmlStep far (fun m => .ok (colors m)) changes st row >>= liftState) := by
  unfold kmlStep
  by_cases hf : far ((row.1 + 2 ^ 64 - st.lastT) % 2 ^ 64) = true
  · rw [if_pos hf, ← modeLoop_lift, liftState_point]
    cases hl : liftState st with
    | error e => rfl
    | ok s =>
      obtain ⟨h1, h2⟩ := liftState_fields hl
      rw [ok_bind, ok_bind, h2, if_pos hf, ok_bind]
  · rw [if_neg hf, ok_bind]
    cases hl : liftState st with
    | error e => rfl
    | ok s =>
      obtain ⟨h1, h2⟩ := liftState_fields hl
      rw [ok_bind, h2, if_neg hf]

theorem kmlFold_lift (far : Nat → Bool) (colors : Int → Except PyErr C) (changes : List (Int × Int))
    (rows : List (Nat × P)) (st : KmlState (Except PyErr C) P) :
    (liftState st >>= fun s => rows.foldlM (kmlStep far colors changes) s) =
      (rows.foldlM (kmlStep far (fun m => .ok (colors m)) changes) st >>= liftState) := by
  induction rows generalizing st with
  | nil =>
    show (liftState st >>= fun s => .ok s) = liftState st
    cases liftState st <;> rfl
  | cons r rows ih =>
    rw [List.foldlM_cons]
    have h := kmlStep_lift far colors changes st r
    cases hs : kmlStep far (fun m => .ok (colors m)) changes st r with
    | error e =>
      rw [hs] at h
      cases hl : liftState st with
      | error e' =>
        rw [hl] at h
        exact h
      | ok s =>
        rw [hl, ok_bind] at h
        rw [ok_bind, List.foldlM_cons, h]
        rfl
    | ok st' =>
      rw [hs, ok_bind] at h
      rw [ok_bind, ← ih, ← h]
      cases hl : liftState st with
      | error e' => rfl
      | ok s => rw [ok_bind, ok_bind, List.foldlM_cons]

/-- a track is that with an unlimited supply of colours, with the colours looked up in the order of the line strings -/
theorem kmlTrack_lift (far : Nat → Bool) (colors : Int → Except PyErr C) (changes : List (Int × Int)) {rows kept : List (Nat × P)}
    (hk : Thinned far 0 rows kept) :
    kmlTrack far colors changes rows = (track colors changes kept).mapM coloured := by
  obtain ⟨kept', hk', h⟩ := C36_track (colors := fun m => .ok (colors m)) (color := colors) (fun _ => rfl) far changes rows
  rw [thinned_unique hk' hk] at h
  unfold kmlTrack at h ⊢
  rw [ok_bind] at h
  obtain ⟨st, h1, h2⟩ := except_bind_ok.mp h
  injection h2 with h2
  have hl := kmlFold_lift far colors changes rows ⟨[], ⟨firstMode changes, colors (firstMode changes), []⟩, 0, 0⟩
  rw [h1, ok_bind] at hl
  rw [← h2, mapM_snoc]
  have hfirst : liftState (⟨[], ⟨firstMode changes, colors (firstMode changes), []⟩, 0, 0⟩ : KmlState (Except PyErr C) P)
      = colors (firstMode changes) >>= fun color => .ok ⟨[], ⟨firstMode changes, color, []⟩, 0, 0⟩ := by
    unfold liftState coloured
    dsimp only
    rw [List.mapM_nil]
    cases colors (firstMode changes) <;> rfl
  rw [hfirst] at hl
  cases hc : colors (firstMode changes) with
  | error e =>
    rw [hc] at hl
    unfold liftState at hl
    cases ha : st.done.mapM coloured with
    | error e' =>
      rw [ha] at hl
      cases hl
      rfl
    | ok a =>
      rw [ha, ok_bind] at hl
      cases hb : coloured st.cur with
      | error e' =>
        rw [hb] at hl
        cases hl
        rfl
      | ok b =>
        rw [hb] at hl
        cases hl
  | ok color =>
    rw [hc, ok_bind, ok_bind] at hl
    rw [ok_bind, hl]
    unfold liftState
    cases ha : st.done.mapM coloured with
    | error e' => rfl
    | ok a =>
      rw [ok_bind, ok_bind]
      cases hb : coloured st.cur with
      | error e' => rfl
      | ok b => rfl

/-! ### columns of loaded topics with named fields -/

theorem column_named {d : Dataset} (hd : LoadedData d) (hn : ∀ f ∈ d.fields, f.name ≠ []) {k : Str} :
    d.data.get? k = none ↔ NoField d k := by
  constructor
  · intro h f hf he
    obtain ⟨n, _, _, hr⟩ := hd.rows
    obtain ⟨col, hc, _⟩ := hr f hf (hn f hf)
    rw [he, h] at hc
    cases hc
  · intro h
    cases hc : d.data.get? k with
    | none => rfl
    | some col =>
      obtain ⟨i, f, h1, h2, _⟩ := hd.named k col hc
      have hf := List.mem_of_getElem? h1
      rw [columnName_named i (hn f hf)] at h2
      exact absurd h2 (h f hf)

theorem column_namedTyped {d : Dataset} (hd : LoadedData d) (hn : ∀ f ∈ d.fields, f.name ≠ []) {k : Str} {col : List NpVal}
    (hc : d.data.get? k = some col) : ∃ f ∈ d.fields, f.name = k ∧ ∀ v ∈ col, Typed f.type v := by
  obtain ⟨i, f, h1, h2, h3⟩ := hd.named k col hc
  have hf := List.mem_of_getElem? h1
  rw [columnName_named i (hn f hf)] at h2
  exact ⟨f, hf, h2, h3⟩

theorem u64_value {v : NpVal} (h : Typed .u64 v) : ∃ n : Nat, n < 2 ^ 64 ∧ v = .int n := by
  obtain ⟨b, _, rfl⟩ := h
  exact ⟨_, leAt_lt b 0 8, rfl⟩

/-- a list as a function of its positions -/
theorem list_range {α : Type} (l : List α) (g : Nat → α) {n : Nat} (hn : l.length = n) (h : ∀ i x, l[i]? = some x → g i = x) :
    l = (List.range n).map g := by
  apply List.ext_getElem (by simp [hn])
  intro i h1 h2
  rw [List.getElem_map, List.getElem_range, h i l[i] (List.getElem?_eq_getElem h1)]

theorem either_none {d : Dataset} (hd : LoadedData d) (hn : ∀ f ∈ d.fields, f.name ≠ []) {a b : Str} :
    (NoField d a ∧ NoField d b ∧ eitherCol d a b = .error .keyError) ∨
    (¬ (NoField d a ∧ NoField d b) ∧ ∃ col, ColumnOf d a b col ∧ eitherCol d a b = .ok col) := by
  have h1 := column_named hd hn (k := a)
  have h2 := column_named hd hn (k := b)
  cases hca : d.data.get? a with
  | some col =>
    right
    refine ⟨fun h => ?_, col, .inl hca, eitherCol_of (.inl hca)⟩
    rw [h1.mpr h.1] at hca
    cases hca
  | none =>
    cases hcb : d.data.get? b with
    | some col =>
      right
      refine ⟨fun h => ?_, col, .inr ⟨hca, hcb⟩, eitherCol_of (.inr ⟨hca, hcb⟩)⟩
      rw [h2.mpr h.2] at hcb
      cases hcb
    | none =>
      left
      refine ⟨h1.mp hca, h2.mp hcb, ?_⟩
      unfold eitherCol dictGet
      rw [hca, hcb]

theorem columnOf_length {d : Dataset} {n : Nat} (hn : ∀ c ∈ d.data, c.2.length = n) {a b : Str} {col : List NpVal}
    (h : ColumnOf d a b col) : col.length = n := by
  rcases h with h | ⟨_, h⟩ <;> exact hn _ (Dict.mem_of_get? _ _ _ h)

/-- the positions of a loaded topic: a KeyError if a column is missing, and otherwise all rows with a fix -/
theorem positions_loaded (coord : Bool → NpVal → NpVal → NpVal → P) {fuel : Nat} {cfg : Cfg} {bs : Bytes} {u : ULog}
    (h : load fuel cfg bs = .ok u) (ht : KmlTypes u) {d : Dataset} (hm : d ∈ u.dataList) :
    ((NoCoordinate d ∨ NoField d (py! "timestamp")) ∧ positions coord d = .error .keyError) ∨
    (¬ (NoCoordinate d ∨ NoField d (py! "timestamp")) ∧ ∃ rows, Positions coord d rows ∧ positions coord d = .ok rows) := by
  have hd := loaded_data h hm
  have hn : ∀ f ∈ d.fields, f.name ≠ [] := fun f hf => (ht d hm f hf).1
  rcases either_none hd hn (a := py! "lon") (b := py! "longitude_deg") with ⟨a, b, e⟩ | ⟨nlon, lon, clon, elon⟩
  · exact .inl ⟨.inl (.inl ⟨a, b⟩), by unfold positions; rw [e]; rfl⟩
  rcases either_none hd hn (a := py! "lat") (b := py! "latitude_deg") with ⟨a, b, e⟩ | ⟨nlat, lat, clat, elat⟩
  · exact .inl ⟨.inl (.inr (.inl ⟨a, b⟩)), by unfold positions; rw [elon, ok_bind, e]; rfl⟩
  rcases either_none hd hn (a := py! "alt") (b := py! "altitude_msl_m") with ⟨a, b, e⟩ | ⟨nalt, alt, calt, ealt⟩
  · exact .inl ⟨.inl (.inr (.inr ⟨a, b⟩)), by unfold positions; rw [elon, ok_bind, elat, ok_bind, e]; rfl⟩
  cases hts : d.data.get? (py! "timestamp") with
  | none =>
    refine .inl ⟨.inr ((column_named hd hn).mp hts), ?_⟩
    unfold positions
    rw [elon, ok_bind, elat, ok_bind, ealt, ok_bind, dictGet_error.mpr ⟨rfl, hts⟩]
    rfl
  | some ts =>
    refine .inr ⟨?_, ?_⟩
    · rintro ((h | h | h) | h)
      · exact nlon h
      · exact nlat h
      · exact nalt h
      · rw [(column_named hd hn).mpr h] at hts
        cases hts
    · obtain ⟨n, _, hl, _⟩ := hd.rows
      have hnd : (d.fields.map (·.name)).Nodup := by
        have := (loaded_dataset h hm).2.2.1
        rw [columnNames_named hn] at this
        exact this
      let tf : Nat → Nat := fun i => match ts[i]? with
        | some (.int k) => k.toNat % 2 ^ 64
        | _ => 0
      have htf : ∀ i, tf i < 2 ^ 64 := by
        intro i
        show (match ts[i]? with
          | some (.int k) => k.toNat % 2 ^ 64
          | _ => 0) < 2 ^ 64
        split
        · exact Nat.mod_lt _ (by decide)
        · decide
      have hcol : ∀ {l : List NpVal}, l.length = n → l = (List.range n).map fun i => (l[i]?).getD (.int 0) := by
        intro l hll
        exact list_range l _ hll (fun i x hx => by rw [hx]; rfl)
      have hts' : ts = (List.range n).map fun i => .int (tf i) := by
        refine list_range ts _ (hl _ (Dict.mem_of_get? _ _ _ hts)) ?_
        intro i x hx
        obtain ⟨f, hf, h1, h2⟩ := column_namedTyped hd hn hts
        rw [(ht d hm f hf).2.1 h1] at h2
        obtain ⟨k, hk, rfl⟩ := u64_value (h2 x (List.mem_of_getElem? hx))
        show NpVal.int ((match ts[i]? with
          | some (.int k) => k.toNat % 2 ^ 64
          | _ => 0 : Nat) : Int) = _
        rw [hx]
        dsimp only
        rw [Int.toNat_natCast, Nat.mod_eq_of_lt hk]
      obtain ⟨fix, hfix⟩ : ∃ fix : Option (Nat → Int), d.data.get? (py! "fix_type") =
          fix.map (fun f => (List.range n).map fun i => NpVal.int (f i)) := by
        cases hf : d.data.get? (py! "fix_type") with
        | none => exact ⟨none, rfl⟩
        | some col =>
          refine ⟨some fun i => match col[i]? with
            | some (.int k) => k
            | _ => 0, ?_⟩
          refine congrArg some (list_range col _ (hl _ (Dict.mem_of_get? _ _ _ hf)) ?_)
          intro i x hx
          obtain ⟨f, hf, h1, h2⟩ := column_namedTyped hd hn hf
          obtain ⟨t1, t2⟩ := (ht d hm f hf).2.2 (.inr h1)
          obtain ⟨k, rfl⟩ := integer_value t1 t2 (h2 x (List.mem_of_getElem? hx))
          dsimp only
          rw [hx]
      have c1 := hcol (columnOf_length hl clon)
      have c2 := hcol (columnOf_length hl clat)
      have c3 := hcol (columnOf_length hl calt)
      rw [c1] at clon
      rw [c2] at clat
      rw [c3] at calt
      rw [hts'] at hts
      exact ⟨_, ⟨n, tf, fix, _, _, _, scaledLon d, hnd, scaledLon_iff hnd, htf, hts, hfix, clon, clat, calt, rfl⟩,
        C36_positions coord d n tf fix _ _ _ _ hnd (scaledLon_iff hnd) htf hts hfix clon clat calt⟩

/-! ### flight modes -/

/-- two ascending lists with the same elements are equal -/
theorem ascending_ext {a b : List Nat} (ha : a.Pairwise (· < ·)) (hb : b.Pairwise (· < ·)) (h : ∀ i, i ∈ a ↔ i ∈ b) : a = b := by
  induction a generalizing b with
  | nil =>
    cases b with
    | nil => rfl
    | cons y b => exact absurd ((h y).mpr (List.mem_cons_self ..)) (by simp)
  | cons x a ih =>
    cases b with
    | nil => exact absurd ((h x).mp (List.mem_cons_self ..)) (by simp)
    | cons y b =>
      rw [List.pairwise_cons] at ha hb
      have hxy : x = y := by
        rcases List.mem_cons.mp ((h x).mp (List.mem_cons_self ..)) with h1 | h1
        · exact h1
        · rcases List.mem_cons.mp ((h y).mpr (List.mem_cons_self ..)) with h2 | h2
          · exact h2.symm
          · have := hb.1 x h1
            have := ha.1 y h2
            omega
      subst hxy
      congr 1
      refine ih ha.2 hb.2 fun i => ?_
      constructor
      · intro hi
        rcases List.mem_cons.mp ((h i).mp (List.mem_cons_of_mem _ hi)) with rfl | h1
        · exact absurd (ha.1 _ hi) (by omega)
        · exact h1
      · intro hi
        rcases List.mem_cons.mp ((h i).mpr (List.mem_cons_of_mem _ hi)) with rfl | h1
        · exact absurd (hb.1 _ hi) (by omega)
        · exact h1

theorem intChanges_unique {times values : List Int} {a b : List (Int × Int)} (ha : IntChanges times values a)
    (hb : IntChanges times values b) : a = b := by
  obtain ⟨rows, idx, rfl, h1, h2, h3⟩ := ha
  obtain ⟨rows', idx', rfl, h1', h2', h3'⟩ := hb
  have : idx = idx' := ascending_ext h1 h1' fun i => (h2 i).trans (h2' i).symm
  rw [this, ← h3'] at h3
  exact (List.map_inj_right (f := some) fun _ _ h => Option.some.inj h).mp h3

theorem firstOf_unique {u : ULog} {name : Str} {a b : Dataset} (ha : FirstOf u name a) (hb : FirstOf u name b) : a = b := by
  have h1 := topicData_of ha
  rw [topicData_of hb] at h1
  injection h1 with h1
  exact h1.symm

theorem firstOf_mem {u : ULog} {name : Str} {d : Dataset} (h : FirstOf u name d) : d ∈ u.dataList := by
  obtain ⟨pre, post, h1, _⟩ := h
  rw [h1]
  simp

theorem firstOf_noneOf {u : ULog} {name : Str} {d : Dataset} (h : FirstOf u name d) : ¬ NoneOf u name := by
  intro hn
  have hm := firstOf_mem h
  obtain ⟨pre, post, _, h2, h3, _⟩ := h
  exact hn d hm ⟨h2, h3⟩

theorem modes_unique {u : ULog} {a b : List (Int × Int)} (ha : Modes u a) (hb : Modes u b) : a = b := by
  have hinj : ∀ {x y : List Int}, x.map NpVal.int = y.map NpVal.int → x = y := fun h =>
    (List.map_inj_right (f := NpVal.int) fun _ _ h => NpVal.int.inj h).mp h
  cases ha with
  | noTopic h =>
    cases hb with
    | noTopic _ => rfl
    | noField h' _ => exact absurd h (firstOf_noneOf h')
    | modes h' _ _ _ => exact absurd h (firstOf_noneOf h')
  | noField h1 h2 =>
    cases hb with
    | noTopic h => rfl
    | noField _ _ => rfl
    | modes h' ht hx _ =>
      have := firstOf_unique h1 h'
      subst this
      rcases h2 with h2 | h2
      · rw [h2] at ht; cases ht
      · rw [h2] at hx; cases hx
  | modes h1 ht hx hi =>
    cases hb with
    | noTopic h => exact absurd h (firstOf_noneOf h1)
    | noField h' h2 =>
      have := firstOf_unique h1 h'
      subst this
      rcases h2 with h2 | h2
      · rw [h2] at ht; cases ht
      · rw [h2] at hx; cases hx
    | modes h' ht' hx' hi' =>
      have := firstOf_unique h1 h'
      subst this
      rw [ht] at ht'
      rw [hx] at hx'
      injection ht' with ht'
      injection hx' with hx'
      have h1 := hinj ht'
      have h2 := hinj hx'
      subst h1
      subst h2
      rw [intChanges_unique hi hi']

/-- the flight modes of a loaded log are integers -/
theorem loaded_modes {fuel : Nat} {cfg : Cfg} {bs : Bytes} {u : ULog} (h : load fuel cfg bs = .ok u) (ht : KmlTypes u) :
    IntModes u := by
  intro d t x hd h1 h2
  have hm := firstOf_mem hd
  have hl := loaded_data h hm
  have hn : ∀ f ∈ d.fields, f.name ≠ [] := fun f hf => (ht d hm f hf).1
  obtain ⟨n, _, hlen, _⟩ := hl.rows
  have hint : ∀ {col : List NpVal}, (∀ v ∈ col, ∃ n : Int, v = .int n) → ∃ l : List Int, col = l.map .int := by
    intro col
    induction col with
    | nil => intro _; exact ⟨[], rfl⟩
    | cons v col ih =>
      intro hv
      obtain ⟨l, hl⟩ := ih fun w hw => hv w (List.mem_cons_of_mem _ hw)
      obtain ⟨n, hn⟩ := hv v (List.mem_cons_self ..)
      exact ⟨n :: l, by rw [hn, hl]; rfl⟩
  obtain ⟨f, hf, a1, a2⟩ := column_namedTyped hl hn h1
  obtain ⟨g, hg, b1, b2⟩ := column_namedTyped hl hn h2
  obtain ⟨times, rfl⟩ := hint fun v hv => by
    rw [(ht d hm f hf).2.1 a1] at a2
    obtain ⟨k, _, hk⟩ := u64_value (a2 v hv)
    exact ⟨k, hk⟩
  obtain ⟨values, rfl⟩ := hint fun v hv => by
    obtain ⟨t1, t2⟩ := (ht d hm g hg).2.2 (.inl b1)
    exact integer_value t1 t2 (b2 v hv)
  refine ⟨times, values, rfl, rfl, ?_⟩
  have e1 := hlen _ (Dict.mem_of_get? _ _ _ h1)
  have e2 := hlen _ (Dict.mem_of_get? _ _ _ h2)
  simp only [List.length_map] at e1 e2
  omega

end PyULog
