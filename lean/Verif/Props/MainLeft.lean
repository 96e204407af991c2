import Verif.Props.MainEnd
/-
Property theorems: C95, what `ulog_info` has printed and what `ulog2ros2bag` has written when an exception ends them.
-/
namespace PyULog
open Spec

/-- the keys of a dict have values -/
theorem mapM_keys {κ : Type} {α β : Type} [DecidableEq κ] {d : Dict κ α} {ks : List κ} (h : ∀ k ∈ ks, k ∈ d.keys)
    (f : κ → α → β) : ∃ l, ks.mapM (fun k => do let v ← dictGet d k; Except.ok (ε := PyErr) (f k v)) = .ok l := by
  induction ks with
  | nil => exact ⟨[], rfl⟩
  | cons k ks ih =>
    obtain ⟨l, hl⟩ := ih fun k' hk' => h k' (List.mem_cons_of_mem _ hk')
    obtain ⟨v, hv⟩ := Option.isSome_iff_exists.mp ((Dict.mem_keys_iff d k).mp (h k List.mem_cons_self))
    refine ⟨f k v :: l, ?_⟩
    rw [List.mapM_cons, hl]
    simp only [dictGet, hv]
    rfl

theorem infoLines_ok (fmt : Value → Str) (verbose : Bool) (u : ULog) : ∃ l, infoLines fmt verbose u = .ok l :=
  mapM_keys (fun _ hk => (mem_ssort _ _ _).mp (List.mem_filter.mp hk).1) fun k v => py! " " ++ k ++ py! ": " ++ fmt v

theorem multiLines_ok (fl : List (List Value) → Str) (verbose : Bool) (u : ULog) : ∃ l, multiLines fl verbose u = .ok l := by
  have hk : ∀ k ∈ sortedKeys u.infoMulti, k ∈ u.infoMulti.keys := fun _ hk => (mem_ssort _ _ _).mp hk
  unfold multiLines
  split
  · split
    · obtain ⟨l, hl⟩ := mapM_keys hk fun k v => py! " " ++ k ++ py! ": " ++ fl v
      rw [hl]
      exact ⟨_, rfl⟩
    · obtain ⟨l, hl⟩ := mapM_keys hk fun k v => py! "[" ++ k ++ py! ": " ++ natDec v.length ++ py! "]"
      rw [hl]
      exact ⟨_, rfl⟩
  · exact ⟨[], rfl⟩

theorem tableLine_error {d : Dataset} {e : PyErr} :
    tableLine d = .error e ↔ py! "timestamp" ∉ d.data.keys ∧ e = .keyError := by
  rw [← Dict.get?_eq_none_iff]
  unfold tableLine dictGet
  cases d.data.get? (py! "timestamp") with
  | none => exact ⟨fun h => (by cases h; exact ⟨rfl, rfl⟩), fun h => (by rw [h.2]; rfl)⟩
  | some ts => exact ⟨fun h => (nomatch h), fun h => (nomatch h.1)⟩

/-- **C95**, `ulog_info`: an exception comes from the version, behind the lines about times and dropouts, or from a topic without
timestamps, behind the rows of the topics before it in the table. -/
theorem C95_info_left (pr : Char → Bool) (verbose : Bool) {u : ULog} (ht : u.startTs ≤ u.lastTs) {lines : List Str} {e : PyErr} :
    infoLeft pr verbose u = (lines, some e) ↔
      (getVersionInfoStr u = .error e ∧ ∃ times, timeLine u = .ok times ∧
        lines = (if u.fileCorrupt then [py! "Warning: file has data corruption(s)"] else []) ++ [times, dropoutLine u]) ∨
      ∃ head rows pre d post, showInfoText pr verbose { u with dataList := [] } = .ok head ∧
        tableOrder u.dataList = pre ++ d :: post ∧ pre.mapM tableLine = .ok rows ∧ py! "timestamp" ∉ d.data.keys ∧
        e = .keyError ∧ lines = head ++ rows := by
  obtain ⟨times, htimes⟩ : ∃ t, timeLine u = .ok t := by
    unfold timeLine
    rw [if_neg (by omega)]
    exact ⟨_, rfl⟩
  have h0 : mapLeft timeLine [u] = ([times], none) := by simp [mapLeft, htimes]
  cases hv : getVersionInfoStr u with
  | error e' =>
    have hl : infoLeft pr verbose u = ((if u.fileCorrupt then [py! "Warning: file has data corruption(s)"] else []) ++
        [times, dropoutLine u], some e') := by
      unfold infoLeft
      rw [h0, hv]
      rfl
    rw [hl]
    constructor
    · intro h
      cases h
      exact .inl ⟨rfl, times, htimes, rfl⟩
    · rintro (⟨h, t, h', rfl⟩ | ⟨head, rows, pre, d, post, h, _⟩)
      · cases h
        rw [htimes] at h'
        cases h'
        rfl
      · have hv' : getVersionInfoStr { u with dataList := [] } = .error e' := hv
        unfold showInfoText showInfo at h
        rw [show timeLine { u with dataList := [] } = .ok times from htimes, hv'] at h
        cases h
  | ok version =>
    obtain ⟨is, his⟩ := infoLines_ok pyText verbose u
    obtain ⟨ms, hms⟩ := multiLines_ok (listsRepr pr) verbose u
    obtain ⟨head, hh⟩ : ∃ head, showInfoText pr verbose { u with dataList := [] } = .ok head := by
      unfold showInfoText showInfo
      rw [show timeLine { u with dataList := [] } = .ok times from htimes,
        show getVersionInfoStr { u with dataList := [] } = .ok version from hv,
        show infoLines pyText verbose { u with dataList := [] } = .ok is from his,
        show multiLines (listsRepr pr) verbose { u with dataList := [] } = .ok ms from hms]
      exact ⟨_, rfl⟩
    have hl : infoLeft pr verbose u = (head ++ (mapLeft tableLine (tableOrder u.dataList)).1,
        (mapLeft tableLine (tableOrder u.dataList)).2) := by
      have hnil : infoLeft pr verbose { u with dataList := [] } = (head, none) := by
        have := infoLeft_agrees pr verbose { u with dataList := [] }
        rw [hh] at this
        exact this
      rw [show infoLeft pr verbose u = andThen (infoLeft pr verbose { u with dataList := [] })
        (mapLeft tableLine (tableOrder u.dataList)) from infoLeft_table pr verbose u, hnil]
      rfl
    rw [hl]
    constructor
    · intro h
      rcases hm : mapLeft tableLine (tableOrder u.dataList) with ⟨rows, o⟩
      rw [hm] at h
      cases h
      obtain ⟨pre, d, post, hd, hr, he⟩ := mapLeft_error.mp hm
      obtain ⟨hd', rfl⟩ := tableLine_error.mp he
      exact .inr ⟨head, rows, pre, d, post, hh, hd, hr, hd', rfl, rfl⟩
    · rintro (⟨h, _⟩ | ⟨head', rows, pre, d, post, h', hd, hr, hd', rfl, rfl⟩)
      · cases h
      · rw [hh] at h'
        cases h'
        rw [mapLeft_error.mpr ⟨pre, d, post, hd, hr, tableLine_error.mpr ⟨hd', rfl⟩⟩]

/-! ### a multi info message -/

theorem dumpsLeft_append (sep name : Str) (l l' : List (List Value × Nat)) :
    dumpsLeft sep name (l ++ l') = andThen (dumpsLeft sep name l) (dumpsLeft sep name l') := by
  induction l with
  | nil => rfl
  | cons p l ih => rw [List.cons_append, dumpsLeft, dumpsLeft, ih, andThen_assoc]

theorem dumpsLeft_error {sep name : Str} {l : List (List Value × Nat)} {lines : List Str} {e : PyErr} :
    dumpsLeft sep name l = (lines, some e) ↔ ∃ pre p post x y, l = pre ++ p :: post ∧ dumpsLeft sep name pre = (x, none) ∧
      dumpLeft sep name p.2 p.1 = (y, some e) ∧ lines = x ++ y := by
  constructor
  · intro h
    induction l generalizing lines with
    | nil => cases h
    | cons p l ih =>
      rw [dumpsLeft] at h
      rcases hd : dumpLeft sep name p.2 p.1 with ⟨y, _ | e'⟩
      · rw [hd] at h
        rcases hl : dumpsLeft sep name l with ⟨z, o⟩
        rw [hl] at h
        cases h
        obtain ⟨pre, q, post, x, w, rfl, hp, hq, rfl⟩ := ih hl
        refine ⟨p :: pre, q, post, y ++ x, w, rfl, ?_, hq, by rw [List.append_assoc]⟩
        rw [dumpsLeft, hd, hp]
        rfl
      · rw [hd] at h
        cases h
        exact ⟨[], p, l, [], _, rfl, rfl, hd, rfl⟩
  · rintro ⟨pre, p, post, x, y, rfl, hp, hd, rfl⟩
    rw [dumpsLeft_append, hp, dumpsLeft, hd]
    rfl

theorem zipIdx_of_take {α : Type} (l : List α) (k n : Nat) : (l.zipIdx n).take k = (l.take k).zipIdx n := by
  induction l generalizing k n with
  | nil => simp
  | cons a l ih =>
    cases k with
    | zero => rfl
    | succ k => simp [List.zipIdx_cons, ih]

/-- **C95**, `ulog_info --message`: an exception comes from a list of the message, behind the lines of the lists before it. -/
theorem C95_message_left (newline : Bool) {u : ULog} {name : Str} {lines : List Str} {e : PyErr} :
    messageLeft newline u name = (lines, some e) ↔ ∃ lists k m before y, u.infoMulti.get? name = some lists ∧
      lists[k]? = some m ∧ showMessage newline { u with infoMulti := [(name, lists.take k)] } name = .ok before ∧
      dumpLeft (if newline then py! "\n" else []) name k m = (y, some e) ∧ lines = before ++ y := by
  unfold messageLeft
  cases hg : u.infoMulti.get? name with
  | none => exact ⟨fun h => (nomatch h), fun ⟨_, _, _, _, _, h, _⟩ => (nomatch h)⟩
  | some lists =>
    have hs : ∀ (l : List (List Value)) x, showMessage newline { u with infoMulti := [(name, l)] } name = .ok x ↔
        dumpsLeft (if newline then py! "\n" else []) name l.zipIdx = (x, none) := by
      intro l x
      have := messageLeft_agrees newline { u with infoMulti := [(name, l)] } name
      have hl : messageLeft newline { u with infoMulti := [(name, l)] } name =
          dumpsLeft (if newline then py! "\n" else []) name l.zipIdx := by
        unfold messageLeft
        rw [show Dict.get? _ name = some l from by simp [Dict.get?]]
      rw [hl] at this
      cases hq : showMessage newline { u with infoMulti := [(name, l)] } name with
      | error e' =>
        rw [hq] at this
        obtain ⟨y, hy⟩ := this
        rw [hy]
        exact ⟨fun h => (nomatch h), fun h => (nomatch h)⟩
      | ok y =>
        rw [hq] at this
        rw [show dumpsLeft _ _ _ = (y, none) from this]
        exact ⟨fun h => (by cases h; rfl), fun h => (by cases h; rfl)⟩
    dsimp only
    rw [dumpsLeft_error]
    constructor
    · rintro ⟨pre, p, post, x, y, hl, hp, hd, rfl⟩
      have hk : lists.zipIdx[pre.length]? = some p := by rw [hl]; simp
      rw [List.getElem?_zipIdx] at hk
      obtain ⟨m, hm, rfl⟩ := Option.map_eq_some_iff.mp hk
      have ht : (lists.take pre.length).zipIdx = pre := by
        rw [← zipIdx_of_take, hl]
        simp
      refine ⟨lists, pre.length, m, x, y, rfl, hm, (hs _ _).mpr (by rw [ht]; exact hp), ?_, rfl⟩
      rw [← hd]
      simp
    · rintro ⟨lists', k, m, before, y, hl, hk, hb, hd, rfl⟩
      cases hl
      refine ⟨(lists.take k).zipIdx, (m, k), (lists.zipIdx).drop (k + 1), before, y, ?_, (hs _ _).mp hb, hd, rfl⟩
      have hk' : lists.zipIdx[k]? = some (m, k) := by rw [List.getElem?_zipIdx, hk]; simp
      rw [← zipIdx_of_take]
      obtain ⟨hlt, hget⟩ := List.getElem?_eq_some_iff.mp hk'
      have := (List.take_append_drop k lists.zipIdx).symm
      rw [List.drop_eq_getElem_cons hlt, hget] at this
      exact this

/-- The line with the name and the number of a list is printed first; for bytes, it needs their lengths. -/
theorem C95_dump_left {sep name : Str} {k : Nat} {m : List Value} {y : List Str} {e : PyErr} :
    dumpLeft sep name k m = (y, some e) ↔
      ((∃ b l, m = .bytes b :: l) ∧ m.mapM itemLen = .error e ∧ y = []) ∨
      ((∃ b l, m = .bytes b :: l) ∧ m.mapM hexItem = .error e ∧ ∃ lens, m.mapM itemLen = .ok lens ∧
        y = [py! "# " ++ name ++ py! " " ++ natDec k ++ py! " (len: " ++ natDec lens.sum ++ py! "):"]) ∨
      ((¬ ∃ b l, m = .bytes b :: l) ∧ m.mapM strItem = .error e ∧ y = [py! "# " ++ name ++ py! " " ++ natDec k ++ py! ":"]) := by
  unfold dumpLeft
  split
  · rename_i b l
    have hb : ∃ b' l', Value.bytes b :: l = .bytes b' :: l' := ⟨b, l, rfl⟩
    cases hl : (Value.bytes b :: l).mapM itemLen with
    | error e' =>
      constructor
      · intro h
        cases h
        exact .inl ⟨hb, rfl, rfl⟩
      · rintro (⟨_, h, rfl⟩ | ⟨_, _, lens, h, _⟩ | ⟨h, _⟩)
        · cases h; rfl
        · cases h
        · exact absurd hb h
    | ok lens =>
      cases hh : (Value.bytes b :: l).mapM hexItem with
      | error e' =>
        constructor
        · intro h
          cases h
          exact .inr (.inl ⟨hb, rfl, lens, rfl, rfl⟩)
        · rintro (⟨_, h, _⟩ | ⟨_, h', lens', h, rfl⟩ | ⟨h, _⟩)
          · cases h
          · cases h; cases h'; rfl
          · exact absurd hb h
      | ok items =>
        constructor
        · intro h
          cases h
        · rintro (⟨_, h, _⟩ | ⟨_, h, _⟩ | ⟨h, _⟩)
          · cases h
          · cases h
          · exact absurd hb h
  · rename_i hm
    have hb : ¬ ∃ b l, m = Value.bytes b :: l := fun ⟨b, l, h⟩ => hm b l h
    cases hl : m.mapM strItem with
    | error e' =>
      constructor
      · intro h
        cases h
        exact .inr (.inr ⟨hb, rfl, rfl⟩)
      · rintro (⟨h, _⟩ | ⟨h, _⟩ | ⟨_, h, rfl⟩)
        · exact absurd h hb
        · exact absurd h hb
        · cases h; rfl
    | ok items =>
      constructor
      · intro h
        cases h
      · rintro (⟨h, _⟩ | ⟨h, _⟩ | ⟨_, h, _⟩)
        · exact absurd h hb
        · exact absurd h hb
        · cases h

/-! ### `ulog2ros2bag` -/

theorem topicLeft_error {env : RosEnv} {all : List Dataset} {bag b : Bag} {d : Dataset} {e : PyErr} :
    topicLeft env all bag d = (b, some e) ↔
      (py! "timestamp" ∉ d.data.keys ∧ e = .keyError ∧ b = bag) ∨
      ∃ ts name ty rows k, d.data.get? (py! "timestamp") = some ts ∧ exportType env d = some (name, ty) ∧ k < ts.length ∧
        (List.range k).mapM (exportRow ty d (rosTopic all d) ts) = .ok rows ∧ exportRow ty d (rosTopic all d) ts k = .error e ∧
        b.topics = bag.topics ++ [(rosTopic all d, py! "px4_msgs/msg/" ++ name)] ∧ b.messages = bag.messages ++ rows := by
  rw [← Dict.get?_eq_none_iff]
  unfold topicLeft dictGet
  cases d.data.get? (py! "timestamp") with
  | none =>
    constructor
    · intro h
      cases h
      exact .inl ⟨rfl, rfl, rfl⟩
    · rintro (⟨_, rfl, rfl⟩ | ⟨ts, name, ty, rows, k, h, _⟩)
      · rfl
      · cases h
  | some ts =>
    dsimp only
    cases exportType env d with
    | none => exact ⟨fun h => (nomatch h), fun h => (by rcases h with ⟨h, _⟩ | ⟨ts, name, ty, rows, k, _, h, _⟩ <;> cases h)⟩
    | some p =>
      obtain ⟨name, ty⟩ := p
      dsimp only
      constructor
      · intro h
        rcases hm : mapLeft (exportRow ty d (rosTopic all d) ts) (List.range ts.length) with ⟨rows, o⟩
        rw [hm] at h
        cases h
        obtain ⟨pre, k, post, hd, hr, he⟩ := mapLeft_error.mp hm
        have hk : (List.range ts.length)[pre.length]? = some k := by rw [hd]; simp
        obtain ⟨hlt, hget⟩ := List.getElem?_eq_some_iff.mp hk
        rw [List.getElem_range] at hget
        rw [List.length_range] at hlt
        have hp : pre = List.range k := by
          have : (List.range ts.length).take pre.length = pre := by rw [hd]; simp
          rw [← this, List.take_range, ← hget]
          congr 1
          omega
        subst hp
        exact .inr ⟨ts, name, ty, rows, k, rfl, rfl, by omega, hr, he, rfl, rfl⟩
      · rintro (⟨h, _⟩ | ⟨ts', name', ty', rows, k, h, h', hk, hr, he, ht, hm⟩)
        · cases h
        · cases h
          cases h'
          have hd : List.range ts.length = List.range k ++ k :: (List.range ts.length).drop (k + 1) := by
            have := (List.take_append_drop k (List.range ts.length)).symm
            rw [List.take_range, Nat.min_eq_left (by omega), List.drop_eq_getElem_cons (by simpa using hk),
              List.getElem_range] at this
            exact this
          rw [mapLeft_error.mpr ⟨_, k, _, hd, hr, he⟩]
          rcases b with ⟨bt, bm⟩
          dsimp only at ht hm
          rw [ht, hm]

theorem topicsLeft_error {env : RosEnv} {all ds : List Dataset} {bag b : Bag} {e : PyErr} :
    topicsLeft env all ds bag = (b, some e) ↔ ∃ pre d post b', ds = pre ++ d :: post ∧
      pre.foldlM (exportTopic env all) bag = .ok b' ∧ topicLeft env all b' d = (b, some e) := by
  constructor
  · intro h
    induction ds generalizing bag with
    | nil => cases h
    | cons d ds ih =>
      rw [topicsLeft] at h
      rcases hd : topicLeft env all bag d with ⟨b', _ | e'⟩
      · rw [hd] at h
        obtain ⟨pre, d', post, b'', rfl, hp, hq⟩ := ih h
        refine ⟨d :: pre, d', post, b'', rfl, ?_, hq⟩
        rw [List.foldlM_cons, ((topicLeft_agrees env all bag d).1 b').mpr hd]
        exact hp
      · rw [hd] at h
        cases h
        exact ⟨[], d, ds, bag, rfl, rfl, hd⟩
  · rintro ⟨pre, d, post, b', rfl, hp, hq⟩
    induction pre generalizing bag with
    | nil => cases hp; rw [List.nil_append, topicsLeft, hq]
    | cons d' pre ih =>
      rw [List.foldlM_cons] at hp
      obtain ⟨b'', h1, h2⟩ := except_bind_ok.mp hp
      rw [List.cons_append, topicsLeft, ((topicLeft_agrees env all bag d').1 b'').mp h1]
      exact ih h2

/-- **C95**, `ulog2ros2bag`: an exception leaves the bag of the topics before the one that raises. A topic without timestamps
adds nothing; otherwise the topic is in the bag with its messages before the one that raises. A verbose run whose log has a
wrong version leaves the bag empty. -/
theorem C95_bag_left (env : RosEnv) (verbose : Bool) {u : ULog} {bag : Bag} {e : PyErr} :
    bagLeft env verbose u = (bag, some e) ↔
      (verbose = true ∧ getVersionInfoStr u = .error e ∧ bag = {}) ∨
      ((verbose = true → ∃ v, getVersionInfoStr u = .ok v) ∧ ∃ pre d post b, u.dataList = pre ++ d :: post ∧
        pre.foldlM (exportTopic env u.dataList) {} = .ok b ∧
        ((py! "timestamp" ∉ d.data.keys ∧ e = .keyError ∧ bag = b) ∨
          ∃ ts name ty rows k, d.data.get? (py! "timestamp") = some ts ∧ exportType env d = some (name, ty) ∧ k < ts.length ∧
            (List.range k).mapM (exportRow ty d (rosTopic u.dataList d) ts) = .ok rows ∧
            exportRow ty d (rosTopic u.dataList d) ts k = .error e ∧
            bag.topics = b.topics ++ [(rosTopic u.dataList d, py! "px4_msgs/msg/" ++ name)] ∧
            bag.messages = b.messages ++ rows)) := by
  simp only [← topicLeft_error]
  rw [← topicsLeft_error]
  unfold bagLeft
  cases verbose with
  | false =>
    constructor
    · intro h
      exact .inr ⟨fun hf => (nomatch hf), h⟩
    · rintro (⟨h, _⟩ | ⟨_, h⟩)
      · cases h
      · exact h
  | true =>
    cases hv : getVersionInfoStr u with
    | error e' =>
      constructor
      · intro h
        cases h
        exact .inl ⟨rfl, rfl, rfl⟩
      · rintro (⟨_, h, rfl⟩ | ⟨h, _⟩)
        · cases h; rfl
        · obtain ⟨v, h⟩ := h rfl
          cases h
    | ok v =>
      constructor
      · intro h
        exact .inr ⟨fun _ => ⟨v, rfl⟩, h⟩
      · rintro (⟨_, h, _⟩ | ⟨_, h⟩)
        · cases h
        · exact h

/-! ### the programs -/

/-- **C95**, what an exception of `ulog_info` and `ulog2ros2bag` leaves: nothing if the log is not loaded, and otherwise what
`C95_info_left`, `C95_message_left` and `C95_bag_left` describe. -/
theorem C95_begun {w : World} {pr : Char → Bool} {env : RosEnv} {fuel depth : Nat} {argv : List Str} {e : PyErr} :
    (∀ lines, infoMain w pr fuel depth argv = some (lines, .raised e) → lines = [] ∨
      ∃ ns a bs u, parseArgs infoCli w.isDir argv = .ok ns ∧ infoArgs ns = .ok a ∧ w.read a.file = .ok bs ∧
        load fuel { ign := a.ignore, depth := depth } bs = .ok u ∧
        ((a.message.getD [] = [] ∧ infoLeft pr a.verbose u = (lines, some e)) ∨
          ∃ name, name ≠ [] ∧ a.message = some name ∧ messageLeft a.newline u name = (lines, some e))) ∧
    (∀ left, bagMain w true env fuel depth argv = some (left, .raised e) → left = none ∨
      ∃ ns a bs u bag, parseArgs bagCli w.isDir argv = .ok ns ∧ bagArgs ns = .ok a ∧ w.read a.file = .ok bs ∧
        load fuel { filter := messageFilter a.messages, ign := a.ignore, depth := depth } bs = .ok u ∧
        left = some ⟨bagName a.bag a.file, if a.mcap then py! "mcap" else py! "sqlite3", bag⟩ ∧
        bagLeft env a.verbose u = (bag, some e)) := by
  have hof : ∀ {o : Option PyErr}, Ended.of o = .raised e → o = some e := by
    intro o h
    cases o with
    | none => cases h
    | some e' => cases h; rfl
  constructor
  · intro lines h
    rcases withArgs_end h with ⟨n, hp, hx⟩ | ⟨ns, e', hp, ha, hx⟩ | ⟨ns, a, hp, ha, hx⟩
    · cases hx
    · cases hx; exact .inl rfl
    · rcases withLog_end hx with ⟨e', hx⟩ | ⟨bs, u, hb, hl, hx⟩
      · cases hx; exact .inl rfl
      · refine .inr ⟨ns, a, bs, u, hp, ha, hb, hl, ?_⟩
        obtain ⟨hx1, hx2⟩ := Prod.mk.inj hx
        replace hx2 := hof hx2
        rcases hm : a.message with _ | _ | ⟨c, m⟩ <;> rw [hm] at hx1 hx2
        · exact .inl ⟨rfl, Prod.ext hx1 hx2⟩
        · exact .inl ⟨rfl, Prod.ext hx1 hx2⟩
        · exact .inr ⟨c :: m, by simp, rfl, Prod.ext hx1 hx2⟩
  · intro left h
    rcases withArgs_end h with ⟨n, hp, hx⟩ | ⟨ns, e', hp, ha, hx⟩ | ⟨ns, a, hp, ha, hx⟩
    · cases hx
    · cases hx; exact .inl rfl
    · rcases withLog_end hx with ⟨e', hx⟩ | ⟨bs, u, hb, hl, hx⟩
      · cases hx; exact .inl rfl
      · obtain ⟨hx1, hx2⟩ := Prod.mk.inj hx
        exact .inr ⟨ns, a, bs, u, _, hp, ha, hb, hl, hx1.symm, Prod.ext rfl (hof hx2)⟩

/-- a log with the topics `a` and `b`, the second of which has no timestamps, and a multi info message with a number -/
def Sample.halfLog : Bytes := Sample.header ++
  encMsgs [(tyF, Sample.asc (py! "a:uint64_t timestamp;uint8_t x;")), (tyF, Sample.asc (py! "b:uint8_t x;")),
    (tyM, [0, 9] ++ Sample.asc (py! "int32_t n") ++ [5, 0, 0, 0])] ++
  encMsgs [(tyA, [0, 0, 0] ++ Sample.asc (py! "a")), (tyA, [0, 1, 0] ++ Sample.asc (py! "b")),
    (tyD, [0, 0, 5, 0, 0, 0, 0, 0, 0, 0, 7]), (tyD, [1, 0, 8])]

/-- The failing part of **C95**: the listing ends behind the row of `a`. -/
theorem C95_listing_begun : infoMain (Sample.world Sample.halfLog) (fun _ => true) 20 100 [py! "log.ulg"] = some (
    [py! "Logging start time: 0:00:00, duration: 0:00:00", py! "No Dropouts", py! "Info Messages:",
      py! "Info Multiple Messages: [n: 1]", [],
      py! "Name (multi id, message size in bytes)    number of data points, total bytes",
      py! " a (0, 9)                                       1          9"], .raised .keyError) ∧
    infoMain (Sample.world Sample.halfLog) (fun _ => true) 20 100 [py! "-m", py! "n", py! "log.ulg"] =
      some ([py! "# n 0:"], .raised .typeError) := by
  constructor <;> decide +kernel

/-- a package that has a type for every topic -/
def Sample.anyEnv : RosEnv where
  msgType n := some n
  type _ := some ⟨[(py! "timestamp", py! "uint64"), (py! "x", py! "uint8")],
    [(py! "timestamp", .plain (.num (.int 0))), (py! "x", .plain (.num (.int 0)))]⟩

/-- The failing part of **C95**: the bag has the topic `a`. -/
theorem C95_bag_begun : bagMain (Sample.world Sample.halfLog) true Sample.anyEnv 20 100 [py! "log.ulg"] =
    some (some ⟨py! "rosbag_log", py! "sqlite3", [(py! "/px4/a", py! "px4_msgs/msg/a")],
      [(py! "/px4/a", [(py! "timestamp", .plain (.num (.int 5))), (py! "x", .plain (.num (.int 7)))], 5000)]⟩,
      .raised .keyError) := by
  decide +kernel

/-- a log with an array -/
def Sample.arrayLog : Bytes := Sample.header ++
  encMsgs [(tyF, Sample.asc (py! "a:uint64_t timestamp;uint8_t[2] x;"))] ++
  encMsgs [(tyA, [0, 0, 0] ++ Sample.asc (py! "a")), (tyD, [0, 0, 5, 0, 0, 0, 0, 0, 0, 0, 7, 8])]

/-- the topic is registered, but its first message raises: the field of the type is not an array -/
example : bagMain (Sample.world Sample.arrayLog) true Sample.anyEnv 20 100 [py! "log.ulg"] =
    some (some ⟨py! "rosbag_log", py! "sqlite3", [(py! "/px4/a", py! "px4_msgs/msg/a")], []⟩, .raised .typeError) := by
  decide +kernel

/-- a log whose version is a text -/
def Sample.versionLog : Bytes := Sample.header ++
  encMsgs [(tyF, Sample.asc (py! "a:uint64_t timestamp;uint8_t x;")),
    (tyI, [22] ++ Sample.asc (py! "char[2] ver_sw_release") ++ Sample.asc (py! "v1"))] ++
  encMsgs [(tyA, [0, 0, 0] ++ Sample.asc (py! "a")), (tyD, [0, 0, 5, 0, 0, 0, 0, 0, 0, 0, 7])]

/-- the version raises: `ulog_info` has printed two lines, the verbose bag is empty, and the other one is complete -/
example : infoMain (Sample.world Sample.versionLog) (fun _ => true) 20 100 [py! "log.ulg"] =
      some ([py! "Logging start time: 0:00:00, duration: 0:00:00", py! "No Dropouts"], .raised .typeError) ∧
    bagMain (Sample.world Sample.versionLog) true Sample.anyEnv 20 100 [py! "-v", py! "log.ulg"] =
      some (some ⟨py! "rosbag_log", py! "sqlite3", [], []⟩, .raised .typeError) ∧
    (bagMain (Sample.world Sample.versionLog) true Sample.anyEnv 20 100 [py! "log.ulg"]).map (·.2) = some .finished := by
  refine ⟨?_, ?_, ?_⟩ <;> decide +kernel

end PyULog
