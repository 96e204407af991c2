import Verif.Model.Write
import Verif.Lemmas.Frames
import Verif.Lemmas.Sort
import Verif.Lemmas.Decode
/-
Shape of the output of the writer: a header followed by a sequence of messages.
-/
namespace PyULog
open Spec

theorem concatM_cons (x : Except PyErr Bytes) (l : List (Except PyErr Bytes)) :
    concatM (x :: l) = (do let b ← x; let r ← concatM l; return b ++ r) := rfl

theorem concatM_cons_ok {x : Except PyErr Bytes} {l : List (Except PyErr Bytes)} {b : Bytes} :
    concatM (x :: l) = .ok b ↔ ∃ a r, x = .ok a ∧ concatM l = .ok r ∧ b = a ++ r := by
  rw [concatM_cons, except_bind_ok]
  constructor
  · rintro ⟨a, h1, h2⟩
    rw [except_bind_ok] at h2
    obtain ⟨r, h2, h3⟩ := h2
    injection h3 with h3
    exact ⟨a, r, h1, h2, h3.symm⟩
  · rintro ⟨a, r, h1, h2, h3⟩
    exact ⟨a, h1, by rw [h2, h3]; rfl⟩

theorem concatM_ok_iff (l : List (Except PyErr Bytes)) (b : Bytes) :
    concatM l = .ok b ↔ ∃ bs : List Bytes, l = bs.map .ok ∧ b = bs.flatten := by
  induction l generalizing b with
  | nil =>
    constructor
    · intro h
      refine ⟨[], rfl, ?_⟩
      injection h with h; exact h.symm
    · rintro ⟨bs, h1, h2⟩
      cases bs with
      | nil => rw [h2]; rfl
      | cons x xs => simp at h1
  | cons x l ih =>
    rw [concatM_cons, except_bind_ok]
    constructor
    · rintro ⟨a, h1, h2⟩
      rw [except_bind_ok] at h2
      obtain ⟨r, h2, h3⟩ := h2
      obtain ⟨bs, h4, h5⟩ := (ih r).mp h2
      refine ⟨a :: bs, by rw [h1, h4]; rfl, ?_⟩
      injection h3 with h3
      rw [← h3, h5]; rfl
    · rintro ⟨bs, h1, h2⟩
      cases bs with
      | nil => simp at h1
      | cons a bs =>
        rw [List.map_cons] at h1
        injection h1 with h1 h3
        refine ⟨a, h1, ?_⟩
        rw [(ih _).mpr ⟨bs, h3, rfl⟩, h2]
        rfl

theorem frame_ok_iff (ty : Nat) (d b : Bytes) :
    frame ty d = .ok b ↔ ty < 256 ∧ d.length < 65536 ∧ b = encMsg (ty, d) := by
  unfold frame
  constructor
  · intro h
    rw [except_bind_ok] at h
    obtain ⟨s, h1, h⟩ := h
    rw [except_bind_ok] at h
    obtain ⟨t, h2, h⟩ := h
    obtain ⟨h1, e1⟩ := packU_eq_ok h1
    obtain ⟨h2, e2⟩ := packU_eq_ok h2
    injection h with h
    have h2' : ty < 256 := by simpa using h2
    refine ⟨h2', h1, ?_⟩
    rw [encMsg_eq _ _ h1, ← h, e1, e2]
    have : leEnc 1 ty = [UInt8.ofNat ty] := by
      simp only [leEnc]
      rw [Nat.mod_eq_of_lt h2']
    rw [this]
  · rintro ⟨h1, h2, h3⟩
    rw [packU_ok (show d.length < 256 ^ 2 from h2), packU_ok (show ty < 256 ^ 1 by simpa using h1),
      h3, encMsg_eq _ _ h2]
    have : leEnc 1 ty = [UInt8.ofNat ty] := by
      simp only [leEnc]
      rw [Nat.mod_eq_of_lt h1]
    rw [ok_bind, ok_bind, this]
    rfl

theorem packU_bind_ok {n v : Nat} {f : Bytes → Except PyErr β} {b : β} :
    (packU n v >>= f) = .ok b ↔ v < 256 ^ n ∧ f (leEnc n v) = .ok b := by
  rw [except_bind_ok]
  constructor
  · rintro ⟨a, h1, h2⟩
    obtain ⟨h3, e⟩ := packU_eq_ok h1
    rw [← e]
    exact ⟨h3, h2⟩
  · rintro ⟨h1, h2⟩
    exact ⟨_, packU_ok h1, h2⟩

theorem frame_bind_ok {ty : Nat} {d : Bytes} {f : Bytes → Except PyErr β} {b : β} :
    (frame ty d >>= f) = .ok b ↔ ty < 256 ∧ d.length < 65536 ∧ f (encMsg (ty, d)) = .ok b := by
  rw [except_bind_ok]
  constructor
  · rintro ⟨a, h1, h2⟩
    obtain ⟨h3, h4, e⟩ := (frame_ok_iff _ _ _).mp h1
    rw [← e]
    exact ⟨h3, h4, h2⟩
  · rintro ⟨h1, h2, h3⟩
    exact ⟨_, (frame_ok_iff _ _ _).mpr ⟨h1, h2, rfl⟩, h3⟩

/-- the write `x` produces exactly the messages `ms` -/
def Emits (x : Except PyErr Bytes) (ms : List (Nat × Bytes)) : Prop :=
  x = .ok (encMsgs ms) ∧ ∀ m ∈ ms, Fits m

theorem Emits.frame {ty : Nat} {d : Bytes} (h1 : ty < 256) (h2 : d.length < 65536) :
    Emits (PyULog.frame ty d) [(ty, d)] := by
  constructor
  · rw [(frame_ok_iff ty d _).mpr ⟨h1, h2, rfl⟩]
    simp [encMsgs]
  · intro m hm
    rw [List.mem_singleton] at hm
    subst hm
    exact ⟨h1, h2⟩

theorem Emits.concat {α : Type} {f : α → Except PyErr Bytes} {g : α → List (Nat × Bytes)}
    {l : List α} (h : ∀ x ∈ l, Emits (f x) (g x)) :
    Emits (concatM (l.map f)) (l.flatMap g) := by
  constructor
  · rw [concatM_ok_iff]
    refine ⟨l.map fun x => encMsgs (g x), ?_, ?_⟩
    · rw [List.map_map]
      exact List.map_congr_left fun x hx => (h x hx).1
    · unfold encMsgs
      rw [List.flatMap_assoc, List.flatMap_def]
  · intro m hm
    obtain ⟨x, hx, hm⟩ := List.mem_flatMap.mp hm
    exact (h x hx).2 m hm

/-- inversion: what a successful sequence of writes emits -/
theorem emits_inv {α : Type} {f : α → Except PyErr Bytes} {P : α → List (Nat × Bytes) → Prop}
    {l : List α} {b : Bytes}
    (h : ∀ x ∈ l, ∀ b, f x = .ok b → ∃ ms, P x ms ∧ b = encMsgs ms)
    (hb : concatM (l.map f) = .ok b) :
    ∃ mss : List (List (Nat × Bytes)), mss.length = l.length ∧
      (∀ p ∈ l.zip mss, P p.1 p.2) ∧ b = encMsgs mss.flatten := by
  induction l generalizing b with
  | nil =>
    refine ⟨[], rfl, by simp, ?_⟩
    injection hb with hb; exact hb.symm
  | cons x l ih =>
    rw [List.map_cons, concatM_cons, except_bind_ok] at hb
    obtain ⟨a, h1, hb⟩ := hb
    rw [except_bind_ok] at hb
    obtain ⟨r, h2, h3⟩ := hb
    obtain ⟨ms, p, e⟩ := h x (List.mem_cons_self ..) a h1
    obtain ⟨mss, q1, q2, q3⟩ := ih (fun y hy => h y (List.mem_cons_of_mem _ hy)) h2
    refine ⟨ms :: mss, by simp [q1], ?_, ?_⟩
    · intro z hz
      rw [List.zip_cons_cons, List.mem_cons] at hz
      rcases hz with rfl | hz
      · exact p
      · exact q2 z hz
    · injection h3 with h3
      rw [← h3, e, q3, List.flatten_cons]
      simp [encMsgs]

/-- inversion when all messages have types in a list -/
theorem emits_types {α : Type} {f : α → Except PyErr Bytes} {T : List Nat}
    {l : List α} {b : Bytes}
    (h : ∀ x ∈ l, ∀ b, f x = .ok b → ∃ ms, (∀ m ∈ ms, m.1 ∈ T ∧ Fits m) ∧ b = encMsgs ms)
    (hb : concatM (l.map f) = .ok b) :
    ∃ ms, (∀ m ∈ ms, m.1 ∈ T ∧ Fits m) ∧ b = encMsgs ms := by
  obtain ⟨mss, h1, h2, h3⟩ := emits_inv (P := fun _ ms => ∀ m ∈ ms, m.1 ∈ T ∧ Fits m) h hb
  refine ⟨mss.flatten, ?_, h3⟩
  intro m hm
  obtain ⟨ms, hms, hm⟩ := List.mem_flatten.mp hm
  obtain ⟨i, hi, rfl⟩ := List.getElem_of_mem hms
  have : (l[i]'(h1 ▸ hi), mss[i]) ∈ l.zip mss := by
    have hlt : i < (l.zip mss).length := by rw [List.length_zip, h1]; rw [h1] at hi; omega
    have := List.getElem_mem hlt
    rwa [List.getElem_zip] at this
  exact h2 _ this m hm

theorem frame_types {ty : Nat} {d b : Bytes} {T : List Nat} (hT : ty ∈ T) (h : frame ty d = .ok b) :
    ∃ ms : List (Nat × Bytes), (∀ m ∈ ms, m.1 ∈ T ∧ Fits m) ∧ b = encMsgs ms := by
  obtain ⟨h1, h2, h3⟩ := (frame_ok_iff _ _ _).mp h
  refine ⟨[(ty, d)], ?_, by simp [encMsgs, h3]⟩
  intro m hm
  rw [List.mem_singleton] at hm
  subst hm
  exact ⟨hT, h1, h2⟩

theorem writeValueSet_types {key ty : Str} {c : Bool} {vs : List Value} {b : Bytes}
    (h : writeValueSet key ty c vs = .ok b) :
    ∃ ms : List (Nat × Bytes), (∀ m ∈ ms, m.1 ∈ [tyM] ∧ Fits m) ∧ b = encMsgs ms := by
  induction vs generalizing c b with
  | nil => injection h with h; exact ⟨[], by simp, h.symm⟩
  | cons v vs ih =>
    unfold writeValueSet at h
    rw [except_bind_ok] at h
    obtain ⟨d, _, h⟩ := h
    rw [except_bind_ok] at h
    obtain ⟨m, h2, h⟩ := h
    rw [except_bind_ok] at h
    obtain ⟨r, h3, h⟩ := h
    injection h with h
    obtain ⟨ms, p, e⟩ := frame_types (T := [tyM]) (by decide) h2
    obtain ⟨ms', p', e'⟩ := ih h3
    refine ⟨ms ++ ms', ?_, by rw [encMsgs_append, ← e, ← e', h]⟩
    intro m hm
    rcases List.mem_append.mp hm with hm | hm
    · exact p m hm
    · exact p' m hm

/-- the pieces of a successful write -/
structure Written (u : ULog) (b : Bytes) where
  hdr : Bytes
  flags : Bytes
  fmts : Bytes
  infos : Bytes
  multi : Bytes
  init : Bytes
  dflt : Bytes
  subs : Bytes
  data : Bytes
  h_hdr : writeHeader u = .ok hdr
  h_flags : writeFlags u = .ok flags
  h_fmts : writeFormats u = .ok fmts
  h_infos : writeInfos u = .ok infos
  h_multi : writeInfoMulti u = .ok multi
  h_init : writeInitialParams u = .ok init
  h_dflt : writeDefaultParams u = .ok dflt
  h_subs : writeSubs u = .ok subs
  h_data : writeDataSection u = .ok data
  eq : b = hdr ++ (flags ++ (fmts ++ (infos ++ (multi ++ (init ++ (dflt ++ (subs ++ data)))))))

theorem written_of_ok {u : ULog} {b : Bytes} (h : writeUlog u = .ok b) : Nonempty (Written u b) := by
  unfold writeUlog at h
  rw [concatM_cons_ok] at h; obtain ⟨b1, r, e1, h, q1⟩ := h
  rw [concatM_cons_ok] at h; obtain ⟨b2, r2, e2, h, q2⟩ := h
  rw [concatM_cons_ok] at h; obtain ⟨b3, r3, e3, h, q3⟩ := h
  rw [concatM_cons_ok] at h; obtain ⟨b4, r4, e4, h, q4⟩ := h
  rw [concatM_cons_ok] at h; obtain ⟨b5, r5, e5, h, q5⟩ := h
  rw [concatM_cons_ok] at h; obtain ⟨b6, r6, e6, h, q6⟩ := h
  rw [concatM_cons_ok] at h; obtain ⟨b7, r7, e7, h, q7⟩ := h
  rw [concatM_cons_ok] at h; obtain ⟨b8, r8, e8, h, q8⟩ := h
  rw [concatM_cons_ok] at h; obtain ⟨b9, r9, e9, h, q9⟩ := h
  injection h with h
  exact ⟨⟨b1, b2, b3, b4, b5, b6, b7, b8, b9, e1, e2, e3, e4, e5, e6, e7, e8, e9, by
    rw [q1, q2, q3, q4, q5, q6, q7, q8, q9, ← h]; simp⟩⟩

theorem Written.ok {u : ULog} {b : Bytes} (w : Written u b) : writeUlog u = .ok b := by
  unfold writeUlog
  rw [concatM_ok_iff]
  refine ⟨[w.hdr, w.flags, w.fmts, w.infos, w.multi, w.init, w.dflt, w.subs, w.data], ?_, ?_⟩
  · simp [w.h_hdr, w.h_flags, w.h_fmts, w.h_infos, w.h_multi, w.h_init, w.h_dflt, w.h_subs, w.h_data]
  · have := w.eq
    simpa using this

end PyULog
