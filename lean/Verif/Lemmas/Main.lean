import Verif.Model.Main
import Verif.Spec.Main
import Verif.Props.Args
/-
Lemmas for C94: the attributes of the namespace, by the names of the options.
-/
namespace PyULog
open Spec

/-- the value that an option of the kind can get -/
def Kind : ArgAction → ArgVal → Prop
  | .storeTrue, v => v = .bool true
  | .store .int, v => ∃ n, v = .int n
  | .store _, v => ∃ s, v = .str s
  | .help, _ => False

theorem kind_of {isDir : Str → Bool} {t : ArgType} {s : Str} {v : ArgVal} (h : ValueOf isDir t s v) :
    Kind (.store t) v := by
  cases h with
  | text => exact ⟨_, rfl⟩
  | int _ => exact ⟨_, rfl⟩
  | dir _ => exact ⟨_, rfl⟩

theorem bundle_kind {d : CliDecl} {isDir : Str → Bool} {b : Str} {w : Option Str} {l : List (OptDecl × ArgVal)}
    (h : Bundle d isDir b w l) : ∀ p ∈ l, p.1 ∈ d.opts ∧ Kind p.1.action p.2 := by
  induction h with
  | flag ho _ ha => intro p hp; cases List.mem_singleton.mp hp; exact ⟨ho, by rw [ha]; rfl⟩
  | attached ho _ ha _ _ hv => intro p hp; cases List.mem_singleton.mp hp; exact ⟨ho, by rw [ha]; exact kind_of hv⟩
  | equals ho _ ha hv => intro p hp; cases List.mem_singleton.mp hp; exact ⟨ho, by rw [ha]; exact kind_of hv⟩
  | next ho _ ha _ hv => intro p hp; cases List.mem_singleton.mp hp; exact ⟨ho, by rw [ha]; exact kind_of hv⟩
  | more ho _ ha _ ih =>
    intro p hp
    rcases List.mem_cons.mp hp with rfl | hp
    · exact ⟨ho, by rw [ha]; rfl⟩
    · exact ih p hp

theorem line_kind {d : CliDecl} {isDir : Str → Bool} {ws : List Str} {l : List (OptDecl × ArgVal)}
    (h : Line d isDir ws l) : ∀ p ∈ l, p.1 ∈ d.opts ∧ Kind p.1.action p.2 := by
  induction h with
  | nil => intro p hp; cases hp
  | cons hs _ ih =>
    intro p hp
    rcases List.mem_append.mp hp with hp | hp
    · cases hs with
      | bundle hb => exact bundle_kind hb p hp
      | flag ho _ ha => cases List.mem_singleton.mp hp; exact ⟨ho, by rw [ha]; rfl⟩
      | value ho _ ha _ hv => cases List.mem_singleton.mp hp; exact ⟨ho, by rw [ha]; exact kind_of hv⟩
      | equals ho _ ha hv => cases List.mem_singleton.mp hp; exact ⟨ho, by rw [ha]; exact kind_of hv⟩
    · exact ih p hp

/-- a command line is read as it is meant -/
theorem cmdLine_means {d : CliDecl} (hd : Orderly d) {isDir : Str → Bool} {argv fs : List Str}
    {l : List (OptDecl × ArgVal)} (h : CmdLine d isDir argv fs l) (hl : fs.length ≤ d.pos.length)
    (hr : ∀ p ∈ d.pos.drop fs.length, p.opt = true) :
    (∃ ns, parseArgs d isDir argv = .ok ns ∧ Means d fs l ns) ∧ ∀ p ∈ l, p.1 ∈ d.opts ∧ Kind p.1.action p.2 := by
  cases h with
  | line h1 h2 hf hn =>
    refine ⟨C92_line hd h1 h2 hf hl hr hn, fun p hp => ?_⟩
    rcases List.mem_append.mp hp with hp | hp
    · exact line_kind h1 p hp
    · exact line_kind h2 p hp
  | dashes h hf => exact ⟨C92_dashes hd h hf hl hr, line_kind h⟩

/-- the option with the name `n` is `o` -/
def Named (d : CliDecl) (n : Str) (o : OptDecl) : Prop :=
  o ∈ d.opts ∧ ∀ o' ∈ d.opts, (o'.dest = o.dest ↔ n ∈ o'.names) ∧ (n ∈ o'.names → o'.action = o.action)

instance (d : CliDecl) (n : Str) (o : OptDecl) : Decidable (Named d n o) := by unfold Named; infer_instance

theorem given_value {d : CliDecl} {n : Str} {o : OptDecl} (hn : Named d n o) {fs : List Str}
    {l : List (OptDecl × ArgVal)} {ns : Dict Str ArgVal} (hm : Means d fs l ns)
    (hk : ∀ p ∈ l, p.1 ∈ d.opts ∧ Kind p.1.action p.2) :
    (∃ v, given n l = some v ∧ ns.get? o.dest = some v ∧ Kind o.action v ∧ isGiven n l = true) ∨
      (given n l = none ∧ ns.get? o.dest = some o.dflt ∧ isGiven n l = false) := by
  have hf : (l.filter fun p : OptDecl × ArgVal => decide (n ∈ p.1.names))
      = l.filter fun p : OptDecl × ArgVal => decide (p.1.dest = o.dest) := by
    apply List.filter_congr
    intro p hp
    exact decide_eq_decide.mpr ((hn.2 p.1 (hk p hp).1).1.symm)
  have hv := hm.options o hn.1
  unfold finalValue at hv
  unfold given
  rw [hf]
  cases hg : (l.filter fun p : OptDecl × ArgVal => decide (p.1.dest = o.dest)).getLast? with
  | none =>
    rw [hg] at hv
    refine .inr ⟨rfl, hv, ?_⟩
    rw [List.getLast?_eq_none_iff, ← hf, List.filter_eq_nil_iff] at hg
    unfold isGiven
    rw [List.any_eq_false]
    exact hg
  | some p =>
    rw [hg] at hv
    have hp := List.mem_of_getLast? hg
    rw [← hf] at hp
    obtain ⟨hp, hq⟩ := List.mem_filter.mp hp
    have hk' := (hk p hp).2
    rw [(hn.2 p.1 (hk p hp).1).2 (of_decide_eq_true hq)] at hk'
    exact .inl ⟨p.2, rfl, hv, hk', List.any_eq_true.mpr ⟨p, hp, hq⟩⟩

section values
variable {d : CliDecl} {n : Str} {o : OptDecl} {fs : List Str} {l : List (OptDecl × ArgVal)} {ns : Dict Str ArgVal}

theorem text_given (hn : Named d n o) (ha : o.action = .store .text ∨ o.action = .store .dir) (hd : o.dflt = .none)
    (hm : Means d fs l ns) (hk : ∀ p ∈ l, p.1 ∈ d.opts ∧ Kind p.1.action p.2) :
    argText ns o.dest = .ok (givenText n l) := by
  unfold argText givenText
  rcases given_value hn hm hk with ⟨v, hg, hv, hkv, _⟩ | ⟨hg, hv, _⟩
  · have : ∃ s, v = .str s := by rcases ha with ha | ha <;> (rw [ha] at hkv; exact hkv)
    obtain ⟨s, rfl⟩ := this
    rw [hg, hv]
  · rw [hg, hv, hd]

theorem word_given (hn : Named d n o) (ha : o.action = .store .text) {s : Str} (hd : o.dflt = .str s)
    (hm : Means d fs l ns) (hk : ∀ p ∈ l, p.1 ∈ d.opts ∧ Kind p.1.action p.2) :
    argWord ns o.dest = .ok ((givenText n l).getD s) := by
  unfold argWord givenText
  rcases given_value hn hm hk with ⟨v, hg, hv, hkv, _⟩ | ⟨hg, hv, _⟩
  · rw [ha] at hkv
    obtain ⟨s, rfl⟩ := hkv
    rw [hg, hv]; rfl
  · rw [hg, hv, hd]; rfl

theorem int_given (hn : Named d n o) (ha : o.action = .store .int) (hd : o.dflt = .none)
    (hm : Means d fs l ns) (hk : ∀ p ∈ l, p.1 ∈ d.opts ∧ Kind p.1.action p.2) :
    argInt ns o.dest = .ok (givenInt n l) := by
  unfold argInt givenInt
  rcases given_value hn hm hk with ⟨v, hg, hv, hkv, _⟩ | ⟨hg, hv, _⟩
  · rw [ha] at hkv
    obtain ⟨s, rfl⟩ := hkv
    rw [hg, hv]
  · rw [hg, hv, hd]

theorem flag_given (hn : Named d n o) (ha : o.action = .storeTrue) (hd : o.dflt = .bool false)
    (hm : Means d fs l ns) (hk : ∀ p ∈ l, p.1 ∈ d.opts ∧ Kind p.1.action p.2) :
    argFlag ns o.dest = .ok (isGiven n l) := by
  unfold argFlag
  rcases given_value hn hm hk with ⟨v, hg, hv, hkv, hi⟩ | ⟨hg, hv, hi⟩
  · rw [ha] at hkv
    cases hkv
    rw [hv, hi]
  · rw [hv, hi, hd]

theorem file_given {i : Nat} {p : PosDecl} {f : Str} (hp : d.pos[i]? = some p) (hf : fs[i]? = some f) (hm : Means d fs l ns) :
    argWord ns p.dest = .ok f := by
  unfold argWord
  rw [hm.files i p hp, hf]

theorem file_perhaps {i : Nat} {p : PosDecl} (hp : d.pos[i]? = some p) (hm : Means d fs l ns) :
    argText ns p.dest = .ok fs[i]? := by
  unfold argText
  rw [hm.files i p hp]
  cases fs[i]? <;> rfl

end values

end PyULog
