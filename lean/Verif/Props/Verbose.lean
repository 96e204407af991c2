import Verif.Spec.Verbose
import Verif.Props.Prints
import Verif.Props.ToolError
import Verif.Props.MainLeft
/-
C102: what `--verbose` of `ulog2ros2bag` changes.
-/
namespace PyULog
open Spec

/-! ### lines -/

theorem skip_quiet (env : RosEnv) (d : Dataset) : ∀ s ∈ skipSaid env d, quietLine s = true := by
  intro s hs
  unfold skipSaid at hs
  cases h1 : env.msgType d.name with
  | none =>
    rw [h1] at hs
    rcases List.mem_singleton.mp hs with rfl
    rfl
  | some name =>
    rw [h1] at hs
    dsimp only at hs
    cases h2 : env.type name with
    | none =>
      rw [h2] at hs
      rcases List.mem_singleton.mp hs with rfl
      rfl
    | some ty =>
      rw [h2] at hs
      dsimp only at hs
      split at hs
      · rcases List.mem_singleton.mp hs with rfl
        rfl
      · split at hs
        · cases hs
        · rcases List.mem_singleton.mp hs with rfl
          rfl

theorem found_loud (env : RosEnv) (d : Dataset) : ∀ s ∈ foundSaid env d, quietLine s = false := by
  intro s hs
  unfold foundSaid at hs
  cases h1 : env.msgType d.name with
  | none => rw [h1] at hs; cases hs
  | some name =>
    rw [h1] at hs
    dsimp only at hs
    cases h2 : env.type name with
    | none => rw [h2] at hs; cases hs
    | some ty =>
      rw [h2] at hs
      rcases List.mem_singleton.mp hs with rfl
      rfl

theorem missing_loud (env : RosEnv) (site : RosSite) (d : Dataset) : ∀ s ∈ missingSaid env site d, quietLine s = false := by
  intro s hs
  unfold missingSaid at hs
  cases h1 : env.msgType d.name with
  | none => rw [h1] at hs; cases hs
  | some name =>
    rw [h1] at hs
    dsimp only at hs
    cases h2 : env.type name with
    | none => rw [h2] at hs; cases hs
    | some ty =>
      rw [h2] at hs
      dsimp only at hs
      split at hs
      · cases hs
      · split at hs
        · cases hs
        · obtain ⟨n, _, rfl⟩ := List.mem_map.mp hs
          rfl

theorem filter_all {p : α → Bool} {l : List α} (h : ∀ x ∈ l, p x = true) : l.filter p = l := List.filter_eq_self.mpr h

theorem filter_none {p : α → Bool} {l : List α} (h : ∀ x ∈ l, p x = false) : l.filter p = [] :=
  List.filter_eq_nil_iff.mpr fun x hx => by rw [h x hx]; simp

theorem process_loud (all : List Dataset) (d : Dataset) (n : Nat) : quietLine (processSaid all d n) = false := rfl

theorem topicsVerbose_quiet {env : RosEnv} {site : RosSite} {all : List Dataset} {name : Str} (ds : List Dataset) (t m : Nat) :
    (topicsVerbose env site all name ds t m).filter quietLine = topicsSaid env all name ds t m := by
  induction ds generalizing t m with
  | nil => rfl
  | cons d ds ih =>
    rw [topicsVerbose, topicsSaid]
    cases dictGet d.data (py! "timestamp") with
    | error e => rfl
    | ok ts =>
      dsimp only
      simp only [List.cons_append, List.filter_cons, List.filter_append, process_loud, filter_none (found_loud env d),
        filter_all (skip_quiet env d), filter_none (missing_loud env site d), List.nil_append, List.append_nil]
      rw [if_neg (by simp)]
      congr 1
      cases exportType env d with
      | none => exact ih t m
      | some _ =>
        dsimp only
        cases (topicLeft env all {} d).2 with
        | some _ => rfl
        | none => exact ih _ _

/-- **C102**, lines: a verbose run prints the lines of the quiet run, in their order, behind an empty line; everything else
begins with `I: ` or `D: `. -/
theorem C102_lines_partial {env : RosEnv} {site : RosSite} {name : Str} {u : ULog} (hv : ¬ NoVersionNumber u) :
    (verboseSaid env site name u).filter quietLine = [] :: topicsSaid env u.dataList name u.dataList 0 0 := by
  unfold verboseSaid
  cases h : getVersionInfoStr u with
  | error e => exact absurd (version_error.mp h).2 hv
  | ok v =>
    dsimp only
    rw [List.filter_cons, List.filter_cons, List.filter_cons, List.filter_cons, topicsVerbose_quiet]
    rfl

/-- **C102**, the bag is the one of the quiet run -/
theorem C102_bag_partial {env : RosEnv} {u : ULog} (hv : ¬ NoVersionNumber u) : bagLeft env true u = bagLeft env false u := by
  unfold bagLeft
  cases h : getVersionInfoStr u with
  | error e => exact absurd (version_error.mp h).2 hv
  | ok v => rfl

/-- **C102** does not hold for a log whose version is no number: the quiet run writes the topics, the verbose run raises, with
an empty bag, after two lines. -/
theorem C102_version {env : RosEnv} {site : RosSite} {name : Str} {u : ULog} (hv : NoVersionNumber u) :
    bagLeft env true u = ({}, some .typeError) ∧ (verboseSaid env site name u).length = 2 ∧
      (verboseSaid env site name u).filter quietLine = [] := by
  have h := (version_error (e := .typeError)).mpr ⟨rfl, hv⟩
  unfold bagLeft verboseSaid
  rw [h]
  exact ⟨rfl, rfl, rfl⟩

/-- a log with a version in letters, and what the two runs leave -/
theorem C102_violated : ∃ bs u, load 20 {} bs = .ok u ∧
    (bagLeft Sample.bagEnv false u).2 = none ∧ (bagLeft Sample.bagEnv false u).1.messages.length = 1 ∧
    bagLeft Sample.bagEnv true u = ({}, some .typeError) := by
  refine ⟨Sample.header ++ encMsgs [(tyI, 22 :: Sample.asc (py! "char[1] ver_sw_release") ++ Sample.asc (py! "1")),
    (tyF, Sample.asc (py! "a:uint64_t timestamp;int16_t x;")), (tyA, [0, 0, 0] ++ Sample.asc (py! "a")),
    (tyD, [0, 0, 5, 0, 0, 0, 0, 0, 0, 0, 7, 0])],
    Sample.get (load 20 {} (Sample.header ++ encMsgs [(tyI, 22 :: Sample.asc (py! "char[1] ver_sw_release") ++ Sample.asc (py! "1")),
    (tyF, Sample.asc (py! "a:uint64_t timestamp;int16_t x;")), (tyA, [0, 0, 0] ++ Sample.asc (py! "a")),
    (tyD, [0, 0, 5, 0, 0, 0, 0, 0, 0, 0, 7, 0])])), ?_, ?_, ?_, ?_⟩ <;>
    decide +kernel

/-! ### topics -/

/-- **C102**, the first line about a dataset: its name in the log, the number of its samples and its topic in the bag -/
theorem C102_topic {all : List Dataset} {d : Dataset} {n : Nat} (hd : d ∈ all) :
    ∃ shown, TopicText all d shown ∧ processSaid all d n = topicLine shown (rosTopic all d) n := by
  refine ⟨logTopic all d, ⟨fun h => ?_, fun h => ?_⟩, rfl⟩
  · unfold logTopic
    rw [if_neg (fun h' => h' ((multiIds_single hd).mpr h))]
  · unfold logTopic
    rw [if_pos (fun h' => h ((multiIds_single hd).mp h'))]

theorem foldl_setAdd_plain [DecidableEq α] (l : List α) (s : List α) (hs : s.Nodup) :
    (l.foldl setAdd s).Nodup ∧ ∀ x, x ∈ l.foldl setAdd s ↔ x ∈ s ∨ x ∈ l := by
  induction l generalizing s with
  | nil => exact ⟨hs, fun x => by simp⟩
  | cons a l ih =>
    obtain ⟨h1, h2⟩ := ih (setAdd s a) (nodup_setAdd _ _ hs)
    refine ⟨h1, fun x => ?_⟩
    rw [List.foldl_cons, h2, mem_setAdd, List.mem_cons, or_assoc]

/-- **C102**, missing fields: every field of the log that the type has not is named, without its index, in one line; these
lines follow the warning that the type does not match. -/
theorem C102_missing {env : RosEnv} {site : RosSite} (ho : Lists site.order) {d : Dataset} {name : Str} {ty : RosType}
    (h1 : env.msgType d.name = some name) (h2 : env.type name = some ty) (hc : ∀ f ∈ d.fields, isComposed f.name = false) :
    ∃ names : List Str, names.Nodup ∧ (∀ n, n ∈ names ↔ (∃ f ∈ d.fields, stripIndex f.name = n) ∧ n ∉ ty.types.keys) ∧
      missingSaid env site d = names.map (fun n => fieldLine n d.name name) ∧
      (missingSaid env site d = [] ↔ exportType env d = some (name, ty)) := by
  obtain ⟨hn, hm⟩ := foldl_setAdd_plain (d.fields.map fun f => stripIndex f.name) [] List.nodup_nil
  have hp := ho _ hn
  have hany : ¬ d.fields.any (fun f => isComposed f.name) = true := by
    intro h
    obtain ⟨f, hf, h⟩ := List.any_eq_true.mp h
    rw [hc f hf] at h
    cases h
  have hmem : ∀ n, n ∈ site.order ((d.fields.map fun f => stripIndex f.name).foldl setAdd []) ↔
      ∃ f ∈ d.fields, stripIndex f.name = n := by
    intro n
    rw [hp.mem_iff, hm]
    simp
  have hall : (site.order ((d.fields.map fun f => stripIndex f.name).foldl setAdd [])).all
      (fun n => decide (n ∈ ty.types.keys)) = true ↔
      d.fields.all (fun f => decide (stripIndex f.name ∈ ty.types.keys)) = true := by
    rw [List.all_eq_true, List.all_eq_true]
    constructor
    · intro h f hf
      exact h _ ((hmem _).mpr ⟨f, hf, rfl⟩)
    · intro h n hn
      obtain ⟨f, hf, rfl⟩ := (hmem n).mp hn
      exact h f hf
  refine ⟨(site.order ((d.fields.map fun f : FieldData => stripIndex f.name).foldl setAdd [])).filter fun n => decide (n ∉ ty.types.keys),
    List.Pairwise.filter _ (hp.nodup_iff.mpr hn), fun n => ?_, ?_, ?_⟩
  · rw [List.mem_filter, hmem]
    simp
  · unfold missingSaid
    rw [h1]
    dsimp only
    rw [h2]
    dsimp only
    rw [if_neg hany]
    split
    · rename_i h
      rw [filter_none]
      · rfl
      · intro n hn
        have := List.all_eq_true.mp h n hn
        simp at this
        simp [this]
    · rfl
  · unfold missingSaid exportType
    rw [h1]
    dsimp only
    rw [h2]
    dsimp only
    rw [if_neg hany, if_neg hany]
    by_cases h : d.fields.all (fun f => decide (stripIndex f.name ∈ ty.types.keys)) = true
    · rw [if_pos (hall.mpr h), if_pos h]
      simp
    · rw [if_neg (fun h' => h (hall.mp h')), if_neg h]
      constructor
      · intro h'
        exfalso
        apply h
        rw [← hall, List.all_eq_true]
        intro n hn
        have := List.filter_eq_nil_iff.mp (List.map_eq_nil_iff.mp h') n hn
        simpa using this
      · intro h'
        cases h'

/-- the lines about one dataset -/
def topicVerbose (env : RosEnv) (site : RosSite) (all : List Dataset) (d : Dataset) : List Str :=
  processSaid all d (points d) :: foundSaid env d ++ skipSaid env d ++ missingSaid env site d

theorem topicsVerbose_cases {env : RosEnv} {site : RosSite} {all : List Dataset} {name : Str} (ds : List Dataset) (bag : Bag) :
    ((topicsLeft env all ds bag).2 = none ∧ topicsVerbose env site all name ds bag.topics.length bag.messages.length =
      ds.flatMap (topicVerbose env site all) ++ bagSummary name (topicsLeft env all ds bag).1) ∨
    ((topicsLeft env all ds bag).2 ≠ none ∧ ∃ k, topicsVerbose env site all name ds bag.topics.length bag.messages.length =
      (ds.take k).flatMap (topicVerbose env site all)) := by
  induction ds generalizing bag with
  | nil => exact .inl ⟨rfl, rfl⟩
  | cons d ds ih =>
    rw [topicsLeft, topicsVerbose, topicLeft]
    cases h1 : dictGet d.data (py! "timestamp") with
    | error e => exact .inr ⟨by simp, 0, rfl⟩
    | ok ts =>
      have hpt : points d = ts.length := by
        unfold points
        rw [dictGet_ok.mp h1]
        rfl
      have htv : topicVerbose env site all d =
          processSaid all d ts.length :: foundSaid env d ++ skipSaid env d ++ missingSaid env site d := by
        rw [topicVerbose, hpt]
      dsimp only
      rw [← htv]
      cases h2 : exportType env d with
      | none =>
        dsimp only
        rcases ih bag with ⟨e1, e2⟩ | ⟨e1, k, e2⟩
        · exact .inl ⟨e1, by rw [e2]; simp⟩
        · exact .inr ⟨e1, k + 1, by rw [e2]; simp⟩
      | some nt =>
        obtain ⟨n, ty⟩ := nt
        dsimp only
        rw [topicLeft, h1]
        dsimp only
        rw [h2]
        dsimp only
        cases h3 : (mapLeft (exportRow ty d (rosTopic all d) ts) (List.range ts.length)).2 with
        | some e => exact .inr ⟨by simp, 1, by simp⟩
        | none =>
          dsimp only
          have hlen := mapLeft_length h3
          rw [List.length_range] at hlen
          have := ih { topics := bag.topics ++ [(rosTopic all d, py! "px4_msgs/msg/" ++ n)],
                       messages := bag.messages ++ (mapLeft (exportRow ty d (rosTopic all d) ts) (List.range ts.length)).1 }
          simp only [List.length_append, List.length_singleton, hlen] at this
          rcases this with ⟨e1, e2⟩ | ⟨e1, k, e2⟩
          · exact .inl ⟨e1, by rw [e2, List.flatMap_cons, List.append_assoc]⟩
          · exact .inr ⟨e1, k + 1, by rw [e2, List.take_succ_cons, List.flatMap_cons]⟩

theorem version_nonempty {u : ULog} {v : Str} (h : getVersionInfoStr u = .ok (some v)) : v ≠ [] := by
  unfold getVersionInfoStr at h
  obtain ⟨r, _, h⟩ := except_bind_ok.mp h
  cases r with
  | none => cases h
  | some q =>
    obtain ⟨a, b, c, t⟩ := q
    dsimp only at h
    split at h
    · cases h
      simp
    · cases h

/-- **C102**, the whole of a verbose run on a log: the machine, the version, the datasets one after the other and the summary;
after an exception the lines up to the dataset that raised. -/
theorem C102_run {env : RosEnv} {site : RosSite} {name : Str} {u : ULog} (hv : ¬ NoVersionNumber u) :
    ∃ v, getVersionInfoStr u = .ok v ∧ ∃ rest, verboseSaid env site name u =
        siteLines site.distro site.share ++ [versionLine v, []] ++ rest ∧
      (((bagLeft env true u).2 = none ∧ rest = u.dataList.flatMap (topicVerbose env site u.dataList) ++
          bagSummary name (bagLeft env true u).1) ∨
        ((bagLeft env true u).2 ≠ none ∧ ∃ k, rest = (u.dataList.take k).flatMap (topicVerbose env site u.dataList))) := by
  cases h : getVersionInfoStr u with
  | error e => exact absurd (version_error.mp h).2 hv
  | ok v =>
    refine ⟨v, rfl, topicsVerbose env site u.dataList name u.dataList 0 0, ?_, ?_⟩
    · unfold verboseSaid
      rw [h]
      have hor : ∀ (o : Option Str) (x : Str), orText o x = if o.getD [] = [] then x else o.getD [] := by
        intro o x
        cases o with
        | none => rfl
        | some s => rfl
      have hver : orText v (py! "not found") = v.getD (py! "not found") := by
        cases v with
        | none => rfl
        | some s =>
          exact if_neg (version_nonempty h)
      dsimp only
      rw [hor, hor, hver]
      rfl
    · rw [C102_bag_partial hv]
      exact topicsVerbose_cases u.dataList {}

/-- **C102**, without the ROS2 packages nothing is read or written, and two lines for each missing package say so, verbose or
not -/
theorem C102_unavailable {w : World} {env : RosEnv} {site : RosSite} {fuel depth : Nat} {a : BagArgs}
    (h : site.rosError ≠ none ∨ site.msgsError ≠ none) :
    bagSaidAt w env site fuel depth a = importSaid site ∧ importSaid site ≠ [] ∧
      (importSaid site).length = 2 * (site.rosError.toList.length + site.msgsError.toList.length) ∧
      (∀ e, (site.rosError = some e ∨ site.msgsError = some e) → py! "Actual error: " ++ e ∈ importSaid site) ∧
      bagRun w false env fuel depth a = some (none, .finished) := by
  unfold bagSaidAt importSaid
  cases h1 : site.rosError with
  | none =>
    cases h2 : site.msgsError with
    | none => rw [h1, h2] at h; simp at h
    | some e => exact ⟨rfl, by simp, rfl, fun e' he => by rcases he with he | he <;> cases he; simp, rfl⟩
  | some e1 =>
    cases h2 : site.msgsError with
    | none => exact ⟨rfl, by simp, rfl, fun e' he => by rcases he with he | he <;> cases he; simp, rfl⟩
    | some e2 => exact ⟨rfl, by simp, rfl, fun e' he => by rcases he with he | he <;> cases he <;> simp, rfl⟩

/-- **C102**, with the packages nothing is printed about them; a quiet run prints what `C100_bag` says -/
theorem C102_available {w : World} {env : RosEnv} {site : RosSite} {fuel depth : Nat} {a : BagArgs}
    (h1 : site.rosError = none) (h2 : site.msgsError = none) :
    (a.verbose = false → bagSaidAt w env site fuel depth a = bagSaid w env fuel depth a) ∧
    (a.verbose = true → ∀ bs u, w.read a.file = .ok bs →
      load fuel { filter := messageFilter a.messages, ign := a.ignore, depth := depth } bs = .ok u →
      bagSaidAt w env site fuel depth a =
        (loadNotices fuel { filter := messageFilter a.messages, ign := a.ignore, depth := depth } bs).map Notice.line ++
          verboseSaid env site (bagName a.bag a.file) u) := by
  unfold bagSaidAt importSaid
  rw [h1, h2]
  refine ⟨fun h => ?_, fun h bs u hb hu => ?_⟩
  · rw [h]; rfl
  · rw [h]
    show logSaid w fuel depth a.file (messageFilter a.messages) a.ignore (verboseSaid env site (bagName a.bag a.file)) = _
    unfold logSaid
    rw [hb]
    dsimp only
    rw [hu]

/-- a machine with the packages -/
def Sample.site : RosSite := ⟨none, none, some (py! "humble"), none, id⟩

/-- a verbose run: a topic of another type, one that the package has not -/
example : ¬ NoVersionNumber (Sample.get (load 20 {} Sample.file)) ∧
    bagSaidAt (Sample.world Sample.file) Sample.bagEnv Sample.site 20 100 ⟨py! "log.ulg", none, false, none, false, true⟩ =
    [py! "I: ROS2 Distro: humble", py! "I: ROS2 px4_msgs: not found",
      py! "I: PX4 firmware version from ulog: not found", [],
      py! "D: Processing ulog topic a with 2 messages and ROS2 topic /px4/a",
      py! "D: Found ROS2 message type px4_msgs/msg/A",
      py! "D: Processing ulog topic b (1) with 1 messages and ROS2 topic /px4/b_1",
      py! "W: Message type 'B' for b not found in px4_msgs, skipping.", [],
      py! "Wrote rosbag 'rosbag_log' with 1 topics and 2 messages."] := by
  refine ⟨fun ⟨v, h, _⟩ => ?_, ?_⟩
  · have : (Sample.get (load 20 {} Sample.file)).info.get? (py! "ver_sw_release") = none := by decide +kernel
    rw [this] at h
    cases h
  · decide +kernel

/-- a package whose type has not the field `x`; two instances of a topic -/
example : Lists Sample.site.order ∧
    missingSaid { Sample.bagEnv with type := fun _ => some ⟨[(py! "timestamp", py! "uint64")], []⟩ } Sample.site
      ⟨1, 0, py! "a", [⟨py! "timestamp", .u64⟩, ⟨py! "x[0]", .u8⟩, ⟨py! "x[1]", .u8⟩, ⟨py! "y", .u8⟩], 0, []⟩ =
      [py! "D: field x of a not found in A", py! "D: field y of a not found in A"] ∧
    logTopic [⟨1, 0, py! "a", [], 0, []⟩] ⟨1, 0, py! "a", [], 0, []⟩ = py! "a (1)" := by
  refine ⟨fun l _ => List.Perm.refl _, ?_, ?_⟩ <;> decide +kernel

end PyULog
