import Verif.Spec.RoundTrip
/-
What a call of `write_ulog` that ends with an exception may leave behind: a log that is cut between two
messages.
-/
namespace PyULog.Spec
open PyULog

/-- `a` is the begin of `l`: some elements of `l`, and perhaps a part of the next one -/
def CutList (part : α → α → Prop) (a l : List α) : Prop :=
  a <+: l ∨ ∃ pre x y rest, l = pre ++ x :: rest ∧ part y x ∧ a = pre ++ [y]

/-- a part of a value set: some of its values, at least one -/
def SetPart (y x : List Value) : Prop := y ≠ [] ∧ y <+: x

/-- a part of the value sets of a key -/
def MultiPart (y x : Str × List (List Value)) : Prop := y.1 = x.1 ∧ y.2 ≠ [] ∧ CutList SetPart y.2 x.2

/-- a part of the default values of one kind -/
def DefaultPart (y x : Nat × Dict Str Value) : Prop := y.1 = x.1 ∧ y.2 ≠ [] ∧ y.2 <+: x.2

/-- `c` is the log `u` cut within its definitions or subscriptions: what comes later is missing, and there
are no samples and no messages -/
structure CutOf (c u : ULog) : Prop where
  version : c.fileVersion = u.fileVersion
  start : c.startTs = u.startTs
  flags : c.compat = u.compat ∧ c.incompat = u.incompat
  formats : c.formats <+: u.formats
  info : c.info <+: u.info
  info_after : c.info ≠ [] → c.formats = u.formats
  infoTypes : c.infoTypes = u.infoTypes.filter fun p => decide (p.1 ∈ c.info.map (·.1))
  multi : CutList MultiPart c.infoMulti u.infoMulti
  multi_after : c.infoMulti ≠ [] → c.formats = u.formats ∧ c.info = u.info
  multiTypes : c.infoMultiTypes = u.infoMultiTypes.filter fun p => decide (p.1 ∈ c.infoMulti.map (·.1))
  initial : c.initialParams <+: u.initialParams
  initial_after : c.initialParams ≠ [] → c.formats = u.formats ∧ c.info = u.info ∧ c.infoMulti = u.infoMulti
  defaults : CutList DefaultPart c.defaultParams u.defaultParams
  defaults_after : c.defaultParams ≠ [] → c.formats = u.formats ∧ c.info = u.info ∧
    c.infoMulti = u.infoMulti ∧ c.initialParams = u.initialParams
  /-- the subscriptions are written in the order of the message ids -/
  subs : ∃ all : List Dataset, all.Perm u.dataList ∧ all.Pairwise (fun a b => a.msgId ≤ b.msgId) ∧
    c.dataList.map (fun d => (d.multiId, d.msgId, d.name)) <+: all.map fun d => (d.multiId, d.msgId, d.name)
  subs_after : c.dataList ≠ [] → c.formats = u.formats ∧ c.info = u.info ∧ c.infoMulti = u.infoMulti ∧
    c.initialParams = u.initialParams ∧ c.defaultParams = u.defaultParams
  no_rows : ∀ d ∈ c.dataList, rowCount d = 0
  no_messages : c.logged = [] ∧ c.tagged = [] ∧ c.dropouts = [] ∧ c.changedParams = []

/-- the log without samples and messages; the topics stay -/
def withoutRows (u : ULog) : ULog :=
  { u with
    dataList := u.dataList.map fun d => { d with data := d.data.map fun p => (p.1, []) }
    logged := []
    tagged := []
    dropouts := []
    changedParams := [] }

/-- the definitions of a log -/
def definitionsOf (u : ULog) : ULog :=
  { u with
    dataList := []
    logged := []
    tagged := []
    dropouts := []
    changedParams := [] }

end PyULog.Spec
