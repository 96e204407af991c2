import Verif.Spec.Messages
/-
Which datasets a list of messages should produce, without buffers or state.
-/
namespace PyULog.Spec
open PyULog

/-- name of column `k`: that of the field, or `f` and the position when the field has none -/
def columnName (k : Nat) (name : Str) : Str :=
  match name with
  | [] => 'f' :: natDec k
  | _ :: _ => name

/-- names of the columns of a topic -/
def columnNames (fields : List FieldData) : List Str := fields.zipIdx.map fun p => columnName p.2 p.1.name

/-- an accepted subscription -/
structure Topic where
  multiId : Nat
  msgId : Nat
  name : Str
  fields : List FieldData
  tsIdx : Int

/-- the subscription made by a message: an add-logged message whose name passes the filter. The
columns are those of `parseFields`, which C08 characterises. -/
def subscribed (cfg : Cfg) (x : Tr) : Option Topic :=
  if x.2.1 = tyA ∧ 3 ≤ x.2.2.length then
    match text cfg.ign (x.2.2.drop 3) with
    | none => none
    | some name =>
      if cfg.filter.accepts name then
        match parseFields x.1.formats cfg.depth name with
        | .error _ => none
        | .ok (fs, idx) =>
          if (columnNames fs).Nodup then
            some ⟨byteAt x.2.2 0, leAt x.2.2 1 2, name, fs, idx⟩
          else none
      else none
  else none

/-- the last accepted subscription with id `id`, and the messages after it -/
def lastSub (cfg : Cfg) (id : Nat) : List Tr → Option (Topic × List Tr)
  | [] => none
  | x :: xs =>
    match lastSub cfg id xs with
    | some r => some r
    | none =>
      match subscribed cfg x with
      | some tp => if tp.msgId = id then some (tp, xs) else none
      | none => none

/-- the sample carried by a message for subscription `id` with sample size `size` -/
def sampleOf (id size : Nat) (x : Tr) : Option Bytes :=
  if x.2.1 = tyD ∧ x.2.2.length = 2 + size ∧ leAt x.2.2 0 2 = id then some (x.2.2.drop 2) else none

/-- value of type `t` at offset `off` of a sample -/
def valueAt (t : BT) (b : Bytes) (off : Nat) : NpVal :=
  match t with
  | .i8 | .bool | .char => .int (signed 8 (leAt b off 1))
  | .u8 => .int (leAt b off 1)
  | .i16 => .int (signed 16 (leAt b off 2))
  | .u16 => .int (leAt b off 2)
  | .i32 => .int (signed 32 (leAt b off 4))
  | .u32 => .int (leAt b off 4)
  | .i64 => .int (signed 64 (leAt b off 8))
  | .u64 => .int (leAt b off 8)
  | .f32 => .f32 (leAt b off 4)
  | .f64 => .f64 (leAt b off 8)

/-- columns of a dataset: column `k` holds, for each sample, the value at the offset given by the
widths of the columns before it -/
def columnsOf (fields : List FieldData) (samples : List Bytes) : List (Str × List NpVal) :=
  fields.zipIdx.map fun p =>
    (columnName p.2 p.1.name, samples.map fun b => valueAt p.1.type b (rowSize (fields.take p.2)))

/-- dataset of a topic with the given samples -/
def datasetOf (tp : Topic) (samples : List Bytes) : Dataset :=
  { multiId := tp.multiId, msgId := tp.msgId, name := tp.name, fields := tp.fields,
    tsIdx := tp.tsIdx, data := columnsOf tp.fields samples }

/-- `d` is the dataset of a section `t`: it belongs to the last subscription with its id, and has one
row for each message after the subscription that carries a sample for it; there is at least one -/
def DatasetOfSection (cfg : Cfg) (t : List Tr) (d : Dataset) : Prop :=
  ∃ tp post, lastSub cfg d.msgId t = some (tp, post) ∧ 0 < rowSize tp.fields ∧
    post.filterMap (sampleOf d.msgId (rowSize tp.fields)) ≠ [] ∧
    d = datasetOf tp (post.filterMap (sampleOf d.msgId (rowSize tp.fields)))

/-- `new` lists the datasets of a section, one for each id -/
def SectionDatasets (cfg : Cfg) (t : List Tr) (new : List Dataset) : Prop :=
  (new.map (·.msgId)).Nodup ∧ ∀ d, d ∈ new ↔ DatasetOfSection cfg t d

/-- order of `data_list`: by name, then by instance -/
def dataBefore (a b : Dataset) : Prop :=
  if a.name = b.name then a.multiId ≤ b.multiId
  else (a.name.map Char.toNat) < (b.name.map Char.toNat)

/-- what makes filtering by name sound for a message: a subscription has its timestamp inside its
samples, and does not reuse an id with the other filter status -/
def FilterOk (cfg : Cfg) (F : NameFilter) (x : Tr) : Prop :=
  ∀ tp, subscribed { cfg with filter := .all } x = some tp →
    tsPos tp.fields + 8 ≤ rowSize tp.fields ∧
    ∀ s, x.1.subs.get? tp.msgId = some s → F.accepts s.name = F.accepts tp.name

end PyULog.Spec
