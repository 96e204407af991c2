import Verif.Model.Write
/-
What `write_ulog` (core.py:240-495) has written when it ends, also when it ends with an exception. Every
message is made completely before its two `write` calls (core.py:283-286, 294-298, 309-313, 318-322,
329-335, 387-390, 400-403), so the file grows by whole messages. Exceptions of the file object itself
(a full disk) are not modelled.
-/
namespace PyULog

/-- the writes up to the first exception, and the exception -/
def leave : List (Except PyErr Bytes) → Bytes × Option PyErr
  | [] => ([], none)
  | .ok b :: l => (b ++ (leave l).1, (leave l).2)
  | .error e :: _ => ([], some e)

/-- the body of the loop in `_write_format_messages` (core.py:371-390) -/
def formatStep (p : Str × MsgFormat) : Except PyErr Bytes :=
  frame MSG_TYPE_FORMAT (encStr (p.2.name ++ py! ":") ++ p.2.fields.flatMap (fun x => encStr (fieldText x)))

/-- the body of the loop in `_write_info_messages` (core.py:289-298) -/
def infoStep (types : Dict Str Str) (p : Str × Value) : Except PyErr Bytes :=
  match types.get? p.1 with
  | none => .error .keyError
  | some ty => do
    let d ← infoData (ty ++ py! " " ++ p.1) p.2 ty none
    frame MSG_TYPE_INFO d

/-- the loop over one value set (core.py:306-314) -/
def setSteps (key ty : Str) : Bool → List Value → List (Except PyErr Bytes)
  | _, [] => []
  | continued, v :: vs =>
    (do
      let d ← infoData key v ty (some continued)
      frame MSG_TYPE_INFO_MULTIPLE d) :: setSteps key ty true vs

/-- the loop over the value sets of one key (core.py:302-314) -/
def multiSteps (types : Dict Str Str) (p : Str × List (List Value)) : List (Except PyErr Bytes) :=
  match types.get? p.1 with
  | none => [.error .keyError]
  | some ty => p.2.flatMap (setSteps (ty ++ py! " " ++ p.1) ty false)

/-- the body of the loop in `_write_initial_parameters` (core.py:317-322) -/
def initialStep (p : Str × Value) : Except PyErr Bytes := do
  let d ← paramData p.1 p.2
  frame MSG_TYPE_PARAMETER d

/-- the inner loop of `_write_default_parameters` (core.py:328-335) -/
def defaultSteps (p : Nat × Dict Str Value) : List (Except PyErr Bytes) :=
  p.2.map fun q => do
    let m ← packU 1 (1 <<< p.1)
    let d ← paramData q.1 q.2
    frame MSG_TYPE_PARAMETER_DEFAULT (m ++ d)

/-- the body of the loop in `_write_logged_message_subscriptions` (core.py:395-403) -/
def subStep (d : Dataset) : Except PyErr Bytes := do
  let m ← packU 1 d.multiId
  let i ← packU 2 d.msgId
  frame MSG_TYPE_ADD_LOGGED_MSG (m ++ i ++ encStr d.name)

/-- `_write_data_section` (core.py:405-417): all items are made before the first one is written -/
def dataSteps (u : ULog) : List (Except PyErr Bytes) :=
  match allItems u with
  | .error e => [.error e]
  | .ok items => (sortItems items).map fun i => .ok i.2

/-- the writes of `write_ulog` (core.py:247-259) in order -/
def writeSteps (u : ULog) : List (Except PyErr Bytes) :=
  [writeHeader u, writeFlags u] ++ u.formats.map formatStep ++ u.info.map (infoStep u.infoTypes)
    ++ u.infoMulti.flatMap (multiSteps u.infoMultiTypes) ++ u.initialParams.map initialStep
    ++ u.defaultParams.flatMap defaultSteps ++ (byMsgId u.dataList).map subStep ++ dataSteps u

/-- the content of the file after `write_ulog`, and the exception it ended with -/
def writeLeft (u : ULog) : Bytes × Option PyErr := leave (writeSteps u)

end PyULog
