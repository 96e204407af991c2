import Verif.Model.Scalar
/-
The state of a `ULog` object and the message representation classes.
-/
namespace PyULog

/-! ### Constants (core.py:31-47) -/

/-- core.py:31 -/
def HEADER_BYTES : Bytes := [0x55, 0x4c, 0x6f, 0x67, 0x01, 0x12, 0x35]
/-- core.py:32 -/
def SYNC_BYTES : Bytes := [0x2F, 0x73, 0x13, 0x20, 0x25, 0x0C, 0xBB, 0x12]

/-- `ord('F')` (core.py:35) -/
def MSG_TYPE_FORMAT : Nat := 70
/-- `ord('D')` (core.py:36) -/
def MSG_TYPE_DATA : Nat := 68
/-- `ord('I')` (core.py:37) -/
def MSG_TYPE_INFO : Nat := 73
/-- `ord('M')` (core.py:38) -/
def MSG_TYPE_INFO_MULTIPLE : Nat := 77
/-- `ord('P')` (core.py:39) -/
def MSG_TYPE_PARAMETER : Nat := 80
/-- `ord('Q')` (core.py:40) -/
def MSG_TYPE_PARAMETER_DEFAULT : Nat := 81
/-- `ord('A')` (core.py:41) -/
def MSG_TYPE_ADD_LOGGED_MSG : Nat := 65
/-- `ord('S')` (core.py:43) -/
def MSG_TYPE_SYNC : Nat := 83
/-- `ord('O')` (core.py:44) -/
def MSG_TYPE_DROPOUT : Nat := 79
/-- `ord('L')` (core.py:45) -/
def MSG_TYPE_LOGGING : Nat := 76
/-- `ord('C')` (core.py:46) -/
def MSG_TYPE_LOGGING_TAGGED : Nat := 67
/-- `ord('B')` (core.py:47) -/
def MSG_TYPE_FLAG_BITS : Nat := 66

/-! ### Message representations -/

/-- element of `MessageFormat.fields`: `(type, array_size, name)` (core.py:628,652) -/
structure FieldDef where
  type : Str
  arr : Int
  name : Str
  deriving DecidableEq, Repr

/-- `ULog.MessageFormat` (core.py:621-631) -/
structure MsgFormat where
  name : Str
  fields : List FieldDef
  deriving DecidableEq, Repr

/-- `ULog._FieldData` (core.py:720-724). `type_str` is always a key of `_UNPACK_TYPES`
(core.py:773-780), so it is kept as `BT`. -/
structure FieldData where
  name : Str
  type : BT
  deriving DecidableEq, Repr

/-- `ULog.MessageLogging` (core.py:654-660) -/
structure LogMsg where
  level : Nat
  ts : Nat
  msg : Str
  deriving DecidableEq, Repr

/-- `ULog.MessageLoggingTagged` (core.py:680-687) -/
structure TagMsg where
  level : Nat
  tag : Nat
  ts : Nat
  msg : Str
  deriving DecidableEq, Repr

/-- `ULog.MessageDropout` (core.py:708-712) -/
structure Dropout where
  duration : Nat
  ts : Nat
  deriving DecidableEq, Repr

/-- `ULog._MessageAddLogged` (core.py:732-758). `itemSize` is `dtype.itemsize`. -/
structure Sub where
  multiId : Nat
  msgId : Nat
  name : Str
  fields : List FieldData
  tsIdx : Int
  tsOff : Nat
  maxSize : Nat
  itemSize : Nat
  buffer : Bytes
  deriving DecidableEq, Repr

/-- `ULog.Data` (core.py:510-526): the columns are kept in `data`, in field order. -/
structure Dataset where
  multiId : Nat
  msgId : Nat
  name : Str
  fields : List FieldData
  tsIdx : Int
  data : Dict Str (List NpVal)
  deriving DecidableEq, Repr

/-- The attributes of a `ULog` object (core.py:106-133). `_debug` is the constant `False`. -/
structure ULog where
  fileCorrupt : Bool := false
  startTs : Nat := 0
  lastTs : Nat := 0
  info : Dict Str Value := []
  infoTypes : Dict Str Str := []
  infoMulti : Dict Str (List (List Value)) := []
  infoMultiTypes : Dict Str Str := []
  initialParams : Dict Str Value := []
  defaultParams : Dict Nat (Dict Str Value) := []
  changedParams : List (Nat × Str × Value) := []
  formats : Dict Str MsgFormat := []
  logged : List LogMsg := []
  tagged : Dict Nat (List TagMsg) := []
  dropouts : List Dropout := []
  dataList : List Dataset := []
  subs : Dict Nat Sub := []
  filteredIds : List Nat := []
  missingIds : List Nat := []
  fileVersion : Nat := 0
  compat : List Nat := List.replicate 8 0
  incompat : List Nat := List.replicate 8 0
  appendedOffsets : List Nat := []
  hasSync : Bool := true
  syncCnt : Nat := 0
  deriving DecidableEq, Repr

end PyULog
