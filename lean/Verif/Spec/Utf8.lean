import Verif.Model.Basic
/-
UTF-8 texts, restated with Lean's own encoder (`String.utf8EncodeChar`).
-/
namespace PyULog.Spec
open PyULog

/-- the UTF-8 encoding of a text -/
def utf8 (s : Str) : Bytes := s.flatMap String.utf8EncodeChar

/-- `s` is what remains of `b` when every byte at which no encoded character starts is dropped -/
inductive Drops : Bytes → Str → Prop where
  | nil : Drops [] []
  | keep (c : Char) {t : Bytes} {s : Str} : Drops t s → Drops (String.utf8EncodeChar c ++ t) (c :: s)
  | drop {b : UInt8} {t : Bytes} {s : Str} :
      (∀ c r, b :: t ≠ String.utf8EncodeChar c ++ r) → Drops t s → Drops (b :: t) s

end PyULog.Spec
