import Verif.Model.Basic
/-
Text: UTF-8 (CPython's decoder, `strict` and `ignore`), and the string functions used by
the parser (`split`, `find`, `startswith`, `int`, `%d`).
-/
namespace PyULog

/-! ### UTF-8 -/

/-- `bytes(c, 'utf-8')` for one code point -/
def encChar (c : Char) : Bytes :=
  let n := c.toNat
  if n < 0x80 then [UInt8.ofNat n]
  else if n < 0x800 then [UInt8.ofNat (0xC0 + n / 64), UInt8.ofNat (0x80 + n % 64)]
  else if n < 0x10000 then
    [UInt8.ofNat (0xE0 + n / 4096), UInt8.ofNat (0x80 + n / 64 % 64), UInt8.ofNat (0x80 + n % 64)]
  else
    [UInt8.ofNat (0xF0 + n / 262144), UInt8.ofNat (0x80 + n / 4096 % 64),
     UInt8.ofNat (0x80 + n / 64 % 64), UInt8.ofNat (0x80 + n % 64)]

/-- `bytes(s, 'utf-8')` (core.py:350,360,374,385,398,439,454,468) -/
def encStr (s : Str) : Bytes := s.flatMap encChar

/-- result of decoding one code point -/
inductive U8 where
  | char (c : Char) (rest : Bytes)
  | bad (rest : Bytes)   -- ill-formed: `rest` is what follows the rejected bytes
  deriving DecidableEq, Repr

/-- continuation byte -/
def isCont (b : UInt8) : Bool := decide (0x80 ≤ b.toNat) && decide (b.toNat < 0xC0)

/-- second byte of a 3-byte sequence: excludes overlong forms and surrogates -/
def ok3 (b0 b1 : UInt8) : Bool :=
  isCont b1 && (b0.toNat != 0xE0 || decide (0xA0 ≤ b1.toNat)) &&
    (b0.toNat != 0xED || decide (b1.toNat < 0xA0))

/-- second byte of a 4-byte sequence: excludes overlong forms and values above U+10FFFF -/
def ok4 (b0 b1 : UInt8) : Bool :=
  isCont b1 && (b0.toNat != 0xF0 || decide (0x90 ≤ b1.toNat)) &&
    (b0.toNat != 0xF4 || decide (b1.toNat < 0x90))

/-- One step of CPython's UTF-8 decoder (Objects/stringlib/codecs.h, used by
`str(cstr, 'utf-8', errors)`, core.py:17-18). On an error the rejected bytes are the longest
prefix of a well-formed sequence that is present (at least one byte); at the end of the input an
incomplete sequence is rejected as a whole. -/
def dec1 (b0 : UInt8) (t : Bytes) : U8 :=
  let n0 := b0.toNat
  if n0 < 0x80 then .char (Char.ofNat n0) t
  else if n0 < 0xC2 then .bad t
  else if n0 < 0xE0 then
    match t with
    | [] => .bad []
    | b1 :: t1 =>
      if isCont b1 then .char (Char.ofNat ((n0 - 0xC0) * 64 + (b1.toNat - 0x80))) t1
      else .bad t
  else if n0 < 0xF0 then
    match t with
    | [] => .bad []
    | b1 :: t1 =>
      if !ok3 b0 b1 then .bad t
      else match t1 with
        | [] => .bad []
        | b2 :: t2 =>
          if isCont b2 then
            .char (Char.ofNat ((n0 - 0xE0) * 4096 + (b1.toNat - 0x80) * 64 + (b2.toNat - 0x80))) t2
          else .bad t1
  else if n0 < 0xF5 then
    match t with
    | [] => .bad []
    | b1 :: t1 =>
      if !ok4 b0 b1 then .bad t
      else match t1 with
        | [] => .bad []
        | b2 :: t2 =>
          if !isCont b2 then .bad t1
          else match t2 with
            | [] => .bad []
            | b3 :: t3 =>
              if isCont b3 then
                .char (Char.ofNat ((n0 - 0xF0) * 262144 + (b1.toNat - 0x80) * 4096
                  + (b2.toNat - 0x80) * 64 + (b3.toNat - 0x80))) t3
              else .bad t2
  else .bad t

/-- decoding loop with `errors='ignore'`; the fuel is the number of bytes left -/
def decIgnoreF : Nat → Bytes → Str
  | 0, _ => []
  | _ + 1, [] => []
  | f + 1, b :: t =>
    match dec1 b t with
    | .char c r => c :: decIgnoreF f r
    | .bad r => decIgnoreF f r

/-- decoding loop with `errors='strict'` -/
def decStrictF : Nat → Bytes → Except PyErr Str
  | 0, _ => .ok []
  | _ + 1, [] => .ok []
  | f + 1, b :: t =>
    match dec1 b t with
    | .char c r => (decStrictF f r).map (c :: ·)
    | .bad _ => .error .unicodeError

/-- `ULog.parse_string` (core.py:82-93): the flag `_disable_str_exceptions` selects `ignore`.
The class attribute is modelled as an argument (`ign`): it is set by the constructor
(core.py:135) before any parsing; concurrent construction from several threads is not modelled. -/
def parseString (ign : Bool) (b : Bytes) : Except PyErr Str :=
  if ign then .ok (decIgnoreF b.length b) else decStrictF b.length b

/-! ### str methods -/

/-- `s.split(c)` for a one-character separator -/
def pySplit (c : Char) : Str → List Str
  | [] => [[]]
  | x :: xs =>
    if x = c then [] :: pySplit c xs
    else match pySplit c xs with
      | h :: t => (x :: h) :: t
      | [] => [[x]]

/-- `l[i]` for `i >= 0` -/
def pyIndex (l : List α) (i : Nat) : Except PyErr α :=
  match l[i]? with
  | some x => .ok x
  | none => .error .indexError

/-- `s.find(c)`: `none` stands for -1 -/
def pyFind (c : Char) : Str → Option Nat
  | [] => none
  | x :: xs => if x = c then some 0 else (pyFind c xs).map (· + 1)

/-- `s.startswith(p)` -/
def startsWith (p s : Str) : Bool := p.isPrefixOf s

/-- `str.isspace` of a character (Unicode 14) -/
def isSpaceC (c : Char) : Bool :=
  let n := c.toNat
  decide (n = 32) || (decide (9 ≤ n) && decide (n ≤ 13)) || (decide (28 ≤ n) && decide (n ≤ 31)) ||
    decide (n = 0x85) || decide (n = 0xA0) || decide (n = 0x1680) || (decide (0x2000 ≤ n) && decide (n ≤ 0x200A)) ||
    decide (n = 0x2028) || decide (n = 0x2029) || decide (n = 0x202F) || decide (n = 0x205F) || decide (n = 0x3000)

/-- whitespace that `int()` skips at both ends of a text: not the separators 28 to 31 -/
def isIntSpace (c : Char) : Bool := isSpaceC c && !(decide (28 ≤ c.toNat) && decide (c.toNat ≤ 31))

/-- the zeros of the decimal digits of Unicode 14 (Python 3.11); every one is followed by 1 to 9 -/
def decimalZeros : List Nat :=
  [0x30, 0x660, 0x6F0, 0x7C0, 0x966, 0x9E6, 0xA66, 0xAE6, 0xB66, 0xBE6, 0xC66, 0xCE6, 0xD66, 0xDE6, 0xE50,
   0xED0, 0xF20, 0x1040, 0x1090, 0x17E0, 0x1810, 0x1946, 0x19D0, 0x1A80, 0x1A90, 0x1B50, 0x1BB0, 0x1C40,
   0x1C50, 0xA620, 0xA8D0, 0xA900, 0xA9D0, 0xA9F0, 0xAA50, 0xABF0, 0xFF10, 0x104A0, 0x10D30, 0x11066,
   0x110F0, 0x11136, 0x111D0, 0x112F0, 0x11450, 0x114D0, 0x11650, 0x116C0, 0x11730, 0x118E0, 0x11950,
   0x11C50, 0x11D50, 0x11DA0, 0x16A60, 0x16AC0, 0x16B50, 0x1D7CE, 0x1D7D8, 0x1D7E2, 0x1D7EC, 0x1D7F6,
   0x1E140, 0x1E2F0, 0x1E950, 0x1FBF0]

/-- value of a decimal digit -/
def digitVal (c : Char) : Option Nat :=
  (decimalZeros.find? fun z => decide (z ≤ c.toNat) && decide (c.toNat < z + 10)).map fun z => c.toNat - z

/-- digits with optional single underscores between digits; `prev` tells whether the previous
character was a digit -/
def parseDigits : Bool → Nat → Str → Option Nat
  | prev, acc, [] => if prev then some acc else none
  | prev, acc, c :: cs =>
    if c = '_' then (if prev then parseDigits false acc cs else none)
    else match digitVal c with
      | some d => parseDigits true (acc * 10 + d) cs
      | none => none

/-- `int(s)` for a string (core.py:650). The limit of 4300 digits, which newer versions of Python have, is not
modelled. -/
def pyInt (s : Str) : Except PyErr Int :=
  let t := ((s.dropWhile isIntSpace).reverse.dropWhile isIntSpace).reverse
  match t with
  | '-' :: ds => match parseDigits false 0 ds with
    | some n => .ok (-(n : Int))
    | none => .error .valueError
  | '+' :: ds => match parseDigits false 0 ds with
    | some n => .ok (n : Int)
    | none => .error .valueError
  | ds => match parseDigits false 0 ds with
    | some n => .ok (n : Int)
    | none => .error .valueError

/-- character of a decimal digit -/
def digitC (d : Nat) : Char := Char.ofNat (48 + d)

/-- decimal representation, `fuel` bounds the number of digits minus one -/
def natDecF : Nat → Nat → Str
  | 0, n => [digitC (n % 10)]
  | f + 1, n => if n < 10 then [digitC n] else natDecF f (n / 10) ++ [digitC (n % 10)]

/-- `str(n)` / `'%d' % n` for `n >= 0` -/
def natDec (n : Nat) : Str := natDecF n n

/-- `str(n)` / `'%d' % n` -/
def intDec (n : Int) : Str := if n < 0 then '-' :: natDec n.natAbs else natDec n.natAbs

end PyULog
