import Verif.Model.NumberText
import Verif.Model.Info
/-
`str` of the lists of a multi info message, `" {0}: {1}".format(k, ulog.msg_info_multiple_dict[k])` (info.py:49):
the elements are printed with `repr`. Which characters outside of ASCII are printable is a table of the
Unicode standard; it is the parameter `pr`.
-/
namespace PyULog

/-- one character in the `repr` of a text, `q` being the quote -/
def charRepr (pr : Char → Bool) (q c : Char) : Str :=
  let n := c.toNat
  if c = '\\' ∨ c = q then ['\\', c]
  else if n = 9 then py! "\\t"
  else if n = 10 then py! "\\n"
  else if n = 13 then py! "\\r"
  else if 32 ≤ n ∧ n < 127 ∨ 128 ≤ n ∧ pr c = true then [c]
  else if n < 256 then ['\\', 'x', hexC (n / 16), hexC (n % 16)]
  else if n < 65536 then ['\\', 'u', hexC (n / 4096), hexC (n / 256 % 16), hexC (n / 16 % 16), hexC (n % 16)]
  else ['\\', 'U', '0', '0', hexC (n / 1048576), hexC (n / 65536 % 16), hexC (n / 4096 % 16), hexC (n / 256 % 16),
    hexC (n / 16 % 16), hexC (n % 16)]

/-- `repr` of a text -/
def strRepr (pr : Char → Bool) (s : Str) : Str :=
  let q : Char := if s.any (· = '\'') && !s.any (· = '"') then '"' else '\''
  q :: (s.flatMap (charRepr pr q) ++ [q])

/-- `repr` of an element (core.py:578-593 stores texts, bytes and numbers) -/
def valueRepr (pr : Char → Bool) : Value → Str
  | .str s => strRepr pr s
  | v => pyText v

/-- `str` of a list -/
def reprList (texts : List Str) : Str := '[' :: (pyJoin (py! ", ") texts ++ [']'])

/-- `str` of the lists under one name -/
def listsRepr (pr : Char → Bool) (l : List (List Value)) : Str :=
  reprList (l.map fun m => reprList (m.map (valueRepr pr)))

/-- `ulog_info` (info.py:13-67) as it is run: values are printed with `str` -/
def showInfoText (pr : Char → Bool) (verbose : Bool) (u : ULog) : Except PyErr (List Str) :=
  showInfo pyText (listsRepr pr) verbose u

end PyULog
