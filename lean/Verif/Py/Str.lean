/-
Python `str` as a list of characters, and the `str` operations PyCIM uses.

Simplification: Lean's `Char` has no lone surrogates, Python's `str` may contain them.
-/
namespace Verif

/-- Python text. -/
abbrev Str := List Char

/-- `c!"abc"` is the literal `['a', 'b', 'c']` (so that the kernel sees a plain list). -/
syntax:max (name := strLit) "c!" str : term
open Lean in
macro_rules
  | `(c! $s:str) => do
    let cs := s.getString.toList.toArray.map fun c => Syntax.mkCharLit c
    `([$cs,*])

namespace Str

/-- `s.replace(old, new)` for a one-character `old`
(PyCIM/SimpleXMLWriter.py:120-122, 131-135 only replaces single characters). -/
def replace1 (c : Char) (new : Str) : Str → Str
  | [] => []
  | x :: xs => if x = c then new ++ replace1 c new xs else x :: replace1 c new xs

/-- Part of `s` after the last occurrence of `sep`, or all of `s`:
`s.rsplit(".")[-1]` (PyCIM/RDFXMLReader.py:150; without a maximum, `rsplit` splits everywhere). -/
def afterLast (sep : Char) : Str → Str
  | [] => []
  | x :: xs => if sep ∈ xs then afterLast sep xs else if x = sep then xs else x :: xs

/-- `s.rsplit(".", 1)[1]` (PyCIM/RDFXMLReader.py:207): part after the last separator;
`none` stands for the `IndexError` raised when there is no separator. -/
def rsplit1 (sep : Char) (s : Str) : Option Str :=
  if sep ∈ s then some (afterLast sep s) else none

/-- `s.endswith('#')` / `s[:-1]` as used in PyCIM/RDFXMLReader.py:269-270. -/
def stripHash (s : Str) : Str :=
  if s.getLast? = some '#' then s.dropLast else s

/-- Unicode white space, the characters removed by `str.strip()`
(CPython `Py_UNICODE_ISSPACE`). Used by PyCIM/PrettyPrintXML.py:30-38 and by `int(str)`. -/
def isSpace (c : Char) : Bool :=
  let n := c.toNat
  (9 ≤ n && n ≤ 13) || (28 ≤ n && n ≤ 32) || n == 0x85 || n == 0xa0 || n == 0x1680 ||
  (0x2000 ≤ n && n ≤ 0x200a) || n == 0x2028 || n == 0x2029 || n == 0x202f || n == 0x205f ||
  n == 0x3000

/-- `s.strip()`. -/
def strip (s : Str) : Str :=
  ((s.dropWhile isSpace).reverse.dropWhile isSpace).reverse

/-- `not s or not s.strip()` (PyCIM/PrettyPrintXML.py:30, 32, 36, 39). -/
def isBlank (s : Str) : Bool := s.all isSpace

def isAsciiUpper (c : Char) : Bool := 65 ≤ c.toNat && c.toNat ≤ 90
def isAsciiLower (c : Char) : Bool := 97 ≤ c.toNat && c.toNat ≤ 122
def lowerC (c : Char) : Char := if isAsciiUpper c then Char.ofNat (c.toNat + 32) else c
def upperC (c : Char) : Char := if isAsciiLower c then Char.ofNat (c.toNat - 32) else c

/-- Loop of `str.title`: `prev` is true when the previous character was a letter. -/
def titleAux (prev : Bool) : Str → Str
  | [] => []
  | c :: cs =>
    let letter := isAsciiUpper c || isAsciiLower c
    (if prev then lowerC c else upperC c) :: titleAux letter cs

/-- `str.title(s)` (PyCIM/RDFXMLReader.py:173). Simplification: only ASCII letters are cased;
the code only compares the result with `'True'`, which no text with other letters equals. -/
def title (s : Str) : Str := titleAux false s

/-- The character of a decimal digit. -/
def digit (d : Nat) : Char := Char.ofNat (48 + d)

/-- Decimal digits of `n`, most significant first (`fuel > n` suffices). -/
def natReprF : Nat → Nat → Str
  | 0, _ => []
  | fuel + 1, n => if n < 10 then [digit n] else natReprF fuel (n / 10) ++ [digit (n % 10)]

def natRepr (n : Nat) : Str := natReprF (n + 1) n

/-- `str(i)` of a Python `int` (PyCIM/RDFXMLWriter.py:79). -/
def intRepr : Int → Str
  | .ofNat n => natRepr n
  | .negSucc n => '-' :: natRepr (n + 1)

def digitVal (c : Char) : Option Nat :=
  if 48 ≤ c.toNat ∧ c.toNat ≤ 57 then some (c.toNat - 48) else none

/-- The zeros of the decimal digits (category Nd) of Unicode 14 besides ASCII; the other nine digits follow each. -/
def zeros : List Nat :=
  [0x660, 0x6f0, 0x7c0, 0x966, 0x9e6, 0xa66, 0xae6, 0xb66, 0xbe6, 0xc66, 0xce6, 0xd66, 0xde6,
   0xe50, 0xed0, 0xf20, 0x1040, 0x1090, 0x17e0, 0x1810, 0x1946, 0x19d0, 0x1a80, 0x1a90, 0x1b50, 0x1bb0,
   0x1c40, 0x1c50, 0xa620, 0xa8d0, 0xa900, 0xa9d0, 0xa9f0, 0xaa50, 0xabf0, 0xff10, 0x104a0, 0x10d30, 0x11066,
   0x110f0, 0x11136, 0x111d0, 0x112f0, 0x11450, 0x114d0, 0x11650, 0x116c0, 0x11730, 0x118e0, 0x11950, 0x11c50, 0x11d50,
   0x11da0, 0x16a60, 0x16ac0, 0x16b50, 0x1d7ce, 0x1d7d8, 0x1d7e2, 0x1d7ec, 0x1d7f6, 0x1e140, 0x1e2f0, 0x1e950, 0x1fbf0]

/-- `unicodedata.decimal(c)`: the digits `int(s)` and `float(s)` accept (CPython
`_PyUnicode_TransformDecimalAndSpaceToASCII`). -/
def decimal (c : Char) : Option Nat :=
  if 48 ≤ c.toNat ∧ c.toNat ≤ 57 then some (c.toNat - 48)
  else (zeros.find? fun z => z ≤ c.toNat && c.toNat < z + 10).map (c.toNat - ·)

/-- Digits with optional single underscores between them (`int()` of Python ≥ 3.6);
`under` tells that the previous character was a digit, so that `_` may follow. -/
def parseDigits (under : Bool) (acc : Nat) : Str → Option Nat
  | [] => if under then some acc else none
  | c :: cs =>
    if c = '_' then (if under then parseDigits false acc cs else none)
    else match decimal c with
      | some d => parseDigits true (acc * 10 + d) cs
      | none => none

/-- `int(s)` for a Python `str`; `none` is `ValueError`
(PyCIM/RDFXMLReader.py:178 with `typ = int`). Not covered: the limit of 4300 digits of Python ≥ 3.11. -/
def parseInt (s : Str) : Option Int :=
  match strip s with
  | [] => none
  | '-' :: ds => (parseDigits false 0 ds).map fun n : Nat => -(n : Int)
  | '+' :: ds => (parseDigits false 0 ds).map fun n : Nat => (n : Int)
  | ds => (parseDigits false 0 ds).map fun n : Nat => (n : Int)

/-- Python's ordering of strings: lexicographic by code point (used by `sorted`). -/
def lt : Str → Str → Bool
  | _, [] => false
  | [], _ :: _ => true
  | a :: as, b :: bs => if a.toNat < b.toNat then true
                        else if a = b then lt as bs else false

end Str
end Verif
