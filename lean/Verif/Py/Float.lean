import Verif.Py.Num
/-
Python `float` as IEEE-754 binary64 bit patterns: `==`, `float(str)` and `str(float)`.

These are built-ins of the interpreter, used by PyCIM/RDFXMLReader.py:178 (`typ(elem.text)`) and
PyCIM/RDFXMLWriter.py:77-79 (`val != default`, `str(val)`).  All arithmetic is exact, on natural
numbers: the magnitude `m` of a finite float is `units m / 2^1074`.
-/
namespace Verif
namespace Flt
open Str

/-- Bit pattern of infinity without sign. -/
def infM : Nat := 0x7ff * 2 ^ 52
def nanBits : UInt64 := 0x7ff8000000000000

/-- Bit pattern without sign. -/
def mag (b : UInt64) : Nat := b.toNat % 2 ^ 63
def isNeg (b : UInt64) : Bool := 2 ^ 63 ≤ b.toNat
def isNaN (b : UInt64) : Bool := infM < mag b
def mk (neg : Bool) (m : Nat) : UInt64 := UInt64.ofNat (m + if neg then 2 ^ 63 else 0)

/-- A finite magnitude as a multiple of the smallest positive float. -/
def units (m : Nat) : Nat :=
  if m < 2 ^ 52 then m else (2 ^ 52 + m % 2 ^ 52) * 2 ^ (m / 2 ^ 52 - 1)

/-- `x == y` for floats. -/
def eq (x y : UInt64) : Bool :=
  !isNaN x && !isNaN y && (x == y || (mag x == 0 && mag y == 0))

/-- `x == i` for a float and an int (exact comparison). -/
def eqInt (x : UInt64) (i : Int) : Bool :=
  mag x < infM && units (mag x) == i.natAbs * 2 ^ 1074 && (i == 0 || (isNeg x == decide (i < 0)))

/-- The float nearest to `n / d` (ties to even; too large is infinity), as a magnitude. -/
def roundMag (n d : Nat) : Nat :=
  let N := n * 2 ^ 1074
  let fl := N / d
  let k := if fl < 2 ^ 53 then 0 else fl.log2 - 52
  let D := d * 2 ^ k
  let q := N / D
  let r := N % D
  let q' := if 2 * r > D ∨ (2 * r = D ∧ q % 2 = 1) then q + 1 else q
  min infM (k * 2 ^ 52 + q')

/-- The float nearest to `c * 10^x`. -/
def roundDec (c : Nat) (x : Int) : Nat :=
  if 0 ≤ x then roundMag (c * 10 ^ x.toNat) 1 else roundMag c (10 ^ (-x).toNat)

/-! ### `float(s)` -/

def startsDigit : Str → Bool
  | c :: _ => (decimal c).isSome
  | [] => false

/-- Digits with single underscores between them: value (continuing `acc`), number of digits, rest. -/
def scan (prev : Bool) (acc cnt : Nat) : Str → Nat × Nat × Str
  | [] => (acc, cnt, [])
  | c :: cs =>
    match decimal c with
    | some d => scan true (acc * 10 + d) (cnt + 1) cs
    | none => if c = '_' ∧ prev ∧ startsDigit cs then scan false acc cnt cs else (acc, cnt, c :: cs)

/-- Optional sign: negative?, rest. -/
def sign : Str → Bool × Str
  | '-' :: r => (true, r)
  | '+' :: r => (false, r)
  | r => (false, r)

/-- Optional exponent, which must end the text. -/
def parseExp : Str → Option Int
  | [] => some 0
  | c :: cs =>
    if c = 'e' ∨ c = 'E' then
      match scan false 0 0 (sign cs).2 with
      | (e, n + 1, []) => let _ := n; some (if (sign cs).1 then -(e : Int) else e)
      | _ => none
    else none

/-- Magnitude denoted by an unsigned number. -/
def parseMag (s : Str) : Option Nat :=
  let (i, ci, r) := scan false 0 0 s
  let (m, cf, r') := match r with
    | '.' :: r' => scan false i 0 r'
    | r => (i, 0, r)
  if ci + cf = 0 then none
  else (parseExp r').map fun e => roundDec m (e - cf)

/-- `float(s)`; `none` is `ValueError`. -/
def parse (s : Str) : Option UInt64 :=
  let (neg, r) := sign (strip s)
  let l := r.map lowerC
  if l = c!"inf" ∨ l = c!"infinity" then some (mk neg infM)
  else if l = c!"nan" then some (if neg then 0xfff8000000000000 else nanBits)
  else (parseMag r).map (mk neg)

/-! ### `str(x)` -/

/-- Number of decimal digits of a positive number (the estimate is off by at most one). -/
def numDigits (W : Nat) : Nat :=
  let l := W.log2 * 30103 / 100000
  l + (if 10 ^ l ≤ W then 1 else 0) + (if 10 ^ (l + 1) ≤ W then 1 else 0)

/-- Shortest decimal digits that read back as `m`: `(c, n)` stands for `0.c * 10^p` with `c` of `n`
digits, nearest to the exact value `W` (of `L` digits) among the shortest. -/
def search (m W L : Nat) (p : Int) : Nat → Nat → Option (Nat × Nat)
  | 0, _ => none
  | f + 1, n =>
    let T := 10 ^ (L - n)
    let F := W / T
    let rem := W % T
    let lo := roundDec F (p - n) == m
    let hi := roundDec (F + 1) (p - n) == m
    if lo && (!hi || Nat.blt (2 * rem) T || (2 * rem == T && F % 2 == 0)) then some (F, n)
    else if hi then some (F + 1, n)
    else search m W L p f (n + 1)

def stripZeros (s : Str) : Str := (s.reverse.dropWhile (· = '0')).reverse

/-- Layout of `0.ds * 10^p` by `repr` (CPython `format_float_short` with type 'r'). -/
def layout (ds : Str) (p : Int) : Str :=
  if -4 < p ∧ p ≤ 16 then
    if p ≤ 0 then c!"0." ++ List.replicate (-p).toNat '0' ++ ds
    else if ds.length ≤ p.toNat then ds ++ List.replicate (p.toNat - ds.length) '0' ++ c!".0"
    else ds.take p.toNat ++ '.' :: ds.drop p.toNat
  else
    let e := p - 1
    let ex := natRepr e.natAbs
    ds.take 1 ++ (if ds.length ≤ 1 then [] else '.' :: ds.drop 1) ++
      (if e < 0 then c!"e-" else c!"e+") ++ (if ex.length < 2 then '0' :: ex else ex)

/-- The exact decimal value: `units m / 2^1074 = exactW m / 10^1074`. -/
def exactW (m : Nat) : Nat := units m * 5 ^ 1074

/-- The text of the digits found. -/
def reprOf (p : Int) : Option (Nat × Nat) → Str
  | some (c, n) => layout (stripZeros (natRepr c)) (p + (((natRepr c).length : Int) - n))
  | none => []

/-- Position of the decimal point of a number of `L` digits after division by `10^1074`. -/
def point (L : Nat) : Int := (L : Int) - 1074

/-- `repr` of a positive finite float whose exact value has `L` digits. -/
def reprMag (m : Nat) : Str :=
  reprOf (point (numDigits (exactW m))) (search m (exactW m) (numDigits (exactW m)) (point (numDigits (exactW m))) 17 1)

/-- Characters of the text of a finite float. -/
def reprChar (c : Char) : Bool := (digitVal c).isSome || c = '.' || c = 'e' || c = '+' || c = '-'

/-- `str(x)`: the shortest text that `float()` reads back as `x`; 17 digits always suffice (`search_ok`). -/
def repr (b : UInt64) : Str :=
  if isNaN b then c!"nan"
  else
    let s := if isNeg b then c!"-" else []
    if mag b = infM then s ++ c!"inf"
    else if mag b = 0 then s ++ c!"0.0"
    else s ++ reprMag (mag b)

example : repr 0x3fb999999999999a = c!"0.1" := by decide +kernel
example : repr 0x4059000000000000 = c!"100.0" := by decide +kernel
example : repr 0xc00921fb54442d18 = c!"-3.141592653589793" := by decide +kernel
example : repr 0x0000000000000001 = c!"5e-324" := by decide +kernel
example : repr 0x7fefffffffffffff = c!"1.7976931348623157e+308" := by decide +kernel
example : repr 0x44b52d02c7e14af6 = c!"1e+23" := by decide +kernel
example : repr 0x4341c37937e08000 = c!"1e+16" := by decide +kernel
example : repr 0x3d30000000000000 = c!"5.684341886080802e-14" := by decide +kernel
example : repr 0x8000000000000000 = c!"-0.0" := by decide +kernel
example : repr 0x3f1a36e2eb1c432d = c!"0.0001" := by decide +kernel
example : repr 0x3ee4f8b588e368f1 = c!"1e-05" := by decide +kernel
example : parse c!" 1_0.5E1 " = some 0x405a400000000000 := by decide +kernel
example : parse c!".5" = some 0x3fe0000000000000 := by decide +kernel
example : parse c!"-Infinity" = some 0xfff0000000000000 := by decide +kernel
example : parse c!"1e400" = some 0x7ff0000000000000 := by decide +kernel
example : parse c!"1." = some 0x3ff0000000000000 := by decide +kernel
example : parse c!"." = none := by decide +kernel
example : parse c!"1e" = none := by decide +kernel
example : parse c!"1__0" = none := by decide +kernel

end Flt
end Verif
