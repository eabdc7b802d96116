import Verif.Py.Float
/-
What decimal numerals denote, independently of the functions that read them.
-/
namespace Verif
namespace Spec

/-- `c` is a decimal digit of Unicode, with value `d`. -/
def Digit (c : Char) (d : Nat) : Prop := d < 10 ∧ ∃ z ∈ '0'.toNat :: Str.zeros, c.toNat = z + d

/-- `s` denotes the number `n` by `k` digits; single underscores may separate digits. -/
inductive Digits : Str → Nat → Nat → Prop
  | one {c d} : Digit c d → Digits [c] d 1
  | cons {c d s n k} : Digit c d → Digits s n k → Digits (c :: s) (d * 10 ^ k + n) (k + 1)
  | under {c d s n k} : Digit c d → Digits s n k → Digits (c :: '_' :: s) (d * 10 ^ k + n) (k + 1)

abbrev Blanks (s : Str) : Prop := ∀ c ∈ s, Str.isSpace c = true

/-- An optional sign. -/
inductive Sgn : Str → Bool → Prop
  | none : Sgn [] false
  | plus : Sgn ['+'] false
  | minus : Sgn ['-'] true

/-- `x` is an integer numeral for `i`: optional sign and digits, between blanks. -/
inductive IsInt : Str → Int → Prop
  | mk {w w' sg ds neg n k} : Blanks w → Blanks w' → Sgn sg neg → Digits ds n k →
      IsInt (w ++ sg ++ ds ++ w') (if neg then -(n : Int) else n)

/-- Digits with an optional point: the number is `c / 10^k`. -/
inductive Mant : Str → Nat → Nat → Prop
  | whole {i n k} : Digits i n k → Mant i n 0
  | point {i n k} : Digits i n k → Mant (i ++ ['.']) n 0
  | frac {f n k} : Digits f n k → Mant ('.' :: f) n k
  | both {i n j f m k} : Digits i n j → Digits f m k → Mant (i ++ '.' :: f) (n * 10 ^ k + m) k

/-- An optional exponent. -/
inductive Expo : Str → Int → Prop
  | none : Expo [] 0
  | some {x sg ds neg n k} : x = 'e' ∨ x = 'E' → Sgn sg neg → Digits ds n k →
      Expo (x :: (sg ++ ds)) (if neg then -(n : Int) else n)

/-- `x` is a decimal numeral for `c * 10^e`, negative if `neg`. -/
inductive IsDec : Str → Bool → Nat → Int → Prop
  | mk {w w' sg m c k ex neg e} : Blanks w → Blanks w' → Sgn sg neg → Mant m c k → Expo ex e →
      IsDec (w ++ sg ++ m ++ ex ++ w') neg c (e - k)

/-- The distance of two numbers. -/
def dist (a b : Nat) : Nat := (a - b) + (b - a)

/-- `M` is the bit pattern of the non-negative float nearest to `N / d` multiples of the least positive
one, the even one if two are nearest; without bound on the exponent. -/
def Nearest (N d M : Nat) : Prop :=
  ∀ m, m ≠ M → dist N (Flt.units M * d) < dist N (Flt.units m * d) ∨
    (dist N (Flt.units M * d) = dist N (Flt.units m * d) ∧ M % 2 = 0)

/-- The float `b` is `±c * 10^e` correctly rounded, infinite if too large. -/
def Rounded (b : UInt64) (neg : Bool) (c : Nat) (e : Int) : Prop :=
  ∃ M, Nearest (c * 10 ^ e.toNat * 2 ^ 1074) (10 ^ (-e).toNat) M ∧ b = Flt.mk neg (min Flt.infM M)

/-- `x` is a word for a float, with optional sign, between blanks. -/
inductive IsWord (words : List Str) : Str → Bool → Prop
  | mk {w w' sg t neg} : Blanks w → Blanks w' → Sgn sg neg → t.map Str.lowerC ∈ words → IsWord words (w ++ sg ++ t ++ w') neg

/-- `x` denotes the float `b`. -/
inductive IsFloat (x : Str) : UInt64 → Prop
  | dec {neg c e b} : IsDec x neg c e → Rounded b neg c e → IsFloat x b
  | inf {neg} : IsWord [c!"inf", c!"infinity"] x neg → IsFloat x (Flt.mk neg Flt.infM)
  | nan {neg} : IsWord [c!"nan"] x neg → IsFloat x (Flt.mk neg Flt.nanBits.toNat)

end Spec
end Verif
