import Verif.Cim.Write
import Verif.Py.Round
/-
Python `==` between an attribute value and a literal, by the numbers they stand for, independently of the case
distinction of `Cim.valEq`.
-/
namespace Verif
namespace Spec
open Cim

/-- The number a bool, int or finite float stands for, in multiples of 2^-1074. -/
def num : Val → Option Int
  | .bool b => some ((if b then 1 else 0) * 2 ^ 1074)
  | .int i => some (i * 2 ^ 1074)
  | .flt f => if Flt.mag f < Flt.infM then some (if Flt.isNeg f then -(Flt.units (Flt.mag f)) else Flt.units (Flt.mag f)) else none
  | _ => none

/-- `v == l`: both None, the same text, the same number (whatever the types), or the same infinity. -/
inductive Equals : Val → Lit → Prop
  | none : Equals .none .none
  | str {s} : Equals (.str s) (.str s)
  | num {v l x} : num v = some x → num l.toVal = some x → Equals v l
  | inf {f} : Flt.mag f = Flt.infM → Equals (.flt f) (.flt f)

end Spec

namespace Cim
open Spec

theorem eqInt_iff {f : UInt64} {i : Int} : Flt.eqInt f i = true ↔ num (.flt f) = some (i * 2 ^ 1074) := by
  have h0 : Flt.units 0 = 0 := rfl
  have hp : (2 : Nat) ^ 1074 ≠ 0 := Nat.pos_iff_ne_zero.1 (Nat.two_pow_pos _)
  have hc : ((2 : Int) ^ 1074) = ((2 ^ 1074 : Nat) : Int) := by rw [Int.natCast_pow]; rfl
  unfold Flt.eqInt num
  dsimp only
  rw [hc]
  generalize (2 : Nat) ^ 1074 = K at *
  generalize Flt.units (Flt.mag f) = U
  by_cases hm : Flt.mag f < Flt.infM
  · simp only [hm, decide_true, Bool.true_and, if_true, Bool.and_eq_true, Bool.or_eq_true, beq_iff_eq, Option.some.injEq]
    have hK : (0 : Int) < K := by omega
    constructor
    · rintro ⟨rfl, rfl | hs⟩
      · simp
      · rw [hs]
        by_cases hi : i < 0
        · have : (i.natAbs : Int) = -i := by omega
          simp [hi, this, Int.neg_mul]
        · have : (i.natAbs : Int) = i := by omega
          simp [hi, this]
    · intro e
      have hu : U = i.natAbs * K := by
        have := congrArg Int.natAbs e
        rw [Int.natAbs_mul, Int.natAbs_natCast] at this
        rw [← this]
        split <;> simp
      refine ⟨hu, ?_⟩
      by_cases hi : i = 0
      · exact .inl hi
      · right
        have hne : i * K ≠ 0 := Int.mul_ne_zero hi (by omega)
        cases hs : Flt.isNeg f with
        | true =>
          rw [hs] at e
          simp only [if_true] at e
          have : i * K < 0 := by omega
          have : i < 0 := by
            rcases Int.lt_trichotomy i 0 with h | h | h
            · exact h
            · exact absurd h hi
            · have := Int.mul_pos h hK; omega
          simp [this]
        | false =>
          rw [hs] at e
          simp only [Bool.false_eq_true, if_false] at e
          have : ¬ i < 0 := fun h => by
            have := Int.mul_neg_of_neg_of_pos h hK
            omega
          simp [this]
  · simp [hm]

theorem units_inj {a b : Nat} (e : Flt.units a = Flt.units b) : a = b := by
  rcases Nat.lt_trichotomy a b with h | h | h
  · have h1 := Flt.units_lt_succ a
    have h2 := Flt.units_mono (show a + 1 ≤ b from h)
    omega
  · exact h
  · have h1 := Flt.units_lt_succ b
    have h2 := Flt.units_mono (show b + 1 ≤ a from h)
    omega

theorem bits_eq {f g : UInt64} (hm : Flt.mag f = Flt.mag g) (hs : Flt.isNeg f = Flt.isNeg g) : f = g := by
  have h1 := f.toNat_lt
  have h2 := g.toNat_lt
  unfold Flt.mag at hm
  unfold Flt.isNeg at hs
  refine UInt64.toNat.inj ?_
  simp only [decide_eq_decide] at hs
  omega

theorem eq_iff {f g : UInt64} : Flt.eq f g = true ↔ Equals (.flt f) (.flt g) := by
  have h0 : Flt.units 0 = 0 := rfl
  unfold Flt.eq Flt.isNaN
  simp only [Bool.and_eq_true, Bool.or_eq_true, Bool.not_eq_true', decide_eq_false_iff_not, Nat.not_lt, beq_iff_eq]
  constructor
  · rintro ⟨⟨h1, h2⟩, rfl | ⟨h3, h4⟩⟩
    · rcases Nat.lt_or_ge (Flt.mag f) Flt.infM with h | h
      · exact .num (x := _) (by unfold num; dsimp only; rw [if_pos h]) (by unfold Lit.toVal num; dsimp only; rw [if_pos h])
      · exact .inf (by omega)
    · have hi : (0 : Nat) < Flt.infM := by decide
      refine .num (x := 0) ?_ ?_
      · unfold num; dsimp only; rw [h3, if_pos hi, h0]; split <;> rfl
      · unfold Lit.toVal num; dsimp only; rw [h4, if_pos hi, h0]; split <;> rfl
  · rintro (_ | _ | ⟨h1, h2⟩ | h1)
    · unfold num at h1
      unfold Lit.toVal num at h2
      dsimp only at h1 h2
      split at h1
      · rename_i hf
        split at h2
        · rename_i hg
          refine ⟨⟨by omega, by omega⟩, ?_⟩
          cases h1
          have e := Option.some.inj h2
          have hu : Flt.units (Flt.mag f) = Flt.units (Flt.mag g) := by
            revert e; cases Flt.isNeg f <;> cases Flt.isNeg g <;> simp <;> omega
          have hm := units_inj hu
          by_cases hz : Flt.mag f = 0
          · exact .inr ⟨hz, hm ▸ hz⟩
          · left
            have hp := Flt.units_pos hz
            refine bits_eq hm ?_
            revert e; cases Flt.isNeg f <;> cases Flt.isNeg g <;> simp <;> omega
        · cases h2
      · cases h1
    · exact ⟨⟨by omega, by omega⟩, .inl rfl⟩

theorem valEq_iff {v : Val} {l : Lit} : valEq v l = true ↔ Equals v l := by
  have hp : ((2 : Int) ^ 1074) ≠ 0 := by
    have := Nat.two_pow_pos 1074
    have hc : ((2 : Int) ^ 1074) = ((2 ^ 1074 : Nat) : Int) := by rw [Int.natCast_pow]; rfl
    rw [hc]
    generalize (2 : Nat) ^ 1074 = K at *
    omega
  have key : ∀ {v l i j}, num v = some (i * 2 ^ 1074) → num l.toVal = some (j * 2 ^ 1074) →
      (∀ f, v = .flt f → ∀ g, l ≠ .flt g) → v ≠ .none → (∀ s, v ≠ .str s) → (Equals v l ↔ i = j) := by
    intro v l i j h1 h2 h3 h4 h5
    constructor
    · rintro (_ | _ | ⟨e1, e2⟩ | e1)
      · exact absurd rfl h4
      · exact absurd rfl (h5 _)
      · rw [h1] at e1; rw [h2] at e2
        cases e1
        exact (Int.eq_of_mul_eq_mul_right hp (Option.some.inj e2)).symm
      · exact absurd rfl (h3 _ rfl _)
    · rintro rfl
      exact .num h1 h2
  have fi : ∀ {v f i}, num v = some (i * 2 ^ 1074) → (∀ f, v ≠ .flt f) → v ≠ .none → (∀ s, v ≠ .str s) →
      (Flt.eqInt f i = true ↔ Equals v (.flt f)) := by
    intro v f i h1 h2 h3 h4
    rw [eqInt_iff]
    constructor
    · exact fun h => .num h1 h
    · rintro (_ | _ | ⟨e1, e2⟩ | e1)
      · rw [h1] at e1; cases e1; exact e2
      · exact absurd rfl (h2 _)
  have fl : ∀ {l f i}, num l.toVal = some (i * 2 ^ 1074) → (∀ f, l ≠ .flt f) →
      (Flt.eqInt f i = true ↔ Equals (.flt f) l) := by
    intro l f i h1 h2
    rw [eqInt_iff]
    constructor
    · exact fun h => .num h h1
    · rintro (_ | _ | ⟨e1, e2⟩ | e1)
      · rw [h1] at e2; cases e2; exact e1
      · exact absurd rfl (h2 _)
  have no : ∀ {v l}, Equals v l → num v = none ∨ num l.toVal = none → v ≠ .none ∨ l ≠ .none → (∀ s, v = .str s → l ≠ .str s) →
      (∀ f, v = .flt f → l ≠ .flt f) → False := by
    rintro v l (_ | _ | ⟨e1, e2⟩ | e1) h1 h2 h3 h4
    · simp at h2
    · exact h3 _ rfl rfl
    · rcases h1 with h1 | h1
      · rw [h1] at e1; cases e1
      · rw [h1] at e2; cases e2
    · exact h4 _ rfl rfl
  have nb : ∀ b : Bool, num (.bool b) = some ((if b then 1 else 0) * 2 ^ 1074) := fun _ => rfl
  have ni : ∀ i : Int, num (.int i) = some (i * 2 ^ 1074) := fun _ => rfl
  cases v with
  | none =>
    cases l with
    | none => exact ⟨fun _ => .none, fun _ => rfl⟩
    | _ => exact ⟨fun h => (by cases h), fun h => (no h (.inl rfl) (.inr nofun) nofun nofun).elim⟩
  | bool a =>
    cases l with
    | bool b =>
      rw [key (v := .bool a) (l := .bool b) (nb a) (nb b) nofun nofun nofun]
      cases a <;> cases b <;> decide
    | int i =>
      rw [key (v := .bool a) (l := .int i) (nb a) (ni i) nofun nofun nofun]
      exact beq_iff_eq
    | flt f => exact fi (nb a) nofun nofun nofun
    | none => exact ⟨fun h => (by cases h), fun h => (no h (.inr rfl) (.inl nofun) nofun nofun).elim⟩
    | str => exact ⟨fun h => (by cases h), fun h => (no h (.inr rfl) (.inl nofun) nofun nofun).elim⟩
  | int i =>
    cases l with
    | bool b =>
      rw [key (v := .int i) (l := .bool b) (ni i) (nb b) nofun nofun nofun]
      exact beq_iff_eq
    | int j =>
      rw [key (v := .int i) (l := .int j) (ni i) (ni j) nofun nofun nofun]
      exact beq_iff_eq
    | flt f => exact fi (ni i) nofun nofun nofun
    | none => exact ⟨fun h => (by cases h), fun h => (no h (.inr rfl) (.inl nofun) nofun nofun).elim⟩
    | str => exact ⟨fun h => (by cases h), fun h => (no h (.inr rfl) (.inl nofun) nofun nofun).elim⟩
  | flt f =>
    cases l with
    | bool b => exact fl (l := .bool b) (nb b) nofun
    | int j => exact fl (l := .int j) (ni j) nofun
    | flt g => exact eq_iff
    | none => exact ⟨fun h => (by cases h), fun h => (no h (.inr rfl) (.inl nofun) nofun nofun).elim⟩
    | str => exact ⟨fun h => (by cases h), fun h => (no h (.inr rfl) (.inl nofun) nofun nofun).elim⟩
  | str s =>
    cases l with
    | str t =>
      have : valEq (.str s) (.str t) = (s == t) := rfl
      rw [this, beq_iff_eq]
      constructor
      · rintro rfl; exact .str
      · rintro (_ | _ | ⟨e1, -⟩ | _)
        · rfl
        · cases e1
    | _ => exact ⟨fun h => (by cases h), fun h => (no h (.inl rfl) (.inl nofun) nofun nofun).elim⟩
  | obj a => cases l <;> exact ⟨fun h => (by cases h), fun h => (no h (.inl rfl) (.inl nofun) nofun nofun).elim⟩
  | list a => cases l <;> exact ⟨fun h => (by cases h), fun h => (no h (.inl rfl) (.inl nofun) nofun nofun).elim⟩
  | «opaque» => cases l <;> exact ⟨fun h => (by cases h), fun h => (no h (.inl rfl) (.inl nofun) nofun nofun).elim⟩

end Cim
end Verif
