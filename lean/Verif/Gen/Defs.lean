import Verif.Gen.All
/-
Class statements of a package, and kernel-friendly quantification over them.
-/
namespace Verif
namespace Props
open Cim Py Hp Spec Gen

set_option maxRecDepth 100000

/-- The class statements of a package. -/
def defs (p : RPkg) : List RClass := p.classes.filterMap List.head?

theorem mem_defs {p : RPkg} {d} : d ∈ defs p ↔ ∃ c ∈ p.classes, c.head? = some d := by
  simp [defs, List.mem_filterMap]

noncomputable def kdefsAll (q : RClass → Bool) (p : RPkg) : Bool :=
  kall (fun c => @Option.rec RClass (fun _ => Bool) true (fun d => q d) (khead c)) p.classes
noncomputable def kdefsAny (q : RClass → Bool) (p : RPkg) : Bool :=
  kany (fun c => kopt q (khead c)) p.classes

theorem kdefsAll_iff {q p} : kdefsAll q p = true ↔ ∀ d ∈ defs p, q d = true := by
  simp only [kdefsAll, kall_iff, khead_eq, mem_defs]
  constructor
  · rintro h d ⟨c, hc, hd⟩
    have := h c hc
    rw [hd] at this; exact this
  · intro h c hc
    cases hd : c.head? with
    | none => rfl
    | some d => exact h d ⟨c, hc, hd⟩

theorem kdefsAny_iff {q p} : kdefsAny q p = true ↔ ∃ d ∈ defs p, q d = true := by
  simp only [kdefsAny, kany_iff, khead_eq, mem_defs, kopt_iff]
  constructor
  · rintro ⟨c, hc, d, hd, hq⟩; exact ⟨d, ⟨c, hc, hd⟩, hq⟩
  · rintro ⟨d, ⟨c, hc, hd⟩, hq⟩; exact ⟨c, hc, d, hd, hq⟩

noncomputable def kmemPair (a b : Nat) (l : List (Nat × Nat)) : Bool :=
  kany (fun q => kand (Nat.beq q.1 a) (Nat.beq q.2 b)) l
theorem kmemPair_iff {a b l} : kmemPair a b l = true ↔ (a, b) ∈ l := by
  simp only [kmemPair, kany_iff, kand_iff, beq_iff]
  constructor
  · rintro ⟨⟨x, y⟩, h, rfl, rfl⟩; exact h
  · intro h; exact ⟨_, h, rfl, rfl⟩
noncomputable def kmem (a : Nat) (l : List Nat) : Bool := kany (fun q => Nat.beq q a) l
theorem kmem_iff {a l} : kmem a l = true ↔ a ∈ l := by
  simp only [kmem, kany_iff, beq_iff]
  constructor
  · rintro ⟨x, h, rfl⟩; exact h
  · intro h; exact ⟨_, h, rfl⟩


end Props
end Verif
