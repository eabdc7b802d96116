import Verif.Gen.Check15
/-
Kernel evaluation for C16.
-/
namespace Verif
namespace Props
open Cim Py Hp Spec Gen

set_option maxRecDepth 100000

noncomputable def kresolve (p : RPkg) (tag : Nat) : Option (List RClass) :=
  @Option.rec (Nat × Nat) (fun _ => Option (List RClass)) none
    (fun e => @Option.rec (Nat × Nat × Nat) (fun _ => Option (List RClass)) none
      (fun x => kfind (fun c => kopt (fun d => Nat.beq d.mod x.2.2) (khead c)) p.classes)
      (kfindLast (fun x => kand (Nat.beq x.2.1 tag) (Nat.beq x.1 e.2)) p.exports))
    (kfindLast (fun e => Nat.beq e.1 tag) p.pmap)

theorem kresolve_eq {p : RPkg} {tag} : kresolve p tag = p.resolve tag := by
  unfold kresolve RPkg.resolve
  simp only [kfindLast_eq, kfind_eq]
  have h1 : (fun e : Nat × Nat => Nat.beq e.1 tag) = fun e => decide (e.1 = tag) := by
    funext e; rw [Bool.eq_iff_iff, beq_iff]; simp
  rw [h1]
  cases p.pmap.reverse.find? (fun e => decide (e.1 = tag)) with
  | none => rfl
  | some e =>
    obtain ⟨a, pk⟩ := e
    have h2 : (fun x : Nat × Nat × Nat => kand (Nat.beq x.2.1 tag) (Nat.beq x.1 pk)) =
        fun x => decide (x.1 = pk ∧ x.2.1 = tag) := by
      funext e; rw [Bool.eq_iff_iff, kand_iff, beq_iff, beq_iff]; simp [and_comm]
    simp only [h2]
    cases p.exports.reverse.find? (fun x => decide (x.1 = pk ∧ x.2.1 = tag)) with
    | none => rfl
    | some x =>
      obtain ⟨_, _, m⟩ := x
      have h3 : (fun c : List RClass => kopt (fun d => Nat.beq d.mod m) (khead c)) =
          fun c => decide (c.head?.map (·.mod) = some m) := by
        funext c
        rw [Bool.eq_iff_iff, kopt_iff, khead_eq]
        cases c.head? <;> simp
      simp only [h3]

noncomputable def c16P (p : RPkg) : Bool :=
  kall (fun e => kopt (fun c => kopt (fun d => Nat.beq d.name e.1) (khead c)) (kresolve p e.1)) p.pmap

noncomputable def c16C (p : RPkg) : Bool :=
  kall (fun c => kopt (fun d => kor
      (Nat.beq d.mod n!"CIM14.ENTSOE.Equipment.OperationalLimit")
      (kopt (fun c' => kopt (fun d' => Nat.beq d'.mod d.mod) (khead c')) (kresolve p d.name))) (khead c))
    p.classes

noncomputable def c16B (p : RPkg) : Bool := kand (c16P p) (c16C p)

/-! One evaluation per large package keeps the memory needed low. -/
theorem c16_14P : c16P CIM14.pkg = true := by decide +kernel
theorem c16_14C : c16C CIM14.pkg = true := by decide +kernel
theorem c16_15P : c16P CIM15.pkg = true := by decide +kernel
theorem c16_15C : c16C CIM15.pkg = true := by decide +kernel
theorem c16_small : kall c16B small = true := by decide +kernel

theorem c16_check : kall c16B packages = true :=
  kall_packages (kand_iff.2 ⟨c16_14P, c16_14C⟩) (kand_iff.2 ⟨c16_15P, c16_15C⟩) c16_small


end Props
end Verif
