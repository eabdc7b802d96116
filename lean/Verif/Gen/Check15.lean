import Verif.Gen.Defs
/-
Kernel evaluation for C15.
-/
namespace Verif
namespace Props
open Cim Py Hp Spec Gen

set_option maxRecDepth 100000

/-- The profiles: all packages but the two complete ones. -/
def small : List RPkg := [CIM14_CDPSM_Balanced.pkg, CIM14_CDPSM_GIS_Connectivity.pkg, CIM14_CDPSM_Unbalanced.pkg,
  CIM14_CPSM_Equipment.pkg, CIM14_CPSM_StateVariables.pkg, CIM14_CPSM_Topology.pkg, CIM14_ENTSOE_Dynamics.pkg,
  CIM14_ENTSOE_Equipment.pkg, CIM14_ENTSOE_StateVariables.pkg, CIM14_ENTSOE_Topology.pkg, CIM15_CDPSM_Asset.pkg,
  CIM15_CDPSM_Balanced.pkg, CIM15_CDPSM_Connectivity.pkg, CIM15_CDPSM_Geographical.pkg]

/-- Evaluating the large packages one by one keeps the memory needed low. -/
theorem kall_packages {f : RPkg → Bool} (h14 : f CIM14.pkg = true) (h15 : f CIM15.pkg = true)
    (hs : kall f small = true) : kall f packages = true := by
  refine kall_iff.2 fun p hp => ?_
  have hs := kall_iff.1 hs
  simp only [packages, List.mem_cons, List.not_mem_nil, or_false] at hp
  rcases hp with rfl | hp
  · exact h14
  · by_cases h : p = CIM15.pkg
    · rw [h]; exact h15
    · refine hs p ?_
      simp only [small, List.mem_cons, List.not_mem_nil, or_false]
      simp only [h, false_or] at hp
      exact hp

/-- References without a matching opposite end (module, reference). -/
def exc15 : List (Nat × Nat) := [
  (n!"CIM15.IEC61970.Wires.ACLineSegment", n!"PerLengthImpedance"),
  (n!"CIM15.IEC61970.Wires.PerLengthPhaseImpedance", n!"LineSegments"),
  (n!"CIM15.IEC61970.Wires.PerLengthSequenceImpedance", n!"LineSegments"),
  (n!"CIM15.IEC61970.Core.Equipment", n!"OperationalLimitSet")]

noncomputable def oppB (p : RPkg) (r : RRef) : Bool :=
  kdefsAny (fun d' => kany (fun r' => kand (Nat.beq r'.name r.inv) (kand (Nat.beq r'.inv r.name)
    (Nat.beq (kindIx r'.kind) (kindIx r.kind.opp)))) d'.refs) p

noncomputable def c15B (p : RPkg) : Bool :=
  kdefsAll (fun d => kall (fun r => kor (knot (Spec.regular r.kind))
    (kor (kmemPair d.mod r.name exc15) (oppB p r))) d.refs) p

theorem c15_14 : c15B CIM14.pkg = true := by decide +kernel
theorem c15_15 : c15B CIM15.pkg = true := by decide +kernel
theorem c15_small : kall c15B small = true := by decide +kernel
theorem c15_check : kall c15B packages = true := kall_packages c15_14 c15_15 c15_small

theorem c15_fails_check : kall (fun e => kdefsAny (fun d => kand (Nat.beq d.mod e.1)
    (kany (fun r => kand (Nat.beq r.name e.2) (kand (Spec.regular r.kind) (knot (oppB CIM15.pkg r))))
      d.refs)) CIM15.pkg) exc15 = true := by decide +kernel


end Props
end Verif
