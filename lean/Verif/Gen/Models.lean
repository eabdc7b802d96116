import Verif.Gen.Model_CIM14
import Verif.Gen.Model_CIM14_CDPSM_Balanced
import Verif.Gen.Model_CIM14_CDPSM_GIS_Connectivity
import Verif.Gen.Model_CIM14_CDPSM_Unbalanced
import Verif.Gen.Model_CIM14_CPSM_Equipment
import Verif.Gen.Model_CIM14_CPSM_StateVariables
import Verif.Gen.Model_CIM14_CPSM_Topology
import Verif.Gen.Model_CIM14_ENTSOE_Dynamics
import Verif.Gen.Model_CIM14_ENTSOE_Equipment
import Verif.Gen.Model_CIM14_ENTSOE_StateVariables
import Verif.Gen.Model_CIM14_ENTSOE_Topology
import Verif.Gen.Model_CIM15
import Verif.Gen.Model_CIM15_CDPSM_Asset
import Verif.Gen.Model_CIM15_CDPSM_Balanced
import Verif.Gen.Model_CIM15_CDPSM_Connectivity
import Verif.Gen.Model_CIM15_CDPSM_Geographical
import Verif.Gen.Check15
import Verif.Gen.Check17
/-
Kernel evaluation for C75 – C77: the class tables against the information models.
-/
namespace Verif
namespace Props
open Cim Py Hp Spec Gen

set_option maxRecDepth 100000

/-- The profiles with their information models. -/
def smallModels : List (Schema × RPkg) := [
  (Model_CIM14_CDPSM_Balanced.schema, CIM14_CDPSM_Balanced.pkg),
  (Model_CIM14_CDPSM_GIS_Connectivity.schema, CIM14_CDPSM_GIS_Connectivity.pkg),
  (Model_CIM14_CDPSM_Unbalanced.schema, CIM14_CDPSM_Unbalanced.pkg),
  (Model_CIM14_CPSM_Equipment.schema, CIM14_CPSM_Equipment.pkg),
  (Model_CIM14_CPSM_StateVariables.schema, CIM14_CPSM_StateVariables.pkg),
  (Model_CIM14_CPSM_Topology.schema, CIM14_CPSM_Topology.pkg),
  (Model_CIM14_ENTSOE_Dynamics.schema, CIM14_ENTSOE_Dynamics.pkg),
  (Model_CIM14_ENTSOE_Equipment.schema, CIM14_ENTSOE_Equipment.pkg),
  (Model_CIM14_ENTSOE_StateVariables.schema, CIM14_ENTSOE_StateVariables.pkg),
  (Model_CIM14_ENTSOE_Topology.schema, CIM14_ENTSOE_Topology.pkg),
  (Model_CIM15_CDPSM_Asset.schema, CIM15_CDPSM_Asset.pkg),
  (Model_CIM15_CDPSM_Balanced.schema, CIM15_CDPSM_Balanced.pkg),
  (Model_CIM15_CDPSM_Connectivity.schema, CIM15_CDPSM_Connectivity.pkg),
  (Model_CIM15_CDPSM_Geographical.schema, CIM15_CDPSM_Geographical.pkg)]

/-- Every package with its information model (Model/CIM14/CIM14.ecore, …). -/
def models : List (Schema × RPkg) :=
  (Model_CIM14.schema, CIM14.pkg) :: (Model_CIM15.schema, CIM15.pkg) :: smallModels

theorem models_packages {S p} (h : (S, p) ∈ models) : p ∈ packages := by
  simp only [models, smallModels, List.mem_cons, Prod.mk.injEq, List.not_mem_nil, or_false] at h
  simp only [packages, List.mem_cons, List.not_mem_nil, or_false]
  rcases h with ⟨-, h⟩ | ⟨-, h⟩ | ⟨-, h⟩ | ⟨-, h⟩ | ⟨-, h⟩ | ⟨-, h⟩ | ⟨-, h⟩ | ⟨-, h⟩ | ⟨-, h⟩ | ⟨-, h⟩ | ⟨-, h⟩ |
    ⟨-, h⟩ | ⟨-, h⟩ | ⟨-, h⟩ | ⟨-, h⟩ | ⟨-, h⟩ <;> simp [h]

theorem kall_models {f : Schema × RPkg → Bool} (h14 : f (Model_CIM14.schema, CIM14.pkg) = true)
    (h15 : f (Model_CIM15.schema, CIM15.pkg) = true) (hs : kall f smallModels = true) {x}
    (hx : x ∈ models) : f x = true := by
  rcases List.mem_cons.1 hx with rfl | hx
  · exact h14
  rcases List.mem_cons.1 hx with rfl | hx
  · exact h15
  exact kall_iff.1 hs x hx

/-! ### Kernel-friendly lookups -/

noncomputable def kcls (S : Schema) (path : Nat) : Option SClass := kfind (fun e => Nat.beq e.path path) S

theorem kcls_eq {S : Schema} {path} : kcls S path = S.cls path := by
  simp only [kcls, kfind_eq, Schema.cls]
  congr 1; funext e; rw [Bool.eq_iff_iff, beq_iff]; simp

noncomputable def kmanyAt (S : Schema) (path name : Nat) : Bool :=
  kopt (fun e => kopt (fun r => r.many) (kfind (fun r => Nat.beq r.name name) e.refs)) (kcls S path)

theorem kmanyAt_eq {S : Schema} {path name} : kmanyAt S path name = S.manyAt path name := by
  unfold kmanyAt Schema.manyAt
  rw [kcls_eq]
  cases S.cls path with
  | none => rfl
  | some e =>
    have : (fun r : SRef => Nat.beq r.name name) = fun r => decide (r.name = name) := by
      funext r; rw [Bool.eq_iff_iff, beq_iff]; simp
    simp only [kopt, kfind_eq, this]
    cases e.refs.find? (fun r => decide (r.name = name)) <;> rfl

/-- Index (`kindIx`) of `Schema.kind`. -/
noncomputable def kkind (S : Schema) (r : SRef) : Nat :=
  kite (Nat.beq r.opp 0) (kite r.many 7 4)
    (kite r.many (kite (kmanyAt S r.target r.opp) 3 1) (kite (kmanyAt S r.target r.opp) 0 2))

theorem kkind_eq {S : Schema} {r} : kkind S r = kindIx (S.kind r) := by
  unfold kkind Schema.kind
  rw [kmanyAt_eq]
  by_cases h : r.opp = 0
  · rw [if_pos h, beq_iff.2 h]
    cases r.many <;> rfl
  · rw [if_neg h, show Nat.beq r.opp 0 = false by
      cases hb : Nat.beq r.opp 0 with
      | false => rfl
      | true => exact absurd (beq_iff.1 hb) h]
    cases r.many <;> cases S.manyAt r.target r.opp <;> rfl

/-! ### Deviations -/

/-- Classes the information model does not have. -/
def extraClasses : List Nat := [
  n!"CIM15.IEC61970.OperationalLimits.CheckPoint",
  n!"CIM15.IEC61970.OperationalLimits.VoltageCheckPoint",
  n!"CIM15.IEC61970.OperationalLimits.VoltageTimeCurve",
  n!"CIM15.IEC61970.Wires.CurrentTemperatureCurve",
  n!"CIM15.IEC61970.WiresPhaseModel.ACLineSegmentPhase"]

/-- Attributes and references the information model does not have. -/
def extraNames : List (Nat × Nat) := [
  (n!"CIM15.IEC61970.WiresPhaseModel.EnergyConsumerPhase", n!"pfixed"),
  (n!"CIM15.IEC61970.WiresPhaseModel.EnergyConsumerPhase", n!"qfixed"),
  (n!"CIM15.IEC61970.Core.BaseVoltage", n!"TransformerEnd"),
  (n!"CIM15.IEC61970.Core.Equipment", n!"OperationalLimitSet"),
  (n!"CIM15.IEC61970.Wires.ACLineSegment", n!"CurrentTemperatureCurves"),
  (n!"CIM15.IEC61970.Wires.ACLineSegment", n!"ACLineSegmentPhases"),
  (n!"CIM15.IEC61970.Wires.ACLineSegment", n!"PerLengthImpedance"),
  (n!"CIM15.IEC61970.Wires.TransformerEnd", n!"BaseVoltage")]

/-- Integer attributes kept as text. -/
def textIntegers : List (Nat × Nat) := [
  (n!"CIM15.IEC61970.Generation.Production.GeneratingUnit", n!"modelDetail"),
  (n!"CIM15.IEC61970.Informative.InfWork.CUAsset", n!"quantity"),
  (n!"CIM15.IEC61970.Informative.InfWork.CUMaterialItem", n!"quantity"),
  (n!"CIM15.IEC61970.Informative.InfWork.DesignLocationCU", n!"cuQuantity"),
  (n!"CIM15.IEC61970.Informative.InfWork.MiscCostItem", n!"quantity"),
  (n!"CIM15.IEC61970.Informative.InfWork.MaterialItem", n!"quantity"),
  (n!"CIM15.IEC61970.Informative.InfAssets.FinancialInfo", n!"quantity")]

/-- References that are missing, or forward to another reference. -/
def otherRefs : List (Nat × Nat) := [
  (n!"CIM14.ENTSOE.Dynamics.Thing", n!"EAID_4B45E775_795A_4030_865F_0AB320000DDD-B"),
  (n!"CIM15.IEC61970.Wires.ACLineSegment", n!"SequenceImpedance"),
  (n!"CIM15.IEC61970.Wires.ACLineSegment", n!"PhaseImpedance")]

/-- Deviations inside classes that the information model has. -/
def deviations : List (Nat × Nat) := extraNames ++ textIntegers ++ otherRefs

/-! ### C75 -/

noncomputable def kattrB (d : RClass) (a : Nat) (t : SType) : Bool :=
  @SType.rec (fun _ => Bool)
    (fun n => kand (kopt (fun q => kmemPair a q.2 d.types) (kfind (fun q => Nat.beq q.1 n) primTypes))
      (kall (fun q => knot (Nat.beq q.1 a)) d.enums))
    (fun n _ => kand (kmemPair a n!"str" d.types) (kmemPair a n d.enums)) t

noncomputable def krefB (S : Schema) (d : RClass) (r : SRef) : Bool :=
  kany (fun r' => kand (Nat.beq r'.name r.name)
    (kand (Nat.beq r'.inv r.opp) (Nat.beq (kindIx r'.kind) (kkind S r)))) d.refs

noncomputable def implB (S : Schema) (X : List (Nat × Nat)) (e : SClass) (d : RClass) : Bool :=
  kand (Nat.beq d.name e.name) <| kand (Nat.beq d.base e.sup) <|
  kand (kall (fun q => kand (kmem q.1 d.attrs) (kor (kattrB d q.1 q.2) (kmemPair e.path q.1 X))) e.attrs) <|
  kand (kall (fun r => kor (krefB S d r) (kmemPair e.path r.name X)) e.refs) <|
  kand (kall (fun a => kor (kany (fun q => Nat.beq q.1 a) e.attrs) (kmemPair e.path a X)) d.attrs)
    (kall (fun r' => kor (kany (fun r => Nat.beq r.name r'.name) e.refs)
      (kmemPair e.path r'.name X)) d.refs)

noncomputable def c75B (x : Schema × RPkg) : Bool :=
  kand (knodup (kmap (fun e => e.path) x.1)) <|
  kand (kall (fun e => kdefsAny (fun d => Nat.beq d.mod e.path) x.2) x.1)
    (kdefsAll (fun d => @Option.rec SClass (fun _ => Bool) (kmem d.mod extraClasses)
      (fun e => implB x.1 deviations e d) (kcls x.1 d.mod)) x.2)

theorem c75_14 : c75B (Model_CIM14.schema, CIM14.pkg) = true := by decide +kernel
theorem c75_15 : c75B (Model_CIM15.schema, CIM15.pkg) = true := by decide +kernel
theorem c75_small : kall c75B smallModels = true := by decide +kernel

/-- Every entry of `deviations` is needed. -/
noncomputable def devB (x : Schema × RPkg) (q : Nat × Nat) : Bool :=
  kopt (fun e => kdefsAny (fun d => kand (Nat.beq d.mod q.1)
    (knot (implB x.1 (deviations.filter (· ≠ q)) e d))) x.2) (kcls x.1 q.1)

theorem dev_check : kall (fun q => kor (devB (Model_CIM15.schema, CIM15.pkg) q)
    (devB (Model_CIM14_ENTSOE_Dynamics.schema, CIM14_ENTSOE_Dynamics.pkg) q)) deviations = true := by
  decide +kernel

theorem extra_check : kall (fun m => kand (kdefsAny (fun d => Nat.beq d.mod m) CIM15.pkg)
    (kall (fun e => knot (Nat.beq e.path m)) Model_CIM15.schema)) extraClasses = true := by decide +kernel

/-! ### C76, C77 -/

noncomputable def kinitialB (d : RClass) (a : Nat) (t : SType) : Bool :=
  @SType.rec (fun _ => Bool)
    (fun n => kopt (fun q => kany (fun v => kand (Nat.beq v.1 a) (klit v.2 (zeroOf q.2))) d.defaults)
      (kfind (fun q => Nat.beq q.1 n) primTypes))
    (fun _ ls => kany (fun v => kand (Nat.beq v.1 a)
      (klit v.2 (.str (@List.rec Nat (fun _ => Nat) 0 (fun l _ _ => l) ls)))) d.defaults) t

noncomputable def c76B (x : Schema × RPkg) : Bool :=
  kall (fun c => kall (fun d => @Option.rec SClass (fun _ => Bool) true
    (fun e => kand (knot (Nat.beq d.mod n!"CIM15.IEC61970.WiresPhaseModel.ACLineSegmentPhase"))
      (kall (fun q => kor (kinitialB d q.1 q.2) (kmemPair e.path q.1 textIntegers)) e.attrs))
    (kcls x.1 d.mod)) c) x.2.classes

noncomputable def kisInt (t : SType) : Bool :=
  @SType.rec (fun _ => Bool) (fun n => kopt (fun q => Nat.beq q.2 n!"int") (kfind (fun q => Nat.beq q.1 n) primTypes))
    (fun _ _ => false) t

/-- The entries of `textIntegers` are integers of the information model of CIM15 and start as empty texts. -/
noncomputable def textIntB (q : Nat × Nat) : Bool :=
  kand (kopt (fun e => kany (fun at' => kand (Nat.beq at'.1 q.2) (kisInt at'.2)) e.attrs) (kcls Model_CIM15.schema q.1)) <|
  kand (kany (kany fun d => Nat.beq d.mod q.1) CIM15.pkg.classes)
    (kall (kall fun d => kor (knot (Nat.beq d.mod q.1))
      (kany (fun v => kand (Nat.beq v.1 q.2) (klit v.2 (.str 0))) d.defaults)) CIM15.pkg.classes)

theorem text_check : kall textIntB textIntegers = true := by decide +kernel

/-- (class of the object, class declaring the reference, reference): the object's class declares the name
again for another association, or the reference forwards to another one. -/
def exc77 : List (Nat × Nat × Nat) := [
  (n!"CIM15.IEC61970.Graphics.DiagramObjectStyle", n!"CIM15.IEC61970.Core.IdentifiedObject", n!"DiagramObjects"),
  (n!"CIM15.IEC61970.Graphics.VisibilityLayer", n!"CIM15.IEC61970.Core.IdentifiedObject", n!"DiagramObjects"),
  (n!"CIM15.IEC61970.Informative.InfGMLSupport.Diagram", n!"CIM15.IEC61970.Core.IdentifiedObject",
    n!"DiagramObjects"),
  (n!"CIM15.IEC61970.Informative.InfGMLSupport.Map", n!"CIM15.IEC61970.Core.IdentifiedObject", n!"DiagramObjects"),
  (n!"CIM15.IEC61970.Wires.Breaker", n!"CIM15.IEC61970.Core.ConductingEquipment", n!"ProtectionEquipments"),
  (n!"CIM15.IEC61970.Wires.LoadBreakSwitch", n!"CIM15.IEC61970.Core.ConductingEquipment", n!"ProtectionEquipments"),
  (n!"CIM15.IEC61970.Wires.ProtectedSwitch", n!"CIM15.IEC61970.Core.ConductingEquipment", n!"ProtectionEquipments"),
  (n!"CIM15.IEC61970.Wires.Recloser", n!"CIM15.IEC61970.Core.ConductingEquipment", n!"ProtectionEquipments"),
  (n!"CIM15.IEC61970.Wires.ACLineSegment", n!"CIM15.IEC61970.Wires.ACLineSegment", n!"SequenceImpedance"),
  (n!"CIM15.IEC61970.Wires.ACLineSegment", n!"CIM15.IEC61970.Wires.ACLineSegment", n!"PhaseImpedance"),
  (n!"CIM15.IEC61970.Wires.PerLengthPhaseImpedance", n!"CIM15.IEC61970.Wires.PerLengthPhaseImpedance",
    n!"LineSegments"),
  (n!"CIM15.IEC61970.Wires.PerLengthSequenceImpedance", n!"CIM15.IEC61970.Wires.PerLengthSequenceImpedance",
    n!"LineSegments")]

noncomputable def kmemTriple (a b c : Nat) (l : List (Nat × Nat × Nat)) : Bool :=
  kany (fun q => kand (Nat.beq q.1 a) (kand (Nat.beq q.2.1 b) (Nat.beq q.2.2 c))) l

theorem kmemTriple_iff {a b c l} : kmemTriple a b c l = true ↔ (a, b, c) ∈ l := by
  simp only [kmemTriple, kany_iff, kand_iff, beq_iff]
  constructor
  · rintro ⟨⟨x, y, z⟩, h, rfl, rfl, rfl⟩; exact h
  · intro h; exact ⟨_, h, rfl, rfl, rfl⟩

noncomputable def kendB (S : Schema) (c : List RClass) (r : SRef) : Bool :=
  kopt (fun r' => kand (Nat.beq (kindIx r'.kind) (kkind S r)) <| kand (Nat.beq r'.inv r.opp) <|
    kand (Nat.beq r'.aux 0) (knot r'.addDup)) (findRefN c r.name)

noncomputable def c77B (x : Schema × RPkg) : Bool :=
  kall (fun c => kopt (fun d0 => kall (fun d => @Option.rec SClass (fun _ => Bool) true
    (fun e => kall (fun r => kor (Nat.beq r.opp 0) (kor (kendB x.1 c r) (kmemTriple d0.mod e.path r.name exc77)))
      e.refs) (kcls x.1 d.mod)) c) (khead c)) x.2.classes

/-- The information model itself: names of the references of a class differ, opposite ends point back. -/
noncomputable def symB (S : Schema) : Bool :=
  kall (fun e => kand (knodup (kmap (fun r => r.name) e.refs))
    (kall (fun r => kor (Nat.beq r.opp 0) (kopt (fun e' => kopt (fun r' => kand (Nat.beq r'.opp r.name)
      (kand (Nat.beq r'.target e.path) (knot (Nat.beq r.name 0)))) (kfind (fun r' => Nat.beq r'.name r.opp) e'.refs)) (kcls S r.target))) e.refs)) S

theorem c76_14 : c76B (Model_CIM14.schema, CIM14.pkg) = true := by decide +kernel
theorem c76_15 : c76B (Model_CIM15.schema, CIM15.pkg) = true := by decide +kernel
theorem c76_small : kall c76B smallModels = true := by decide +kernel
theorem c77_14 : c77B (Model_CIM14.schema, CIM14.pkg) = true := by decide +kernel
theorem c77_15 : c77B (Model_CIM15.schema, CIM15.pkg) = true := by decide +kernel
theorem c77_small : kall c77B smallModels = true := by decide +kernel
theorem sym_14 : symB Model_CIM14.schema = true := by decide +kernel
theorem sym_15 : symB Model_CIM15.schema = true := by decide +kernel
theorem sym_small : kall (fun x => symB x.1) smallModels = true := by decide +kernel

end Props
end Verif
