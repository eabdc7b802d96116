import Verif.Props.Schema
import Verif.Props.AssocEx
/-
Concrete cases for `Props/Schema.lean`.
-/
namespace Verif
namespace Props
open Cim Py Hp Spec Gen

set_option maxRecDepth 100000

theorem model15 : (Model_CIM15.schema, CIM15.pkg) ∈ models := by simp [models]

theorem mem_of_path {S : Schema} {n e} (h : S.cls n = some e) : e ∈ S := (cls_path h).1

theorem mem_schema15 {e : SClass} (h : kcls Model_CIM15.schema e.path = some e) : e ∈ Model_CIM15.schema := by
  rw [kcls_eq] at h; exact mem_of_path h

theorem sTerminal_mem : Model_CIM15.s_Terminal ∈ Model_CIM15.schema := mem_schema15 rfl
theorem sEquip_mem : Model_CIM15.s_ConductingEquipment ∈ Model_CIM15.schema := mem_schema15 rfl
theorem sRelay_mem : Model_CIM15.s_ProtectionEquipment ∈ Model_CIM15.schema := mem_schema15 rfl
theorem sSwitch_mem : Model_CIM15.s_Switch ∈ Model_CIM15.schema := mem_schema15 rfl

theorem mem_classes15 {c : List RClass} {d} (hd : c.head? = some d)
    (h : kfind (fun c => kopt (fun d' => Nat.beq d'.mod d.mod) (khead c)) CIM15.pkg.classes = some c) :
    c ∈ CIM15.pkg.classes := by
  rw [kfind_eq] at h; exact List.mem_of_find?_eq_some h

theorem breaker_mem : CIM15.m_Breaker ∈ CIM15.pkg.classes := mem_classes15 (d := CIM15.d_Breaker) rfl rfl
theorem terminal_mem' : CIM15.m_Terminal ∈ CIM15.pkg.classes := mem_classes15 (d := CIM15.d_Terminal) rfl rfl
theorem relay_mem : CIM15.m_CurrentRelay ∈ CIM15.pkg.classes := mem_classes15 (d := CIM15.d_CurrentRelay) rfl rfl

example := C75_partial model15 sTerminal_mem
example := C75_only_partial model15 (mem_defs.2 ⟨_, terminal_mem', rfl⟩) (by decide)
example := C75_fails (q := (n!"CIM15.IEC61970.Informative.InfWork.CUAsset", n!"quantity")) (by decide)
example := C75_only_fails (m := n!"CIM15.IEC61970.Wires.CurrentTemperatureCurve") (by decide)

/-- `GeneratingUnit.modelDetail` -/
example := C76_fails (q := (n!"CIM15.IEC61970.Generation.Production.GeneratingUnit", n!"modelDetail"))
  (by simp [textIntegers])
/-- An enumeration: the phases of a new terminal are the first literal of `PhaseCode`. -/
example {h : Heap} (L : Live h) := C76_partial model15 terminal_mem' sTerminal_mem (by decide)
  (a := n!"phases") (t := Model_CIM15.e_PhaseCode) (by simp [Model_CIM15.s_Terminal]) (by decide) L 6
/-- An inherited attribute: a new breaker is not normally open. -/
example {h : Heap} (L : Live h) := C76_partial model15 breaker_mem sSwitch_mem (by decide)
  (a := n!"normalOpen") (t := Model_CIM15.t_EBoolean) (by simp [Model_CIM15.s_Switch]) (by decide) L 6

/-! A breaker, a terminal and a protection equipment. -/

def k1 : Heap := after {} (.new (toCls CIM15.m_Breaker) [])
def k2 : Heap := after k1 (.new (toCls CIM15.m_Terminal) [])
def k3 : Heap := after k2 (.new (toCls CIM15.m_ProtectionEquipment) [])

theorem k3_live : Live k3 :=
  (((Reach.start.op (allowed_new (wf_of_wfB (by decide +kernel)))).op
    (allowed_new (wf_of_wfB (by decide +kernel)))).op (allowed_new (wf_of_wfB (by decide +kernel)))).live

theorem k3_breaker : k3.cls 0 = some (toCls CIM15.m_Breaker) := by decide +kernel
theorem k3_terminal : k3.cls k1.next = some (toCls CIM15.m_Terminal) := by decide +kernel
theorem k3_relay : k3.cls k2.next = some (toCls CIM15.m_ProtectionEquipment) := by decide +kernel

/-- The references of two classes of the information model. -/
def rTerminals : SRef := ⟨n!"Terminals", n!"CIM15.IEC61970.Core.Terminal", true, n!"ConductingEquipment"⟩
def rEquip : SRef := ⟨n!"ConductingEquipment", n!"CIM15.IEC61970.Core.ConductingEquipment", false, n!"Terminals"⟩

/-- The breaker and its terminal, linked from the breaker … -/
example := C77_partial model15 sEquip_mem (r := rTerminals)
  (by simp [Model_CIM15.s_ConductingEquipment, rTerminals]) (by decide) breaker_mem (by decide)
  (by rintro d ⟨⟩; decide) terminal_mem' (by decide) (by rintro d ⟨⟩; decide) k3_live 6 k3_breaker k3_terminal
/-- … and from the terminal. -/
example := C77_partial model15 sTerminal_mem (r := rEquip)
  (by simp [Model_CIM15.s_Terminal, rEquip]) (by decide) terminal_mem' (by decide)
  (by rintro d ⟨⟩; decide) breaker_mem (by decide) (by rintro d ⟨⟩; decide) k3_live 6 k3_terminal k3_breaker
example : dec rTerminals.name = c!"Terminals" ∧ (linkOp rTerminals 0 k1.next = .add 0 (dec n!"Terminals") [k1.next]) :=
  ⟨by decide +kernel, rfl⟩
example := C77_fails k3_live 6 k3_breaker k3_relay (by
  have h1 : ∀ a r b (V : View), (V.one a r = some b ∨ b ∈ V.many a r) ↔ Linked V a r b := fun _ _ _ _ => Iff.rfl
  rw [← h1]; decide +kernel)

end Props
end Verif
