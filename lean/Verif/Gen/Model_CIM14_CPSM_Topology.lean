import Verif.Spec.Schema
/-! Generated by tools/ecore.py from /repo/Model/CIM14/CPSM/Topology.ecore: do not edit. -/
namespace Verif.Gen.Model_CIM14_CPSM_Topology
open Spec
set_option maxRecDepth 10000

/-- Data type with values of EBoolean -/
def t_EBoolean : SType := .prim 0x45426f6f6c65616e
/-- Data type with values of EString -/
def t_EString : SType := .prim 0x45537472696e67

/-- Class CIM14.CPSM.Topology.Core.BaseVoltage -/
def s_BaseVoltage : SClass := ⟨0x42617365566f6c74616765, 0x43494d31342e4350534d2e546f706f6c6f67792e436f72652e42617365566f6c74616765, 0x43494d31342e4350534d2e546f706f6c6f67792e436f72652e4964656e7469666965644f626a656374,
  [],
  [⟨0x546f706f6c6f676963616c4e6f6465, 0x43494d31342e4350534d2e546f706f6c6f67792e546f706f6c6f67792e546f706f6c6f676963616c4e6f6465, true, 0x42617365566f6c74616765⟩]⟩
/-- Class CIM14.CPSM.Topology.Core.ConnectivityNode -/
def s_ConnectivityNode : SClass := ⟨0x436f6e6e65637469766974794e6f6465, 0x43494d31342e4350534d2e546f706f6c6f67792e436f72652e436f6e6e65637469766974794e6f6465, 0x43494d31342e4350534d2e546f706f6c6f67792e436f72652e4964656e7469666965644f626a656374,
  [],
  [⟨0x546f706f6c6f676963616c4e6f6465, 0x43494d31342e4350534d2e546f706f6c6f67792e546f706f6c6f67792e546f706f6c6f676963616c4e6f6465, false, 0x436f6e6e65637469766974794e6f646573⟩]⟩
/-- Class CIM14.CPSM.Topology.Core.IdentifiedObject -/
def s_IdentifiedObject : SClass := ⟨0x4964656e7469666965644f626a656374, 0x43494d31342e4350534d2e546f706f6c6f67792e436f72652e4964656e7469666965644f626a656374, 0x43494d31342e4350534d2e546f706f6c6f67792e456c656d656e74,
  [(0x6e616d65, t_EString), (0x6465736372697074696f6e, t_EString)],
  []⟩
/-- Class CIM14.CPSM.Topology.Core.Terminal -/
def s_Terminal : SClass := ⟨0x5465726d696e616c, 0x43494d31342e4350534d2e546f706f6c6f67792e436f72652e5465726d696e616c, 0x43494d31342e4350534d2e546f706f6c6f67792e436f72652e4964656e7469666965644f626a656374,
  [(0x636f6e6e6563746564, t_EBoolean)],
  [⟨0x546f706f6c6f676963616c4e6f6465, 0x43494d31342e4350534d2e546f706f6c6f67792e546f706f6c6f67792e546f706f6c6f676963616c4e6f6465, false, 0x5465726d696e616c⟩]⟩
/-- Class CIM14.CPSM.Topology.Element -/
def s_Element : SClass := ⟨0x456c656d656e74, 0x43494d31342e4350534d2e546f706f6c6f67792e456c656d656e74, 0,
  [(0x55554944, t_EString)],
  []⟩
/-- Class CIM14.CPSM.Topology.Topology.TopologicalNode -/
def s_TopologicalNode : SClass := ⟨0x546f706f6c6f676963616c4e6f6465, 0x43494d31342e4350534d2e546f706f6c6f67792e546f706f6c6f67792e546f706f6c6f676963616c4e6f6465, 0x43494d31342e4350534d2e546f706f6c6f67792e436f72652e4964656e7469666965644f626a656374,
  [],
  [⟨0x436f6e6e65637469766974794e6f646573, 0x43494d31342e4350534d2e546f706f6c6f67792e436f72652e436f6e6e65637469766974794e6f6465, true, 0x546f706f6c6f676963616c4e6f6465⟩, ⟨0x42617365566f6c74616765, 0x43494d31342e4350534d2e546f706f6c6f67792e436f72652e42617365566f6c74616765, false, 0x546f706f6c6f676963616c4e6f6465⟩, ⟨0x5465726d696e616c, 0x43494d31342e4350534d2e546f706f6c6f67792e436f72652e5465726d696e616c, true, 0x546f706f6c6f676963616c4e6f6465⟩]⟩

def schema : Schema := [
  s_BaseVoltage,
  s_ConnectivityNode,
  s_IdentifiedObject,
  s_Terminal,
  s_Element,
  s_TopologicalNode]

end Verif.Gen.Model_CIM14_CPSM_Topology
