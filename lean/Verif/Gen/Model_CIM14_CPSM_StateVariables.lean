import Verif.Spec.Schema
/-! Generated by tools/ecore.py from /repo/Model/CIM14/CPSM/StateVariables.ecore: do not edit. -/
namespace Verif.Gen.Model_CIM14_CPSM_StateVariables
open Spec
set_option maxRecDepth 10000

/-- Data type with values of EFloat -/
def t_EFloat : SType := .prim 0x45466c6f6174
/-- Data type with values of EInt -/
def t_EInt : SType := .prim 0x45496e74
/-- Data type with values of EString -/
def t_EString : SType := .prim 0x45537472696e67
/-- Data type with values of float -/
def t_float : SType := .prim 0x666c6f6174

/-- Class CIM14.CPSM.StateVariables.Core.Terminal -/
def s_Terminal : SClass := ⟨0x5465726d696e616c, 0x43494d31342e4350534d2e53746174655661726961626c65732e436f72652e5465726d696e616c, 0x43494d31342e4350534d2e53746174655661726961626c65732e456c656d656e74,
  [],
  [⟨0x5376506f776572466c6f77, 0x43494d31342e4350534d2e53746174655661726961626c65732e53746174655661726961626c65732e5376506f776572466c6f77, false, 0x5465726d696e616c⟩]⟩
/-- Class CIM14.CPSM.StateVariables.Element -/
def s_Element : SClass := ⟨0x456c656d656e74, 0x43494d31342e4350534d2e53746174655661726961626c65732e456c656d656e74, 0,
  [(0x55554944, t_EString)],
  []⟩
/-- Class CIM14.CPSM.StateVariables.StateVariables.SvInjection -/
def s_SvInjection : SClass := ⟨0x5376496e6a656374696f6e, 0x43494d31342e4350534d2e53746174655661726961626c65732e53746174655661726961626c65732e5376496e6a656374696f6e, 0x43494d31342e4350534d2e53746174655661726961626c65732e456c656d656e74,
  [(0x714e6574496e6a656374696f6e, t_float), (0x704e6574496e6a656374696f6e, t_float)],
  [⟨0x546f706f6c6f676963616c4e6f6465, 0x43494d31342e4350534d2e53746174655661726961626c65732e546f706f6c6f67792e546f706f6c6f676963616c4e6f6465, false, 0x5376496e6a656374696f6e⟩]⟩
/-- Class CIM14.CPSM.StateVariables.StateVariables.SvPowerFlow -/
def s_SvPowerFlow : SClass := ⟨0x5376506f776572466c6f77, 0x43494d31342e4350534d2e53746174655661726961626c65732e53746174655661726961626c65732e5376506f776572466c6f77, 0x43494d31342e4350534d2e53746174655661726961626c65732e456c656d656e74,
  [(0x70, t_float), (0x71, t_float)],
  [⟨0x5465726d696e616c, 0x43494d31342e4350534d2e53746174655661726961626c65732e436f72652e5465726d696e616c, false, 0x5376506f776572466c6f77⟩]⟩
/-- Class CIM14.CPSM.StateVariables.StateVariables.SvShortCircuit -/
def s_SvShortCircuit : SClass := ⟨0x537653686f727443697263756974, 0x43494d31342e4350534d2e53746174655661726961626c65732e53746174655661726961626c65732e537653686f727443697263756974, 0x43494d31342e4350534d2e53746174655661726961626c65732e456c656d656e74,
  [(0x7353686f727443697263756974, t_float), (0x783050657258, t_EFloat), (0x723050657252, t_EFloat), (0x7850657252, t_EFloat)],
  [⟨0x546f706f6c6f676963616c4e6f6465, 0x43494d31342e4350534d2e53746174655661726961626c65732e546f706f6c6f67792e546f706f6c6f676963616c4e6f6465, false, 0x537653686f727443697263756974⟩]⟩
/-- Class CIM14.CPSM.StateVariables.StateVariables.SvShuntCompensatorSections -/
def s_SvShuntCompensatorSections : SClass := ⟨0x53765368756e74436f6d70656e7361746f7253656374696f6e73, 0x43494d31342e4350534d2e53746174655661726961626c65732e53746174655661726961626c65732e53765368756e74436f6d70656e7361746f7253656374696f6e73, 0x43494d31342e4350534d2e53746174655661726961626c65732e456c656d656e74,
  [(0x73656374696f6e73, t_EInt), (0x636f6e74696e756f757353656374696f6e73, t_EFloat)],
  [⟨0x5368756e74436f6d70656e7361746f72, 0x43494d31342e4350534d2e53746174655661726961626c65732e57697265732e5368756e74436f6d70656e7361746f72, false, 0x53765368756e74436f6d70656e7361746f7253656374696f6e73⟩]⟩
/-- Class CIM14.CPSM.StateVariables.StateVariables.SvTapStep -/
def s_SvTapStep : SClass := ⟨0x537654617053746570, 0x43494d31342e4350534d2e53746174655661726961626c65732e53746174655661726961626c65732e537654617053746570, 0x43494d31342e4350534d2e53746174655661726961626c65732e456c656d656e74,
  [(0x706f736974696f6e, t_EInt), (0x636f6e74696e756f7573506f736974696f6e, t_EFloat)],
  [⟨0x5461704368616e676572, 0x43494d31342e4350534d2e53746174655661726961626c65732e57697265732e5461704368616e676572, false, 0x537654617053746570⟩]⟩
/-- Class CIM14.CPSM.StateVariables.StateVariables.SvVoltage -/
def s_SvVoltage : SClass := ⟨0x5376566f6c74616765, 0x43494d31342e4350534d2e53746174655661726961626c65732e53746174655661726961626c65732e5376566f6c74616765, 0x43494d31342e4350534d2e53746174655661726961626c65732e456c656d656e74,
  [(0x616e676c65, t_float), (0x76, t_float)],
  [⟨0x546f706f6c6f676963616c4e6f6465, 0x43494d31342e4350534d2e53746174655661726961626c65732e546f706f6c6f67792e546f706f6c6f676963616c4e6f6465, false, 0x5376566f6c74616765⟩]⟩
/-- Class CIM14.CPSM.StateVariables.StateVariables.TopologicalIsland -/
def s_TopologicalIsland : SClass := ⟨0x546f706f6c6f676963616c49736c616e64, 0x43494d31342e4350534d2e53746174655661726961626c65732e53746174655661726961626c65732e546f706f6c6f676963616c49736c616e64, 0x43494d31342e4350534d2e53746174655661726961626c65732e456c656d656e74,
  [],
  [⟨0x416e676c655265665f546f706f6c6f676963616c4e6f6465, 0x43494d31342e4350534d2e53746174655661726961626c65732e546f706f6c6f67792e546f706f6c6f676963616c4e6f6465, false, 0x416e676c655265665f546f706f6c6f676963616c49736c616e64⟩, ⟨0x546f706f6c6f676963616c4e6f646573, 0x43494d31342e4350534d2e53746174655661726961626c65732e546f706f6c6f67792e546f706f6c6f676963616c4e6f6465, true, 0x546f706f6c6f676963616c49736c616e64⟩]⟩
/-- Class CIM14.CPSM.StateVariables.Topology.TopologicalNode -/
def s_TopologicalNode : SClass := ⟨0x546f706f6c6f676963616c4e6f6465, 0x43494d31342e4350534d2e53746174655661726961626c65732e546f706f6c6f67792e546f706f6c6f676963616c4e6f6465, 0x43494d31342e4350534d2e53746174655661726961626c65732e456c656d656e74,
  [],
  [⟨0x546f706f6c6f676963616c49736c616e64, 0x43494d31342e4350534d2e53746174655661726961626c65732e53746174655661726961626c65732e546f706f6c6f676963616c49736c616e64, false, 0x546f706f6c6f676963616c4e6f646573⟩, ⟨0x537653686f727443697263756974, 0x43494d31342e4350534d2e53746174655661726961626c65732e53746174655661726961626c65732e537653686f727443697263756974, false, 0x546f706f6c6f676963616c4e6f6465⟩, ⟨0x5376566f6c74616765, 0x43494d31342e4350534d2e53746174655661726961626c65732e53746174655661726961626c65732e5376566f6c74616765, false, 0x546f706f6c6f676963616c4e6f6465⟩, ⟨0x5376496e6a656374696f6e, 0x43494d31342e4350534d2e53746174655661726961626c65732e53746174655661726961626c65732e5376496e6a656374696f6e, false, 0x546f706f6c6f676963616c4e6f6465⟩, ⟨0x416e676c655265665f546f706f6c6f676963616c49736c616e64, 0x43494d31342e4350534d2e53746174655661726961626c65732e53746174655661726961626c65732e546f706f6c6f676963616c49736c616e64, false, 0x416e676c655265665f546f706f6c6f676963616c4e6f6465⟩]⟩
/-- Class CIM14.CPSM.StateVariables.Wires.ShuntCompensator -/
def s_ShuntCompensator : SClass := ⟨0x5368756e74436f6d70656e7361746f72, 0x43494d31342e4350534d2e53746174655661726961626c65732e57697265732e5368756e74436f6d70656e7361746f72, 0x43494d31342e4350534d2e53746174655661726961626c65732e456c656d656e74,
  [],
  [⟨0x53765368756e74436f6d70656e7361746f7253656374696f6e73, 0x43494d31342e4350534d2e53746174655661726961626c65732e53746174655661726961626c65732e53765368756e74436f6d70656e7361746f7253656374696f6e73, false, 0x5368756e74436f6d70656e7361746f72⟩]⟩
/-- Class CIM14.CPSM.StateVariables.Wires.TapChanger -/
def s_TapChanger : SClass := ⟨0x5461704368616e676572, 0x43494d31342e4350534d2e53746174655661726961626c65732e57697265732e5461704368616e676572, 0x43494d31342e4350534d2e53746174655661726961626c65732e456c656d656e74,
  [],
  [⟨0x537654617053746570, 0x43494d31342e4350534d2e53746174655661726961626c65732e53746174655661726961626c65732e537654617053746570, false, 0x5461704368616e676572⟩]⟩

def schema : Schema := [
  s_Terminal,
  s_Element,
  s_SvInjection,
  s_SvPowerFlow,
  s_SvShortCircuit,
  s_SvShuntCompensatorSections,
  s_SvTapStep,
  s_SvVoltage,
  s_TopologicalIsland,
  s_TopologicalNode,
  s_ShuntCompensator,
  s_TapChanger]

end Verif.Gen.Model_CIM14_CPSM_StateVariables
