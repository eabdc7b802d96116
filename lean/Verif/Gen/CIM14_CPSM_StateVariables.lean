import Verif.Gen.Types
/-! Generated by tools/gen.py from /repo/CIM14/CPSM/StateVariables: do not edit. -/
namespace Verif.Gen.CIM14_CPSM_StateVariables
set_option maxRecDepth 10000

/-- CIM14/CPSM/StateVariables/Element.py:22 -/
def d_Element : RClass := ⟨0x456c656d656e74, 0x43494d31342e4350534d2e53746174655661726961626c65732e456c656d656e74, 0,
  [(0x55554944, .str 0)],
  [0x55554944],
  [(0x55554944, .str 0)],
  [(0x55554944, 0x737472)],
  [],
  [],
  []⟩
def m_Element : List RClass := d_Element :: []

/-- CIM14/CPSM/StateVariables/Core/Terminal.py:23 -/
def d_Terminal : RClass := ⟨0x5465726d696e616c, 0x43494d31342e4350534d2e53746174655661726961626c65732e436f72652e5465726d696e616c, 0x43494d31342e4350534d2e53746174655661726961626c65732e456c656d656e74,
  [],
  [],
  [],
  [],
  [],
  [⟨0x5376506f776572466c6f77, .one2one, 0x5465726d696e616c, 0, false⟩],
  []⟩
def m_Terminal : List RClass := d_Terminal :: m_Element

/-- CIM14/CPSM/StateVariables/StateVariables/SvInjection.py:23 -/
def d_SvInjection : RClass := ⟨0x5376496e6a656374696f6e, 0x43494d31342e4350534d2e53746174655661726961626c65732e53746174655661726961626c65732e5376496e6a656374696f6e, 0x43494d31342e4350534d2e53746174655661726961626c65732e456c656d656e74,
  [(0x714e6574496e6a656374696f6e, .flt 0x0), (0x704e6574496e6a656374696f6e, .flt 0x0)],
  [0x714e6574496e6a656374696f6e, 0x704e6574496e6a656374696f6e],
  [(0x714e6574496e6a656374696f6e, .flt 0x0), (0x704e6574496e6a656374696f6e, .flt 0x0)],
  [(0x714e6574496e6a656374696f6e, 0x666c6f6174), (0x704e6574496e6a656374696f6e, 0x666c6f6174)],
  [],
  [⟨0x546f706f6c6f676963616c4e6f6465, .one2one, 0x5376496e6a656374696f6e, 0, false⟩],
  []⟩
def m_SvInjection : List RClass := d_SvInjection :: m_Element

/-- CIM14/CPSM/StateVariables/StateVariables/SvPowerFlow.py:23 -/
def d_SvPowerFlow : RClass := ⟨0x5376506f776572466c6f77, 0x43494d31342e4350534d2e53746174655661726961626c65732e53746174655661726961626c65732e5376506f776572466c6f77, 0x43494d31342e4350534d2e53746174655661726961626c65732e456c656d656e74,
  [(0x70, .flt 0x0), (0x71, .flt 0x0)],
  [0x70, 0x71],
  [(0x70, .flt 0x0), (0x71, .flt 0x0)],
  [(0x70, 0x666c6f6174), (0x71, 0x666c6f6174)],
  [],
  [⟨0x5465726d696e616c, .one2one, 0x5376506f776572466c6f77, 0, false⟩],
  []⟩
def m_SvPowerFlow : List RClass := d_SvPowerFlow :: m_Element

/-- CIM14/CPSM/StateVariables/StateVariables/SvShortCircuit.py:23 -/
def d_SvShortCircuit : RClass := ⟨0x537653686f727443697263756974, 0x43494d31342e4350534d2e53746174655661726961626c65732e53746174655661726961626c65732e537653686f727443697263756974, 0x43494d31342e4350534d2e53746174655661726961626c65732e456c656d656e74,
  [(0x7353686f727443697263756974, .flt 0x0), (0x783050657258, .flt 0x0), (0x723050657252, .flt 0x0), (0x7850657252, .flt 0x0)],
  [0x7353686f727443697263756974, 0x783050657258, 0x723050657252, 0x7850657252],
  [(0x7353686f727443697263756974, .flt 0x0), (0x783050657258, .flt 0x0), (0x723050657252, .flt 0x0), (0x7850657252, .flt 0x0)],
  [(0x7353686f727443697263756974, 0x666c6f6174), (0x783050657258, 0x666c6f6174), (0x723050657252, 0x666c6f6174), (0x7850657252, 0x666c6f6174)],
  [],
  [⟨0x546f706f6c6f676963616c4e6f6465, .one2one, 0x537653686f727443697263756974, 0, false⟩],
  []⟩
def m_SvShortCircuit : List RClass := d_SvShortCircuit :: m_Element

/-- CIM14/CPSM/StateVariables/StateVariables/SvShuntCompensatorSections.py:23 -/
def d_SvShuntCompensatorSections : RClass := ⟨0x53765368756e74436f6d70656e7361746f7253656374696f6e73, 0x43494d31342e4350534d2e53746174655661726961626c65732e53746174655661726961626c65732e53765368756e74436f6d70656e7361746f7253656374696f6e73, 0x43494d31342e4350534d2e53746174655661726961626c65732e456c656d656e74,
  [(0x73656374696f6e73, .int 0), (0x636f6e74696e756f757353656374696f6e73, .flt 0x0)],
  [0x73656374696f6e73, 0x636f6e74696e756f757353656374696f6e73],
  [(0x73656374696f6e73, .int 0), (0x636f6e74696e756f757353656374696f6e73, .flt 0x0)],
  [(0x73656374696f6e73, 0x696e74), (0x636f6e74696e756f757353656374696f6e73, 0x666c6f6174)],
  [],
  [⟨0x5368756e74436f6d70656e7361746f72, .one2one, 0x53765368756e74436f6d70656e7361746f7253656374696f6e73, 0, false⟩],
  []⟩
def m_SvShuntCompensatorSections : List RClass := d_SvShuntCompensatorSections :: m_Element

/-- CIM14/CPSM/StateVariables/StateVariables/SvTapStep.py:23 -/
def d_SvTapStep : RClass := ⟨0x537654617053746570, 0x43494d31342e4350534d2e53746174655661726961626c65732e53746174655661726961626c65732e537654617053746570, 0x43494d31342e4350534d2e53746174655661726961626c65732e456c656d656e74,
  [(0x706f736974696f6e, .int 0), (0x636f6e74696e756f7573506f736974696f6e, .flt 0x0)],
  [0x706f736974696f6e, 0x636f6e74696e756f7573506f736974696f6e],
  [(0x706f736974696f6e, .int 0), (0x636f6e74696e756f7573506f736974696f6e, .flt 0x0)],
  [(0x706f736974696f6e, 0x696e74), (0x636f6e74696e756f7573506f736974696f6e, 0x666c6f6174)],
  [],
  [⟨0x5461704368616e676572, .one2one, 0x537654617053746570, 0, false⟩],
  []⟩
def m_SvTapStep : List RClass := d_SvTapStep :: m_Element

/-- CIM14/CPSM/StateVariables/StateVariables/SvVoltage.py:23 -/
def d_SvVoltage : RClass := ⟨0x5376566f6c74616765, 0x43494d31342e4350534d2e53746174655661726961626c65732e53746174655661726961626c65732e5376566f6c74616765, 0x43494d31342e4350534d2e53746174655661726961626c65732e456c656d656e74,
  [(0x616e676c65, .flt 0x0), (0x76, .flt 0x0)],
  [0x616e676c65, 0x76],
  [(0x616e676c65, .flt 0x0), (0x76, .flt 0x0)],
  [(0x616e676c65, 0x666c6f6174), (0x76, 0x666c6f6174)],
  [],
  [⟨0x546f706f6c6f676963616c4e6f6465, .one2one, 0x5376566f6c74616765, 0, false⟩],
  []⟩
def m_SvVoltage : List RClass := d_SvVoltage :: m_Element

/-- CIM14/CPSM/StateVariables/StateVariables/TopologicalIsland.py:23 -/
def d_TopologicalIsland : RClass := ⟨0x546f706f6c6f676963616c49736c616e64, 0x43494d31342e4350534d2e53746174655661726961626c65732e53746174655661726961626c65732e546f706f6c6f676963616c49736c616e64, 0x43494d31342e4350534d2e53746174655661726961626c65732e456c656d656e74,
  [],
  [],
  [],
  [],
  [],
  [⟨0x416e676c655265665f546f706f6c6f676963616c4e6f6465, .one2one, 0x416e676c655265665f546f706f6c6f676963616c49736c616e64, 0, false⟩, ⟨0x546f706f6c6f676963616c4e6f646573, .many2one, 0x546f706f6c6f676963616c49736c616e64, 0, false⟩],
  [0x546f706f6c6f676963616c4e6f646573]⟩
def m_TopologicalIsland : List RClass := d_TopologicalIsland :: m_Element

/-- CIM14/CPSM/StateVariables/Topology/TopologicalNode.py:23 -/
def d_TopologicalNode : RClass := ⟨0x546f706f6c6f676963616c4e6f6465, 0x43494d31342e4350534d2e53746174655661726961626c65732e546f706f6c6f67792e546f706f6c6f676963616c4e6f6465, 0x43494d31342e4350534d2e53746174655661726961626c65732e456c656d656e74,
  [],
  [],
  [],
  [],
  [],
  [⟨0x546f706f6c6f676963616c49736c616e64, .one2many, 0x546f706f6c6f676963616c4e6f646573, 0, false⟩, ⟨0x537653686f727443697263756974, .one2one, 0x546f706f6c6f676963616c4e6f6465, 0, false⟩, ⟨0x5376566f6c74616765, .one2one, 0x546f706f6c6f676963616c4e6f6465, 0, false⟩, ⟨0x5376496e6a656374696f6e, .one2one, 0x546f706f6c6f676963616c4e6f6465, 0, false⟩, ⟨0x416e676c655265665f546f706f6c6f676963616c49736c616e64, .one2one, 0x416e676c655265665f546f706f6c6f676963616c4e6f6465, 0, false⟩],
  []⟩
def m_TopologicalNode : List RClass := d_TopologicalNode :: m_Element

/-- CIM14/CPSM/StateVariables/Wires/ShuntCompensator.py:23 -/
def d_ShuntCompensator : RClass := ⟨0x5368756e74436f6d70656e7361746f72, 0x43494d31342e4350534d2e53746174655661726961626c65732e57697265732e5368756e74436f6d70656e7361746f72, 0x43494d31342e4350534d2e53746174655661726961626c65732e456c656d656e74,
  [],
  [],
  [],
  [],
  [],
  [⟨0x53765368756e74436f6d70656e7361746f7253656374696f6e73, .one2one, 0x5368756e74436f6d70656e7361746f72, 0, false⟩],
  []⟩
def m_ShuntCompensator : List RClass := d_ShuntCompensator :: m_Element

/-- CIM14/CPSM/StateVariables/Wires/TapChanger.py:23 -/
def d_TapChanger : RClass := ⟨0x5461704368616e676572, 0x43494d31342e4350534d2e53746174655661726961626c65732e57697265732e5461704368616e676572, 0x43494d31342e4350534d2e53746174655661726961626c65732e456c656d656e74,
  [],
  [],
  [],
  [],
  [],
  [⟨0x537654617053746570, .one2one, 0x5461704368616e676572, 0, false⟩],
  []⟩
def m_TapChanger : List RClass := d_TapChanger :: m_Element

def classes : List (List RClass) := [
  m_Terminal,
  m_Element,
  m_SvInjection,
  m_SvPowerFlow,
  m_SvShortCircuit,
  m_SvShuntCompensatorSections,
  m_SvTapStep,
  m_SvVoltage,
  m_TopologicalIsland,
  m_TopologicalNode,
  m_ShuntCompensator,
  m_TapChanger]

/-- `packageMap` of CIM14/CPSM/StateVariables/__init__.py -/
def pmap : List (Nat × Nat) := [
  (0x456c656d656e74, 0x43494d31342e4350534d2e53746174655661726961626c6573),
  (0x546f706f6c6f676963616c4e6f6465, 0x43494d31342e4350534d2e53746174655661726961626c65732e546f706f6c6f6779),
  (0x5465726d696e616c, 0x43494d31342e4350534d2e53746174655661726961626c65732e436f7265),
  (0x537654617053746570, 0x43494d31342e4350534d2e53746174655661726961626c65732e53746174655661726961626c6573),
  (0x5376496e6a656374696f6e, 0x43494d31342e4350534d2e53746174655661726961626c65732e53746174655661726961626c6573),
  (0x5376566f6c74616765, 0x43494d31342e4350534d2e53746174655661726961626c65732e53746174655661726961626c6573),
  (0x546f706f6c6f676963616c49736c616e64, 0x43494d31342e4350534d2e53746174655661726961626c65732e53746174655661726961626c6573),
  (0x5376506f776572466c6f77, 0x43494d31342e4350534d2e53746174655661726961626c65732e53746174655661726961626c6573),
  (0x537653686f727443697263756974, 0x43494d31342e4350534d2e53746174655661726961626c65732e53746174655661726961626c6573),
  (0x53765368756e74436f6d70656e7361746f7253656374696f6e73, 0x43494d31342e4350534d2e53746174655661726961626c65732e53746174655661726961626c6573),
  (0x5368756e74436f6d70656e7361746f72, 0x43494d31342e4350534d2e53746174655661726961626c65732e5769726573),
  (0x5461704368616e676572, 0x43494d31342e4350534d2e53746174655661726961626c65732e5769726573)]

/-- Names bound by `from m import C` in the `__init__.py` files of the packages occurring in `pmap`: (package, C, m). -/
def exports : List (Nat × Nat × Nat) := [
  (0x43494d31342e4350534d2e53746174655661726961626c6573, 0x456c656d656e74, 0x43494d31342e4350534d2e53746174655661726961626c65732e456c656d656e74),
  (0x43494d31342e4350534d2e53746174655661726961626c65732e436f7265, 0x5465726d696e616c, 0x43494d31342e4350534d2e53746174655661726961626c65732e436f72652e5465726d696e616c),
  (0x43494d31342e4350534d2e53746174655661726961626c65732e53746174655661726961626c6573, 0x537654617053746570, 0x43494d31342e4350534d2e53746174655661726961626c65732e53746174655661726961626c65732e537654617053746570),
  (0x43494d31342e4350534d2e53746174655661726961626c65732e53746174655661726961626c6573, 0x5376496e6a656374696f6e, 0x43494d31342e4350534d2e53746174655661726961626c65732e53746174655661726961626c65732e5376496e6a656374696f6e),
  (0x43494d31342e4350534d2e53746174655661726961626c65732e53746174655661726961626c6573, 0x5376566f6c74616765, 0x43494d31342e4350534d2e53746174655661726961626c65732e53746174655661726961626c65732e5376566f6c74616765),
  (0x43494d31342e4350534d2e53746174655661726961626c65732e53746174655661726961626c6573, 0x546f706f6c6f676963616c49736c616e64, 0x43494d31342e4350534d2e53746174655661726961626c65732e53746174655661726961626c65732e546f706f6c6f676963616c49736c616e64),
  (0x43494d31342e4350534d2e53746174655661726961626c65732e53746174655661726961626c6573, 0x5376506f776572466c6f77, 0x43494d31342e4350534d2e53746174655661726961626c65732e53746174655661726961626c65732e5376506f776572466c6f77),
  (0x43494d31342e4350534d2e53746174655661726961626c65732e53746174655661726961626c6573, 0x537653686f727443697263756974, 0x43494d31342e4350534d2e53746174655661726961626c65732e53746174655661726961626c65732e537653686f727443697263756974),
  (0x43494d31342e4350534d2e53746174655661726961626c65732e53746174655661726961626c6573, 0x53765368756e74436f6d70656e7361746f7253656374696f6e73, 0x43494d31342e4350534d2e53746174655661726961626c65732e53746174655661726961626c65732e53765368756e74436f6d70656e7361746f7253656374696f6e73),
  (0x43494d31342e4350534d2e53746174655661726961626c65732e546f706f6c6f6779, 0x546f706f6c6f676963616c4e6f6465, 0x43494d31342e4350534d2e53746174655661726961626c65732e546f706f6c6f67792e546f706f6c6f676963616c4e6f6465),
  (0x43494d31342e4350534d2e53746174655661726961626c65732e5769726573, 0x5368756e74436f6d70656e7361746f72, 0x43494d31342e4350534d2e53746174655661726961626c65732e57697265732e5368756e74436f6d70656e7361746f72),
  (0x43494d31342e4350534d2e53746174655661726961626c65732e5769726573, 0x5461704368616e676572, 0x43494d31342e4350534d2e53746174655661726961626c65732e57697265732e5461704368616e676572)]

def pkg : RPkg := ⟨0x43494d31342e4350534d2e53746174655661726961626c6573, classes, pmap, exports⟩

end Verif.Gen.CIM14_CPSM_StateVariables
