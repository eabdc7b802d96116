import Verif.Gen.Types
/-! Generated by tools/gen.py from /repo/CIM14/ENTSOE/Topology: do not edit. -/
namespace Verif.Gen.CIM14_ENTSOE_Topology
set_option maxRecDepth 10000

/-- CIM14/ENTSOE/Topology/Element.py:22 -/
def d_Element : RClass := ⟨0x456c656d656e74, 0x43494d31342e454e54534f452e546f706f6c6f67792e456c656d656e74, 0,
  [(0x55554944, .str 0)],
  [0x55554944],
  [(0x55554944, .str 0)],
  [(0x55554944, 0x737472)],
  [],
  [],
  []⟩
def m_Element : List RClass := d_Element :: []

/-- CIM14/ENTSOE/Topology/Core/IdentifiedObject.py:23 -/
def d_IdentifiedObject : RClass := ⟨0x4964656e7469666965644f626a656374, 0x43494d31342e454e54534f452e546f706f6c6f67792e436f72652e4964656e7469666965644f626a656374, 0x43494d31342e454e54534f452e546f706f6c6f67792e456c656d656e74,
  [(0x6e616d65, .str 0), (0x6465736372697074696f6e, .str 0)],
  [0x6e616d65, 0x6465736372697074696f6e],
  [(0x6e616d65, .str 0), (0x6465736372697074696f6e, .str 0)],
  [(0x6e616d65, 0x737472), (0x6465736372697074696f6e, 0x737472)],
  [],
  [],
  []⟩
def m_IdentifiedObject : List RClass := d_IdentifiedObject :: m_Element

/-- CIM14/ENTSOE/Topology/Core/BaseVoltage.py:23 -/
def d_BaseVoltage : RClass := ⟨0x42617365566f6c74616765, 0x43494d31342e454e54534f452e546f706f6c6f67792e436f72652e42617365566f6c74616765, 0x43494d31342e454e54534f452e546f706f6c6f67792e436f72652e4964656e7469666965644f626a656374,
  [],
  [],
  [],
  [],
  [],
  [⟨0x546f706f6c6f676963616c4e6f6465, .many2one, 0x42617365566f6c74616765, 0, false⟩],
  [0x546f706f6c6f676963616c4e6f6465]⟩
def m_BaseVoltage : List RClass := d_BaseVoltage :: m_IdentifiedObject

/-- CIM14/ENTSOE/Topology/Core/ConnectivityNodeContainer.py:23 -/
def d_ConnectivityNodeContainer : RClass := ⟨0x436f6e6e65637469766974794e6f6465436f6e7461696e6572, 0x43494d31342e454e54534f452e546f706f6c6f67792e436f72652e436f6e6e65637469766974794e6f6465436f6e7461696e6572, 0x43494d31342e454e54534f452e546f706f6c6f67792e436f72652e4964656e7469666965644f626a656374,
  [],
  [],
  [],
  [],
  [],
  [⟨0x546f706f6c6f676963616c4e6f6465, .many2one, 0x436f6e6e65637469766974794e6f6465436f6e7461696e6572, 0, false⟩],
  [0x546f706f6c6f676963616c4e6f6465]⟩
def m_ConnectivityNodeContainer : List RClass := d_ConnectivityNodeContainer :: m_IdentifiedObject

/-- CIM14/ENTSOE/Topology/Core/Terminal.py:23 -/
def d_Terminal : RClass := ⟨0x5465726d696e616c, 0x43494d31342e454e54534f452e546f706f6c6f67792e436f72652e5465726d696e616c, 0x43494d31342e454e54534f452e546f706f6c6f67792e436f72652e4964656e7469666965644f626a656374,
  [(0x636f6e6e6563746564, .bool false)],
  [0x636f6e6e6563746564],
  [(0x636f6e6e6563746564, .bool false)],
  [(0x636f6e6e6563746564, 0x626f6f6c)],
  [],
  [⟨0x546f706f6c6f676963616c4e6f6465, .one2many, 0x5465726d696e616c, 0, false⟩],
  []⟩
def m_Terminal : List RClass := d_Terminal :: m_IdentifiedObject

/-- CIM14/ENTSOE/Topology/Topology/TopologicalNode.py:23 -/
def d_TopologicalNode : RClass := ⟨0x546f706f6c6f676963616c4e6f6465, 0x43494d31342e454e54534f452e546f706f6c6f67792e546f706f6c6f67792e546f706f6c6f676963616c4e6f6465, 0x43494d31342e454e54534f452e546f706f6c6f67792e436f72652e4964656e7469666965644f626a656374,
  [],
  [],
  [],
  [],
  [],
  [⟨0x436f6e6e65637469766974794e6f6465436f6e7461696e6572, .one2many, 0x546f706f6c6f676963616c4e6f6465, 0, false⟩, ⟨0x42617365566f6c74616765, .one2many, 0x546f706f6c6f676963616c4e6f6465, 0, false⟩, ⟨0x5465726d696e616c, .many2one, 0x546f706f6c6f676963616c4e6f6465, 0, false⟩],
  [0x5465726d696e616c]⟩
def m_TopologicalNode : List RClass := d_TopologicalNode :: m_IdentifiedObject

def classes : List (List RClass) := [
  m_BaseVoltage,
  m_ConnectivityNodeContainer,
  m_IdentifiedObject,
  m_Terminal,
  m_Element,
  m_TopologicalNode]

/-- `packageMap` of CIM14/ENTSOE/Topology/__init__.py -/
def pmap : List (Nat × Nat) := [
  (0x456c656d656e74, 0x43494d31342e454e54534f452e546f706f6c6f6779),
  (0x5465726d696e616c, 0x43494d31342e454e54534f452e546f706f6c6f67792e436f7265),
  (0x4964656e7469666965644f626a656374, 0x43494d31342e454e54534f452e546f706f6c6f67792e436f7265),
  (0x42617365566f6c74616765, 0x43494d31342e454e54534f452e546f706f6c6f67792e436f7265),
  (0x436f6e6e65637469766974794e6f6465436f6e7461696e6572, 0x43494d31342e454e54534f452e546f706f6c6f67792e436f7265),
  (0x546f706f6c6f676963616c4e6f6465, 0x43494d31342e454e54534f452e546f706f6c6f67792e546f706f6c6f6779)]

/-- Names bound by `from m import C` in the `__init__.py` files of the packages occurring in `pmap`: (package, C, m). -/
def exports : List (Nat × Nat × Nat) := [
  (0x43494d31342e454e54534f452e546f706f6c6f6779, 0x456c656d656e74, 0x43494d31342e454e54534f452e546f706f6c6f67792e456c656d656e74),
  (0x43494d31342e454e54534f452e546f706f6c6f67792e436f7265, 0x5465726d696e616c, 0x43494d31342e454e54534f452e546f706f6c6f67792e436f72652e5465726d696e616c),
  (0x43494d31342e454e54534f452e546f706f6c6f67792e436f7265, 0x4964656e7469666965644f626a656374, 0x43494d31342e454e54534f452e546f706f6c6f67792e436f72652e4964656e7469666965644f626a656374),
  (0x43494d31342e454e54534f452e546f706f6c6f67792e436f7265, 0x42617365566f6c74616765, 0x43494d31342e454e54534f452e546f706f6c6f67792e436f72652e42617365566f6c74616765),
  (0x43494d31342e454e54534f452e546f706f6c6f67792e436f7265, 0x436f6e6e65637469766974794e6f6465436f6e7461696e6572, 0x43494d31342e454e54534f452e546f706f6c6f67792e436f72652e436f6e6e65637469766974794e6f6465436f6e7461696e6572),
  (0x43494d31342e454e54534f452e546f706f6c6f67792e546f706f6c6f6779, 0x546f706f6c6f676963616c4e6f6465, 0x43494d31342e454e54534f452e546f706f6c6f67792e546f706f6c6f67792e546f706f6c6f676963616c4e6f6465)]

def pkg : RPkg := ⟨0x43494d31342e454e54534f452e546f706f6c6f6779, classes, pmap, exports⟩

end Verif.Gen.CIM14_ENTSOE_Topology
