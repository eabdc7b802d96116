import Verif.Spec.Schema
/-! Generated by tools/ecore.py from /repo/Model/CIM15/CDPSM/Geographical.ecore: do not edit. -/
namespace Verif.Gen.Model_CIM15_CDPSM_Geographical
open Spec
set_option maxRecDepth 10000

/-- Data type with values of EInt -/
def t_EInt : SType := .prim 0x45496e74
/-- Data type with values of EString -/
def t_EString : SType := .prim 0x45537472696e67

/-- Class CIM15.CDPSM.Geographical.Element -/
def s_Element : SClass := ⟨0x456c656d656e74, 0x43494d31352e434450534d2e47656f67726170686963616c2e456c656d656e74, 0,
  [(0x55554944, t_EString)],
  []⟩
/-- Class CIM15.CDPSM.Geographical.IEC61968.Common.CoordinateSystem -/
def s_CoordinateSystem : SClass := ⟨0x436f6f7264696e61746553797374656d, 0x43494d31352e434450534d2e47656f67726170686963616c2e49454336313936382e436f6d6d6f6e2e436f6f7264696e61746553797374656d, 0x43494d31352e434450534d2e47656f67726170686963616c2e49454336313937302e436f72652e4964656e7469666965644f626a656374,
  [(0x63727355726e, t_EString)],
  [⟨0x4c6f636174696f6e, 0x43494d31352e434450534d2e47656f67726170686963616c2e49454336313936382e436f6d6d6f6e2e4c6f636174696f6e, true, 0x436f6f7264696e61746553797374656d⟩]⟩
/-- Class CIM15.CDPSM.Geographical.IEC61968.Common.Location -/
def s_Location : SClass := ⟨0x4c6f636174696f6e, 0x43494d31352e434450534d2e47656f67726170686963616c2e49454336313936382e436f6d6d6f6e2e4c6f636174696f6e, 0x43494d31352e434450534d2e47656f67726170686963616c2e49454336313937302e436f72652e4964656e7469666965644f626a656374,
  [],
  [⟨0x506f77657253797374656d5265736f7572636573, 0x43494d31352e434450534d2e47656f67726170686963616c2e49454336313937302e436f72652e506f77657253797374656d5265736f75726365, true, 0x4c6f636174696f6e⟩, ⟨0x506f736974696f6e506f696e7473, 0x43494d31352e434450534d2e47656f67726170686963616c2e49454336313936382e436f6d6d6f6e2e506f736974696f6e506f696e74, true, 0x4c6f636174696f6e⟩, ⟨0x436f6f7264696e61746553797374656d, 0x43494d31352e434450534d2e47656f67726170686963616c2e49454336313936382e436f6d6d6f6e2e436f6f7264696e61746553797374656d, false, 0x4c6f636174696f6e⟩]⟩
/-- Class CIM15.CDPSM.Geographical.IEC61968.Common.PositionPoint -/
def s_PositionPoint : SClass := ⟨0x506f736974696f6e506f696e74, 0x43494d31352e434450534d2e47656f67726170686963616c2e49454336313936382e436f6d6d6f6e2e506f736974696f6e506f696e74, 0x43494d31352e434450534d2e47656f67726170686963616c2e456c656d656e74,
  [(0x78506f736974696f6e, t_EString), (0x7a506f736974696f6e, t_EString), (0x73657175656e63654e756d626572, t_EInt), (0x79506f736974696f6e, t_EString)],
  [⟨0x4c6f636174696f6e, 0x43494d31352e434450534d2e47656f67726170686963616c2e49454336313936382e436f6d6d6f6e2e4c6f636174696f6e, false, 0x506f736974696f6e506f696e7473⟩]⟩
/-- Class CIM15.CDPSM.Geographical.IEC61970.Core.ConductingEquipment -/
def s_ConductingEquipment : SClass := ⟨0x436f6e64756374696e6745717569706d656e74, 0x43494d31352e434450534d2e47656f67726170686963616c2e49454336313937302e436f72652e436f6e64756374696e6745717569706d656e74, 0x43494d31352e434450534d2e47656f67726170686963616c2e49454336313937302e436f72652e45717569706d656e74,
  [],
  []⟩
/-- Class CIM15.CDPSM.Geographical.IEC61970.Core.Equipment -/
def s_Equipment : SClass := ⟨0x45717569706d656e74, 0x43494d31352e434450534d2e47656f67726170686963616c2e49454336313937302e436f72652e45717569706d656e74, 0x43494d31352e434450534d2e47656f67726170686963616c2e49454336313937302e436f72652e506f77657253797374656d5265736f75726365,
  [],
  []⟩
/-- Class CIM15.CDPSM.Geographical.IEC61970.Core.IdentifiedObject -/
def s_IdentifiedObject : SClass := ⟨0x4964656e7469666965644f626a656374, 0x43494d31352e434450534d2e47656f67726170686963616c2e49454336313937302e436f72652e4964656e7469666965644f626a656374, 0x43494d31352e434450534d2e47656f67726170686963616c2e456c656d656e74,
  [(0x616c6961734e616d65, t_EString), (0x6e616d65, t_EString)],
  [⟨0x4e616d6573, 0x43494d31352e434450534d2e47656f67726170686963616c2e49454336313937302e436f72652e4e616d65, true, 0x4964656e7469666965644f626a656374⟩]⟩
/-- Class CIM15.CDPSM.Geographical.IEC61970.Core.Name -/
def s_Name : SClass := ⟨0x4e616d65, 0x43494d31352e434450534d2e47656f67726170686963616c2e49454336313937302e436f72652e4e616d65, 0x43494d31352e434450534d2e47656f67726170686963616c2e456c656d656e74,
  [(0x6e616d65, t_EString)],
  [⟨0x4e616d6554797065, 0x43494d31352e434450534d2e47656f67726170686963616c2e49454336313937302e436f72652e4e616d6554797065, false, 0x4e616d6573⟩, ⟨0x4964656e7469666965644f626a656374, 0x43494d31352e434450534d2e47656f67726170686963616c2e49454336313937302e436f72652e4964656e7469666965644f626a656374, false, 0x4e616d6573⟩]⟩
/-- Class CIM15.CDPSM.Geographical.IEC61970.Core.NameType -/
def s_NameType : SClass := ⟨0x4e616d6554797065, 0x43494d31352e434450534d2e47656f67726170686963616c2e49454336313937302e436f72652e4e616d6554797065, 0x43494d31352e434450534d2e47656f67726170686963616c2e456c656d656e74,
  [],
  [⟨0x4e616d6573, 0x43494d31352e434450534d2e47656f67726170686963616c2e49454336313937302e436f72652e4e616d65, true, 0x4e616d6554797065⟩]⟩
/-- Class CIM15.CDPSM.Geographical.IEC61970.Core.PowerSystemResource -/
def s_PowerSystemResource : SClass := ⟨0x506f77657253797374656d5265736f75726365, 0x43494d31352e434450534d2e47656f67726170686963616c2e49454336313937302e436f72652e506f77657253797374656d5265736f75726365, 0x43494d31352e434450534d2e47656f67726170686963616c2e49454336313937302e436f72652e4964656e7469666965644f626a656374,
  [],
  [⟨0x4c6f636174696f6e, 0x43494d31352e434450534d2e47656f67726170686963616c2e49454336313936382e436f6d6d6f6e2e4c6f636174696f6e, false, 0x506f77657253797374656d5265736f7572636573⟩]⟩
/-- Class CIM15.CDPSM.Geographical.IEC61970.Wires.ACLineSegment -/
def s_ACLineSegment : SClass := ⟨0x41434c696e655365676d656e74, 0x43494d31352e434450534d2e47656f67726170686963616c2e49454336313937302e57697265732e41434c696e655365676d656e74, 0x43494d31352e434450534d2e47656f67726170686963616c2e49454336313937302e436f72652e436f6e64756374696e6745717569706d656e74,
  [],
  []⟩
/-- Class CIM15.CDPSM.Geographical.IEC61970.Wires.Breaker -/
def s_Breaker : SClass := ⟨0x427265616b6572, 0x43494d31352e434450534d2e47656f67726170686963616c2e49454336313937302e57697265732e427265616b6572, 0x43494d31352e434450534d2e47656f67726170686963616c2e49454336313937302e436f72652e436f6e64756374696e6745717569706d656e74,
  [],
  []⟩
/-- Class CIM15.CDPSM.Geographical.IEC61970.Wires.BusbarSection -/
def s_BusbarSection : SClass := ⟨0x42757362617253656374696f6e, 0x43494d31352e434450534d2e47656f67726170686963616c2e49454336313937302e57697265732e42757362617253656374696f6e, 0x43494d31352e434450534d2e47656f67726170686963616c2e49454336313937302e436f72652e436f6e64756374696e6745717569706d656e74,
  [],
  []⟩
/-- Class CIM15.CDPSM.Geographical.IEC61970.Wires.DCLineSegment -/
def s_DCLineSegment : SClass := ⟨0x44434c696e655365676d656e74, 0x43494d31352e434450534d2e47656f67726170686963616c2e49454336313937302e57697265732e44434c696e655365676d656e74, 0x43494d31352e434450534d2e47656f67726170686963616c2e49454336313937302e436f72652e436f6e64756374696e6745717569706d656e74,
  [],
  []⟩
/-- Class CIM15.CDPSM.Geographical.IEC61970.Wires.Disconnector -/
def s_Disconnector : SClass := ⟨0x446973636f6e6e6563746f72, 0x43494d31352e434450534d2e47656f67726170686963616c2e49454336313937302e57697265732e446973636f6e6e6563746f72, 0x43494d31352e434450534d2e47656f67726170686963616c2e49454336313937302e436f72652e436f6e64756374696e6745717569706d656e74,
  [],
  []⟩
/-- Class CIM15.CDPSM.Geographical.IEC61970.Wires.EnergyConsumer -/
def s_EnergyConsumer : SClass := ⟨0x456e65726779436f6e73756d6572, 0x43494d31352e434450534d2e47656f67726170686963616c2e49454336313937302e57697265732e456e65726779436f6e73756d6572, 0x43494d31352e434450534d2e47656f67726170686963616c2e49454336313937302e436f72652e436f6e64756374696e6745717569706d656e74,
  [],
  []⟩
/-- Class CIM15.CDPSM.Geographical.IEC61970.Wires.EnergySource -/
def s_EnergySource : SClass := ⟨0x456e65726779536f75726365, 0x43494d31352e434450534d2e47656f67726170686963616c2e49454336313937302e57697265732e456e65726779536f75726365, 0x43494d31352e434450534d2e47656f67726170686963616c2e49454336313937302e436f72652e436f6e64756374696e6745717569706d656e74,
  [],
  []⟩
/-- Class CIM15.CDPSM.Geographical.IEC61970.Wires.Fuse -/
def s_Fuse : SClass := ⟨0x46757365, 0x43494d31352e434450534d2e47656f67726170686963616c2e49454336313937302e57697265732e46757365, 0x43494d31352e434450534d2e47656f67726170686963616c2e49454336313937302e436f72652e436f6e64756374696e6745717569706d656e74,
  [],
  []⟩
/-- Class CIM15.CDPSM.Geographical.IEC61970.Wires.GroundDisconnector -/
def s_GroundDisconnector : SClass := ⟨0x47726f756e64446973636f6e6e6563746f72, 0x43494d31352e434450534d2e47656f67726170686963616c2e49454336313937302e57697265732e47726f756e64446973636f6e6e6563746f72, 0x43494d31352e434450534d2e47656f67726170686963616c2e49454336313937302e436f72652e436f6e64756374696e6745717569706d656e74,
  [],
  []⟩
/-- Class CIM15.CDPSM.Geographical.IEC61970.Wires.Jumper -/
def s_Jumper : SClass := ⟨0x4a756d706572, 0x43494d31352e434450534d2e47656f67726170686963616c2e49454336313937302e57697265732e4a756d706572, 0x43494d31352e434450534d2e47656f67726170686963616c2e49454336313937302e436f72652e436f6e64756374696e6745717569706d656e74,
  [],
  []⟩
/-- Class CIM15.CDPSM.Geographical.IEC61970.Wires.Junction -/
def s_Junction : SClass := ⟨0x4a756e6374696f6e, 0x43494d31352e434450534d2e47656f67726170686963616c2e49454336313937302e57697265732e4a756e6374696f6e, 0x43494d31352e434450534d2e47656f67726170686963616c2e49454336313937302e436f72652e436f6e64756374696e6745717569706d656e74,
  [],
  []⟩
/-- Class CIM15.CDPSM.Geographical.IEC61970.Wires.Line -/
def s_Line : SClass := ⟨0x4c696e65, 0x43494d31352e434450534d2e47656f67726170686963616c2e49454336313937302e57697265732e4c696e65, 0x43494d31352e434450534d2e47656f67726170686963616c2e49454336313937302e436f72652e506f77657253797374656d5265736f75726365,
  [],
  []⟩
/-- Class CIM15.CDPSM.Geographical.IEC61970.Wires.LoadBreakSwitch -/
def s_LoadBreakSwitch : SClass := ⟨0x4c6f6164427265616b537769746368, 0x43494d31352e434450534d2e47656f67726170686963616c2e49454336313937302e57697265732e4c6f6164427265616b537769746368, 0x43494d31352e434450534d2e47656f67726170686963616c2e49454336313937302e436f72652e436f6e64756374696e6745717569706d656e74,
  [],
  []⟩
/-- Class CIM15.CDPSM.Geographical.IEC61970.Wires.PowerTransformer -/
def s_PowerTransformer : SClass := ⟨0x506f7765725472616e73666f726d6572, 0x43494d31352e434450534d2e47656f67726170686963616c2e49454336313937302e57697265732e506f7765725472616e73666f726d6572, 0x43494d31352e434450534d2e47656f67726170686963616c2e49454336313937302e436f72652e436f6e64756374696e6745717569706d656e74,
  [],
  []⟩
/-- Class CIM15.CDPSM.Geographical.IEC61970.Wires.SeriesCompensator -/
def s_SeriesCompensator : SClass := ⟨0x536572696573436f6d70656e7361746f72, 0x43494d31352e434450534d2e47656f67726170686963616c2e49454336313937302e57697265732e536572696573436f6d70656e7361746f72, 0x43494d31352e434450534d2e47656f67726170686963616c2e49454336313937302e436f72652e436f6e64756374696e6745717569706d656e74,
  [],
  []⟩
/-- Class CIM15.CDPSM.Geographical.IEC61970.Wires.ShuntCompensator -/
def s_ShuntCompensator : SClass := ⟨0x5368756e74436f6d70656e7361746f72, 0x43494d31352e434450534d2e47656f67726170686963616c2e49454336313937302e57697265732e5368756e74436f6d70656e7361746f72, 0x43494d31352e434450534d2e47656f67726170686963616c2e49454336313937302e436f72652e436f6e64756374696e6745717569706d656e74,
  [],
  []⟩
/-- Class CIM15.CDPSM.Geographical.IEC61970.Wires.SynchronousMachine -/
def s_SynchronousMachine : SClass := ⟨0x53796e6368726f6e6f75734d616368696e65, 0x43494d31352e434450534d2e47656f67726170686963616c2e49454336313937302e57697265732e53796e6368726f6e6f75734d616368696e65, 0x43494d31352e434450534d2e47656f67726170686963616c2e49454336313937302e436f72652e436f6e64756374696e6745717569706d656e74,
  [],
  []⟩

def schema : Schema := [
  s_Element,
  s_CoordinateSystem,
  s_Location,
  s_PositionPoint,
  s_ConductingEquipment,
  s_Equipment,
  s_IdentifiedObject,
  s_Name,
  s_NameType,
  s_PowerSystemResource,
  s_ACLineSegment,
  s_Breaker,
  s_BusbarSection,
  s_DCLineSegment,
  s_Disconnector,
  s_EnergyConsumer,
  s_EnergySource,
  s_Fuse,
  s_GroundDisconnector,
  s_Jumper,
  s_Junction,
  s_Line,
  s_LoadBreakSwitch,
  s_PowerTransformer,
  s_SeriesCompensator,
  s_ShuntCompensator,
  s_SynchronousMachine]

end Verif.Gen.Model_CIM15_CDPSM_Geographical
