import Verif.Gen.Types
/-! Generated by tools/gen.py from /repo/CIM15/CDPSM/Geographical: do not edit. -/
namespace Verif.Gen.CIM15_CDPSM_Geographical
set_option maxRecDepth 10000

/-- CIM15/CDPSM/Geographical/Element.py:22 -/
def d_Element : RClass := ⟨0x456c656d656e74, 0x43494d31352e434450534d2e47656f67726170686963616c2e456c656d656e74, 0,
  [(0x55554944, .str 0)],
  [0x55554944],
  [(0x55554944, .str 0)],
  [(0x55554944, 0x737472)],
  [],
  [],
  []⟩
def m_Element : List RClass := d_Element :: []

/-- CIM15/CDPSM/Geographical/IEC61968/Common/PositionPoint.py:23 -/
def d_PositionPoint : RClass := ⟨0x506f736974696f6e506f696e74, 0x43494d31352e434450534d2e47656f67726170686963616c2e49454336313936382e436f6d6d6f6e2e506f736974696f6e506f696e74, 0x43494d31352e434450534d2e47656f67726170686963616c2e456c656d656e74,
  [(0x78506f736974696f6e, .str 0), (0x7a506f736974696f6e, .str 0), (0x73657175656e63654e756d626572, .int 0), (0x79506f736974696f6e, .str 0)],
  [0x78506f736974696f6e, 0x7a506f736974696f6e, 0x73657175656e63654e756d626572, 0x79506f736974696f6e],
  [(0x78506f736974696f6e, .str 0), (0x7a506f736974696f6e, .str 0), (0x73657175656e63654e756d626572, .int 0), (0x79506f736974696f6e, .str 0)],
  [(0x78506f736974696f6e, 0x737472), (0x7a506f736974696f6e, 0x737472), (0x73657175656e63654e756d626572, 0x696e74), (0x79506f736974696f6e, 0x737472)],
  [],
  [⟨0x4c6f636174696f6e, .one2many, 0x506f736974696f6e506f696e7473, 0, false⟩],
  []⟩
def m_PositionPoint : List RClass := d_PositionPoint :: m_Element

/-- CIM15/CDPSM/Geographical/IEC61970/Core/IdentifiedObject.py:23 -/
def d_IdentifiedObject : RClass := ⟨0x4964656e7469666965644f626a656374, 0x43494d31352e434450534d2e47656f67726170686963616c2e49454336313937302e436f72652e4964656e7469666965644f626a656374, 0x43494d31352e434450534d2e47656f67726170686963616c2e456c656d656e74,
  [(0x616c6961734e616d65, .str 0), (0x6e616d65, .str 0)],
  [0x616c6961734e616d65, 0x6e616d65],
  [(0x616c6961734e616d65, .str 0), (0x6e616d65, .str 0)],
  [(0x616c6961734e616d65, 0x737472), (0x6e616d65, 0x737472)],
  [],
  [⟨0x4e616d6573, .many2one, 0x4964656e7469666965644f626a656374, 0, false⟩],
  [0x4e616d6573]⟩
def m_IdentifiedObject : List RClass := d_IdentifiedObject :: m_Element

/-- CIM15/CDPSM/Geographical/IEC61970/Core/Name.py:23 -/
def d_Name : RClass := ⟨0x4e616d65, 0x43494d31352e434450534d2e47656f67726170686963616c2e49454336313937302e436f72652e4e616d65, 0x43494d31352e434450534d2e47656f67726170686963616c2e456c656d656e74,
  [(0x6e616d65, .str 0)],
  [0x6e616d65],
  [(0x6e616d65, .str 0)],
  [(0x6e616d65, 0x737472)],
  [],
  [⟨0x4e616d6554797065, .one2many, 0x4e616d6573, 0, false⟩, ⟨0x4964656e7469666965644f626a656374, .one2many, 0x4e616d6573, 0, false⟩],
  []⟩
def m_Name : List RClass := d_Name :: m_Element

/-- CIM15/CDPSM/Geographical/IEC61970/Core/NameType.py:23 -/
def d_NameType : RClass := ⟨0x4e616d6554797065, 0x43494d31352e434450534d2e47656f67726170686963616c2e49454336313937302e436f72652e4e616d6554797065, 0x43494d31352e434450534d2e47656f67726170686963616c2e456c656d656e74,
  [],
  [],
  [],
  [],
  [],
  [⟨0x4e616d6573, .many2one, 0x4e616d6554797065, 0, false⟩],
  [0x4e616d6573]⟩
def m_NameType : List RClass := d_NameType :: m_Element

/-- CIM15/CDPSM/Geographical/IEC61968/Common/CoordinateSystem.py:23 -/
def d_CoordinateSystem : RClass := ⟨0x436f6f7264696e61746553797374656d, 0x43494d31352e434450534d2e47656f67726170686963616c2e49454336313936382e436f6d6d6f6e2e436f6f7264696e61746553797374656d, 0x43494d31352e434450534d2e47656f67726170686963616c2e49454336313937302e436f72652e4964656e7469666965644f626a656374,
  [(0x63727355726e, .str 0)],
  [0x63727355726e],
  [(0x63727355726e, .str 0)],
  [(0x63727355726e, 0x737472)],
  [],
  [⟨0x4c6f636174696f6e, .many2one, 0x436f6f7264696e61746553797374656d, 0, false⟩],
  [0x4c6f636174696f6e]⟩
def m_CoordinateSystem : List RClass := d_CoordinateSystem :: m_IdentifiedObject

/-- CIM15/CDPSM/Geographical/IEC61968/Common/Location.py:23 -/
def d_Location : RClass := ⟨0x4c6f636174696f6e, 0x43494d31352e434450534d2e47656f67726170686963616c2e49454336313936382e436f6d6d6f6e2e4c6f636174696f6e, 0x43494d31352e434450534d2e47656f67726170686963616c2e49454336313937302e436f72652e4964656e7469666965644f626a656374,
  [],
  [],
  [],
  [],
  [],
  [⟨0x506f77657253797374656d5265736f7572636573, .many2one, 0x4c6f636174696f6e, 0, false⟩, ⟨0x506f736974696f6e506f696e7473, .many2one, 0x4c6f636174696f6e, 0, false⟩, ⟨0x436f6f7264696e61746553797374656d, .one2many, 0x4c6f636174696f6e, 0, false⟩],
  [0x506f77657253797374656d5265736f7572636573, 0x506f736974696f6e506f696e7473]⟩
def m_Location : List RClass := d_Location :: m_IdentifiedObject

/-- CIM15/CDPSM/Geographical/IEC61970/Core/PowerSystemResource.py:23 -/
def d_PowerSystemResource : RClass := ⟨0x506f77657253797374656d5265736f75726365, 0x43494d31352e434450534d2e47656f67726170686963616c2e49454336313937302e436f72652e506f77657253797374656d5265736f75726365, 0x43494d31352e434450534d2e47656f67726170686963616c2e49454336313937302e436f72652e4964656e7469666965644f626a656374,
  [],
  [],
  [],
  [],
  [],
  [⟨0x4c6f636174696f6e, .one2many, 0x506f77657253797374656d5265736f7572636573, 0, false⟩],
  []⟩
def m_PowerSystemResource : List RClass := d_PowerSystemResource :: m_IdentifiedObject

/-- CIM15/CDPSM/Geographical/IEC61970/Core/Equipment.py:23 -/
def d_Equipment : RClass := ⟨0x45717569706d656e74, 0x43494d31352e434450534d2e47656f67726170686963616c2e49454336313937302e436f72652e45717569706d656e74, 0x43494d31352e434450534d2e47656f67726170686963616c2e49454336313937302e436f72652e506f77657253797374656d5265736f75726365,
  [],
  [],
  [],
  [],
  [],
  [],
  []⟩
def m_Equipment : List RClass := d_Equipment :: m_PowerSystemResource

/-- CIM15/CDPSM/Geographical/IEC61970/Wires/Line.py:23 -/
def d_Line : RClass := ⟨0x4c696e65, 0x43494d31352e434450534d2e47656f67726170686963616c2e49454336313937302e57697265732e4c696e65, 0x43494d31352e434450534d2e47656f67726170686963616c2e49454336313937302e436f72652e506f77657253797374656d5265736f75726365,
  [],
  [],
  [],
  [],
  [],
  [],
  []⟩
def m_Line : List RClass := d_Line :: m_PowerSystemResource

/-- CIM15/CDPSM/Geographical/IEC61970/Core/ConductingEquipment.py:23 -/
def d_ConductingEquipment : RClass := ⟨0x436f6e64756374696e6745717569706d656e74, 0x43494d31352e434450534d2e47656f67726170686963616c2e49454336313937302e436f72652e436f6e64756374696e6745717569706d656e74, 0x43494d31352e434450534d2e47656f67726170686963616c2e49454336313937302e436f72652e45717569706d656e74,
  [],
  [],
  [],
  [],
  [],
  [],
  []⟩
def m_ConductingEquipment : List RClass := d_ConductingEquipment :: m_Equipment

/-- CIM15/CDPSM/Geographical/IEC61970/Wires/ACLineSegment.py:23 -/
def d_ACLineSegment : RClass := ⟨0x41434c696e655365676d656e74, 0x43494d31352e434450534d2e47656f67726170686963616c2e49454336313937302e57697265732e41434c696e655365676d656e74, 0x43494d31352e434450534d2e47656f67726170686963616c2e49454336313937302e436f72652e436f6e64756374696e6745717569706d656e74,
  [],
  [],
  [],
  [],
  [],
  [],
  []⟩
def m_ACLineSegment : List RClass := d_ACLineSegment :: m_ConductingEquipment

/-- CIM15/CDPSM/Geographical/IEC61970/Wires/Breaker.py:23 -/
def d_Breaker : RClass := ⟨0x427265616b6572, 0x43494d31352e434450534d2e47656f67726170686963616c2e49454336313937302e57697265732e427265616b6572, 0x43494d31352e434450534d2e47656f67726170686963616c2e49454336313937302e436f72652e436f6e64756374696e6745717569706d656e74,
  [],
  [],
  [],
  [],
  [],
  [],
  []⟩
def m_Breaker : List RClass := d_Breaker :: m_ConductingEquipment

/-- CIM15/CDPSM/Geographical/IEC61970/Wires/BusbarSection.py:23 -/
def d_BusbarSection : RClass := ⟨0x42757362617253656374696f6e, 0x43494d31352e434450534d2e47656f67726170686963616c2e49454336313937302e57697265732e42757362617253656374696f6e, 0x43494d31352e434450534d2e47656f67726170686963616c2e49454336313937302e436f72652e436f6e64756374696e6745717569706d656e74,
  [],
  [],
  [],
  [],
  [],
  [],
  []⟩
def m_BusbarSection : List RClass := d_BusbarSection :: m_ConductingEquipment

/-- CIM15/CDPSM/Geographical/IEC61970/Wires/DCLineSegment.py:23 -/
def d_DCLineSegment : RClass := ⟨0x44434c696e655365676d656e74, 0x43494d31352e434450534d2e47656f67726170686963616c2e49454336313937302e57697265732e44434c696e655365676d656e74, 0x43494d31352e434450534d2e47656f67726170686963616c2e49454336313937302e436f72652e436f6e64756374696e6745717569706d656e74,
  [],
  [],
  [],
  [],
  [],
  [],
  []⟩
def m_DCLineSegment : List RClass := d_DCLineSegment :: m_ConductingEquipment

/-- CIM15/CDPSM/Geographical/IEC61970/Wires/Disconnector.py:23 -/
def d_Disconnector : RClass := ⟨0x446973636f6e6e6563746f72, 0x43494d31352e434450534d2e47656f67726170686963616c2e49454336313937302e57697265732e446973636f6e6e6563746f72, 0x43494d31352e434450534d2e47656f67726170686963616c2e49454336313937302e436f72652e436f6e64756374696e6745717569706d656e74,
  [],
  [],
  [],
  [],
  [],
  [],
  []⟩
def m_Disconnector : List RClass := d_Disconnector :: m_ConductingEquipment

/-- CIM15/CDPSM/Geographical/IEC61970/Wires/EnergyConsumer.py:23 -/
def d_EnergyConsumer : RClass := ⟨0x456e65726779436f6e73756d6572, 0x43494d31352e434450534d2e47656f67726170686963616c2e49454336313937302e57697265732e456e65726779436f6e73756d6572, 0x43494d31352e434450534d2e47656f67726170686963616c2e49454336313937302e436f72652e436f6e64756374696e6745717569706d656e74,
  [],
  [],
  [],
  [],
  [],
  [],
  []⟩
def m_EnergyConsumer : List RClass := d_EnergyConsumer :: m_ConductingEquipment

/-- CIM15/CDPSM/Geographical/IEC61970/Wires/EnergySource.py:23 -/
def d_EnergySource : RClass := ⟨0x456e65726779536f75726365, 0x43494d31352e434450534d2e47656f67726170686963616c2e49454336313937302e57697265732e456e65726779536f75726365, 0x43494d31352e434450534d2e47656f67726170686963616c2e49454336313937302e436f72652e436f6e64756374696e6745717569706d656e74,
  [],
  [],
  [],
  [],
  [],
  [],
  []⟩
def m_EnergySource : List RClass := d_EnergySource :: m_ConductingEquipment

/-- CIM15/CDPSM/Geographical/IEC61970/Wires/Fuse.py:23 -/
def d_Fuse : RClass := ⟨0x46757365, 0x43494d31352e434450534d2e47656f67726170686963616c2e49454336313937302e57697265732e46757365, 0x43494d31352e434450534d2e47656f67726170686963616c2e49454336313937302e436f72652e436f6e64756374696e6745717569706d656e74,
  [],
  [],
  [],
  [],
  [],
  [],
  []⟩
def m_Fuse : List RClass := d_Fuse :: m_ConductingEquipment

/-- CIM15/CDPSM/Geographical/IEC61970/Wires/GroundDisconnector.py:23 -/
def d_GroundDisconnector : RClass := ⟨0x47726f756e64446973636f6e6e6563746f72, 0x43494d31352e434450534d2e47656f67726170686963616c2e49454336313937302e57697265732e47726f756e64446973636f6e6e6563746f72, 0x43494d31352e434450534d2e47656f67726170686963616c2e49454336313937302e436f72652e436f6e64756374696e6745717569706d656e74,
  [],
  [],
  [],
  [],
  [],
  [],
  []⟩
def m_GroundDisconnector : List RClass := d_GroundDisconnector :: m_ConductingEquipment

/-- CIM15/CDPSM/Geographical/IEC61970/Wires/Jumper.py:23 -/
def d_Jumper : RClass := ⟨0x4a756d706572, 0x43494d31352e434450534d2e47656f67726170686963616c2e49454336313937302e57697265732e4a756d706572, 0x43494d31352e434450534d2e47656f67726170686963616c2e49454336313937302e436f72652e436f6e64756374696e6745717569706d656e74,
  [],
  [],
  [],
  [],
  [],
  [],
  []⟩
def m_Jumper : List RClass := d_Jumper :: m_ConductingEquipment

/-- CIM15/CDPSM/Geographical/IEC61970/Wires/Junction.py:23 -/
def d_Junction : RClass := ⟨0x4a756e6374696f6e, 0x43494d31352e434450534d2e47656f67726170686963616c2e49454336313937302e57697265732e4a756e6374696f6e, 0x43494d31352e434450534d2e47656f67726170686963616c2e49454336313937302e436f72652e436f6e64756374696e6745717569706d656e74,
  [],
  [],
  [],
  [],
  [],
  [],
  []⟩
def m_Junction : List RClass := d_Junction :: m_ConductingEquipment

/-- CIM15/CDPSM/Geographical/IEC61970/Wires/LoadBreakSwitch.py:23 -/
def d_LoadBreakSwitch : RClass := ⟨0x4c6f6164427265616b537769746368, 0x43494d31352e434450534d2e47656f67726170686963616c2e49454336313937302e57697265732e4c6f6164427265616b537769746368, 0x43494d31352e434450534d2e47656f67726170686963616c2e49454336313937302e436f72652e436f6e64756374696e6745717569706d656e74,
  [],
  [],
  [],
  [],
  [],
  [],
  []⟩
def m_LoadBreakSwitch : List RClass := d_LoadBreakSwitch :: m_ConductingEquipment

/-- CIM15/CDPSM/Geographical/IEC61970/Wires/PowerTransformer.py:23 -/
def d_PowerTransformer : RClass := ⟨0x506f7765725472616e73666f726d6572, 0x43494d31352e434450534d2e47656f67726170686963616c2e49454336313937302e57697265732e506f7765725472616e73666f726d6572, 0x43494d31352e434450534d2e47656f67726170686963616c2e49454336313937302e436f72652e436f6e64756374696e6745717569706d656e74,
  [],
  [],
  [],
  [],
  [],
  [],
  []⟩
def m_PowerTransformer : List RClass := d_PowerTransformer :: m_ConductingEquipment

/-- CIM15/CDPSM/Geographical/IEC61970/Wires/SeriesCompensator.py:23 -/
def d_SeriesCompensator : RClass := ⟨0x536572696573436f6d70656e7361746f72, 0x43494d31352e434450534d2e47656f67726170686963616c2e49454336313937302e57697265732e536572696573436f6d70656e7361746f72, 0x43494d31352e434450534d2e47656f67726170686963616c2e49454336313937302e436f72652e436f6e64756374696e6745717569706d656e74,
  [],
  [],
  [],
  [],
  [],
  [],
  []⟩
def m_SeriesCompensator : List RClass := d_SeriesCompensator :: m_ConductingEquipment

/-- CIM15/CDPSM/Geographical/IEC61970/Wires/ShuntCompensator.py:23 -/
def d_ShuntCompensator : RClass := ⟨0x5368756e74436f6d70656e7361746f72, 0x43494d31352e434450534d2e47656f67726170686963616c2e49454336313937302e57697265732e5368756e74436f6d70656e7361746f72, 0x43494d31352e434450534d2e47656f67726170686963616c2e49454336313937302e436f72652e436f6e64756374696e6745717569706d656e74,
  [],
  [],
  [],
  [],
  [],
  [],
  []⟩
def m_ShuntCompensator : List RClass := d_ShuntCompensator :: m_ConductingEquipment

/-- CIM15/CDPSM/Geographical/IEC61970/Wires/SynchronousMachine.py:23 -/
def d_SynchronousMachine : RClass := ⟨0x53796e6368726f6e6f75734d616368696e65, 0x43494d31352e434450534d2e47656f67726170686963616c2e49454336313937302e57697265732e53796e6368726f6e6f75734d616368696e65, 0x43494d31352e434450534d2e47656f67726170686963616c2e49454336313937302e436f72652e436f6e64756374696e6745717569706d656e74,
  [],
  [],
  [],
  [],
  [],
  [],
  []⟩
def m_SynchronousMachine : List RClass := d_SynchronousMachine :: m_ConductingEquipment

def classes : List (List RClass) := [
  m_Element,
  m_CoordinateSystem,
  m_Location,
  m_PositionPoint,
  m_ConductingEquipment,
  m_Equipment,
  m_IdentifiedObject,
  m_Name,
  m_NameType,
  m_PowerSystemResource,
  m_ACLineSegment,
  m_Breaker,
  m_BusbarSection,
  m_DCLineSegment,
  m_Disconnector,
  m_EnergyConsumer,
  m_EnergySource,
  m_Fuse,
  m_GroundDisconnector,
  m_Jumper,
  m_Junction,
  m_Line,
  m_LoadBreakSwitch,
  m_PowerTransformer,
  m_SeriesCompensator,
  m_ShuntCompensator,
  m_SynchronousMachine]

/-- `packageMap` of CIM15/CDPSM/Geographical/__init__.py -/
def pmap : List (Nat × Nat) := [
  (0x456c656d656e74, 0x43494d31352e434450534d2e47656f67726170686963616c),
  (0x46757365, 0x43494d31352e434450534d2e47656f67726170686963616c2e49454336313937302e5769726573),
  (0x456e65726779436f6e73756d6572, 0x43494d31352e434450534d2e47656f67726170686963616c2e49454336313937302e5769726573),
  (0x446973636f6e6e6563746f72, 0x43494d31352e434450534d2e47656f67726170686963616c2e49454336313937302e5769726573),
  (0x41434c696e655365676d656e74, 0x43494d31352e434450534d2e47656f67726170686963616c2e49454336313937302e5769726573),
  (0x53796e6368726f6e6f75734d616368696e65, 0x43494d31352e434450534d2e47656f67726170686963616c2e49454336313937302e5769726573),
  (0x42757362617253656374696f6e, 0x43494d31352e434450534d2e47656f67726170686963616c2e49454336313937302e5769726573),
  (0x4c6f6164427265616b537769746368, 0x43494d31352e434450534d2e47656f67726170686963616c2e49454336313937302e5769726573),
  (0x47726f756e64446973636f6e6e6563746f72, 0x43494d31352e434450534d2e47656f67726170686963616c2e49454336313937302e5769726573),
  (0x536572696573436f6d70656e7361746f72, 0x43494d31352e434450534d2e47656f67726170686963616c2e49454336313937302e5769726573),
  (0x4a756e6374696f6e, 0x43494d31352e434450534d2e47656f67726170686963616c2e49454336313937302e5769726573),
  (0x427265616b6572, 0x43494d31352e434450534d2e47656f67726170686963616c2e49454336313937302e5769726573),
  (0x44434c696e655365676d656e74, 0x43494d31352e434450534d2e47656f67726170686963616c2e49454336313937302e5769726573),
  (0x4c696e65, 0x43494d31352e434450534d2e47656f67726170686963616c2e49454336313937302e5769726573),
  (0x506f7765725472616e73666f726d6572, 0x43494d31352e434450534d2e47656f67726170686963616c2e49454336313937302e5769726573),
  (0x456e65726779536f75726365, 0x43494d31352e434450534d2e47656f67726170686963616c2e49454336313937302e5769726573),
  (0x5368756e74436f6d70656e7361746f72, 0x43494d31352e434450534d2e47656f67726170686963616c2e49454336313937302e5769726573),
  (0x4a756d706572, 0x43494d31352e434450534d2e47656f67726170686963616c2e49454336313937302e5769726573),
  (0x436f6e64756374696e6745717569706d656e74, 0x43494d31352e434450534d2e47656f67726170686963616c2e49454336313937302e436f7265),
  (0x4e616d6554797065, 0x43494d31352e434450534d2e47656f67726170686963616c2e49454336313937302e436f7265),
  (0x45717569706d656e74, 0x43494d31352e434450534d2e47656f67726170686963616c2e49454336313937302e436f7265),
  (0x4964656e7469666965644f626a656374, 0x43494d31352e434450534d2e47656f67726170686963616c2e49454336313937302e436f7265),
  (0x4e616d65, 0x43494d31352e434450534d2e47656f67726170686963616c2e49454336313937302e436f7265),
  (0x506f77657253797374656d5265736f75726365, 0x43494d31352e434450534d2e47656f67726170686963616c2e49454336313937302e436f7265),
  (0x4c6f636174696f6e, 0x43494d31352e434450534d2e47656f67726170686963616c2e49454336313936382e436f6d6d6f6e),
  (0x436f6f7264696e61746553797374656d, 0x43494d31352e434450534d2e47656f67726170686963616c2e49454336313936382e436f6d6d6f6e),
  (0x506f736974696f6e506f696e74, 0x43494d31352e434450534d2e47656f67726170686963616c2e49454336313936382e436f6d6d6f6e)]

/-- Names bound by `from m import C` in the `__init__.py` files of the packages occurring in `pmap`: (package, C, m). -/
def exports : List (Nat × Nat × Nat) := [
  (0x43494d31352e434450534d2e47656f67726170686963616c, 0x456c656d656e74, 0x43494d31352e434450534d2e47656f67726170686963616c2e456c656d656e74),
  (0x43494d31352e434450534d2e47656f67726170686963616c2e49454336313936382e436f6d6d6f6e, 0x4c6f636174696f6e, 0x43494d31352e434450534d2e47656f67726170686963616c2e49454336313936382e436f6d6d6f6e2e4c6f636174696f6e),
  (0x43494d31352e434450534d2e47656f67726170686963616c2e49454336313936382e436f6d6d6f6e, 0x436f6f7264696e61746553797374656d, 0x43494d31352e434450534d2e47656f67726170686963616c2e49454336313936382e436f6d6d6f6e2e436f6f7264696e61746553797374656d),
  (0x43494d31352e434450534d2e47656f67726170686963616c2e49454336313936382e436f6d6d6f6e, 0x506f736974696f6e506f696e74, 0x43494d31352e434450534d2e47656f67726170686963616c2e49454336313936382e436f6d6d6f6e2e506f736974696f6e506f696e74),
  (0x43494d31352e434450534d2e47656f67726170686963616c2e49454336313937302e436f7265, 0x436f6e64756374696e6745717569706d656e74, 0x43494d31352e434450534d2e47656f67726170686963616c2e49454336313937302e436f72652e436f6e64756374696e6745717569706d656e74),
  (0x43494d31352e434450534d2e47656f67726170686963616c2e49454336313937302e436f7265, 0x4e616d6554797065, 0x43494d31352e434450534d2e47656f67726170686963616c2e49454336313937302e436f72652e4e616d6554797065),
  (0x43494d31352e434450534d2e47656f67726170686963616c2e49454336313937302e436f7265, 0x45717569706d656e74, 0x43494d31352e434450534d2e47656f67726170686963616c2e49454336313937302e436f72652e45717569706d656e74),
  (0x43494d31352e434450534d2e47656f67726170686963616c2e49454336313937302e436f7265, 0x4964656e7469666965644f626a656374, 0x43494d31352e434450534d2e47656f67726170686963616c2e49454336313937302e436f72652e4964656e7469666965644f626a656374),
  (0x43494d31352e434450534d2e47656f67726170686963616c2e49454336313937302e436f7265, 0x4e616d65, 0x43494d31352e434450534d2e47656f67726170686963616c2e49454336313937302e436f72652e4e616d65),
  (0x43494d31352e434450534d2e47656f67726170686963616c2e49454336313937302e436f7265, 0x506f77657253797374656d5265736f75726365, 0x43494d31352e434450534d2e47656f67726170686963616c2e49454336313937302e436f72652e506f77657253797374656d5265736f75726365),
  (0x43494d31352e434450534d2e47656f67726170686963616c2e49454336313937302e5769726573, 0x46757365, 0x43494d31352e434450534d2e47656f67726170686963616c2e49454336313937302e57697265732e46757365),
  (0x43494d31352e434450534d2e47656f67726170686963616c2e49454336313937302e5769726573, 0x456e65726779436f6e73756d6572, 0x43494d31352e434450534d2e47656f67726170686963616c2e49454336313937302e57697265732e456e65726779436f6e73756d6572),
  (0x43494d31352e434450534d2e47656f67726170686963616c2e49454336313937302e5769726573, 0x446973636f6e6e6563746f72, 0x43494d31352e434450534d2e47656f67726170686963616c2e49454336313937302e57697265732e446973636f6e6e6563746f72),
  (0x43494d31352e434450534d2e47656f67726170686963616c2e49454336313937302e5769726573, 0x41434c696e655365676d656e74, 0x43494d31352e434450534d2e47656f67726170686963616c2e49454336313937302e57697265732e41434c696e655365676d656e74),
  (0x43494d31352e434450534d2e47656f67726170686963616c2e49454336313937302e5769726573, 0x53796e6368726f6e6f75734d616368696e65, 0x43494d31352e434450534d2e47656f67726170686963616c2e49454336313937302e57697265732e53796e6368726f6e6f75734d616368696e65),
  (0x43494d31352e434450534d2e47656f67726170686963616c2e49454336313937302e5769726573, 0x42757362617253656374696f6e, 0x43494d31352e434450534d2e47656f67726170686963616c2e49454336313937302e57697265732e42757362617253656374696f6e),
  (0x43494d31352e434450534d2e47656f67726170686963616c2e49454336313937302e5769726573, 0x4c6f6164427265616b537769746368, 0x43494d31352e434450534d2e47656f67726170686963616c2e49454336313937302e57697265732e4c6f6164427265616b537769746368),
  (0x43494d31352e434450534d2e47656f67726170686963616c2e49454336313937302e5769726573, 0x47726f756e64446973636f6e6e6563746f72, 0x43494d31352e434450534d2e47656f67726170686963616c2e49454336313937302e57697265732e47726f756e64446973636f6e6e6563746f72),
  (0x43494d31352e434450534d2e47656f67726170686963616c2e49454336313937302e5769726573, 0x536572696573436f6d70656e7361746f72, 0x43494d31352e434450534d2e47656f67726170686963616c2e49454336313937302e57697265732e536572696573436f6d70656e7361746f72),
  (0x43494d31352e434450534d2e47656f67726170686963616c2e49454336313937302e5769726573, 0x4a756e6374696f6e, 0x43494d31352e434450534d2e47656f67726170686963616c2e49454336313937302e57697265732e4a756e6374696f6e),
  (0x43494d31352e434450534d2e47656f67726170686963616c2e49454336313937302e5769726573, 0x427265616b6572, 0x43494d31352e434450534d2e47656f67726170686963616c2e49454336313937302e57697265732e427265616b6572),
  (0x43494d31352e434450534d2e47656f67726170686963616c2e49454336313937302e5769726573, 0x44434c696e655365676d656e74, 0x43494d31352e434450534d2e47656f67726170686963616c2e49454336313937302e57697265732e44434c696e655365676d656e74),
  (0x43494d31352e434450534d2e47656f67726170686963616c2e49454336313937302e5769726573, 0x4c696e65, 0x43494d31352e434450534d2e47656f67726170686963616c2e49454336313937302e57697265732e4c696e65),
  (0x43494d31352e434450534d2e47656f67726170686963616c2e49454336313937302e5769726573, 0x506f7765725472616e73666f726d6572, 0x43494d31352e434450534d2e47656f67726170686963616c2e49454336313937302e57697265732e506f7765725472616e73666f726d6572),
  (0x43494d31352e434450534d2e47656f67726170686963616c2e49454336313937302e5769726573, 0x456e65726779536f75726365, 0x43494d31352e434450534d2e47656f67726170686963616c2e49454336313937302e57697265732e456e65726779536f75726365),
  (0x43494d31352e434450534d2e47656f67726170686963616c2e49454336313937302e5769726573, 0x5368756e74436f6d70656e7361746f72, 0x43494d31352e434450534d2e47656f67726170686963616c2e49454336313937302e57697265732e5368756e74436f6d70656e7361746f72),
  (0x43494d31352e434450534d2e47656f67726170686963616c2e49454336313937302e5769726573, 0x4a756d706572, 0x43494d31352e434450534d2e47656f67726170686963616c2e49454336313937302e57697265732e4a756d706572)]

def pkg : RPkg := ⟨0x43494d31352e434450534d2e47656f67726170686963616c, classes, pmap, exports⟩

end Verif.Gen.CIM15_CDPSM_Geographical
