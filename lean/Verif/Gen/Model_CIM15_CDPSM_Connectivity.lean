import Verif.Spec.Schema
/-! Generated by tools/ecore.py from /repo/Model/CIM15/CDPSM/Connectivity.ecore: do not edit. -/
namespace Verif.Gen.Model_CIM15_CDPSM_Connectivity
open Spec
set_option maxRecDepth 10000

/-- Enumeration CIM15.CDPSM.Connectivity.IEC61970.Core.PhaseCode -/
def e_PhaseCode : SType := .enum 0x5068617365436f6465 [0x7331324e, 0x424e, 0x4243, 0x41424e, 0x73324e, 0x4e, 0x41434e, 0x42434e, 0x4142434e, 0x4143, 0x73314e, 0x414e, 0x42, 0x4142, 0x43, 0x41, 0x434e, 0x414243]
/-- Enumeration CIM15.CDPSM.Connectivity.IEC61970.WiresPhaseModel.SinglePhaseKind -/
def e_SinglePhaseKind : SType := .enum 0x53696e676c6550686173654b696e64 [0x43, 0x4e, 0x7331, 0x42, 0x7332, 0x41]
/-- Data type with values of EBoolean -/
def t_EBoolean : SType := .prim 0x45426f6f6c65616e
/-- Data type with values of EString -/
def t_EString : SType := .prim 0x45537472696e67
/-- Data type with values of float -/
def t_float : SType := .prim 0x666c6f6174

/-- Class CIM15.CDPSM.Connectivity.Element -/
def s_Element : SClass := ⟨0x456c656d656e74, 0x43494d31352e434450534d2e436f6e6e65637469766974792e456c656d656e74, 0,
  [(0x55554944, t_EString)],
  []⟩
/-- Class CIM15.CDPSM.Connectivity.IEC61970.Core.BaseVoltage -/
def s_BaseVoltage : SClass := ⟨0x42617365566f6c74616765, 0x43494d31352e434450534d2e436f6e6e65637469766974792e49454336313937302e436f72652e42617365566f6c74616765, 0x43494d31352e434450534d2e436f6e6e65637469766974792e49454336313937302e436f72652e4964656e7469666965644f626a656374,
  [(0x6e6f6d696e616c566f6c74616765, t_float)],
  [⟨0x436f6e64756374696e6745717569706d656e74, 0x43494d31352e434450534d2e436f6e6e65637469766974792e49454336313937302e57697265732e41434c696e655365676d656e74, true, 0x42617365566f6c74616765⟩, ⟨0x566f6c746167654c6576656c, 0x43494d31352e434450534d2e436f6e6e65637469766974792e49454336313937302e436f72652e566f6c746167654c6576656c, true, 0x42617365566f6c74616765⟩]⟩
/-- Class CIM15.CDPSM.Connectivity.IEC61970.Core.Bay -/
def s_Bay : SClass := ⟨0x426179, 0x43494d31352e434450534d2e436f6e6e65637469766974792e49454336313937302e436f72652e426179, 0x43494d31352e434450534d2e436f6e6e65637469766974792e49454336313937302e436f72652e45717569706d656e74436f6e7461696e6572,
  [],
  [⟨0x566f6c746167654c6576656c, 0x43494d31352e434450534d2e436f6e6e65637469766974792e49454336313937302e436f72652e566f6c746167654c6576656c, false, 0x42617973⟩, ⟨0x53756273746174696f6e, 0x43494d31352e434450534d2e436f6e6e65637469766974792e49454336313937302e436f72652e53756273746174696f6e, false, 0x42617973⟩]⟩
/-- Class CIM15.CDPSM.Connectivity.IEC61970.Core.ConductingEquipment -/
def s_ConductingEquipment : SClass := ⟨0x436f6e64756374696e6745717569706d656e74, 0x43494d31352e434450534d2e436f6e6e65637469766974792e49454336313937302e436f72652e436f6e64756374696e6745717569706d656e74, 0x43494d31352e434450534d2e436f6e6e65637469766974792e49454336313937302e436f72652e45717569706d656e74,
  [],
  [⟨0x5465726d696e616c73, 0x43494d31352e434450534d2e436f6e6e65637469766974792e49454336313937302e436f72652e5465726d696e616c, true, 0x436f6e64756374696e6745717569706d656e74⟩]⟩
/-- Class CIM15.CDPSM.Connectivity.IEC61970.Core.ConnectivityNode -/
def s_ConnectivityNode : SClass := ⟨0x436f6e6e65637469766974794e6f6465, 0x43494d31352e434450534d2e436f6e6e65637469766974792e49454336313937302e436f72652e436f6e6e65637469766974794e6f6465, 0x43494d31352e434450534d2e436f6e6e65637469766974792e49454336313937302e436f72652e4964656e7469666965644f626a656374,
  [],
  [⟨0x436f6e6e65637469766974794e6f6465436f6e7461696e6572, 0x43494d31352e434450534d2e436f6e6e65637469766974792e49454336313937302e436f72652e436f6e6e65637469766974794e6f6465436f6e7461696e6572, false, 0x436f6e6e65637469766974794e6f646573⟩, ⟨0x5465726d696e616c73, 0x43494d31352e434450534d2e436f6e6e65637469766974792e49454336313937302e436f72652e5465726d696e616c, true, 0x436f6e6e65637469766974794e6f6465⟩]⟩
/-- Class CIM15.CDPSM.Connectivity.IEC61970.Core.ConnectivityNodeContainer -/
def s_ConnectivityNodeContainer : SClass := ⟨0x436f6e6e65637469766974794e6f6465436f6e7461696e6572, 0x43494d31352e434450534d2e436f6e6e65637469766974792e49454336313937302e436f72652e436f6e6e65637469766974794e6f6465436f6e7461696e6572, 0x43494d31352e434450534d2e436f6e6e65637469766974792e49454336313937302e436f72652e506f77657253797374656d5265736f75726365,
  [],
  [⟨0x436f6e6e65637469766974794e6f646573, 0x43494d31352e434450534d2e436f6e6e65637469766974792e49454336313937302e436f72652e436f6e6e65637469766974794e6f6465, true, 0x436f6e6e65637469766974794e6f6465436f6e7461696e6572⟩]⟩
/-- Class CIM15.CDPSM.Connectivity.IEC61970.Core.Equipment -/
def s_Equipment : SClass := ⟨0x45717569706d656e74, 0x43494d31352e434450534d2e436f6e6e65637469766974792e49454336313937302e436f72652e45717569706d656e74, 0x43494d31352e434450534d2e436f6e6e65637469766974792e49454336313937302e436f72652e506f77657253797374656d5265736f75726365,
  [],
  [⟨0x45717569706d656e74436f6e7461696e6572, 0x43494d31352e434450534d2e436f6e6e65637469766974792e49454336313937302e436f72652e45717569706d656e74436f6e7461696e6572, false, 0x45717569706d656e7473⟩]⟩
/-- Class CIM15.CDPSM.Connectivity.IEC61970.Core.EquipmentContainer -/
def s_EquipmentContainer : SClass := ⟨0x45717569706d656e74436f6e7461696e6572, 0x43494d31352e434450534d2e436f6e6e65637469766974792e49454336313937302e436f72652e45717569706d656e74436f6e7461696e6572, 0x43494d31352e434450534d2e436f6e6e65637469766974792e49454336313937302e436f72652e436f6e6e65637469766974794e6f6465436f6e7461696e6572,
  [],
  [⟨0x45717569706d656e7473, 0x43494d31352e434450534d2e436f6e6e65637469766974792e49454336313937302e436f72652e45717569706d656e74, true, 0x45717569706d656e74436f6e7461696e6572⟩]⟩
/-- Class CIM15.CDPSM.Connectivity.IEC61970.Core.GeographicalRegion -/
def s_GeographicalRegion : SClass := ⟨0x47656f67726170686963616c526567696f6e, 0x43494d31352e434450534d2e436f6e6e65637469766974792e49454336313937302e436f72652e47656f67726170686963616c526567696f6e, 0x43494d31352e434450534d2e436f6e6e65637469766974792e49454336313937302e436f72652e4964656e7469666965644f626a656374,
  [],
  [⟨0x526567696f6e73, 0x43494d31352e434450534d2e436f6e6e65637469766974792e49454336313937302e436f72652e53756247656f67726170686963616c526567696f6e, true, 0x526567696f6e⟩]⟩
/-- Class CIM15.CDPSM.Connectivity.IEC61970.Core.IdentifiedObject -/
def s_IdentifiedObject : SClass := ⟨0x4964656e7469666965644f626a656374, 0x43494d31352e434450534d2e436f6e6e65637469766974792e49454336313937302e436f72652e4964656e7469666965644f626a656374, 0x43494d31352e434450534d2e436f6e6e65637469766974792e456c656d656e74,
  [(0x6e616d65, t_EString), (0x616c6961734e616d65, t_EString)],
  [⟨0x4e616d6573, 0x43494d31352e434450534d2e436f6e6e65637469766974792e49454336313937302e436f72652e4e616d65, true, 0x4964656e7469666965644f626a656374⟩]⟩
/-- Class CIM15.CDPSM.Connectivity.IEC61970.Core.Name -/
def s_Name : SClass := ⟨0x4e616d65, 0x43494d31352e434450534d2e436f6e6e65637469766974792e49454336313937302e436f72652e4e616d65, 0x43494d31352e434450534d2e436f6e6e65637469766974792e456c656d656e74,
  [(0x6e616d65, t_EString)],
  [⟨0x4964656e7469666965644f626a656374, 0x43494d31352e434450534d2e436f6e6e65637469766974792e49454336313937302e436f72652e4964656e7469666965644f626a656374, false, 0x4e616d6573⟩, ⟨0x4e616d6554797065, 0x43494d31352e434450534d2e436f6e6e65637469766974792e49454336313937302e436f72652e4e616d6554797065, false, 0x4e616d6573⟩]⟩
/-- Class CIM15.CDPSM.Connectivity.IEC61970.Core.NameType -/
def s_NameType : SClass := ⟨0x4e616d6554797065, 0x43494d31352e434450534d2e436f6e6e65637469766974792e49454336313937302e436f72652e4e616d6554797065, 0x43494d31352e434450534d2e436f6e6e65637469766974792e456c656d656e74,
  [(0x6e616d65, t_EString), (0x6465736372697074696f6e, t_EString)],
  [⟨0x4e616d6554797065417574686f72697479, 0x43494d31352e434450534d2e436f6e6e65637469766974792e49454336313937302e436f72652e4e616d6554797065417574686f72697479, false, 0x4e616d655479706573⟩, ⟨0x4e616d6573, 0x43494d31352e434450534d2e436f6e6e65637469766974792e49454336313937302e436f72652e4e616d65, true, 0x4e616d6554797065⟩]⟩
/-- Class CIM15.CDPSM.Connectivity.IEC61970.Core.NameTypeAuthority -/
def s_NameTypeAuthority : SClass := ⟨0x4e616d6554797065417574686f72697479, 0x43494d31352e434450534d2e436f6e6e65637469766974792e49454336313937302e436f72652e4e616d6554797065417574686f72697479, 0x43494d31352e434450534d2e436f6e6e65637469766974792e456c656d656e74,
  [(0x6e616d65, t_EString), (0x6465736372697074696f6e, t_EString)],
  [⟨0x4e616d655479706573, 0x43494d31352e434450534d2e436f6e6e65637469766974792e49454336313937302e436f72652e4e616d6554797065, true, 0x4e616d6554797065417574686f72697479⟩]⟩
/-- Class CIM15.CDPSM.Connectivity.IEC61970.Core.PSRType -/
def s_PSRType : SClass := ⟨0x50535254797065, 0x43494d31352e434450534d2e436f6e6e65637469766974792e49454336313937302e436f72652e50535254797065, 0x43494d31352e434450534d2e436f6e6e65637469766974792e49454336313937302e436f72652e4964656e7469666965644f626a656374,
  [],
  []⟩
/-- Class CIM15.CDPSM.Connectivity.IEC61970.Core.PowerSystemResource -/
def s_PowerSystemResource : SClass := ⟨0x506f77657253797374656d5265736f75726365, 0x43494d31352e434450534d2e436f6e6e65637469766974792e49454336313937302e436f72652e506f77657253797374656d5265736f75726365, 0x43494d31352e434450534d2e436f6e6e65637469766974792e49454336313937302e436f72652e4964656e7469666965644f626a656374,
  [],
  []⟩
/-- Class CIM15.CDPSM.Connectivity.IEC61970.Core.SubGeographicalRegion -/
def s_SubGeographicalRegion : SClass := ⟨0x53756247656f67726170686963616c526567696f6e, 0x43494d31352e434450534d2e436f6e6e65637469766974792e49454336313937302e436f72652e53756247656f67726170686963616c526567696f6e, 0x43494d31352e434450534d2e436f6e6e65637469766974792e49454336313937302e436f72652e4964656e7469666965644f626a656374,
  [],
  [⟨0x4c696e6573, 0x43494d31352e434450534d2e436f6e6e65637469766974792e49454336313937302e57697265732e4c696e65, true, 0x526567696f6e⟩, ⟨0x53756273746174696f6e73, 0x43494d31352e434450534d2e436f6e6e65637469766974792e49454336313937302e436f72652e53756273746174696f6e, true, 0x526567696f6e⟩, ⟨0x526567696f6e, 0x43494d31352e434450534d2e436f6e6e65637469766974792e49454336313937302e436f72652e47656f67726170686963616c526567696f6e, false, 0x526567696f6e73⟩]⟩
/-- Class CIM15.CDPSM.Connectivity.IEC61970.Core.Substation -/
def s_Substation : SClass := ⟨0x53756273746174696f6e, 0x43494d31352e434450534d2e436f6e6e65637469766974792e49454336313937302e436f72652e53756273746174696f6e, 0x43494d31352e434450534d2e436f6e6e65637469766974792e49454336313937302e436f72652e45717569706d656e74436f6e7461696e6572,
  [],
  [⟨0x526567696f6e, 0x43494d31352e434450534d2e436f6e6e65637469766974792e49454336313937302e436f72652e53756247656f67726170686963616c526567696f6e, false, 0x53756273746174696f6e73⟩, ⟨0x566f6c746167654c6576656c73, 0x43494d31352e434450534d2e436f6e6e65637469766974792e49454336313937302e436f72652e566f6c746167654c6576656c, true, 0x53756273746174696f6e⟩, ⟨0x42617973, 0x43494d31352e434450534d2e436f6e6e65637469766974792e49454336313937302e436f72652e426179, true, 0x53756273746174696f6e⟩]⟩
/-- Class CIM15.CDPSM.Connectivity.IEC61970.Core.Terminal -/
def s_Terminal : SClass := ⟨0x5465726d696e616c, 0x43494d31352e434450534d2e436f6e6e65637469766974792e49454336313937302e436f72652e5465726d696e616c, 0x43494d31352e434450534d2e436f6e6e65637469766974792e49454336313937302e436f72652e4964656e7469666965644f626a656374,
  [(0x706861736573, e_PhaseCode)],
  [⟨0x436f6e6e65637469766974794e6f6465, 0x43494d31352e434450534d2e436f6e6e65637469766974792e49454336313937302e436f72652e436f6e6e65637469766974794e6f6465, false, 0x5465726d696e616c73⟩, ⟨0x5472616e73666f726d6572456e64, 0x43494d31352e434450534d2e436f6e6e65637469766974792e49454336313937302e57697265732e5472616e73666f726d6572456e64, true, 0x5465726d696e616c⟩, ⟨0x436f6e64756374696e6745717569706d656e74, 0x43494d31352e434450534d2e436f6e6e65637469766974792e49454336313937302e436f72652e436f6e64756374696e6745717569706d656e74, false, 0x5465726d696e616c73⟩]⟩
/-- Class CIM15.CDPSM.Connectivity.IEC61970.Core.VoltageLevel -/
def s_VoltageLevel : SClass := ⟨0x566f6c746167654c6576656c, 0x43494d31352e434450534d2e436f6e6e65637469766974792e49454336313937302e436f72652e566f6c746167654c6576656c, 0x43494d31352e434450534d2e436f6e6e65637469766974792e49454336313937302e436f72652e45717569706d656e74436f6e7461696e6572,
  [(0x6c6f77566f6c746167654c696d6974, t_float), (0x68696768566f6c746167654c696d6974, t_float)],
  [⟨0x42617973, 0x43494d31352e434450534d2e436f6e6e65637469766974792e49454336313937302e436f72652e426179, true, 0x566f6c746167654c6576656c⟩, ⟨0x42617365566f6c74616765, 0x43494d31352e434450534d2e436f6e6e65637469766974792e49454336313937302e436f72652e42617365566f6c74616765, false, 0x566f6c746167654c6576656c⟩, ⟨0x53756273746174696f6e, 0x43494d31352e434450534d2e436f6e6e65637469766974792e49454336313937302e436f72652e53756273746174696f6e, false, 0x566f6c746167654c6576656c73⟩]⟩
/-- Class CIM15.CDPSM.Connectivity.IEC61970.Wires.ACLineSegment -/
def s_ACLineSegment : SClass := ⟨0x41434c696e655365676d656e74, 0x43494d31352e434450534d2e436f6e6e65637469766974792e49454336313937302e57697265732e41434c696e655365676d656e74, 0x43494d31352e434450534d2e436f6e6e65637469766974792e49454336313937302e57697265732e436f6e647563746f72,
  [],
  [⟨0x42617365566f6c74616765, 0x43494d31352e434450534d2e436f6e6e65637469766974792e49454336313937302e436f72652e42617365566f6c74616765, false, 0x436f6e64756374696e6745717569706d656e74⟩]⟩
/-- Class CIM15.CDPSM.Connectivity.IEC61970.Wires.Breaker -/
def s_Breaker : SClass := ⟨0x427265616b6572, 0x43494d31352e434450534d2e436f6e6e65637469766974792e49454336313937302e57697265732e427265616b6572, 0x43494d31352e434450534d2e436f6e6e65637469766974792e49454336313937302e57697265732e537769746368,
  [],
  []⟩
/-- Class CIM15.CDPSM.Connectivity.IEC61970.Wires.BusbarSection -/
def s_BusbarSection : SClass := ⟨0x42757362617253656374696f6e, 0x43494d31352e434450534d2e436f6e6e65637469766974792e49454336313937302e57697265732e42757362617253656374696f6e, 0x43494d31352e434450534d2e436f6e6e65637469766974792e49454336313937302e436f72652e436f6e64756374696e6745717569706d656e74,
  [],
  []⟩
/-- Class CIM15.CDPSM.Connectivity.IEC61970.Wires.Conductor -/
def s_Conductor : SClass := ⟨0x436f6e647563746f72, 0x43494d31352e434450534d2e436f6e6e65637469766974792e49454336313937302e57697265732e436f6e647563746f72, 0x43494d31352e434450534d2e436f6e6e65637469766974792e49454336313937302e436f72652e436f6e64756374696e6745717569706d656e74,
  [(0x6c656e677468, t_float)],
  []⟩
/-- Class CIM15.CDPSM.Connectivity.IEC61970.Wires.DCLineSegment -/
def s_DCLineSegment : SClass := ⟨0x44434c696e655365676d656e74, 0x43494d31352e434450534d2e436f6e6e65637469766974792e49454336313937302e57697265732e44434c696e655365676d656e74, 0x43494d31352e434450534d2e436f6e6e65637469766974792e49454336313937302e57697265732e436f6e647563746f72,
  [],
  []⟩
/-- Class CIM15.CDPSM.Connectivity.IEC61970.Wires.Disconnector -/
def s_Disconnector : SClass := ⟨0x446973636f6e6e6563746f72, 0x43494d31352e434450534d2e436f6e6e65637469766974792e49454336313937302e57697265732e446973636f6e6e6563746f72, 0x43494d31352e434450534d2e436f6e6e65637469766974792e49454336313937302e57697265732e537769746368,
  [],
  []⟩
/-- Class CIM15.CDPSM.Connectivity.IEC61970.Wires.EnergyConsumer -/
def s_EnergyConsumer : SClass := ⟨0x456e65726779436f6e73756d6572, 0x43494d31352e434450534d2e436f6e6e65637469766974792e49454336313937302e57697265732e456e65726779436f6e73756d6572, 0x43494d31352e434450534d2e436f6e6e65637469766974792e49454336313937302e436f72652e436f6e64756374696e6745717569706d656e74,
  [],
  []⟩
/-- Class CIM15.CDPSM.Connectivity.IEC61970.Wires.EnergySource -/
def s_EnergySource : SClass := ⟨0x456e65726779536f75726365, 0x43494d31352e434450534d2e436f6e6e65637469766974792e49454336313937302e57697265732e456e65726779536f75726365, 0x43494d31352e434450534d2e436f6e6e65637469766974792e49454336313937302e436f72652e436f6e64756374696e6745717569706d656e74,
  [],
  []⟩
/-- Class CIM15.CDPSM.Connectivity.IEC61970.Wires.Fuse -/
def s_Fuse : SClass := ⟨0x46757365, 0x43494d31352e434450534d2e436f6e6e65637469766974792e49454336313937302e57697265732e46757365, 0x43494d31352e434450534d2e436f6e6e65637469766974792e49454336313937302e57697265732e537769746368,
  [],
  []⟩
/-- Class CIM15.CDPSM.Connectivity.IEC61970.Wires.Ground -/
def s_Ground : SClass := ⟨0x47726f756e64, 0x43494d31352e434450534d2e436f6e6e65637469766974792e49454336313937302e57697265732e47726f756e64, 0x43494d31352e434450534d2e436f6e6e65637469766974792e49454336313937302e436f72652e436f6e64756374696e6745717569706d656e74,
  [],
  []⟩
/-- Class CIM15.CDPSM.Connectivity.IEC61970.Wires.GroundDisconnector -/
def s_GroundDisconnector : SClass := ⟨0x47726f756e64446973636f6e6e6563746f72, 0x43494d31352e434450534d2e436f6e6e65637469766974792e49454336313937302e57697265732e47726f756e64446973636f6e6e6563746f72, 0x43494d31352e434450534d2e436f6e6e65637469766974792e49454336313937302e57697265732e537769746368,
  [],
  []⟩
/-- Class CIM15.CDPSM.Connectivity.IEC61970.Wires.Jumper -/
def s_Jumper : SClass := ⟨0x4a756d706572, 0x43494d31352e434450534d2e436f6e6e65637469766974792e49454336313937302e57697265732e4a756d706572, 0x43494d31352e434450534d2e436f6e6e65637469766974792e49454336313937302e57697265732e537769746368,
  [],
  []⟩
/-- Class CIM15.CDPSM.Connectivity.IEC61970.Wires.Junction -/
def s_Junction : SClass := ⟨0x4a756e6374696f6e, 0x43494d31352e434450534d2e436f6e6e65637469766974792e49454336313937302e57697265732e4a756e6374696f6e, 0x43494d31352e434450534d2e436f6e6e65637469766974792e49454336313937302e436f72652e436f6e64756374696e6745717569706d656e74,
  [],
  []⟩
/-- Class CIM15.CDPSM.Connectivity.IEC61970.Wires.Line -/
def s_Line : SClass := ⟨0x4c696e65, 0x43494d31352e434450534d2e436f6e6e65637469766974792e49454336313937302e57697265732e4c696e65, 0x43494d31352e434450534d2e436f6e6e65637469766974792e49454336313937302e436f72652e45717569706d656e74436f6e7461696e6572,
  [],
  [⟨0x526567696f6e, 0x43494d31352e434450534d2e436f6e6e65637469766974792e49454336313937302e436f72652e53756247656f67726170686963616c526567696f6e, false, 0x4c696e6573⟩]⟩
/-- Class CIM15.CDPSM.Connectivity.IEC61970.Wires.LoadBreakSwitch -/
def s_LoadBreakSwitch : SClass := ⟨0x4c6f6164427265616b537769746368, 0x43494d31352e434450534d2e436f6e6e65637469766974792e49454336313937302e57697265732e4c6f6164427265616b537769746368, 0x43494d31352e434450534d2e436f6e6e65637469766974792e49454336313937302e57697265732e537769746368,
  [],
  []⟩
/-- Class CIM15.CDPSM.Connectivity.IEC61970.Wires.PowerTransformer -/
def s_PowerTransformer : SClass := ⟨0x506f7765725472616e73666f726d6572, 0x43494d31352e434450534d2e436f6e6e65637469766974792e49454336313937302e57697265732e506f7765725472616e73666f726d6572, 0x43494d31352e434450534d2e436f6e6e65637469766974792e49454336313937302e436f72652e436f6e64756374696e6745717569706d656e74,
  [],
  [⟨0x5472616e73666f726d657254616e6b73, 0x43494d31352e434450534d2e436f6e6e65637469766974792e49454336313937302e57697265732e5472616e73666f726d657254616e6b, true, 0x506f7765725472616e73666f726d6572⟩, ⟨0x506f7765725472616e73666f726d6572456e64, 0x43494d31352e434450534d2e436f6e6e65637469766974792e49454336313937302e57697265732e506f7765725472616e73666f726d6572456e64, true, 0x506f7765725472616e73666f726d6572⟩]⟩
/-- Class CIM15.CDPSM.Connectivity.IEC61970.Wires.PowerTransformerEnd -/
def s_PowerTransformerEnd : SClass := ⟨0x506f7765725472616e73666f726d6572456e64, 0x43494d31352e434450534d2e436f6e6e65637469766974792e49454336313937302e57697265732e506f7765725472616e73666f726d6572456e64, 0x43494d31352e434450534d2e436f6e6e65637469766974792e49454336313937302e57697265732e5472616e73666f726d6572456e64,
  [],
  [⟨0x506f7765725472616e73666f726d6572, 0x43494d31352e434450534d2e436f6e6e65637469766974792e49454336313937302e57697265732e506f7765725472616e73666f726d6572, false, 0x506f7765725472616e73666f726d6572456e64⟩]⟩
/-- Class CIM15.CDPSM.Connectivity.IEC61970.Wires.Sectionaliser -/
def s_Sectionaliser : SClass := ⟨0x53656374696f6e616c69736572, 0x43494d31352e434450534d2e436f6e6e65637469766974792e49454336313937302e57697265732e53656374696f6e616c69736572, 0x43494d31352e434450534d2e436f6e6e65637469766974792e49454336313937302e57697265732e537769746368,
  [],
  []⟩
/-- Class CIM15.CDPSM.Connectivity.IEC61970.Wires.SeriesCompensator -/
def s_SeriesCompensator : SClass := ⟨0x536572696573436f6d70656e7361746f72, 0x43494d31352e434450534d2e436f6e6e65637469766974792e49454336313937302e57697265732e536572696573436f6d70656e7361746f72, 0x43494d31352e434450534d2e436f6e6e65637469766974792e49454336313937302e436f72652e436f6e64756374696e6745717569706d656e74,
  [],
  []⟩
/-- Class CIM15.CDPSM.Connectivity.IEC61970.Wires.ShuntCompensator -/
def s_ShuntCompensator : SClass := ⟨0x5368756e74436f6d70656e7361746f72, 0x43494d31352e434450534d2e436f6e6e65637469766974792e49454336313937302e57697265732e5368756e74436f6d70656e7361746f72, 0x43494d31352e434450534d2e436f6e6e65637469766974792e49454336313937302e436f72652e436f6e64756374696e6745717569706d656e74,
  [],
  []⟩
/-- Class CIM15.CDPSM.Connectivity.IEC61970.Wires.Switch -/
def s_Switch : SClass := ⟨0x537769746368, 0x43494d31352e434450534d2e436f6e6e65637469766974792e49454336313937302e57697265732e537769746368, 0x43494d31352e434450534d2e436f6e6e65637469766974792e49454336313937302e436f72652e436f6e64756374696e6745717569706d656e74,
  [(0x6e6f726d616c4f70656e, t_EBoolean)],
  []⟩
/-- Class CIM15.CDPSM.Connectivity.IEC61970.Wires.SynchronousMachine -/
def s_SynchronousMachine : SClass := ⟨0x53796e6368726f6e6f75734d616368696e65, 0x43494d31352e434450534d2e436f6e6e65637469766974792e49454336313937302e57697265732e53796e6368726f6e6f75734d616368696e65, 0x43494d31352e434450534d2e436f6e6e65637469766974792e49454336313937302e436f72652e436f6e64756374696e6745717569706d656e74,
  [],
  []⟩
/-- Class CIM15.CDPSM.Connectivity.IEC61970.Wires.TransformerEnd -/
def s_TransformerEnd : SClass := ⟨0x5472616e73666f726d6572456e64, 0x43494d31352e434450534d2e436f6e6e65637469766974792e49454336313937302e57697265732e5472616e73666f726d6572456e64, 0x43494d31352e434450534d2e436f6e6e65637469766974792e49454336313937302e436f72652e4964656e7469666965644f626a656374,
  [],
  [⟨0x5465726d696e616c, 0x43494d31352e434450534d2e436f6e6e65637469766974792e49454336313937302e436f72652e5465726d696e616c, false, 0x5472616e73666f726d6572456e64⟩]⟩
/-- Class CIM15.CDPSM.Connectivity.IEC61970.Wires.TransformerTank -/
def s_TransformerTank : SClass := ⟨0x5472616e73666f726d657254616e6b, 0x43494d31352e434450534d2e436f6e6e65637469766974792e49454336313937302e57697265732e5472616e73666f726d657254616e6b, 0x43494d31352e434450534d2e436f6e6e65637469766974792e49454336313937302e436f72652e45717569706d656e74,
  [],
  [⟨0x506f7765725472616e73666f726d6572, 0x43494d31352e434450534d2e436f6e6e65637469766974792e49454336313937302e57697265732e506f7765725472616e73666f726d6572, false, 0x5472616e73666f726d657254616e6b73⟩, ⟨0x5472616e73666f726d657254616e6b456e6473, 0x43494d31352e434450534d2e436f6e6e65637469766974792e49454336313937302e57697265732e5472616e73666f726d657254616e6b456e64, true, 0x5472616e73666f726d657254616e6b⟩]⟩
/-- Class CIM15.CDPSM.Connectivity.IEC61970.Wires.TransformerTankEnd -/
def s_TransformerTankEnd : SClass := ⟨0x5472616e73666f726d657254616e6b456e64, 0x43494d31352e434450534d2e436f6e6e65637469766974792e49454336313937302e57697265732e5472616e73666f726d657254616e6b456e64, 0x43494d31352e434450534d2e436f6e6e65637469766974792e49454336313937302e57697265732e5472616e73666f726d6572456e64,
  [(0x706861736573, e_PhaseCode)],
  [⟨0x5472616e73666f726d657254616e6b, 0x43494d31352e434450534d2e436f6e6e65637469766974792e49454336313937302e57697265732e5472616e73666f726d657254616e6b, false, 0x5472616e73666f726d657254616e6b456e6473⟩]⟩
/-- Class CIM15.CDPSM.Connectivity.IEC61970.WiresPhaseModel.ShuntCompensatorPhase -/
def s_ShuntCompensatorPhase : SClass := ⟨0x5368756e74436f6d70656e7361746f725068617365, 0x43494d31352e434450534d2e436f6e6e65637469766974792e49454336313937302e576972657350686173654d6f64656c2e5368756e74436f6d70656e7361746f725068617365, 0x43494d31352e434450534d2e436f6e6e65637469766974792e49454336313937302e436f72652e506f77657253797374656d5265736f75726365,
  [],
  []⟩
/-- Class CIM15.CDPSM.Connectivity.IEC61970.WiresPhaseModel.SwitchPhase -/
def s_SwitchPhase : SClass := ⟨0x5377697463685068617365, 0x43494d31352e434450534d2e436f6e6e65637469766974792e49454336313937302e576972657350686173654d6f64656c2e5377697463685068617365, 0x43494d31352e434450534d2e436f6e6e65637469766974792e49454336313937302e436f72652e506f77657253797374656d5265736f75726365,
  [],
  []⟩

def schema : Schema := [
  s_Element,
  s_BaseVoltage,
  s_Bay,
  s_ConductingEquipment,
  s_ConnectivityNode,
  s_ConnectivityNodeContainer,
  s_Equipment,
  s_EquipmentContainer,
  s_GeographicalRegion,
  s_IdentifiedObject,
  s_Name,
  s_NameType,
  s_NameTypeAuthority,
  s_PSRType,
  s_PowerSystemResource,
  s_SubGeographicalRegion,
  s_Substation,
  s_Terminal,
  s_VoltageLevel,
  s_ACLineSegment,
  s_Breaker,
  s_BusbarSection,
  s_Conductor,
  s_DCLineSegment,
  s_Disconnector,
  s_EnergyConsumer,
  s_EnergySource,
  s_Fuse,
  s_Ground,
  s_GroundDisconnector,
  s_Jumper,
  s_Junction,
  s_Line,
  s_LoadBreakSwitch,
  s_PowerTransformer,
  s_PowerTransformerEnd,
  s_Sectionaliser,
  s_SeriesCompensator,
  s_ShuntCompensator,
  s_Switch,
  s_SynchronousMachine,
  s_TransformerEnd,
  s_TransformerTank,
  s_TransformerTankEnd,
  s_ShuntCompensatorPhase,
  s_SwitchPhase]

end Verif.Gen.Model_CIM15_CDPSM_Connectivity
