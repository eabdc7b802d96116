import Verif.Gen.Types
/-! Generated by tools/gen.py from /repo/CIM15/CDPSM/Connectivity: do not edit. -/
namespace Verif.Gen.CIM15_CDPSM_Connectivity
set_option maxRecDepth 10000

/-- CIM15/CDPSM/Connectivity/Element.py:22 -/
def d_Element : RClass := ⟨0x456c656d656e74, 0x43494d31352e434450534d2e436f6e6e65637469766974792e456c656d656e74, 0,
  [(0x55554944, .str 0)],
  [0x55554944],
  [(0x55554944, .str 0)],
  [(0x55554944, 0x737472)],
  [],
  [],
  []⟩
def m_Element : List RClass := d_Element :: []

/-- CIM15/CDPSM/Connectivity/IEC61970/Core/IdentifiedObject.py:23 -/
def d_IdentifiedObject : RClass := ⟨0x4964656e7469666965644f626a656374, 0x43494d31352e434450534d2e436f6e6e65637469766974792e49454336313937302e436f72652e4964656e7469666965644f626a656374, 0x43494d31352e434450534d2e436f6e6e65637469766974792e456c656d656e74,
  [(0x6e616d65, .str 0), (0x616c6961734e616d65, .str 0)],
  [0x6e616d65, 0x616c6961734e616d65],
  [(0x6e616d65, .str 0), (0x616c6961734e616d65, .str 0)],
  [(0x6e616d65, 0x737472), (0x616c6961734e616d65, 0x737472)],
  [],
  [⟨0x4e616d6573, .many2one, 0x4964656e7469666965644f626a656374, 0, false⟩],
  [0x4e616d6573]⟩
def m_IdentifiedObject : List RClass := d_IdentifiedObject :: m_Element

/-- CIM15/CDPSM/Connectivity/IEC61970/Core/Name.py:23 -/
def d_Name : RClass := ⟨0x4e616d65, 0x43494d31352e434450534d2e436f6e6e65637469766974792e49454336313937302e436f72652e4e616d65, 0x43494d31352e434450534d2e436f6e6e65637469766974792e456c656d656e74,
  [(0x6e616d65, .str 0)],
  [0x6e616d65],
  [(0x6e616d65, .str 0)],
  [(0x6e616d65, 0x737472)],
  [],
  [⟨0x4964656e7469666965644f626a656374, .one2many, 0x4e616d6573, 0, false⟩, ⟨0x4e616d6554797065, .one2many, 0x4e616d6573, 0, false⟩],
  []⟩
def m_Name : List RClass := d_Name :: m_Element

/-- CIM15/CDPSM/Connectivity/IEC61970/Core/NameType.py:23 -/
def d_NameType : RClass := ⟨0x4e616d6554797065, 0x43494d31352e434450534d2e436f6e6e65637469766974792e49454336313937302e436f72652e4e616d6554797065, 0x43494d31352e434450534d2e436f6e6e65637469766974792e456c656d656e74,
  [(0x6e616d65, .str 0), (0x6465736372697074696f6e, .str 0)],
  [0x6e616d65, 0x6465736372697074696f6e],
  [(0x6e616d65, .str 0), (0x6465736372697074696f6e, .str 0)],
  [(0x6e616d65, 0x737472), (0x6465736372697074696f6e, 0x737472)],
  [],
  [⟨0x4e616d6554797065417574686f72697479, .one2many, 0x4e616d655479706573, 0, false⟩, ⟨0x4e616d6573, .many2one, 0x4e616d6554797065, 0, false⟩],
  [0x4e616d6573]⟩
def m_NameType : List RClass := d_NameType :: m_Element

/-- CIM15/CDPSM/Connectivity/IEC61970/Core/NameTypeAuthority.py:23 -/
def d_NameTypeAuthority : RClass := ⟨0x4e616d6554797065417574686f72697479, 0x43494d31352e434450534d2e436f6e6e65637469766974792e49454336313937302e436f72652e4e616d6554797065417574686f72697479, 0x43494d31352e434450534d2e436f6e6e65637469766974792e456c656d656e74,
  [(0x6e616d65, .str 0), (0x6465736372697074696f6e, .str 0)],
  [0x6e616d65, 0x6465736372697074696f6e],
  [(0x6e616d65, .str 0), (0x6465736372697074696f6e, .str 0)],
  [(0x6e616d65, 0x737472), (0x6465736372697074696f6e, 0x737472)],
  [],
  [⟨0x4e616d655479706573, .many2one, 0x4e616d6554797065417574686f72697479, 0, false⟩],
  [0x4e616d655479706573]⟩
def m_NameTypeAuthority : List RClass := d_NameTypeAuthority :: m_Element

/-- CIM15/CDPSM/Connectivity/IEC61970/Core/BaseVoltage.py:23 -/
def d_BaseVoltage : RClass := ⟨0x42617365566f6c74616765, 0x43494d31352e434450534d2e436f6e6e65637469766974792e49454336313937302e436f72652e42617365566f6c74616765, 0x43494d31352e434450534d2e436f6e6e65637469766974792e49454336313937302e436f72652e4964656e7469666965644f626a656374,
  [(0x6e6f6d696e616c566f6c74616765, .flt 0x0)],
  [0x6e6f6d696e616c566f6c74616765],
  [(0x6e6f6d696e616c566f6c74616765, .flt 0x0)],
  [(0x6e6f6d696e616c566f6c74616765, 0x666c6f6174)],
  [],
  [⟨0x436f6e64756374696e6745717569706d656e74, .many2one, 0x42617365566f6c74616765, 0, false⟩, ⟨0x566f6c746167654c6576656c, .many2one, 0x42617365566f6c74616765, 0, false⟩],
  [0x436f6e64756374696e6745717569706d656e74, 0x566f6c746167654c6576656c]⟩
def m_BaseVoltage : List RClass := d_BaseVoltage :: m_IdentifiedObject

/-- CIM15/CDPSM/Connectivity/IEC61970/Core/ConnectivityNode.py:23 -/
def d_ConnectivityNode : RClass := ⟨0x436f6e6e65637469766974794e6f6465, 0x43494d31352e434450534d2e436f6e6e65637469766974792e49454336313937302e436f72652e436f6e6e65637469766974794e6f6465, 0x43494d31352e434450534d2e436f6e6e65637469766974792e49454336313937302e436f72652e4964656e7469666965644f626a656374,
  [],
  [],
  [],
  [],
  [],
  [⟨0x436f6e6e65637469766974794e6f6465436f6e7461696e6572, .one2many, 0x436f6e6e65637469766974794e6f646573, 0, false⟩, ⟨0x5465726d696e616c73, .many2one, 0x436f6e6e65637469766974794e6f6465, 0, false⟩],
  [0x5465726d696e616c73]⟩
def m_ConnectivityNode : List RClass := d_ConnectivityNode :: m_IdentifiedObject

/-- CIM15/CDPSM/Connectivity/IEC61970/Core/GeographicalRegion.py:23 -/
def d_GeographicalRegion : RClass := ⟨0x47656f67726170686963616c526567696f6e, 0x43494d31352e434450534d2e436f6e6e65637469766974792e49454336313937302e436f72652e47656f67726170686963616c526567696f6e, 0x43494d31352e434450534d2e436f6e6e65637469766974792e49454336313937302e436f72652e4964656e7469666965644f626a656374,
  [],
  [],
  [],
  [],
  [],
  [⟨0x526567696f6e73, .many2one, 0x526567696f6e, 0, false⟩],
  [0x526567696f6e73]⟩
def m_GeographicalRegion : List RClass := d_GeographicalRegion :: m_IdentifiedObject

/-- CIM15/CDPSM/Connectivity/IEC61970/Core/PSRType.py:23 -/
def d_PSRType : RClass := ⟨0x50535254797065, 0x43494d31352e434450534d2e436f6e6e65637469766974792e49454336313937302e436f72652e50535254797065, 0x43494d31352e434450534d2e436f6e6e65637469766974792e49454336313937302e436f72652e4964656e7469666965644f626a656374,
  [],
  [],
  [],
  [],
  [],
  [],
  []⟩
def m_PSRType : List RClass := d_PSRType :: m_IdentifiedObject

/-- CIM15/CDPSM/Connectivity/IEC61970/Core/PowerSystemResource.py:23 -/
def d_PowerSystemResource : RClass := ⟨0x506f77657253797374656d5265736f75726365, 0x43494d31352e434450534d2e436f6e6e65637469766974792e49454336313937302e436f72652e506f77657253797374656d5265736f75726365, 0x43494d31352e434450534d2e436f6e6e65637469766974792e49454336313937302e436f72652e4964656e7469666965644f626a656374,
  [],
  [],
  [],
  [],
  [],
  [],
  []⟩
def m_PowerSystemResource : List RClass := d_PowerSystemResource :: m_IdentifiedObject

/-- CIM15/CDPSM/Connectivity/IEC61970/Core/SubGeographicalRegion.py:23 -/
def d_SubGeographicalRegion : RClass := ⟨0x53756247656f67726170686963616c526567696f6e, 0x43494d31352e434450534d2e436f6e6e65637469766974792e49454336313937302e436f72652e53756247656f67726170686963616c526567696f6e, 0x43494d31352e434450534d2e436f6e6e65637469766974792e49454336313937302e436f72652e4964656e7469666965644f626a656374,
  [],
  [],
  [],
  [],
  [],
  [⟨0x4c696e6573, .many2one, 0x526567696f6e, 0, false⟩, ⟨0x53756273746174696f6e73, .many2one, 0x526567696f6e, 0, false⟩, ⟨0x526567696f6e, .one2many, 0x526567696f6e73, 0, false⟩],
  [0x4c696e6573, 0x53756273746174696f6e73]⟩
def m_SubGeographicalRegion : List RClass := d_SubGeographicalRegion :: m_IdentifiedObject

/-- CIM15/CDPSM/Connectivity/IEC61970/Core/Terminal.py:23 -/
def d_Terminal : RClass := ⟨0x5465726d696e616c, 0x43494d31352e434450534d2e436f6e6e65637469766974792e49454336313937302e436f72652e5465726d696e616c, 0x43494d31352e434450534d2e436f6e6e65637469766974792e49454336313937302e436f72652e4964656e7469666965644f626a656374,
  [(0x706861736573, .str 0x7331324e)],
  [0x706861736573],
  [(0x706861736573, .str 0x7331324e)],
  [(0x706861736573, 0x737472)],
  [(0x706861736573, 0x5068617365436f6465)],
  [⟨0x436f6e6e65637469766974794e6f6465, .one2many, 0x5465726d696e616c73, 0, false⟩, ⟨0x5472616e73666f726d6572456e64, .many2one, 0x5465726d696e616c, 0, false⟩, ⟨0x436f6e64756374696e6745717569706d656e74, .one2many, 0x5465726d696e616c73, 0, false⟩],
  [0x5472616e73666f726d6572456e64]⟩
def m_Terminal : List RClass := d_Terminal :: m_IdentifiedObject

/-- CIM15/CDPSM/Connectivity/IEC61970/Wires/TransformerEnd.py:23 -/
def d_TransformerEnd : RClass := ⟨0x5472616e73666f726d6572456e64, 0x43494d31352e434450534d2e436f6e6e65637469766974792e49454336313937302e57697265732e5472616e73666f726d6572456e64, 0x43494d31352e434450534d2e436f6e6e65637469766974792e49454336313937302e436f72652e4964656e7469666965644f626a656374,
  [],
  [],
  [],
  [],
  [],
  [⟨0x5465726d696e616c, .one2many, 0x5472616e73666f726d6572456e64, 0, false⟩],
  []⟩
def m_TransformerEnd : List RClass := d_TransformerEnd :: m_IdentifiedObject

/-- CIM15/CDPSM/Connectivity/IEC61970/Core/ConnectivityNodeContainer.py:23 -/
def d_ConnectivityNodeContainer : RClass := ⟨0x436f6e6e65637469766974794e6f6465436f6e7461696e6572, 0x43494d31352e434450534d2e436f6e6e65637469766974792e49454336313937302e436f72652e436f6e6e65637469766974794e6f6465436f6e7461696e6572, 0x43494d31352e434450534d2e436f6e6e65637469766974792e49454336313937302e436f72652e506f77657253797374656d5265736f75726365,
  [],
  [],
  [],
  [],
  [],
  [⟨0x436f6e6e65637469766974794e6f646573, .many2one, 0x436f6e6e65637469766974794e6f6465436f6e7461696e6572, 0, false⟩],
  [0x436f6e6e65637469766974794e6f646573]⟩
def m_ConnectivityNodeContainer : List RClass := d_ConnectivityNodeContainer :: m_PowerSystemResource

/-- CIM15/CDPSM/Connectivity/IEC61970/Core/Equipment.py:23 -/
def d_Equipment : RClass := ⟨0x45717569706d656e74, 0x43494d31352e434450534d2e436f6e6e65637469766974792e49454336313937302e436f72652e45717569706d656e74, 0x43494d31352e434450534d2e436f6e6e65637469766974792e49454336313937302e436f72652e506f77657253797374656d5265736f75726365,
  [],
  [],
  [],
  [],
  [],
  [⟨0x45717569706d656e74436f6e7461696e6572, .one2many, 0x45717569706d656e7473, 0, false⟩],
  []⟩
def m_Equipment : List RClass := d_Equipment :: m_PowerSystemResource

/-- CIM15/CDPSM/Connectivity/IEC61970/Wires/PowerTransformerEnd.py:23 -/
def d_PowerTransformerEnd : RClass := ⟨0x506f7765725472616e73666f726d6572456e64, 0x43494d31352e434450534d2e436f6e6e65637469766974792e49454336313937302e57697265732e506f7765725472616e73666f726d6572456e64, 0x43494d31352e434450534d2e436f6e6e65637469766974792e49454336313937302e57697265732e5472616e73666f726d6572456e64,
  [],
  [],
  [],
  [],
  [],
  [⟨0x506f7765725472616e73666f726d6572, .one2many, 0x506f7765725472616e73666f726d6572456e64, 0, false⟩],
  []⟩
def m_PowerTransformerEnd : List RClass := d_PowerTransformerEnd :: m_TransformerEnd

/-- CIM15/CDPSM/Connectivity/IEC61970/Wires/TransformerTankEnd.py:23 -/
def d_TransformerTankEnd : RClass := ⟨0x5472616e73666f726d657254616e6b456e64, 0x43494d31352e434450534d2e436f6e6e65637469766974792e49454336313937302e57697265732e5472616e73666f726d657254616e6b456e64, 0x43494d31352e434450534d2e436f6e6e65637469766974792e49454336313937302e57697265732e5472616e73666f726d6572456e64,
  [(0x706861736573, .str 0x7331324e)],
  [0x706861736573],
  [(0x706861736573, .str 0x7331324e)],
  [(0x706861736573, 0x737472)],
  [(0x706861736573, 0x5068617365436f6465)],
  [⟨0x5472616e73666f726d657254616e6b, .one2many, 0x5472616e73666f726d657254616e6b456e6473, 0, false⟩],
  []⟩
def m_TransformerTankEnd : List RClass := d_TransformerTankEnd :: m_TransformerEnd

/-- CIM15/CDPSM/Connectivity/IEC61970/WiresPhaseModel/ShuntCompensatorPhase.py:23 -/
def d_ShuntCompensatorPhase : RClass := ⟨0x5368756e74436f6d70656e7361746f725068617365, 0x43494d31352e434450534d2e436f6e6e65637469766974792e49454336313937302e576972657350686173654d6f64656c2e5368756e74436f6d70656e7361746f725068617365, 0x43494d31352e434450534d2e436f6e6e65637469766974792e49454336313937302e436f72652e506f77657253797374656d5265736f75726365,
  [],
  [],
  [],
  [],
  [],
  [],
  []⟩
def m_ShuntCompensatorPhase : List RClass := d_ShuntCompensatorPhase :: m_PowerSystemResource

/-- CIM15/CDPSM/Connectivity/IEC61970/WiresPhaseModel/SwitchPhase.py:23 -/
def d_SwitchPhase : RClass := ⟨0x5377697463685068617365, 0x43494d31352e434450534d2e436f6e6e65637469766974792e49454336313937302e576972657350686173654d6f64656c2e5377697463685068617365, 0x43494d31352e434450534d2e436f6e6e65637469766974792e49454336313937302e436f72652e506f77657253797374656d5265736f75726365,
  [],
  [],
  [],
  [],
  [],
  [],
  []⟩
def m_SwitchPhase : List RClass := d_SwitchPhase :: m_PowerSystemResource

/-- CIM15/CDPSM/Connectivity/IEC61970/Core/ConductingEquipment.py:23 -/
def d_ConductingEquipment : RClass := ⟨0x436f6e64756374696e6745717569706d656e74, 0x43494d31352e434450534d2e436f6e6e65637469766974792e49454336313937302e436f72652e436f6e64756374696e6745717569706d656e74, 0x43494d31352e434450534d2e436f6e6e65637469766974792e49454336313937302e436f72652e45717569706d656e74,
  [],
  [],
  [],
  [],
  [],
  [⟨0x5465726d696e616c73, .many2one, 0x436f6e64756374696e6745717569706d656e74, 0, false⟩],
  [0x5465726d696e616c73]⟩
def m_ConductingEquipment : List RClass := d_ConductingEquipment :: m_Equipment

/-- CIM15/CDPSM/Connectivity/IEC61970/Core/EquipmentContainer.py:23 -/
def d_EquipmentContainer : RClass := ⟨0x45717569706d656e74436f6e7461696e6572, 0x43494d31352e434450534d2e436f6e6e65637469766974792e49454336313937302e436f72652e45717569706d656e74436f6e7461696e6572, 0x43494d31352e434450534d2e436f6e6e65637469766974792e49454336313937302e436f72652e436f6e6e65637469766974794e6f6465436f6e7461696e6572,
  [],
  [],
  [],
  [],
  [],
  [⟨0x45717569706d656e7473, .many2one, 0x45717569706d656e74436f6e7461696e6572, 0, false⟩],
  [0x45717569706d656e7473]⟩
def m_EquipmentContainer : List RClass := d_EquipmentContainer :: m_ConnectivityNodeContainer

/-- CIM15/CDPSM/Connectivity/IEC61970/Wires/TransformerTank.py:23 -/
def d_TransformerTank : RClass := ⟨0x5472616e73666f726d657254616e6b, 0x43494d31352e434450534d2e436f6e6e65637469766974792e49454336313937302e57697265732e5472616e73666f726d657254616e6b, 0x43494d31352e434450534d2e436f6e6e65637469766974792e49454336313937302e436f72652e45717569706d656e74,
  [],
  [],
  [],
  [],
  [],
  [⟨0x506f7765725472616e73666f726d6572, .one2many, 0x5472616e73666f726d657254616e6b73, 0, false⟩, ⟨0x5472616e73666f726d657254616e6b456e6473, .many2one, 0x5472616e73666f726d657254616e6b, 0, false⟩],
  [0x5472616e73666f726d657254616e6b456e6473]⟩
def m_TransformerTank : List RClass := d_TransformerTank :: m_Equipment

/-- CIM15/CDPSM/Connectivity/IEC61970/Core/Bay.py:23 -/
def d_Bay : RClass := ⟨0x426179, 0x43494d31352e434450534d2e436f6e6e65637469766974792e49454336313937302e436f72652e426179, 0x43494d31352e434450534d2e436f6e6e65637469766974792e49454336313937302e436f72652e45717569706d656e74436f6e7461696e6572,
  [],
  [],
  [],
  [],
  [],
  [⟨0x566f6c746167654c6576656c, .one2many, 0x42617973, 0, false⟩, ⟨0x53756273746174696f6e, .one2many, 0x42617973, 0, false⟩],
  []⟩
def m_Bay : List RClass := d_Bay :: m_EquipmentContainer

/-- CIM15/CDPSM/Connectivity/IEC61970/Core/Substation.py:23 -/
def d_Substation : RClass := ⟨0x53756273746174696f6e, 0x43494d31352e434450534d2e436f6e6e65637469766974792e49454336313937302e436f72652e53756273746174696f6e, 0x43494d31352e434450534d2e436f6e6e65637469766974792e49454336313937302e436f72652e45717569706d656e74436f6e7461696e6572,
  [],
  [],
  [],
  [],
  [],
  [⟨0x526567696f6e, .one2many, 0x53756273746174696f6e73, 0, false⟩, ⟨0x566f6c746167654c6576656c73, .many2one, 0x53756273746174696f6e, 0, false⟩, ⟨0x42617973, .many2one, 0x53756273746174696f6e, 0, false⟩],
  [0x566f6c746167654c6576656c73, 0x42617973]⟩
def m_Substation : List RClass := d_Substation :: m_EquipmentContainer

/-- CIM15/CDPSM/Connectivity/IEC61970/Core/VoltageLevel.py:23 -/
def d_VoltageLevel : RClass := ⟨0x566f6c746167654c6576656c, 0x43494d31352e434450534d2e436f6e6e65637469766974792e49454336313937302e436f72652e566f6c746167654c6576656c, 0x43494d31352e434450534d2e436f6e6e65637469766974792e49454336313937302e436f72652e45717569706d656e74436f6e7461696e6572,
  [(0x6c6f77566f6c746167654c696d6974, .flt 0x0), (0x68696768566f6c746167654c696d6974, .flt 0x0)],
  [0x6c6f77566f6c746167654c696d6974, 0x68696768566f6c746167654c696d6974],
  [(0x6c6f77566f6c746167654c696d6974, .flt 0x0), (0x68696768566f6c746167654c696d6974, .flt 0x0)],
  [(0x6c6f77566f6c746167654c696d6974, 0x666c6f6174), (0x68696768566f6c746167654c696d6974, 0x666c6f6174)],
  [],
  [⟨0x42617973, .many2one, 0x566f6c746167654c6576656c, 0, false⟩, ⟨0x42617365566f6c74616765, .one2many, 0x566f6c746167654c6576656c, 0, false⟩, ⟨0x53756273746174696f6e, .one2many, 0x566f6c746167654c6576656c73, 0, false⟩],
  [0x42617973]⟩
def m_VoltageLevel : List RClass := d_VoltageLevel :: m_EquipmentContainer

/-- CIM15/CDPSM/Connectivity/IEC61970/Wires/BusbarSection.py:23 -/
def d_BusbarSection : RClass := ⟨0x42757362617253656374696f6e, 0x43494d31352e434450534d2e436f6e6e65637469766974792e49454336313937302e57697265732e42757362617253656374696f6e, 0x43494d31352e434450534d2e436f6e6e65637469766974792e49454336313937302e436f72652e436f6e64756374696e6745717569706d656e74,
  [],
  [],
  [],
  [],
  [],
  [],
  []⟩
def m_BusbarSection : List RClass := d_BusbarSection :: m_ConductingEquipment

/-- CIM15/CDPSM/Connectivity/IEC61970/Wires/Conductor.py:23 -/
def d_Conductor : RClass := ⟨0x436f6e647563746f72, 0x43494d31352e434450534d2e436f6e6e65637469766974792e49454336313937302e57697265732e436f6e647563746f72, 0x43494d31352e434450534d2e436f6e6e65637469766974792e49454336313937302e436f72652e436f6e64756374696e6745717569706d656e74,
  [(0x6c656e677468, .flt 0x0)],
  [0x6c656e677468],
  [(0x6c656e677468, .flt 0x0)],
  [(0x6c656e677468, 0x666c6f6174)],
  [],
  [],
  []⟩
def m_Conductor : List RClass := d_Conductor :: m_ConductingEquipment

/-- CIM15/CDPSM/Connectivity/IEC61970/Wires/EnergyConsumer.py:23 -/
def d_EnergyConsumer : RClass := ⟨0x456e65726779436f6e73756d6572, 0x43494d31352e434450534d2e436f6e6e65637469766974792e49454336313937302e57697265732e456e65726779436f6e73756d6572, 0x43494d31352e434450534d2e436f6e6e65637469766974792e49454336313937302e436f72652e436f6e64756374696e6745717569706d656e74,
  [],
  [],
  [],
  [],
  [],
  [],
  []⟩
def m_EnergyConsumer : List RClass := d_EnergyConsumer :: m_ConductingEquipment

/-- CIM15/CDPSM/Connectivity/IEC61970/Wires/EnergySource.py:23 -/
def d_EnergySource : RClass := ⟨0x456e65726779536f75726365, 0x43494d31352e434450534d2e436f6e6e65637469766974792e49454336313937302e57697265732e456e65726779536f75726365, 0x43494d31352e434450534d2e436f6e6e65637469766974792e49454336313937302e436f72652e436f6e64756374696e6745717569706d656e74,
  [],
  [],
  [],
  [],
  [],
  [],
  []⟩
def m_EnergySource : List RClass := d_EnergySource :: m_ConductingEquipment

/-- CIM15/CDPSM/Connectivity/IEC61970/Wires/Ground.py:23 -/
def d_Ground : RClass := ⟨0x47726f756e64, 0x43494d31352e434450534d2e436f6e6e65637469766974792e49454336313937302e57697265732e47726f756e64, 0x43494d31352e434450534d2e436f6e6e65637469766974792e49454336313937302e436f72652e436f6e64756374696e6745717569706d656e74,
  [],
  [],
  [],
  [],
  [],
  [],
  []⟩
def m_Ground : List RClass := d_Ground :: m_ConductingEquipment

/-- CIM15/CDPSM/Connectivity/IEC61970/Wires/Junction.py:23 -/
def d_Junction : RClass := ⟨0x4a756e6374696f6e, 0x43494d31352e434450534d2e436f6e6e65637469766974792e49454336313937302e57697265732e4a756e6374696f6e, 0x43494d31352e434450534d2e436f6e6e65637469766974792e49454336313937302e436f72652e436f6e64756374696e6745717569706d656e74,
  [],
  [],
  [],
  [],
  [],
  [],
  []⟩
def m_Junction : List RClass := d_Junction :: m_ConductingEquipment

/-- CIM15/CDPSM/Connectivity/IEC61970/Wires/Line.py:23 -/
def d_Line : RClass := ⟨0x4c696e65, 0x43494d31352e434450534d2e436f6e6e65637469766974792e49454336313937302e57697265732e4c696e65, 0x43494d31352e434450534d2e436f6e6e65637469766974792e49454336313937302e436f72652e45717569706d656e74436f6e7461696e6572,
  [],
  [],
  [],
  [],
  [],
  [⟨0x526567696f6e, .one2many, 0x4c696e6573, 0, false⟩],
  []⟩
def m_Line : List RClass := d_Line :: m_EquipmentContainer

/-- CIM15/CDPSM/Connectivity/IEC61970/Wires/PowerTransformer.py:23 -/
def d_PowerTransformer : RClass := ⟨0x506f7765725472616e73666f726d6572, 0x43494d31352e434450534d2e436f6e6e65637469766974792e49454336313937302e57697265732e506f7765725472616e73666f726d6572, 0x43494d31352e434450534d2e436f6e6e65637469766974792e49454336313937302e436f72652e436f6e64756374696e6745717569706d656e74,
  [],
  [],
  [],
  [],
  [],
  [⟨0x5472616e73666f726d657254616e6b73, .many2one, 0x506f7765725472616e73666f726d6572, 0, false⟩, ⟨0x506f7765725472616e73666f726d6572456e64, .many2one, 0x506f7765725472616e73666f726d6572, 0, false⟩],
  [0x5472616e73666f726d657254616e6b73, 0x506f7765725472616e73666f726d6572456e64]⟩
def m_PowerTransformer : List RClass := d_PowerTransformer :: m_ConductingEquipment

/-- CIM15/CDPSM/Connectivity/IEC61970/Wires/SeriesCompensator.py:23 -/
def d_SeriesCompensator : RClass := ⟨0x536572696573436f6d70656e7361746f72, 0x43494d31352e434450534d2e436f6e6e65637469766974792e49454336313937302e57697265732e536572696573436f6d70656e7361746f72, 0x43494d31352e434450534d2e436f6e6e65637469766974792e49454336313937302e436f72652e436f6e64756374696e6745717569706d656e74,
  [],
  [],
  [],
  [],
  [],
  [],
  []⟩
def m_SeriesCompensator : List RClass := d_SeriesCompensator :: m_ConductingEquipment

/-- CIM15/CDPSM/Connectivity/IEC61970/Wires/ShuntCompensator.py:23 -/
def d_ShuntCompensator : RClass := ⟨0x5368756e74436f6d70656e7361746f72, 0x43494d31352e434450534d2e436f6e6e65637469766974792e49454336313937302e57697265732e5368756e74436f6d70656e7361746f72, 0x43494d31352e434450534d2e436f6e6e65637469766974792e49454336313937302e436f72652e436f6e64756374696e6745717569706d656e74,
  [],
  [],
  [],
  [],
  [],
  [],
  []⟩
def m_ShuntCompensator : List RClass := d_ShuntCompensator :: m_ConductingEquipment

/-- CIM15/CDPSM/Connectivity/IEC61970/Wires/Switch.py:23 -/
def d_Switch : RClass := ⟨0x537769746368, 0x43494d31352e434450534d2e436f6e6e65637469766974792e49454336313937302e57697265732e537769746368, 0x43494d31352e434450534d2e436f6e6e65637469766974792e49454336313937302e436f72652e436f6e64756374696e6745717569706d656e74,
  [(0x6e6f726d616c4f70656e, .bool false)],
  [0x6e6f726d616c4f70656e],
  [(0x6e6f726d616c4f70656e, .bool false)],
  [(0x6e6f726d616c4f70656e, 0x626f6f6c)],
  [],
  [],
  []⟩
def m_Switch : List RClass := d_Switch :: m_ConductingEquipment

/-- CIM15/CDPSM/Connectivity/IEC61970/Wires/SynchronousMachine.py:23 -/
def d_SynchronousMachine : RClass := ⟨0x53796e6368726f6e6f75734d616368696e65, 0x43494d31352e434450534d2e436f6e6e65637469766974792e49454336313937302e57697265732e53796e6368726f6e6f75734d616368696e65, 0x43494d31352e434450534d2e436f6e6e65637469766974792e49454336313937302e436f72652e436f6e64756374696e6745717569706d656e74,
  [],
  [],
  [],
  [],
  [],
  [],
  []⟩
def m_SynchronousMachine : List RClass := d_SynchronousMachine :: m_ConductingEquipment

/-- CIM15/CDPSM/Connectivity/IEC61970/Wires/ACLineSegment.py:23 -/
def d_ACLineSegment : RClass := ⟨0x41434c696e655365676d656e74, 0x43494d31352e434450534d2e436f6e6e65637469766974792e49454336313937302e57697265732e41434c696e655365676d656e74, 0x43494d31352e434450534d2e436f6e6e65637469766974792e49454336313937302e57697265732e436f6e647563746f72,
  [],
  [],
  [],
  [],
  [],
  [⟨0x42617365566f6c74616765, .one2many, 0x436f6e64756374696e6745717569706d656e74, 0, false⟩],
  []⟩
def m_ACLineSegment : List RClass := d_ACLineSegment :: m_Conductor

/-- CIM15/CDPSM/Connectivity/IEC61970/Wires/Breaker.py:23 -/
def d_Breaker : RClass := ⟨0x427265616b6572, 0x43494d31352e434450534d2e436f6e6e65637469766974792e49454336313937302e57697265732e427265616b6572, 0x43494d31352e434450534d2e436f6e6e65637469766974792e49454336313937302e57697265732e537769746368,
  [],
  [],
  [],
  [],
  [],
  [],
  []⟩
def m_Breaker : List RClass := d_Breaker :: m_Switch

/-- CIM15/CDPSM/Connectivity/IEC61970/Wires/DCLineSegment.py:23 -/
def d_DCLineSegment : RClass := ⟨0x44434c696e655365676d656e74, 0x43494d31352e434450534d2e436f6e6e65637469766974792e49454336313937302e57697265732e44434c696e655365676d656e74, 0x43494d31352e434450534d2e436f6e6e65637469766974792e49454336313937302e57697265732e436f6e647563746f72,
  [],
  [],
  [],
  [],
  [],
  [],
  []⟩
def m_DCLineSegment : List RClass := d_DCLineSegment :: m_Conductor

/-- CIM15/CDPSM/Connectivity/IEC61970/Wires/Disconnector.py:23 -/
def d_Disconnector : RClass := ⟨0x446973636f6e6e6563746f72, 0x43494d31352e434450534d2e436f6e6e65637469766974792e49454336313937302e57697265732e446973636f6e6e6563746f72, 0x43494d31352e434450534d2e436f6e6e65637469766974792e49454336313937302e57697265732e537769746368,
  [],
  [],
  [],
  [],
  [],
  [],
  []⟩
def m_Disconnector : List RClass := d_Disconnector :: m_Switch

/-- CIM15/CDPSM/Connectivity/IEC61970/Wires/Fuse.py:23 -/
def d_Fuse : RClass := ⟨0x46757365, 0x43494d31352e434450534d2e436f6e6e65637469766974792e49454336313937302e57697265732e46757365, 0x43494d31352e434450534d2e436f6e6e65637469766974792e49454336313937302e57697265732e537769746368,
  [],
  [],
  [],
  [],
  [],
  [],
  []⟩
def m_Fuse : List RClass := d_Fuse :: m_Switch

/-- CIM15/CDPSM/Connectivity/IEC61970/Wires/GroundDisconnector.py:23 -/
def d_GroundDisconnector : RClass := ⟨0x47726f756e64446973636f6e6e6563746f72, 0x43494d31352e434450534d2e436f6e6e65637469766974792e49454336313937302e57697265732e47726f756e64446973636f6e6e6563746f72, 0x43494d31352e434450534d2e436f6e6e65637469766974792e49454336313937302e57697265732e537769746368,
  [],
  [],
  [],
  [],
  [],
  [],
  []⟩
def m_GroundDisconnector : List RClass := d_GroundDisconnector :: m_Switch

/-- CIM15/CDPSM/Connectivity/IEC61970/Wires/Jumper.py:23 -/
def d_Jumper : RClass := ⟨0x4a756d706572, 0x43494d31352e434450534d2e436f6e6e65637469766974792e49454336313937302e57697265732e4a756d706572, 0x43494d31352e434450534d2e436f6e6e65637469766974792e49454336313937302e57697265732e537769746368,
  [],
  [],
  [],
  [],
  [],
  [],
  []⟩
def m_Jumper : List RClass := d_Jumper :: m_Switch

/-- CIM15/CDPSM/Connectivity/IEC61970/Wires/LoadBreakSwitch.py:23 -/
def d_LoadBreakSwitch : RClass := ⟨0x4c6f6164427265616b537769746368, 0x43494d31352e434450534d2e436f6e6e65637469766974792e49454336313937302e57697265732e4c6f6164427265616b537769746368, 0x43494d31352e434450534d2e436f6e6e65637469766974792e49454336313937302e57697265732e537769746368,
  [],
  [],
  [],
  [],
  [],
  [],
  []⟩
def m_LoadBreakSwitch : List RClass := d_LoadBreakSwitch :: m_Switch

/-- CIM15/CDPSM/Connectivity/IEC61970/Wires/Sectionaliser.py:23 -/
def d_Sectionaliser : RClass := ⟨0x53656374696f6e616c69736572, 0x43494d31352e434450534d2e436f6e6e65637469766974792e49454336313937302e57697265732e53656374696f6e616c69736572, 0x43494d31352e434450534d2e436f6e6e65637469766974792e49454336313937302e57697265732e537769746368,
  [],
  [],
  [],
  [],
  [],
  [],
  []⟩
def m_Sectionaliser : List RClass := d_Sectionaliser :: m_Switch

def classes : List (List RClass) := [
  m_Element,
  m_BaseVoltage,
  m_Bay,
  m_ConductingEquipment,
  m_ConnectivityNode,
  m_ConnectivityNodeContainer,
  m_Equipment,
  m_EquipmentContainer,
  m_GeographicalRegion,
  m_IdentifiedObject,
  m_Name,
  m_NameType,
  m_NameTypeAuthority,
  m_PSRType,
  m_PowerSystemResource,
  m_SubGeographicalRegion,
  m_Substation,
  m_Terminal,
  m_VoltageLevel,
  m_ACLineSegment,
  m_Breaker,
  m_BusbarSection,
  m_Conductor,
  m_DCLineSegment,
  m_Disconnector,
  m_EnergyConsumer,
  m_EnergySource,
  m_Fuse,
  m_Ground,
  m_GroundDisconnector,
  m_Jumper,
  m_Junction,
  m_Line,
  m_LoadBreakSwitch,
  m_PowerTransformer,
  m_PowerTransformerEnd,
  m_Sectionaliser,
  m_SeriesCompensator,
  m_ShuntCompensator,
  m_Switch,
  m_SynchronousMachine,
  m_TransformerEnd,
  m_TransformerTank,
  m_TransformerTankEnd,
  m_ShuntCompensatorPhase,
  m_SwitchPhase]

/-- `packageMap` of CIM15/CDPSM/Connectivity/__init__.py -/
def pmap : List (Nat × Nat) := [
  (0x456c656d656e74, 0x43494d31352e434450534d2e436f6e6e6563746976697479),
  (0x46757365, 0x43494d31352e434450534d2e436f6e6e65637469766974792e49454336313937302e5769726573),
  (0x456e65726779436f6e73756d6572, 0x43494d31352e434450534d2e436f6e6e65637469766974792e49454336313937302e5769726573),
  (0x537769746368, 0x43494d31352e434450534d2e436f6e6e65637469766974792e49454336313937302e5769726573),
  (0x446973636f6e6e6563746f72, 0x43494d31352e434450534d2e436f6e6e65637469766974792e49454336313937302e5769726573),
  (0x41434c696e655365676d656e74, 0x43494d31352e434450534d2e436f6e6e65637469766974792e49454336313937302e5769726573),
  (0x53796e6368726f6e6f75734d616368696e65, 0x43494d31352e434450534d2e436f6e6e65637469766974792e49454336313937302e5769726573),
  (0x42757362617253656374696f6e, 0x43494d31352e434450534d2e436f6e6e65637469766974792e49454336313937302e5769726573),
  (0x4c6f6164427265616b537769746368, 0x43494d31352e434450534d2e436f6e6e65637469766974792e49454336313937302e5769726573),
  (0x5472616e73666f726d657254616e6b, 0x43494d31352e434450534d2e436f6e6e65637469766974792e49454336313937302e5769726573),
  (0x47726f756e64446973636f6e6e6563746f72, 0x43494d31352e434450534d2e436f6e6e65637469766974792e49454336313937302e5769726573),
  (0x506f7765725472616e73666f726d6572456e64, 0x43494d31352e434450534d2e436f6e6e65637469766974792e49454336313937302e5769726573),
  (0x4a756e6374696f6e, 0x43494d31352e434450534d2e436f6e6e65637469766974792e49454336313937302e5769726573),
  (0x536572696573436f6d70656e7361746f72, 0x43494d31352e434450534d2e436f6e6e65637469766974792e49454336313937302e5769726573),
  (0x427265616b6572, 0x43494d31352e434450534d2e436f6e6e65637469766974792e49454336313937302e5769726573),
  (0x5472616e73666f726d657254616e6b456e64, 0x43494d31352e434450534d2e436f6e6e65637469766974792e49454336313937302e5769726573),
  (0x53656374696f6e616c69736572, 0x43494d31352e434450534d2e436f6e6e65637469766974792e49454336313937302e5769726573),
  (0x44434c696e655365676d656e74, 0x43494d31352e434450534d2e436f6e6e65637469766974792e49454336313937302e5769726573),
  (0x4c696e65, 0x43494d31352e434450534d2e436f6e6e65637469766974792e49454336313937302e5769726573),
  (0x436f6e647563746f72, 0x43494d31352e434450534d2e436f6e6e65637469766974792e49454336313937302e5769726573),
  (0x506f7765725472616e73666f726d6572, 0x43494d31352e434450534d2e436f6e6e65637469766974792e49454336313937302e5769726573),
  (0x47726f756e64, 0x43494d31352e434450534d2e436f6e6e65637469766974792e49454336313937302e5769726573),
  (0x5472616e73666f726d6572456e64, 0x43494d31352e434450534d2e436f6e6e65637469766974792e49454336313937302e5769726573),
  (0x5368756e74436f6d70656e7361746f72, 0x43494d31352e434450534d2e436f6e6e65637469766974792e49454336313937302e5769726573),
  (0x456e65726779536f75726365, 0x43494d31352e434450534d2e436f6e6e65637469766974792e49454336313937302e5769726573),
  (0x4a756d706572, 0x43494d31352e434450534d2e436f6e6e65637469766974792e49454336313937302e5769726573),
  (0x5368756e74436f6d70656e7361746f725068617365, 0x43494d31352e434450534d2e436f6e6e65637469766974792e49454336313937302e576972657350686173654d6f64656c),
  (0x5377697463685068617365, 0x43494d31352e434450534d2e436f6e6e65637469766974792e49454336313937302e576972657350686173654d6f64656c),
  (0x5465726d696e616c, 0x43494d31352e434450534d2e436f6e6e65637469766974792e49454336313937302e436f7265),
  (0x426179, 0x43494d31352e434450534d2e436f6e6e65637469766974792e49454336313937302e436f7265),
  (0x4e616d6554797065417574686f72697479, 0x43494d31352e434450534d2e436f6e6e65637469766974792e49454336313937302e436f7265),
  (0x566f6c746167654c6576656c, 0x43494d31352e434450534d2e436f6e6e65637469766974792e49454336313937302e436f7265),
  (0x53756247656f67726170686963616c526567696f6e, 0x43494d31352e434450534d2e436f6e6e65637469766974792e49454336313937302e436f7265),
  (0x50535254797065, 0x43494d31352e434450534d2e436f6e6e65637469766974792e49454336313937302e436f7265),
  (0x45717569706d656e74436f6e7461696e6572, 0x43494d31352e434450534d2e436f6e6e65637469766974792e49454336313937302e436f7265),
  (0x436f6e64756374696e6745717569706d656e74, 0x43494d31352e434450534d2e436f6e6e65637469766974792e49454336313937302e436f7265),
  (0x47656f67726170686963616c526567696f6e, 0x43494d31352e434450534d2e436f6e6e65637469766974792e49454336313937302e436f7265),
  (0x4e616d6554797065, 0x43494d31352e434450534d2e436f6e6e65637469766974792e49454336313937302e436f7265),
  (0x45717569706d656e74, 0x43494d31352e434450534d2e436f6e6e65637469766974792e49454336313937302e436f7265),
  (0x4964656e7469666965644f626a656374, 0x43494d31352e434450534d2e436f6e6e65637469766974792e49454336313937302e436f7265),
  (0x436f6e6e65637469766974794e6f6465436f6e7461696e6572, 0x43494d31352e434450534d2e436f6e6e65637469766974792e49454336313937302e436f7265),
  (0x53756273746174696f6e, 0x43494d31352e434450534d2e436f6e6e65637469766974792e49454336313937302e436f7265),
  (0x436f6e6e65637469766974794e6f6465, 0x43494d31352e434450534d2e436f6e6e65637469766974792e49454336313937302e436f7265),
  (0x4e616d65, 0x43494d31352e434450534d2e436f6e6e65637469766974792e49454336313937302e436f7265),
  (0x42617365566f6c74616765, 0x43494d31352e434450534d2e436f6e6e65637469766974792e49454336313937302e436f7265),
  (0x506f77657253797374656d5265736f75726365, 0x43494d31352e434450534d2e436f6e6e65637469766974792e49454336313937302e436f7265)]

/-- Names bound by `from m import C` in the `__init__.py` files of the packages occurring in `pmap`: (package, C, m). -/
def exports : List (Nat × Nat × Nat) := [
  (0x43494d31352e434450534d2e436f6e6e6563746976697479, 0x456c656d656e74, 0x43494d31352e434450534d2e436f6e6e65637469766974792e456c656d656e74),
  (0x43494d31352e434450534d2e436f6e6e65637469766974792e49454336313937302e436f7265, 0x5465726d696e616c, 0x43494d31352e434450534d2e436f6e6e65637469766974792e49454336313937302e436f72652e5465726d696e616c),
  (0x43494d31352e434450534d2e436f6e6e65637469766974792e49454336313937302e436f7265, 0x426179, 0x43494d31352e434450534d2e436f6e6e65637469766974792e49454336313937302e436f72652e426179),
  (0x43494d31352e434450534d2e436f6e6e65637469766974792e49454336313937302e436f7265, 0x4e616d6554797065417574686f72697479, 0x43494d31352e434450534d2e436f6e6e65637469766974792e49454336313937302e436f72652e4e616d6554797065417574686f72697479),
  (0x43494d31352e434450534d2e436f6e6e65637469766974792e49454336313937302e436f7265, 0x566f6c746167654c6576656c, 0x43494d31352e434450534d2e436f6e6e65637469766974792e49454336313937302e436f72652e566f6c746167654c6576656c),
  (0x43494d31352e434450534d2e436f6e6e65637469766974792e49454336313937302e436f7265, 0x53756247656f67726170686963616c526567696f6e, 0x43494d31352e434450534d2e436f6e6e65637469766974792e49454336313937302e436f72652e53756247656f67726170686963616c526567696f6e),
  (0x43494d31352e434450534d2e436f6e6e65637469766974792e49454336313937302e436f7265, 0x50535254797065, 0x43494d31352e434450534d2e436f6e6e65637469766974792e49454336313937302e436f72652e50535254797065),
  (0x43494d31352e434450534d2e436f6e6e65637469766974792e49454336313937302e436f7265, 0x45717569706d656e74436f6e7461696e6572, 0x43494d31352e434450534d2e436f6e6e65637469766974792e49454336313937302e436f72652e45717569706d656e74436f6e7461696e6572),
  (0x43494d31352e434450534d2e436f6e6e65637469766974792e49454336313937302e436f7265, 0x436f6e64756374696e6745717569706d656e74, 0x43494d31352e434450534d2e436f6e6e65637469766974792e49454336313937302e436f72652e436f6e64756374696e6745717569706d656e74),
  (0x43494d31352e434450534d2e436f6e6e65637469766974792e49454336313937302e436f7265, 0x47656f67726170686963616c526567696f6e, 0x43494d31352e434450534d2e436f6e6e65637469766974792e49454336313937302e436f72652e47656f67726170686963616c526567696f6e),
  (0x43494d31352e434450534d2e436f6e6e65637469766974792e49454336313937302e436f7265, 0x4e616d6554797065, 0x43494d31352e434450534d2e436f6e6e65637469766974792e49454336313937302e436f72652e4e616d6554797065),
  (0x43494d31352e434450534d2e436f6e6e65637469766974792e49454336313937302e436f7265, 0x45717569706d656e74, 0x43494d31352e434450534d2e436f6e6e65637469766974792e49454336313937302e436f72652e45717569706d656e74),
  (0x43494d31352e434450534d2e436f6e6e65637469766974792e49454336313937302e436f7265, 0x4964656e7469666965644f626a656374, 0x43494d31352e434450534d2e436f6e6e65637469766974792e49454336313937302e436f72652e4964656e7469666965644f626a656374),
  (0x43494d31352e434450534d2e436f6e6e65637469766974792e49454336313937302e436f7265, 0x436f6e6e65637469766974794e6f6465436f6e7461696e6572, 0x43494d31352e434450534d2e436f6e6e65637469766974792e49454336313937302e436f72652e436f6e6e65637469766974794e6f6465436f6e7461696e6572),
  (0x43494d31352e434450534d2e436f6e6e65637469766974792e49454336313937302e436f7265, 0x53756273746174696f6e, 0x43494d31352e434450534d2e436f6e6e65637469766974792e49454336313937302e436f72652e53756273746174696f6e),
  (0x43494d31352e434450534d2e436f6e6e65637469766974792e49454336313937302e436f7265, 0x436f6e6e65637469766974794e6f6465, 0x43494d31352e434450534d2e436f6e6e65637469766974792e49454336313937302e436f72652e436f6e6e65637469766974794e6f6465),
  (0x43494d31352e434450534d2e436f6e6e65637469766974792e49454336313937302e436f7265, 0x4e616d65, 0x43494d31352e434450534d2e436f6e6e65637469766974792e49454336313937302e436f72652e4e616d65),
  (0x43494d31352e434450534d2e436f6e6e65637469766974792e49454336313937302e436f7265, 0x42617365566f6c74616765, 0x43494d31352e434450534d2e436f6e6e65637469766974792e49454336313937302e436f72652e42617365566f6c74616765),
  (0x43494d31352e434450534d2e436f6e6e65637469766974792e49454336313937302e436f7265, 0x506f77657253797374656d5265736f75726365, 0x43494d31352e434450534d2e436f6e6e65637469766974792e49454336313937302e436f72652e506f77657253797374656d5265736f75726365),
  (0x43494d31352e434450534d2e436f6e6e65637469766974792e49454336313937302e5769726573, 0x46757365, 0x43494d31352e434450534d2e436f6e6e65637469766974792e49454336313937302e57697265732e46757365),
  (0x43494d31352e434450534d2e436f6e6e65637469766974792e49454336313937302e5769726573, 0x456e65726779436f6e73756d6572, 0x43494d31352e434450534d2e436f6e6e65637469766974792e49454336313937302e57697265732e456e65726779436f6e73756d6572),
  (0x43494d31352e434450534d2e436f6e6e65637469766974792e49454336313937302e5769726573, 0x537769746368, 0x43494d31352e434450534d2e436f6e6e65637469766974792e49454336313937302e57697265732e537769746368),
  (0x43494d31352e434450534d2e436f6e6e65637469766974792e49454336313937302e5769726573, 0x446973636f6e6e6563746f72, 0x43494d31352e434450534d2e436f6e6e65637469766974792e49454336313937302e57697265732e446973636f6e6e6563746f72),
  (0x43494d31352e434450534d2e436f6e6e65637469766974792e49454336313937302e5769726573, 0x41434c696e655365676d656e74, 0x43494d31352e434450534d2e436f6e6e65637469766974792e49454336313937302e57697265732e41434c696e655365676d656e74),
  (0x43494d31352e434450534d2e436f6e6e65637469766974792e49454336313937302e5769726573, 0x53796e6368726f6e6f75734d616368696e65, 0x43494d31352e434450534d2e436f6e6e65637469766974792e49454336313937302e57697265732e53796e6368726f6e6f75734d616368696e65),
  (0x43494d31352e434450534d2e436f6e6e65637469766974792e49454336313937302e5769726573, 0x42757362617253656374696f6e, 0x43494d31352e434450534d2e436f6e6e65637469766974792e49454336313937302e57697265732e42757362617253656374696f6e),
  (0x43494d31352e434450534d2e436f6e6e65637469766974792e49454336313937302e5769726573, 0x4c6f6164427265616b537769746368, 0x43494d31352e434450534d2e436f6e6e65637469766974792e49454336313937302e57697265732e4c6f6164427265616b537769746368),
  (0x43494d31352e434450534d2e436f6e6e65637469766974792e49454336313937302e5769726573, 0x5472616e73666f726d657254616e6b, 0x43494d31352e434450534d2e436f6e6e65637469766974792e49454336313937302e57697265732e5472616e73666f726d657254616e6b),
  (0x43494d31352e434450534d2e436f6e6e65637469766974792e49454336313937302e5769726573, 0x47726f756e64446973636f6e6e6563746f72, 0x43494d31352e434450534d2e436f6e6e65637469766974792e49454336313937302e57697265732e47726f756e64446973636f6e6e6563746f72),
  (0x43494d31352e434450534d2e436f6e6e65637469766974792e49454336313937302e5769726573, 0x506f7765725472616e73666f726d6572456e64, 0x43494d31352e434450534d2e436f6e6e65637469766974792e49454336313937302e57697265732e506f7765725472616e73666f726d6572456e64),
  (0x43494d31352e434450534d2e436f6e6e65637469766974792e49454336313937302e5769726573, 0x4a756e6374696f6e, 0x43494d31352e434450534d2e436f6e6e65637469766974792e49454336313937302e57697265732e4a756e6374696f6e),
  (0x43494d31352e434450534d2e436f6e6e65637469766974792e49454336313937302e5769726573, 0x536572696573436f6d70656e7361746f72, 0x43494d31352e434450534d2e436f6e6e65637469766974792e49454336313937302e57697265732e536572696573436f6d70656e7361746f72),
  (0x43494d31352e434450534d2e436f6e6e65637469766974792e49454336313937302e5769726573, 0x427265616b6572, 0x43494d31352e434450534d2e436f6e6e65637469766974792e49454336313937302e57697265732e427265616b6572),
  (0x43494d31352e434450534d2e436f6e6e65637469766974792e49454336313937302e5769726573, 0x5472616e73666f726d657254616e6b456e64, 0x43494d31352e434450534d2e436f6e6e65637469766974792e49454336313937302e57697265732e5472616e73666f726d657254616e6b456e64),
  (0x43494d31352e434450534d2e436f6e6e65637469766974792e49454336313937302e5769726573, 0x53656374696f6e616c69736572, 0x43494d31352e434450534d2e436f6e6e65637469766974792e49454336313937302e57697265732e53656374696f6e616c69736572),
  (0x43494d31352e434450534d2e436f6e6e65637469766974792e49454336313937302e5769726573, 0x44434c696e655365676d656e74, 0x43494d31352e434450534d2e436f6e6e65637469766974792e49454336313937302e57697265732e44434c696e655365676d656e74),
  (0x43494d31352e434450534d2e436f6e6e65637469766974792e49454336313937302e5769726573, 0x4c696e65, 0x43494d31352e434450534d2e436f6e6e65637469766974792e49454336313937302e57697265732e4c696e65),
  (0x43494d31352e434450534d2e436f6e6e65637469766974792e49454336313937302e5769726573, 0x436f6e647563746f72, 0x43494d31352e434450534d2e436f6e6e65637469766974792e49454336313937302e57697265732e436f6e647563746f72),
  (0x43494d31352e434450534d2e436f6e6e65637469766974792e49454336313937302e5769726573, 0x506f7765725472616e73666f726d6572, 0x43494d31352e434450534d2e436f6e6e65637469766974792e49454336313937302e57697265732e506f7765725472616e73666f726d6572),
  (0x43494d31352e434450534d2e436f6e6e65637469766974792e49454336313937302e5769726573, 0x47726f756e64, 0x43494d31352e434450534d2e436f6e6e65637469766974792e49454336313937302e57697265732e47726f756e64),
  (0x43494d31352e434450534d2e436f6e6e65637469766974792e49454336313937302e5769726573, 0x5472616e73666f726d6572456e64, 0x43494d31352e434450534d2e436f6e6e65637469766974792e49454336313937302e57697265732e5472616e73666f726d6572456e64),
  (0x43494d31352e434450534d2e436f6e6e65637469766974792e49454336313937302e5769726573, 0x5368756e74436f6d70656e7361746f72, 0x43494d31352e434450534d2e436f6e6e65637469766974792e49454336313937302e57697265732e5368756e74436f6d70656e7361746f72),
  (0x43494d31352e434450534d2e436f6e6e65637469766974792e49454336313937302e5769726573, 0x456e65726779536f75726365, 0x43494d31352e434450534d2e436f6e6e65637469766974792e49454336313937302e57697265732e456e65726779536f75726365),
  (0x43494d31352e434450534d2e436f6e6e65637469766974792e49454336313937302e5769726573, 0x4a756d706572, 0x43494d31352e434450534d2e436f6e6e65637469766974792e49454336313937302e57697265732e4a756d706572),
  (0x43494d31352e434450534d2e436f6e6e65637469766974792e49454336313937302e576972657350686173654d6f64656c, 0x5368756e74436f6d70656e7361746f725068617365, 0x43494d31352e434450534d2e436f6e6e65637469766974792e49454336313937302e576972657350686173654d6f64656c2e5368756e74436f6d70656e7361746f725068617365),
  (0x43494d31352e434450534d2e436f6e6e65637469766974792e49454336313937302e576972657350686173654d6f64656c, 0x5377697463685068617365, 0x43494d31352e434450534d2e436f6e6e65637469766974792e49454336313937302e576972657350686173654d6f64656c2e5377697463685068617365)]

def pkg : RPkg := ⟨0x43494d31352e434450534d2e436f6e6e6563746976697479, classes, pmap, exports⟩

end Verif.Gen.CIM15_CDPSM_Connectivity
