import Verif.Gen.Types
/-! Generated by tools/gen.py from /repo/CIM14/ENTSOE/Dynamics: do not edit. -/
namespace Verif.Gen.CIM14_ENTSOE_Dynamics
set_option maxRecDepth 10000

/-- CIM14/ENTSOE/Dynamics/Element.py:22 -/
def d_Element : RClass := ⟨0x456c656d656e74, 0x43494d31342e454e54534f452e44796e616d6963732e456c656d656e74, 0,
  [(0x55554944, .str 0)],
  [0x55554944],
  [(0x55554944, .str 0)],
  [(0x55554944, 0x737472)],
  [],
  [],
  []⟩
def m_Element : List RClass := d_Element :: []

/-- CIM14/ENTSOE/Dynamics/IEC61970/Core/CoreIdentifiedObject.py:23 -/
def d_CoreIdentifiedObject : RClass := ⟨0x436f72654964656e7469666965644f626a656374, 0x43494d31342e454e54534f452e44796e616d6963732e49454336313937302e436f72652e436f72654964656e7469666965644f626a656374, 0x43494d31342e454e54534f452e44796e616d6963732e456c656d656e74,
  [(0x6d524944, .str 0), (0x6465736372697074696f6e, .str 0), (0x6e616d65, .str 0), (0x6c6f63616c4e616d65, .str 0), (0x616c6961734e616d65, .str 0), (0x706174684e616d65, .str 0)],
  [0x6d524944, 0x6465736372697074696f6e, 0x6e616d65, 0x6c6f63616c4e616d65, 0x616c6961734e616d65, 0x706174684e616d65],
  [(0x6d524944, .str 0), (0x6465736372697074696f6e, .str 0), (0x6e616d65, .str 0), (0x6c6f63616c4e616d65, .str 0), (0x616c6961734e616d65, .str 0), (0x706174684e616d65, .str 0)],
  [(0x6d524944, 0x737472), (0x6465736372697074696f6e, 0x737472), (0x6e616d65, 0x737472), (0x6c6f63616c4e616d65, 0x737472), (0x616c6961734e616d65, 0x737472), (0x706174684e616d65, 0x737472)],
  [],
  [⟨0x4d6f64656c696e67417574686f72697479536574, .one2many, 0x4964656e7469666965644f626a65637473, 0, false⟩],
  []⟩
def m_CoreIdentifiedObject : List RClass := d_CoreIdentifiedObject :: m_Element

/-- CIM14/ENTSOE/Dynamics/IEC61970/Core/CoreOperatingShare.py:23 -/
def d_CoreOperatingShare : RClass := ⟨0x436f72654f7065726174696e675368617265, 0x43494d31342e454e54534f452e44796e616d6963732e49454336313937302e436f72652e436f72654f7065726174696e675368617265, 0x43494d31342e454e54534f452e44796e616d6963732e456c656d656e74,
  [],
  [],
  [],
  [],
  [],
  [⟨0x506f77657253797374656d5265736f75726365, .one2many, 0x4f7065726174696e675368617265, 0, false⟩],
  []⟩
def m_CoreOperatingShare : List RClass := d_CoreOperatingShare :: m_Element

/-- CIM14/ENTSOE/Dynamics/IEC61970/StateVariables/StateVariablesSvStatus.py:23 -/
def d_StateVariablesSvStatus : RClass := ⟨0x53746174655661726961626c65735376537461747573, 0x43494d31342e454e54534f452e44796e616d6963732e49454336313937302e53746174655661726961626c65732e53746174655661726961626c65735376537461747573, 0x43494d31342e454e54534f452e44796e616d6963732e456c656d656e74,
  [],
  [],
  [],
  [],
  [],
  [⟨0x436f6e64756374696e6745717569706d656e74, .one2one, 0x5376537461747573, 0, false⟩],
  []⟩
def m_StateVariablesSvStatus : List RClass := d_StateVariablesSvStatus :: m_Element

/-- CIM14/ENTSOE/Dynamics/Thing.py:23 -/
def d_Thing : RClass := ⟨0x5468696e67, 0x43494d31342e454e54534f452e44796e616d6963732e5468696e67, 0x43494d31342e454e54534f452e44796e616d6963732e456c656d656e74,
  [],
  [],
  [],
  [],
  [],
  [⟨0x5363686564756c655374657073, .plainMany, 0, 0, false⟩, ⟨0x73796e6368726f6e6f757347656e657261746f7254797065, .plainMany, 0, 0, false⟩, ⟨0x7470716f, .plainMany, 0, 0, false⟩, ⟨0x456c656374726963616c417373657473, .plainMany, 0, 0, false⟩, ⟨0x454149445f34423435453737355f373935415f343033305f383635465f3041423332303030304444442d42, .absent, 0, 0, false⟩, ⟨0x536166657479446f63756d656e7473, .plainMany, 0, 0, false⟩, ⟨0x726174656453, .plainMany, 0, 0, false⟩, ⟨0x747070646f, .plainMany, 0, 0, false⟩, ⟨0x7470646f, .plainMany, 0, 0, false⟩, ⟨0x4368616e67654974656d73, .plainMany, 0, 0, false⟩, ⟨0x4572704f7267616e69736174696f6e526f6c6573, .plainMany, 0, 0, false⟩, ⟨0x4369726375697453656374696f6e73, .plainMany, 0, 0, false⟩, ⟨0x747070716f, .plainMany, 0, 0, false⟩, ⟨0x446f63756d656e74526f6c6573, .plainMany, 0, 0, false⟩, ⟨0x5053524576656e74, .plainMany, 0, 0, false⟩, ⟨0x4f757461676553746570526f6c6573, .plainMany, 0, 0, false⟩, ⟨0x4e6574776f726b4461746153657473, .plainMany, 0, 0, false⟩],
  [0x5363686564756c655374657073, 0x73796e6368726f6e6f757347656e657261746f7254797065, 0x7470716f, 0x456c656374726963616c417373657473, 0x454149445f34423435453737355f373935415f343033305f383635465f3041423332303030304444442d42, 0x536166657479446f63756d656e7473, 0x726174656453, 0x747070646f, 0x7470646f, 0x4368616e67654974656d73, 0x4572704f7267616e69736174696f6e526f6c6573, 0x4369726375697453656374696f6e73, 0x747070716f, 0x446f63756d656e74526f6c6573, 0x5053524576656e74, 0x4f757461676553746570526f6c6573, 0x4e6574776f726b4461746153657473]⟩
def m_Thing : List RClass := d_Thing :: m_Element

/-- CIM14/ENTSOE/Dynamics/IEC61968/Assets/AssetsAsset.py:23 -/
def d_AssetsAsset : RClass := ⟨0x4173736574734173736574, 0x43494d31342e454e54534f452e44796e616d6963732e49454336313936382e4173736574732e4173736574734173736574, 0x43494d31342e454e54534f452e44796e616d6963732e49454336313937302e436f72652e436f72654964656e7469666965644f626a656374,
  [],
  [],
  [],
  [],
  [],
  [⟨0x506f77657253797374656d5265736f7572636573, .many2many, 0x417373657473, 0, false⟩],
  [0x506f77657253797374656d5265736f7572636573]⟩
def m_AssetsAsset : List RClass := d_AssetsAsset :: m_CoreIdentifiedObject

/-- CIM14/ENTSOE/Dynamics/IEC61968/Common/CommonLocation.py:23 -/
def d_CommonLocation : RClass := ⟨0x436f6d6d6f6e4c6f636174696f6e, 0x43494d31342e454e54534f452e44796e616d6963732e49454336313936382e436f6d6d6f6e2e436f6d6d6f6e4c6f636174696f6e, 0x43494d31342e454e54534f452e44796e616d6963732e49454336313937302e436f72652e436f72654964656e7469666965644f626a656374,
  [],
  [],
  [],
  [],
  [],
  [⟨0x506f77657253797374656d5265736f7572636573, .many2one, 0x4c6f636174696f6e, 0, false⟩],
  [0x506f77657253797374656d5265736f7572636573]⟩
def m_CommonLocation : List RClass := d_CommonLocation :: m_CoreIdentifiedObject

/-- CIM14/ENTSOE/Dynamics/IEC61968/Customers/CustomersCustomerAgreement.py:23 -/
def d_CustomersCustomerAgreement : RClass := ⟨0x437573746f6d657273437573746f6d657241677265656d656e74, 0x43494d31342e454e54534f452e44796e616d6963732e49454336313936382e437573746f6d6572732e437573746f6d657273437573746f6d657241677265656d656e74, 0x43494d31342e454e54534f452e44796e616d6963732e49454336313937302e436f72652e436f72654964656e7469666965644f626a656374,
  [],
  [],
  [],
  [],
  [],
  [⟨0x45717569706d656e7473, .many2many, 0x437573746f6d657241677265656d656e7473, 0, false⟩],
  [0x45717569706d656e7473]⟩
def m_CustomersCustomerAgreement : List RClass := d_CustomersCustomerAgreement :: m_CoreIdentifiedObject

/-- CIM14/ENTSOE/Dynamics/IEC61970/Contingency/ContingencyContingencyEquipment.py:23 -/
def d_ContingencyContingencyEquipment : RClass := ⟨0x436f6e74696e67656e6379436f6e74696e67656e637945717569706d656e74, 0x43494d31342e454e54534f452e44796e616d6963732e49454336313937302e436f6e74696e67656e63792e436f6e74696e67656e6379436f6e74696e67656e637945717569706d656e74, 0x43494d31342e454e54534f452e44796e616d6963732e49454336313937302e436f72652e436f72654964656e7469666965644f626a656374,
  [],
  [],
  [],
  [],
  [],
  [⟨0x45717569706d656e74, .one2many, 0x436f6e74696e67656e637945717569706d656e74, 0, false⟩],
  []⟩
def m_ContingencyContingencyEquipment : List RClass := d_ContingencyContingencyEquipment :: m_CoreIdentifiedObject

/-- CIM14/ENTSOE/Dynamics/IEC61970/Core/CoreBaseVoltage.py:23 -/
def d_CoreBaseVoltage : RClass := ⟨0x436f726542617365566f6c74616765, 0x43494d31342e454e54534f452e44796e616d6963732e49454336313937302e436f72652e436f726542617365566f6c74616765, 0x43494d31342e454e54534f452e44796e616d6963732e49454336313937302e436f72652e436f72654964656e7469666965644f626a656374,
  [],
  [],
  [],
  [],
  [],
  [⟨0x436f6e64756374696e6745717569706d656e74, .many2one, 0x42617365566f6c74616765, 0, false⟩],
  [0x436f6e64756374696e6745717569706d656e74]⟩
def m_CoreBaseVoltage : List RClass := d_CoreBaseVoltage :: m_CoreIdentifiedObject

/-- CIM14/ENTSOE/Dynamics/IEC61970/Core/CorePSRType.py:23 -/
def d_CorePSRType : RClass := ⟨0x436f726550535254797065, 0x43494d31342e454e54534f452e44796e616d6963732e49454336313937302e436f72652e436f726550535254797065, 0x43494d31342e454e54534f452e44796e616d6963732e49454336313937302e436f72652e436f72654964656e7469666965644f626a656374,
  [],
  [],
  [],
  [],
  [],
  [⟨0x506f77657253797374656d5265736f7572636573, .many2one, 0x50535254797065, 0, false⟩],
  [0x506f77657253797374656d5265736f7572636573]⟩
def m_CorePSRType : List RClass := d_CorePSRType :: m_CoreIdentifiedObject

/-- CIM14/ENTSOE/Dynamics/IEC61970/Core/CorePowerSystemResource.py:23 -/
def d_CorePowerSystemResource : RClass := ⟨0x436f7265506f77657253797374656d5265736f75726365, 0x43494d31342e454e54534f452e44796e616d6963732e49454336313937302e436f72652e436f7265506f77657253797374656d5265736f75726365, 0x43494d31342e454e54534f452e44796e616d6963732e49454336313937302e436f72652e436f72654964656e7469666965644f626a656374,
  [],
  [],
  [],
  [],
  [],
  [⟨0x426c6f636b, .many2one, 0x506f77657253797374656d5265736f75726365, 0, false⟩, ⟨0x4c6f636174696f6e, .one2many, 0x506f77657253797374656d5265736f7572636573, 0, false⟩, ⟨0x5265706f7274696e6747726f7570, .many2many, 0x506f77657253797374656d5265736f75726365, 0, false⟩, ⟨0x5073724c69737473, .many2many, 0x506f77657253797374656d5265736f7572636573, 0, false⟩, ⟨0x4f7065726174696e675368617265, .many2one, 0x506f77657253797374656d5265736f75726365, 0, false⟩, ⟨0x4f75746167655363686564756c65, .one2one, 0x506f77657253797374656d5265736f75726365, 0, false⟩, ⟨0x4d6561737572656d656e7473, .many2one, 0x506f77657253797374656d5265736f75726365, 0, false⟩, ⟨0x417373657473, .many2many, 0x506f77657253797374656d5265736f7572636573, 0, false⟩, ⟨0x50535254797065, .one2many, 0x506f77657253797374656d5265736f7572636573, 0, false⟩],
  [0x426c6f636b, 0x5265706f7274696e6747726f7570, 0x5073724c69737473, 0x4f7065726174696e675368617265, 0x4d6561737572656d656e7473, 0x417373657473]⟩
def m_CorePowerSystemResource : List RClass := d_CorePowerSystemResource :: m_CoreIdentifiedObject

/-- CIM14/ENTSOE/Dynamics/IEC61970/Core/CorePsrList.py:23 -/
def d_CorePsrList : RClass := ⟨0x436f72655073724c697374, 0x43494d31342e454e54534f452e44796e616d6963732e49454336313937302e436f72652e436f72655073724c697374, 0x43494d31342e454e54534f452e44796e616d6963732e49454336313937302e436f72652e436f72654964656e7469666965644f626a656374,
  [],
  [],
  [],
  [],
  [],
  [⟨0x506f77657253797374656d5265736f7572636573, .many2many, 0x5073724c69737473, 0, false⟩],
  [0x506f77657253797374656d5265736f7572636573]⟩
def m_CorePsrList : List RClass := d_CorePsrList :: m_CoreIdentifiedObject

/-- CIM14/ENTSOE/Dynamics/IEC61970/Core/CoreReportingGroup.py:23 -/
def d_CoreReportingGroup : RClass := ⟨0x436f72655265706f7274696e6747726f7570, 0x43494d31342e454e54534f452e44796e616d6963732e49454336313937302e436f72652e436f72655265706f7274696e6747726f7570, 0x43494d31342e454e54534f452e44796e616d6963732e49454336313937302e436f72652e436f72654964656e7469666965644f626a656374,
  [],
  [],
  [],
  [],
  [],
  [⟨0x506f77657253797374656d5265736f75726365, .many2many, 0x5265706f7274696e6747726f7570, 0, false⟩],
  [0x506f77657253797374656d5265736f75726365]⟩
def m_CoreReportingGroup : List RClass := d_CoreReportingGroup :: m_CoreIdentifiedObject

/-- CIM14/ENTSOE/Dynamics/IEC61970/Core/CoreTerminal.py:23 -/
def d_CoreTerminal : RClass := ⟨0x436f72655465726d696e616c, 0x43494d31342e454e54534f452e44796e616d6963732e49454336313937302e436f72652e436f72655465726d696e616c, 0x43494d31342e454e54534f452e44796e616d6963732e49454336313937302e436f72652e436f72654964656e7469666965644f626a656374,
  [],
  [],
  [],
  [],
  [],
  [⟨0x436f6e64756374696e6745717569706d656e74, .one2many, 0x5465726d696e616c73, 0, false⟩],
  []⟩
def m_CoreTerminal : List RClass := d_CoreTerminal :: m_CoreIdentifiedObject

/-- CIM14/ENTSOE/Dynamics/IEC61970/Dynamics/DynamicsBlockConnection.py:23 -/
def d_DynamicsBlockConnection : RClass := ⟨0x44796e616d696373426c6f636b436f6e6e656374696f6e, 0x43494d31342e454e54534f452e44796e616d6963732e49454336313937302e44796e616d6963732e44796e616d696373426c6f636b436f6e6e656374696f6e, 0x43494d31342e454e54534f452e44796e616d6963732e49454336313937302e436f72652e436f72654964656e7469666965644f626a656374,
  [],
  [],
  [],
  [],
  [],
  [⟨0x4d656d6265724f665f426c6f636b436f6e6e6563746976697479, .one2many, 0x426c6f636b436f6e6e656374696f6e, 0, false⟩, ⟨0x4d657461426c6f636b436f6e6e656374696f6e, .one2many, 0x426c6f636b436f6e6e656374696f6e, 0, false⟩, ⟨0x426c6f636b, .one2many, 0x426c6f636b436f6e6e656374696f6e, 0, false⟩],
  []⟩
def m_DynamicsBlockConnection : List RClass := d_DynamicsBlockConnection :: m_CoreIdentifiedObject

/-- CIM14/ENTSOE/Dynamics/IEC61970/Dynamics/DynamicsBlockConnectivity.py:23 -/
def d_DynamicsBlockConnectivity : RClass := ⟨0x44796e616d696373426c6f636b436f6e6e6563746976697479, 0x43494d31342e454e54534f452e44796e616d6963732e49454336313937302e44796e616d6963732e44796e616d696373426c6f636b436f6e6e6563746976697479, 0x43494d31342e454e54534f452e44796e616d6963732e49454336313937302e436f72652e436f72654964656e7469666965644f626a656374,
  [],
  [],
  [],
  [],
  [],
  [⟨0x426c6f636b, .many2one, 0x4d656d6265724f665f426c6f636b436f6e6e6563746976697479, 0, false⟩, ⟨0x426c6f636b436f6e6e656374696f6e, .many2one, 0x4d656d6265724f665f426c6f636b436f6e6e6563746976697479, 0, false⟩, ⟨0x4d657461426c6f636b436f6e6e6563746976697479, .one2many, 0x426c6f636b436f6e6e6563746976697479, 0, false⟩],
  [0x426c6f636b, 0x426c6f636b436f6e6e656374696f6e]⟩
def m_DynamicsBlockConnectivity : List RClass := d_DynamicsBlockConnectivity :: m_CoreIdentifiedObject

/-- CIM14/ENTSOE/Dynamics/IEC61970/Dynamics/DynamicsBlockParameter.py:23 -/
def d_DynamicsBlockParameter : RClass := ⟨0x44796e616d696373426c6f636b506172616d65746572, 0x43494d31342e454e54534f452e44796e616d6963732e49454336313937302e44796e616d6963732e44796e616d696373426c6f636b506172616d65746572, 0x43494d31342e454e54534f452e44796e616d6963732e49454336313937302e436f72652e436f72654964656e7469666965644f626a656374,
  [(0x76616c7565, .flt 0x0)],
  [0x76616c7565],
  [(0x76616c7565, .flt 0x0)],
  [(0x76616c7565, 0x666c6f6174)],
  [],
  [⟨0x4d657461426c6f636b506172616d65746572, .one2many, 0x426c6f636b506172616d65746572, 0, false⟩, ⟨0x4d656d6265724f665f4d657461426c6f636b5265666572656e6365, .one2many, 0x426c6f636b506172616d65746572, 0, false⟩, ⟨0x4d656d6265724f665f426c6f636b, .one2many, 0x426c6f636b506172616d65746572, 0, false⟩],
  []⟩
def m_DynamicsBlockParameter : List RClass := d_DynamicsBlockParameter :: m_CoreIdentifiedObject

/-- CIM14/ENTSOE/Dynamics/IEC61970/Dynamics/DynamicsMetaBlock.py:23 -/
def d_DynamicsMetaBlock : RClass := ⟨0x44796e616d6963734d657461426c6f636b, 0x43494d31342e454e54534f452e44796e616d6963732e49454336313937302e44796e616d6963732e44796e616d6963734d657461426c6f636b, 0x43494d31342e454e54534f452e44796e616d6963732e49454336313937302e436f72652e436f72654964656e7469666965644f626a656374,
  [(0x626c6f636b4b696e64, .str 0), (0x70726f7072696574617279, .bool false)],
  [0x626c6f636b4b696e64, 0x70726f7072696574617279],
  [(0x626c6f636b4b696e64, .str 0), (0x70726f7072696574617279, .bool false)],
  [(0x626c6f636b4b696e64, 0x737472), (0x70726f7072696574617279, 0x626f6f6c)],
  [(0x626c6f636b4b696e64, 0x44796e616d696373426c6f636b4b696e64)],
  [⟨0x426c6f636b, .many2one, 0x4d657461426c6f636b, 0, false⟩, ⟨0x4d657461426c6f636b5369676e616c, .many2one, 0x4d656d6265724f665f4d657461426c6f636b, 0, false⟩, ⟨0x4d657461426c6f636b5265666572656e6365, .many2one, 0x4d656d6265724f665f4d657461426c6f636b, 0, false⟩, ⟨0x4d657461426c6f636b506172616d65746572, .many2one, 0x4d656d6265724f665f4d657461426c6f636b, 0, false⟩, ⟨0x4d657461426c6f636b4f7574707574, .many2one, 0x4d656d6265724f665f4d657461426c6f636b, 0, false⟩, ⟨0x4d657461426c6f636b496e707574, .many2one, 0x4d656d6265724f665f4d657461426c6f636b, 0, false⟩, ⟨0x4d657461426c6f636b5374617465, .many2one, 0x4d656d6265724f665f4d657461426c6f636b, 0, false⟩],
  [0x426c6f636b, 0x4d657461426c6f636b5369676e616c, 0x4d657461426c6f636b5265666572656e6365, 0x4d657461426c6f636b506172616d65746572, 0x4d657461426c6f636b4f7574707574, 0x4d657461426c6f636b496e707574, 0x4d657461426c6f636b5374617465]⟩
def m_DynamicsMetaBlock : List RClass := d_DynamicsMetaBlock :: m_CoreIdentifiedObject

/-- CIM14/ENTSOE/Dynamics/IEC61970/Dynamics/DynamicsMetaBlockConInput.py:23 -/
def d_DynamicsMetaBlockConInput : RClass := ⟨0x44796e616d6963734d657461426c6f636b436f6e496e707574, 0x43494d31342e454e54534f452e44796e616d6963732e49454336313937302e44796e616d6963732e44796e616d6963734d657461426c6f636b436f6e496e707574, 0x43494d31342e454e54534f452e44796e616d6963732e49454336313937302e436f72652e436f72654964656e7469666965644f626a656374,
  [],
  [],
  [],
  [],
  [],
  [⟨0x4d657461426c6f636b436f6e5369676e616c, .one2one, 0x4d657461426c6f636b436f6e496e707574, 0, false⟩, ⟨0x4d656d6265724f665f4d657461426c6f636b436f6e6e656374696f6e, .one2many, 0x4d657461426c6f636b436f6e496e707574, 0, false⟩],
  []⟩
def m_DynamicsMetaBlockConInput : List RClass := d_DynamicsMetaBlockConInput :: m_CoreIdentifiedObject

/-- CIM14/ENTSOE/Dynamics/IEC61970/Dynamics/DynamicsMetaBlockConOutput.py:23 -/
def d_DynamicsMetaBlockConOutput : RClass := ⟨0x44796e616d6963734d657461426c6f636b436f6e4f7574707574, 0x43494d31342e454e54534f452e44796e616d6963732e49454336313937302e44796e616d6963732e44796e616d6963734d657461426c6f636b436f6e4f7574707574, 0x43494d31342e454e54534f452e44796e616d6963732e49454336313937302e436f72652e436f72654964656e7469666965644f626a656374,
  [],
  [],
  [],
  [],
  [],
  [⟨0x4d656d6265724f665f4d657461426c6f636b436f6e6e656374696f6e, .one2many, 0x4d657461426c6f636b436f6e4f7574707574, 0, false⟩, ⟨0x4d657461426c6f636b436f6e5369676e616c, .many2one, 0x4d657461426c6f636b436f6e4f7574707574, 0, false⟩],
  [0x4d657461426c6f636b436f6e5369676e616c]⟩
def m_DynamicsMetaBlockConOutput : List RClass := d_DynamicsMetaBlockConOutput :: m_CoreIdentifiedObject

/-- CIM14/ENTSOE/Dynamics/IEC61970/Dynamics/DynamicsMetaBlockConSignal.py:23 -/
def d_DynamicsMetaBlockConSignal : RClass := ⟨0x44796e616d6963734d657461426c6f636b436f6e5369676e616c, 0x43494d31342e454e54534f452e44796e616d6963732e49454336313937302e44796e616d6963732e44796e616d6963734d657461426c6f636b436f6e5369676e616c, 0x43494d31342e454e54534f452e44796e616d6963732e49454336313937302e436f72652e436f72654964656e7469666965644f626a656374,
  [],
  [],
  [],
  [],
  [],
  [⟨0x4d657461426c6f636b436f6e496e707574, .one2one, 0x4d657461426c6f636b436f6e5369676e616c, 0, false⟩, ⟨0x4d657461426c6f636b436f6e4f7574707574, .one2many, 0x4d657461426c6f636b436f6e5369676e616c, 0, false⟩],
  []⟩
def m_DynamicsMetaBlockConSignal : List RClass := d_DynamicsMetaBlockConSignal :: m_CoreIdentifiedObject

/-- CIM14/ENTSOE/Dynamics/IEC61970/Dynamics/DynamicsMetaBlockConnectable.py:23 -/
def d_DynamicsMetaBlockConnectable : RClass := ⟨0x44796e616d6963734d657461426c6f636b436f6e6e65637461626c65, 0x43494d31342e454e54534f452e44796e616d6963732e49454336313937302e44796e616d6963732e44796e616d6963734d657461426c6f636b436f6e6e65637461626c65, 0x43494d31342e454e54534f452e44796e616d6963732e49454336313937302e436f72652e436f72654964656e7469666965644f626a656374,
  [],
  [],
  [],
  [],
  [],
  [⟨0x4d657461426c6f636b506172616d657465725265666572656e6365, .many2one, 0x4d657461426c6f636b436f6e6e65637461626c65, 0, false⟩, ⟨0x5374616e64617264436f6e74726f6c426c6f636b5f4d657461426c6f636b496e7075745265666572656e6365, .many2one, 0x5374616e64617264436f6e74726f6c426c6f636b5f4d657461426c6f636b436f6e6e65637461626c65, 0, false⟩, ⟨0x4d657461426c6f636b53746174655265666572656e6365, .many2one, 0x4d657461426c6f636b436f6e6e65637461626c65, 0, false⟩, ⟨0x5374616e64617264436f6e74726f6c426c6f636b5f4d657461426c6f636b53746174655265666572656e6365, .many2one, 0x5374616e64617264436f6e74726f6c426c6f636b5f4d657461426c6f636b436f6e6e65637461626c65, 0, false⟩, ⟨0x4d657461426c6f636b496e7075745265666572656e6365, .many2one, 0x4d657461426c6f636b436f6e6e65637461626c65, 0, false⟩, ⟨0x5374616e64617264436f6e74726f6c426c6f636b5f4d657461426c6f636b506172616d657465725265666572656e6365, .many2one, 0x5374616e64617264436f6e74726f6c426c6f636b5f4d657461426c6f636b436f6e6e65637461626c65, 0, false⟩, ⟨0x5374616e64617264436f6e74726f6c426c6f636b5f4d657461426c6f636b4f75747075745265666572656e6365, .many2one, 0x5374616e64617264436f6e74726f6c426c6f636b5f4d657461426c6f636b436f6e6e65637461626c65, 0, false⟩, ⟨0x4d657461426c6f636b4f75747075745265666572656e6365, .many2one, 0x4d657461426c6f636b436f6e6e65637461626c65, 0, false⟩],
  [0x4d657461426c6f636b506172616d657465725265666572656e6365, 0x5374616e64617264436f6e74726f6c426c6f636b5f4d657461426c6f636b496e7075745265666572656e6365, 0x4d657461426c6f636b53746174655265666572656e6365, 0x5374616e64617264436f6e74726f6c426c6f636b5f4d657461426c6f636b53746174655265666572656e6365, 0x4d657461426c6f636b496e7075745265666572656e6365, 0x5374616e64617264436f6e74726f6c426c6f636b5f4d657461426c6f636b506172616d657465725265666572656e6365, 0x5374616e64617264436f6e74726f6c426c6f636b5f4d657461426c6f636b4f75747075745265666572656e6365, 0x4d657461426c6f636b4f75747075745265666572656e6365]⟩
def m_DynamicsMetaBlockConnectable : List RClass := d_DynamicsMetaBlockConnectable :: m_CoreIdentifiedObject

/-- CIM14/ENTSOE/Dynamics/IEC61970/Dynamics/DynamicsMetaBlockConnection.py:23 -/
def d_DynamicsMetaBlockConnection : RClass := ⟨0x44796e616d6963734d657461426c6f636b436f6e6e656374696f6e, 0x43494d31342e454e54534f452e44796e616d6963732e49454336313937302e44796e616d6963732e44796e616d6963734d657461426c6f636b436f6e6e656374696f6e, 0x43494d31342e454e54534f452e44796e616d6963732e49454336313937302e436f72652e436f72654964656e7469666965644f626a656374,
  [],
  [],
  [],
  [],
  [],
  [⟨0x4d657461426c6f636b436f6e4f7574707574, .many2one, 0x4d656d6265724f665f4d657461426c6f636b436f6e6e656374696f6e, 0, false⟩, ⟨0x4d656d6265724f665f4d657461426c6f636b436f6e6e6563746976697479, .one2many, 0x4d657461426c6f636b436f6e6e656374696f6e, 0, false⟩, ⟨0x426c6f636b436f6e6e656374696f6e, .many2one, 0x4d657461426c6f636b436f6e6e656374696f6e, 0, false⟩, ⟨0x4d657461426c6f636b436f6e496e707574, .many2one, 0x4d656d6265724f665f4d657461426c6f636b436f6e6e656374696f6e, 0, false⟩],
  [0x4d657461426c6f636b436f6e4f7574707574, 0x426c6f636b436f6e6e656374696f6e, 0x4d657461426c6f636b436f6e496e707574]⟩
def m_DynamicsMetaBlockConnection : List RClass := d_DynamicsMetaBlockConnection :: m_CoreIdentifiedObject

/-- CIM14/ENTSOE/Dynamics/IEC61970/Dynamics/DynamicsMetaBlockConnectivity.py:23 -/
def d_DynamicsMetaBlockConnectivity : RClass := ⟨0x44796e616d6963734d657461426c6f636b436f6e6e6563746976697479, 0x43494d31342e454e54534f452e44796e616d6963732e49454336313937302e44796e616d6963732e44796e616d6963734d657461426c6f636b436f6e6e6563746976697479, 0x43494d31342e454e54534f452e44796e616d6963732e49454336313937302e436f72652e436f72654964656e7469666965644f626a656374,
  [],
  [],
  [],
  [],
  [],
  [⟨0x426c6f636b436f6e6e6563746976697479, .many2one, 0x4d657461426c6f636b436f6e6e6563746976697479, 0, false⟩, ⟨0x4d657461426c6f636b436f6e6e656374696f6e, .many2one, 0x4d656d6265724f665f4d657461426c6f636b436f6e6e6563746976697479, 0, false⟩],
  [0x426c6f636b436f6e6e6563746976697479, 0x4d657461426c6f636b436f6e6e656374696f6e]⟩
def m_DynamicsMetaBlockConnectivity : List RClass := d_DynamicsMetaBlockConnectivity :: m_CoreIdentifiedObject

/-- CIM14/ENTSOE/Dynamics/IEC61970/Dynamics/DynamicsMetaBlockInputReference.py:23 -/
def d_DynamicsMetaBlockInputReference : RClass := ⟨0x44796e616d6963734d657461426c6f636b496e7075745265666572656e6365, 0x43494d31342e454e54534f452e44796e616d6963732e49454336313937302e44796e616d6963732e44796e616d6963734d657461426c6f636b496e7075745265666572656e6365, 0x43494d31342e454e54534f452e44796e616d6963732e49454336313937302e436f72652e436f72654964656e7469666965644f626a656374,
  [],
  [],
  [],
  [],
  [],
  [⟨0x4d656d6265724f665f4d657461426c6f636b5265666572656e6365, .one2many, 0x4d657461426c6f636b496e7075745265666572656e6365, 0, false⟩, ⟨0x4d657461426c6f636b5369676e616c, .one2one, 0x46726f6d, 0, false⟩, ⟨0x4d657461426c6f636b436f6e6e65637461626c65, .one2many, 0x4d657461426c6f636b496e7075745265666572656e6365, 0, false⟩, ⟨0x5374616e64617264436f6e74726f6c426c6f636b5f4d657461426c6f636b436f6e6e65637461626c65, .one2many, 0x5374616e64617264436f6e74726f6c426c6f636b5f4d657461426c6f636b496e7075745265666572656e6365, 0, false⟩],
  []⟩
def m_DynamicsMetaBlockInputReference : List RClass := d_DynamicsMetaBlockInputReference :: m_CoreIdentifiedObject

/-- CIM14/ENTSOE/Dynamics/IEC61970/Dynamics/DynamicsMetaBlockOutputReference.py:23 -/
def d_DynamicsMetaBlockOutputReference : RClass := ⟨0x44796e616d6963734d657461426c6f636b4f75747075745265666572656e6365, 0x43494d31342e454e54534f452e44796e616d6963732e49454336313937302e44796e616d6963732e44796e616d6963734d657461426c6f636b4f75747075745265666572656e6365, 0x43494d31342e454e54534f452e44796e616d6963732e49454336313937302e436f72652e436f72654964656e7469666965644f626a656374,
  [],
  [],
  [],
  [],
  [],
  [⟨0x4d657461426c6f636b5369676e616c, .many2one, 0x546f, 0, false⟩, ⟨0x4d657461426c6f636b436f6e6e65637461626c65, .one2many, 0x4d657461426c6f636b4f75747075745265666572656e6365, 0, false⟩, ⟨0x5374616e64617264436f6e74726f6c426c6f636b5f4d657461426c6f636b436f6e6e65637461626c65, .one2many, 0x5374616e64617264436f6e74726f6c426c6f636b5f4d657461426c6f636b4f75747075745265666572656e6365, 0, false⟩, ⟨0x4d656d6265724f665f4d657461426c6f636b5265666572656e6365, .one2many, 0x4d657461426c6f636b4f75747075745265666572656e6365, 0, false⟩],
  [0x4d657461426c6f636b5369676e616c]⟩
def m_DynamicsMetaBlockOutputReference : List RClass := d_DynamicsMetaBlockOutputReference :: m_CoreIdentifiedObject

/-- CIM14/ENTSOE/Dynamics/IEC61970/Dynamics/DynamicsMetaBlockParameterReference.py:23 -/
def d_DynamicsMetaBlockParameterReference : RClass := ⟨0x44796e616d6963734d657461426c6f636b506172616d657465725265666572656e6365, 0x43494d31342e454e54534f452e44796e616d6963732e49454336313937302e44796e616d6963732e44796e616d6963734d657461426c6f636b506172616d657465725265666572656e6365, 0x43494d31342e454e54534f452e44796e616d6963732e49454336313937302e436f72652e436f72654964656e7469666965644f626a656374,
  [],
  [],
  [],
  [],
  [],
  [⟨0x5374616e64617264436f6e74726f6c426c6f636b5f4d657461426c6f636b436f6e6e65637461626c65, .one2many, 0x5374616e64617264436f6e74726f6c426c6f636b5f4d657461426c6f636b506172616d657465725265666572656e6365, 0, false⟩, ⟨0x4d657461426c6f636b436f6e6e65637461626c65, .one2many, 0x4d657461426c6f636b506172616d657465725265666572656e6365, 0, false⟩, ⟨0x4d656d6265724f665f4d657461426c6f636b5265666572656e6365, .one2many, 0x4d657461426c6f636b506172616d657465725265666572656e6365, 0, false⟩],
  []⟩
def m_DynamicsMetaBlockParameterReference : List RClass := d_DynamicsMetaBlockParameterReference :: m_CoreIdentifiedObject

/-- CIM14/ENTSOE/Dynamics/IEC61970/Dynamics/DynamicsMetaBlockReference.py:23 -/
def d_DynamicsMetaBlockReference : RClass := ⟨0x44796e616d6963734d657461426c6f636b5265666572656e6365, 0x43494d31342e454e54534f452e44796e616d6963732e49454336313937302e44796e616d6963732e44796e616d6963734d657461426c6f636b5265666572656e6365, 0x43494d31342e454e54534f452e44796e616d6963732e49454336313937302e436f72652e436f72654964656e7469666965644f626a656374,
  [(0x6571756174696f6e54797065, .str 0)],
  [0x6571756174696f6e54797065],
  [(0x6571756174696f6e54797065, .str 0)],
  [(0x6571756174696f6e54797065, 0x737472)],
  [],
  [⟨0x4d657461426c6f636b53746174655265666572656e6365, .many2one, 0x4d656d6265724f665f4d657461426c6f636b5265666572656e6365, 0, false⟩, ⟨0x4d656d6265724f665f4d657461426c6f636b, .one2many, 0x4d657461426c6f636b5265666572656e6365, 0, false⟩, ⟨0x4d657461426c6f636b496e7075745265666572656e6365, .many2one, 0x4d656d6265724f665f4d657461426c6f636b5265666572656e6365, 0, false⟩, ⟨0x426c6f636b506172616d65746572, .many2one, 0x4d656d6265724f665f4d657461426c6f636b5265666572656e6365, 0, false⟩, ⟨0x4d657461426c6f636b, .plainMany, 0, 0, false⟩, ⟨0x4d657461426c6f636b4f75747075745265666572656e6365, .many2one, 0x4d656d6265724f665f4d657461426c6f636b5265666572656e6365, 0, false⟩, ⟨0x4d657461426c6f636b506172616d657465725265666572656e6365, .many2one, 0x4d656d6265724f665f4d657461426c6f636b5265666572656e6365, 0, false⟩],
  [0x4d657461426c6f636b53746174655265666572656e6365, 0x4d657461426c6f636b496e7075745265666572656e6365, 0x426c6f636b506172616d65746572, 0x4d657461426c6f636b, 0x4d657461426c6f636b4f75747075745265666572656e6365, 0x4d657461426c6f636b506172616d657465725265666572656e6365]⟩
def m_DynamicsMetaBlockReference : List RClass := d_DynamicsMetaBlockReference :: m_CoreIdentifiedObject

/-- CIM14/ENTSOE/Dynamics/IEC61970/Dynamics/DynamicsMetaBlockSignal.py:23 -/
def d_DynamicsMetaBlockSignal : RClass := ⟨0x44796e616d6963734d657461426c6f636b5369676e616c, 0x43494d31342e454e54534f452e44796e616d6963732e49454336313937302e44796e616d6963732e44796e616d6963734d657461426c6f636b5369676e616c, 0x43494d31342e454e54534f452e44796e616d6963732e49454336313937302e436f72652e436f72654964656e7469666965644f626a656374,
  [],
  [],
  [],
  [],
  [],
  [⟨0x546f, .one2many, 0x4d657461426c6f636b5369676e616c, 0, false⟩, ⟨0x46726f6d, .one2one, 0x4d657461426c6f636b5369676e616c, 0, false⟩, ⟨0x4d656d6265724f665f4d657461426c6f636b, .one2many, 0x4d657461426c6f636b5369676e616c, 0, false⟩],
  []⟩
def m_DynamicsMetaBlockSignal : List RClass := d_DynamicsMetaBlockSignal :: m_CoreIdentifiedObject

/-- CIM14/ENTSOE/Dynamics/IEC61970/Dynamics/DynamicsMetaBlockStateReference.py:23 -/
def d_DynamicsMetaBlockStateReference : RClass := ⟨0x44796e616d6963734d657461426c6f636b53746174655265666572656e6365, 0x43494d31342e454e54534f452e44796e616d6963732e49454336313937302e44796e616d6963732e44796e616d6963734d657461426c6f636b53746174655265666572656e6365, 0x43494d31342e454e54534f452e44796e616d6963732e49454336313937302e436f72652e436f72654964656e7469666965644f626a656374,
  [(0x706f736974697665466c6f77496e, .bool false)],
  [0x706f736974697665466c6f77496e],
  [(0x706f736974697665466c6f77496e, .bool false)],
  [(0x706f736974697665466c6f77496e, 0x626f6f6c)],
  [],
  [⟨0x4d657461426c6f636b436f6e6e65637461626c65, .one2many, 0x4d657461426c6f636b53746174655265666572656e6365, 0, false⟩, ⟨0x5374616e64617264436f6e74726f6c426c6f636b5f4d657461426c6f636b436f6e6e65637461626c65, .one2many, 0x5374616e64617264436f6e74726f6c426c6f636b5f4d657461426c6f636b53746174655265666572656e6365, 0, false⟩, ⟨0x4d656d6265724f665f4d657461426c6f636b5265666572656e6365, .one2many, 0x4d657461426c6f636b53746174655265666572656e6365, 0, false⟩],
  []⟩
def m_DynamicsMetaBlockStateReference : List RClass := d_DynamicsMetaBlockStateReference :: m_CoreIdentifiedObject

/-- CIM14/ENTSOE/Dynamics/IEC61970/Informative/InfCore/InfCoreModelingAuthoritySet.py:23 -/
def d_InfCoreModelingAuthoritySet : RClass := ⟨0x496e66436f72654d6f64656c696e67417574686f72697479536574, 0x43494d31342e454e54534f452e44796e616d6963732e49454336313937302e496e666f726d61746976652e496e66436f72652e496e66436f72654d6f64656c696e67417574686f72697479536574, 0x43494d31342e454e54534f452e44796e616d6963732e49454336313937302e436f72652e436f72654964656e7469666965644f626a656374,
  [],
  [],
  [],
  [],
  [],
  [⟨0x4964656e7469666965644f626a65637473, .many2one, 0x4d6f64656c696e67417574686f72697479536574, 0, false⟩],
  [0x4964656e7469666965644f626a65637473]⟩
def m_InfCoreModelingAuthoritySet : List RClass := d_InfCoreModelingAuthoritySet :: m_CoreIdentifiedObject

/-- CIM14/ENTSOE/Dynamics/IEC61970/Meas/MeasControl.py:23 -/
def d_MeasControl : RClass := ⟨0x4d656173436f6e74726f6c, 0x43494d31342e454e54534f452e44796e616d6963732e49454336313937302e4d6561732e4d656173436f6e74726f6c, 0x43494d31342e454e54534f452e44796e616d6963732e49454336313937302e436f72652e436f72654964656e7469666965644f626a656374,
  [],
  [],
  [],
  [],
  [],
  [⟨0x526567756c6174696e67436f6e644571, .one2many, 0x436f6e74726f6c73, 0, false⟩],
  []⟩
def m_MeasControl : List RClass := d_MeasControl :: m_CoreIdentifiedObject

/-- CIM14/ENTSOE/Dynamics/IEC61970/Meas/MeasMeasurement.py:23 -/
def d_MeasMeasurement : RClass := ⟨0x4d6561734d6561737572656d656e74, 0x43494d31342e454e54534f452e44796e616d6963732e49454336313937302e4d6561732e4d6561734d6561737572656d656e74, 0x43494d31342e454e54534f452e44796e616d6963732e49454336313937302e436f72652e436f72654964656e7469666965644f626a656374,
  [],
  [],
  [],
  [],
  [],
  [⟨0x506f77657253797374656d5265736f75726365, .one2many, 0x4d6561737572656d656e7473, 0, false⟩],
  []⟩
def m_MeasMeasurement : List RClass := d_MeasMeasurement :: m_CoreIdentifiedObject

/-- CIM14/ENTSOE/Dynamics/IEC61970/OperationalLimits/OperationalLimitsOperationalLimitSet.py:23 -/
def d_OperationalLimitsOperationalLimitSet : RClass := ⟨0x4f7065726174696f6e616c4c696d6974734f7065726174696f6e616c4c696d6974536574, 0x43494d31342e454e54534f452e44796e616d6963732e49454336313937302e4f7065726174696f6e616c4c696d6974732e4f7065726174696f6e616c4c696d6974734f7065726174696f6e616c4c696d6974536574, 0x43494d31342e454e54534f452e44796e616d6963732e49454336313937302e436f72652e436f72654964656e7469666965644f626a656374,
  [],
  [],
  [],
  [],
  [],
  [⟨0x45717569706d656e74, .one2many, 0x4f7065726174696f6e616c4c696d6974536574, 0, false⟩],
  []⟩
def m_OperationalLimitsOperationalLimitSet : List RClass := d_OperationalLimitsOperationalLimitSet :: m_CoreIdentifiedObject

/-- CIM14/ENTSOE/Dynamics/IEC61970/Outage/OutageClearanceTag.py:23 -/
def d_OutageClearanceTag : RClass := ⟨0x4f7574616765436c656172616e6365546167, 0x43494d31342e454e54534f452e44796e616d6963732e49454336313937302e4f75746167652e4f7574616765436c656172616e6365546167, 0x43494d31342e454e54534f452e44796e616d6963732e49454336313937302e436f72652e436f72654964656e7469666965644f626a656374,
  [],
  [],
  [],
  [],
  [],
  [⟨0x436f6e64756374696e6745717569706d656e74, .one2many, 0x436c656172616e636554616773, 0, false⟩],
  []⟩
def m_OutageClearanceTag : List RClass := d_OutageClearanceTag :: m_CoreIdentifiedObject

/-- CIM14/ENTSOE/Dynamics/IEC61970/Outage/OutageOutageSchedule.py:23 -/
def d_OutageOutageSchedule : RClass := ⟨0x4f75746167654f75746167655363686564756c65, 0x43494d31342e454e54534f452e44796e616d6963732e49454336313937302e4f75746167652e4f75746167654f75746167655363686564756c65, 0x43494d31342e454e54534f452e44796e616d6963732e49454336313937302e436f72652e436f72654964656e7469666965644f626a656374,
  [],
  [],
  [],
  [],
  [],
  [⟨0x506f77657253797374656d5265736f75726365, .one2one, 0x4f75746167655363686564756c65, 0, false⟩],
  []⟩
def m_OutageOutageSchedule : List RClass := d_OutageOutageSchedule :: m_CoreIdentifiedObject

/-- CIM14/ENTSOE/Dynamics/IEC61970/Core/CoreEquipment.py:23 -/
def d_CoreEquipment : RClass := ⟨0x436f726545717569706d656e74, 0x43494d31342e454e54534f452e44796e616d6963732e49454336313937302e436f72652e436f726545717569706d656e74, 0x43494d31342e454e54534f452e44796e616d6963732e49454336313937302e436f72652e436f7265506f77657253797374656d5265736f75726365,
  [(0x6e6f726d61496c79496e53657276696365, .bool false), (0x616767726567617465, .bool false)],
  [0x6e6f726d61496c79496e53657276696365, 0x616767726567617465],
  [(0x6e6f726d61496c79496e53657276696365, .bool false), (0x616767726567617465, .bool false)],
  [(0x6e6f726d61496c79496e53657276696365, 0x626f6f6c), (0x616767726567617465, 0x626f6f6c)],
  [],
  [⟨0x436f6e74696e67656e637945717569706d656e74, .many2one, 0x45717569706d656e74, 0, false⟩, ⟨0x45717569706d656e74436f6e7461696e6572, .one2many, 0x45717569706d656e7473, 0, false⟩, ⟨0x437573746f6d657241677265656d656e7473, .many2many, 0x45717569706d656e7473, 0, false⟩, ⟨0x4f7065726174696f6e616c4c696d6974536574, .many2one, 0x45717569706d656e74, 0, false⟩],
  [0x436f6e74696e67656e637945717569706d656e74, 0x437573746f6d657241677265656d656e7473, 0x4f7065726174696f6e616c4c696d6974536574]⟩
def m_CoreEquipment : List RClass := d_CoreEquipment :: m_CorePowerSystemResource

/-- CIM14/ENTSOE/Dynamics/IEC61970/Core/CoreEquipmentContainer.py:23 -/
def d_CoreEquipmentContainer : RClass := ⟨0x436f726545717569706d656e74436f6e7461696e6572, 0x43494d31342e454e54534f452e44796e616d6963732e49454336313937302e436f72652e436f726545717569706d656e74436f6e7461696e6572, 0x43494d31342e454e54534f452e44796e616d6963732e49454336313937302e436f72652e436f7265506f77657253797374656d5265736f75726365,
  [],
  [],
  [],
  [],
  [],
  [⟨0x45717569706d656e7473, .many2one, 0x45717569706d656e74436f6e7461696e6572, 0, false⟩],
  [0x45717569706d656e7473]⟩
def m_CoreEquipmentContainer : List RClass := d_CoreEquipmentContainer :: m_CorePowerSystemResource

/-- CIM14/ENTSOE/Dynamics/IEC61970/Dynamics/DynamicsBlock.py:23 -/
def d_DynamicsBlock : RClass := ⟨0x44796e616d696373426c6f636b, 0x43494d31342e454e54534f452e44796e616d6963732e49454336313937302e44796e616d6963732e44796e616d696373426c6f636b, 0x43494d31342e454e54534f452e44796e616d6963732e49454336313937302e436f72652e436f7265506f77657253797374656d5265736f75726365,
  [(0x696e53657276696365, .bool false), (0x706f736974697665466c6f77496e, .bool false)],
  [0x696e53657276696365, 0x706f736974697665466c6f77496e],
  [(0x696e53657276696365, .bool false), (0x706f736974697665466c6f77496e, .bool false)],
  [(0x696e53657276696365, 0x626f6f6c), (0x706f736974697665466c6f77496e, 0x626f6f6c)],
  [],
  [⟨0x426c6f636b506172616d65746572, .many2one, 0x4d656d6265724f665f426c6f636b, 0, false⟩, ⟨0x506f77657253797374656d5265736f75726365, .one2many, 0x426c6f636b, 0, false⟩, ⟨0x426c6f636b436f6e6e656374696f6e, .many2one, 0x426c6f636b, 0, false⟩, ⟨0x4d656d6265724f665f426c6f636b436f6e6e6563746976697479, .one2many, 0x426c6f636b, 0, false⟩, ⟨0x4d657461426c6f636b, .one2many, 0x426c6f636b, 0, false⟩],
  [0x426c6f636b506172616d65746572, 0x426c6f636b436f6e6e656374696f6e]⟩
def m_DynamicsBlock : List RClass := d_DynamicsBlock :: m_CorePowerSystemResource

/-- CIM14/ENTSOE/Dynamics/IEC61970/Dynamics/DynamicsMetaBlockInput.py:23 -/
def d_DynamicsMetaBlockInput : RClass := ⟨0x44796e616d6963734d657461426c6f636b496e707574, 0x43494d31342e454e54534f452e44796e616d6963732e49454336313937302e44796e616d6963732e44796e616d6963734d657461426c6f636b496e707574, 0x43494d31342e454e54534f452e44796e616d6963732e49454336313937302e44796e616d6963732e44796e616d6963734d657461426c6f636b436f6e6e65637461626c65,
  [],
  [],
  [],
  [],
  [],
  [⟨0x4d656d6265724f665f4d657461426c6f636b, .one2many, 0x4d657461426c6f636b496e707574, 0, false⟩],
  []⟩
def m_DynamicsMetaBlockInput : List RClass := d_DynamicsMetaBlockInput :: m_DynamicsMetaBlockConnectable

/-- CIM14/ENTSOE/Dynamics/IEC61970/Dynamics/DynamicsMetaBlockOutput.py:23 -/
def d_DynamicsMetaBlockOutput : RClass := ⟨0x44796e616d6963734d657461426c6f636b4f7574707574, 0x43494d31342e454e54534f452e44796e616d6963732e49454336313937302e44796e616d6963732e44796e616d6963734d657461426c6f636b4f7574707574, 0x43494d31342e454e54534f452e44796e616d6963732e49454336313937302e44796e616d6963732e44796e616d6963734d657461426c6f636b436f6e6e65637461626c65,
  [],
  [],
  [],
  [],
  [],
  [⟨0x4d656d6265724f665f4d657461426c6f636b, .one2many, 0x4d657461426c6f636b4f7574707574, 0, false⟩],
  []⟩
def m_DynamicsMetaBlockOutput : List RClass := d_DynamicsMetaBlockOutput :: m_DynamicsMetaBlockConnectable

/-- CIM14/ENTSOE/Dynamics/IEC61970/Dynamics/DynamicsMetaBlockParameter.py:23 -/
def d_DynamicsMetaBlockParameter : RClass := ⟨0x44796e616d6963734d657461426c6f636b506172616d65746572, 0x43494d31342e454e54534f452e44796e616d6963732e49454336313937302e44796e616d6963732e44796e616d6963734d657461426c6f636b506172616d65746572, 0x43494d31342e454e54534f452e44796e616d6963732e49454336313937302e44796e616d6963732e44796e616d6963734d657461426c6f636b436f6e6e65637461626c65,
  [],
  [],
  [],
  [],
  [],
  [⟨0x4d656d6265724f665f4d657461426c6f636b, .one2many, 0x4d657461426c6f636b506172616d65746572, 0, false⟩, ⟨0x426c6f636b506172616d65746572, .many2one, 0x4d657461426c6f636b506172616d65746572, 0, false⟩],
  [0x426c6f636b506172616d65746572]⟩
def m_DynamicsMetaBlockParameter : List RClass := d_DynamicsMetaBlockParameter :: m_DynamicsMetaBlockConnectable

/-- CIM14/ENTSOE/Dynamics/IEC61970/Dynamics/DynamicsMetaBlockState.py:23 -/
def d_DynamicsMetaBlockState : RClass := ⟨0x44796e616d6963734d657461426c6f636b5374617465, 0x43494d31342e454e54534f452e44796e616d6963732e49454336313937302e44796e616d6963732e44796e616d6963734d657461426c6f636b5374617465, 0x43494d31342e454e54534f452e44796e616d6963732e49454336313937302e44796e616d6963732e44796e616d6963734d657461426c6f636b436f6e6e65637461626c65,
  [],
  [],
  [],
  [],
  [],
  [⟨0x4d656d6265724f665f4d657461426c6f636b, .one2many, 0x4d657461426c6f636b5374617465, 0, false⟩],
  []⟩
def m_DynamicsMetaBlockState : List RClass := d_DynamicsMetaBlockState :: m_DynamicsMetaBlockConnectable

/-- CIM14/ENTSOE/Dynamics/IEC61970/Dynamics/ExcitationSystems/ExcitationSystemsExcAC1A.py:23 -/
def d_ExcitationSystemsExcAC1A : RClass := ⟨0x45786369746174696f6e53797374656d7345786341433141, 0x43494d31342e454e54534f452e44796e616d6963732e49454336313937302e44796e616d6963732e45786369746174696f6e53797374656d732e45786369746174696f6e53797374656d7345786341433141, 0x43494d31342e454e54534f452e44796e616d6963732e49454336313937302e436f72652e436f7265506f77657253797374656d5265736f75726365,
  [(0x736531, .flt 0x0), (0x736532, .flt 0x0), (0x6532, .flt 0x0), (0x6531, .flt 0x0), (0x7472, .flt 0x0), (0x76616d696e, .flt 0x0), (0x76616d6178, .flt 0x0), (0x76726d6178, .flt 0x0), (0x7462, .flt 0x0), (0x6b64, .flt 0x0), (0x7463, .flt 0x0), (0x6b63, .flt 0x0), (0x6b66, .flt 0x0), (0x7461, .flt 0x0), (0x76726d696e, .flt 0x0), (0x6b65, .flt 0x0), (0x7465, .flt 0x0), (0x7466, .flt 0x0), (0x6b61, .flt 0x0)],
  [0x736531, 0x736532, 0x6532, 0x6531, 0x7472, 0x76616d696e, 0x76616d6178, 0x76726d6178, 0x7462, 0x6b64, 0x7463, 0x6b63, 0x6b66, 0x7461, 0x76726d696e, 0x6b65, 0x7465, 0x7466, 0x6b61],
  [(0x736531, .flt 0x0), (0x736532, .flt 0x0), (0x6532, .flt 0x0), (0x6531, .flt 0x0), (0x7472, .flt 0x0), (0x76616d696e, .flt 0x0), (0x76616d6178, .flt 0x0), (0x76726d6178, .flt 0x0), (0x7462, .flt 0x0), (0x6b64, .flt 0x0), (0x7463, .flt 0x0), (0x6b63, .flt 0x0), (0x6b66, .flt 0x0), (0x7461, .flt 0x0), (0x76726d696e, .flt 0x0), (0x6b65, .flt 0x0), (0x7465, .flt 0x0), (0x7466, .flt 0x0), (0x6b61, .flt 0x0)],
  [(0x736531, 0x666c6f6174), (0x736532, 0x666c6f6174), (0x6532, 0x666c6f6174), (0x6531, 0x666c6f6174), (0x7472, 0x666c6f6174), (0x76616d696e, 0x666c6f6174), (0x76616d6178, 0x666c6f6174), (0x76726d6178, 0x666c6f6174), (0x7462, 0x666c6f6174), (0x6b64, 0x666c6f6174), (0x7463, 0x666c6f6174), (0x6b63, 0x666c6f6174), (0x6b66, 0x666c6f6174), (0x7461, 0x666c6f6174), (0x76726d696e, 0x666c6f6174), (0x6b65, 0x666c6f6174), (0x7465, 0x666c6f6174), (0x7466, 0x666c6f6174), (0x6b61, 0x666c6f6174)],
  [],
  [],
  []⟩
def m_ExcitationSystemsExcAC1A : List RClass := d_ExcitationSystemsExcAC1A :: m_CorePowerSystemResource

/-- CIM14/ENTSOE/Dynamics/IEC61970/Dynamics/ExcitationSystems/ExcitationSystemsExcAC2A.py:23 -/
def d_ExcitationSystemsExcAC2A : RClass := ⟨0x45786369746174696f6e53797374656d7345786341433241, 0x43494d31342e454e54534f452e44796e616d6963732e49454336313937302e44796e616d6963732e45786369746174696f6e53797374656d732e45786369746174696f6e53797374656d7345786341433241, 0x43494d31342e454e54534f452e44796e616d6963732e49454336313937302e436f72652e436f7265506f77657253797374656d5265736f75726365,
  [(0x7462, .flt 0x0), (0x6531, .flt 0x0), (0x7461, .flt 0x0), (0x76726d696e, .flt 0x0), (0x6532, .flt 0x0), (0x7666656d6178, .flt 0x0), (0x76726d6178, .flt 0x0), (0x6b61, .flt 0x0), (0x736531, .flt 0x0), (0x736532, .flt 0x0), (0x6b66, .flt 0x0), (0x6b68, .flt 0x0), (0x6b63, .flt 0x0), (0x76616d696e, .flt 0x0), (0x6b62, .flt 0x0), (0x6b65, .flt 0x0), (0x7472, .flt 0x0), (0x6b64, .flt 0x0), (0x7465, .flt 0x0), (0x7463, .flt 0x0), (0x76616d6178, .flt 0x0), (0x7466, .flt 0x0)],
  [0x7462, 0x6531, 0x7461, 0x76726d696e, 0x6532, 0x7666656d6178, 0x76726d6178, 0x6b61, 0x736531, 0x736532, 0x6b66, 0x6b68, 0x6b63, 0x76616d696e, 0x6b62, 0x6b65, 0x7472, 0x6b64, 0x7465, 0x7463, 0x76616d6178, 0x7466],
  [(0x7462, .flt 0x0), (0x6531, .flt 0x0), (0x7461, .flt 0x0), (0x76726d696e, .flt 0x0), (0x6532, .flt 0x0), (0x7666656d6178, .flt 0x0), (0x76726d6178, .flt 0x0), (0x6b61, .flt 0x0), (0x736531, .flt 0x0), (0x736532, .flt 0x0), (0x6b66, .flt 0x0), (0x6b68, .flt 0x0), (0x6b63, .flt 0x0), (0x76616d696e, .flt 0x0), (0x6b62, .flt 0x0), (0x6b65, .flt 0x0), (0x7472, .flt 0x0), (0x6b64, .flt 0x0), (0x7465, .flt 0x0), (0x7463, .flt 0x0), (0x76616d6178, .flt 0x0), (0x7466, .flt 0x0)],
  [(0x7462, 0x666c6f6174), (0x6531, 0x666c6f6174), (0x7461, 0x666c6f6174), (0x76726d696e, 0x666c6f6174), (0x6532, 0x666c6f6174), (0x7666656d6178, 0x666c6f6174), (0x76726d6178, 0x666c6f6174), (0x6b61, 0x666c6f6174), (0x736531, 0x666c6f6174), (0x736532, 0x666c6f6174), (0x6b66, 0x666c6f6174), (0x6b68, 0x666c6f6174), (0x6b63, 0x666c6f6174), (0x76616d696e, 0x666c6f6174), (0x6b62, 0x666c6f6174), (0x6b65, 0x666c6f6174), (0x7472, 0x666c6f6174), (0x6b64, 0x666c6f6174), (0x7465, 0x666c6f6174), (0x7463, 0x666c6f6174), (0x76616d6178, 0x666c6f6174), (0x7466, 0x666c6f6174)],
  [],
  [],
  []⟩
def m_ExcitationSystemsExcAC2A : List RClass := d_ExcitationSystemsExcAC2A :: m_CorePowerSystemResource

/-- CIM14/ENTSOE/Dynamics/IEC61970/Dynamics/ExcitationSystems/ExcitationSystemsExcAC3A.py:23 -/
def d_ExcitationSystemsExcAC3A : RClass := ⟨0x45786369746174696f6e53797374656d7345786341433341, 0x43494d31342e454e54534f452e44796e616d6963732e49454336313937302e44796e616d6963732e45786369746174696f6e53797374656d732e45786369746174696f6e53797374656d7345786341433341, 0x43494d31342e454e54534f452e44796e616d6963732e49454336313937302e436f72652e436f7265506f77657253797374656d5265736f75726365,
  [(0x7461, .flt 0x0), (0x6b61, .flt 0x0), (0x6b64, .flt 0x0), (0x736531, .flt 0x0), (0x6b63, .flt 0x0), (0x736532, .flt 0x0), (0x7465, .flt 0x0), (0x7466, .flt 0x0), (0x7462, .flt 0x0), (0x7463, .flt 0x0), (0x76616d6178, .flt 0x0), (0x6b66, .flt 0x0), (0x76656d696e, .flt 0x0), (0x6b65, .flt 0x0), (0x7666656d6178, .flt 0x0), (0x7472, .flt 0x0), (0x6532, .flt 0x0), (0x6531, .flt 0x0), (0x6b6e, .flt 0x0), (0x76616d696e, .flt 0x0), (0x6b72, .flt 0x0), (0x6566646e, .flt 0x0)],
  [0x7461, 0x6b61, 0x6b64, 0x736531, 0x6b63, 0x736532, 0x7465, 0x7466, 0x7462, 0x7463, 0x76616d6178, 0x6b66, 0x76656d696e, 0x6b65, 0x7666656d6178, 0x7472, 0x6532, 0x6531, 0x6b6e, 0x76616d696e, 0x6b72, 0x6566646e],
  [(0x7461, .flt 0x0), (0x6b61, .flt 0x0), (0x6b64, .flt 0x0), (0x736531, .flt 0x0), (0x6b63, .flt 0x0), (0x736532, .flt 0x0), (0x7465, .flt 0x0), (0x7466, .flt 0x0), (0x7462, .flt 0x0), (0x7463, .flt 0x0), (0x76616d6178, .flt 0x0), (0x6b66, .flt 0x0), (0x76656d696e, .flt 0x0), (0x6b65, .flt 0x0), (0x7666656d6178, .flt 0x0), (0x7472, .flt 0x0), (0x6532, .flt 0x0), (0x6531, .flt 0x0), (0x6b6e, .flt 0x0), (0x76616d696e, .flt 0x0), (0x6b72, .flt 0x0), (0x6566646e, .flt 0x0)],
  [(0x7461, 0x666c6f6174), (0x6b61, 0x666c6f6174), (0x6b64, 0x666c6f6174), (0x736531, 0x666c6f6174), (0x6b63, 0x666c6f6174), (0x736532, 0x666c6f6174), (0x7465, 0x666c6f6174), (0x7466, 0x666c6f6174), (0x7462, 0x666c6f6174), (0x7463, 0x666c6f6174), (0x76616d6178, 0x666c6f6174), (0x6b66, 0x666c6f6174), (0x76656d696e, 0x666c6f6174), (0x6b65, 0x666c6f6174), (0x7666656d6178, 0x666c6f6174), (0x7472, 0x666c6f6174), (0x6532, 0x666c6f6174), (0x6531, 0x666c6f6174), (0x6b6e, 0x666c6f6174), (0x76616d696e, 0x666c6f6174), (0x6b72, 0x666c6f6174), (0x6566646e, 0x666c6f6174)],
  [],
  [],
  []⟩
def m_ExcitationSystemsExcAC3A : List RClass := d_ExcitationSystemsExcAC3A :: m_CorePowerSystemResource

/-- CIM14/ENTSOE/Dynamics/IEC61970/Dynamics/ExcitationSystems/ExcitationSystemsExcAC4A.py:23 -/
def d_ExcitationSystemsExcAC4A : RClass := ⟨0x45786369746174696f6e53797374656d7345786341433441, 0x43494d31342e454e54534f452e44796e616d6963732e49454336313937302e44796e616d6963732e45786369746174696f6e53797374656d732e45786369746174696f6e53797374656d7345786341433441, 0x43494d31342e454e54534f452e44796e616d6963732e49454336313937302e436f72652e436f7265506f77657253797374656d5265736f75726365,
  [(0x7462, .flt 0x0), (0x7461, .flt 0x0), (0x7463, .flt 0x0), (0x76726d696e, .flt 0x0), (0x76696d6178, .flt 0x0), (0x76726d6178, .flt 0x0), (0x7472, .flt 0x0), (0x6b63, .flt 0x0), (0x76696d696e, .flt 0x0), (0x6b61, .flt 0x0)],
  [0x7462, 0x7461, 0x7463, 0x76726d696e, 0x76696d6178, 0x76726d6178, 0x7472, 0x6b63, 0x76696d696e, 0x6b61],
  [(0x7462, .flt 0x0), (0x7461, .flt 0x0), (0x7463, .flt 0x0), (0x76726d696e, .flt 0x0), (0x76696d6178, .flt 0x0), (0x76726d6178, .flt 0x0), (0x7472, .flt 0x0), (0x6b63, .flt 0x0), (0x76696d696e, .flt 0x0), (0x6b61, .flt 0x0)],
  [(0x7462, 0x666c6f6174), (0x7461, 0x666c6f6174), (0x7463, 0x666c6f6174), (0x76726d696e, 0x666c6f6174), (0x76696d6178, 0x666c6f6174), (0x76726d6178, 0x666c6f6174), (0x7472, 0x666c6f6174), (0x6b63, 0x666c6f6174), (0x76696d696e, 0x666c6f6174), (0x6b61, 0x666c6f6174)],
  [],
  [],
  []⟩
def m_ExcitationSystemsExcAC4A : List RClass := d_ExcitationSystemsExcAC4A :: m_CorePowerSystemResource

/-- CIM14/ENTSOE/Dynamics/IEC61970/Dynamics/ExcitationSystems/ExcitationSystemsExcAC5A.py:23 -/
def d_ExcitationSystemsExcAC5A : RClass := ⟨0x45786369746174696f6e53797374656d7345786341433541, 0x43494d31342e454e54534f452e44796e616d6963732e49454336313937302e44796e616d6963732e45786369746174696f6e53797374656d732e45786369746174696f6e53797374656d7345786341433541, 0x43494d31342e454e54534f452e44796e616d6963732e49454336313937302e436f72652e436f7265506f77657253797374656d5265736f75726365,
  [(0x7461, .flt 0x0), (0x76726d6178, .flt 0x0), (0x6b61, .flt 0x0), (0x76726d696e, .flt 0x0), (0x7472, .flt 0x0), (0x746631, .flt 0x0), (0x6b65, .flt 0x0), (0x746632, .flt 0x0), (0x7465, .flt 0x0), (0x6b66, .flt 0x0), (0x6531, .flt 0x0), (0x746633, .flt 0x0), (0x6532, .flt 0x0), (0x736531, .flt 0x0), (0x736532, .flt 0x0)],
  [0x7461, 0x76726d6178, 0x6b61, 0x76726d696e, 0x7472, 0x746631, 0x6b65, 0x746632, 0x7465, 0x6b66, 0x6531, 0x746633, 0x6532, 0x736531, 0x736532],
  [(0x7461, .flt 0x0), (0x76726d6178, .flt 0x0), (0x6b61, .flt 0x0), (0x76726d696e, .flt 0x0), (0x7472, .flt 0x0), (0x746631, .flt 0x0), (0x6b65, .flt 0x0), (0x746632, .flt 0x0), (0x7465, .flt 0x0), (0x6b66, .flt 0x0), (0x6531, .flt 0x0), (0x746633, .flt 0x0), (0x6532, .flt 0x0), (0x736531, .flt 0x0), (0x736532, .flt 0x0)],
  [(0x7461, 0x666c6f6174), (0x76726d6178, 0x666c6f6174), (0x6b61, 0x666c6f6174), (0x76726d696e, 0x666c6f6174), (0x7472, 0x666c6f6174), (0x746631, 0x666c6f6174), (0x6b65, 0x666c6f6174), (0x746632, 0x666c6f6174), (0x7465, 0x666c6f6174), (0x6b66, 0x666c6f6174), (0x6531, 0x666c6f6174), (0x746633, 0x666c6f6174), (0x6532, 0x666c6f6174), (0x736531, 0x666c6f6174), (0x736532, 0x666c6f6174)],
  [],
  [],
  []⟩
def m_ExcitationSystemsExcAC5A : List RClass := d_ExcitationSystemsExcAC5A :: m_CorePowerSystemResource

/-- CIM14/ENTSOE/Dynamics/IEC61970/Dynamics/ExcitationSystems/ExcitationSystemsExcAC6A.py:23 -/
def d_ExcitationSystemsExcAC6A : RClass := ⟨0x45786369746174696f6e53797374656d7345786341433641, 0x43494d31342e454e54534f452e44796e616d6963732e49454336313937302e44796e616d6963732e45786369746174696f6e53797374656d732e45786369746174696f6e53797374656d7345786341433641, 0x43494d31342e454e54534f452e44796e616d6963732e49454336313937302e436f72652e436f7265506f77657253797374656d5265736f75726365,
  [(0x76616d6178, .flt 0x0), (0x7666656c696d, .flt 0x0), (0x7472, .flt 0x0), (0x6532, .flt 0x0), (0x6531, .flt 0x0), (0x76616d696e, .flt 0x0), (0x76686d6178, .flt 0x0), (0x76726d6178, .flt 0x0), (0x736531, .flt 0x0), (0x736532, .flt 0x0), (0x76726d696e, .flt 0x0), (0x7465, .flt 0x0), (0x6b68, .flt 0x0), (0x7462, .flt 0x0), (0x7463, .flt 0x0), (0x7461, .flt 0x0), (0x6b61, .flt 0x0), (0x6b63, .flt 0x0), (0x746a, .flt 0x0), (0x746b, .flt 0x0), (0x6b65, .flt 0x0), (0x7468, .flt 0x0), (0x6b64, .flt 0x0)],
  [0x76616d6178, 0x7666656c696d, 0x7472, 0x6532, 0x6531, 0x76616d696e, 0x76686d6178, 0x76726d6178, 0x736531, 0x736532, 0x76726d696e, 0x7465, 0x6b68, 0x7462, 0x7463, 0x7461, 0x6b61, 0x6b63, 0x746a, 0x746b, 0x6b65, 0x7468, 0x6b64],
  [(0x76616d6178, .flt 0x0), (0x7666656c696d, .flt 0x0), (0x7472, .flt 0x0), (0x6532, .flt 0x0), (0x6531, .flt 0x0), (0x76616d696e, .flt 0x0), (0x76686d6178, .flt 0x0), (0x76726d6178, .flt 0x0), (0x736531, .flt 0x0), (0x736532, .flt 0x0), (0x76726d696e, .flt 0x0), (0x7465, .flt 0x0), (0x6b68, .flt 0x0), (0x7462, .flt 0x0), (0x7463, .flt 0x0), (0x7461, .flt 0x0), (0x6b61, .flt 0x0), (0x6b63, .flt 0x0), (0x746a, .flt 0x0), (0x746b, .flt 0x0), (0x6b65, .flt 0x0), (0x7468, .flt 0x0), (0x6b64, .flt 0x0)],
  [(0x76616d6178, 0x666c6f6174), (0x7666656c696d, 0x666c6f6174), (0x7472, 0x666c6f6174), (0x6532, 0x666c6f6174), (0x6531, 0x666c6f6174), (0x76616d696e, 0x666c6f6174), (0x76686d6178, 0x666c6f6174), (0x76726d6178, 0x666c6f6174), (0x736531, 0x666c6f6174), (0x736532, 0x666c6f6174), (0x76726d696e, 0x666c6f6174), (0x7465, 0x666c6f6174), (0x6b68, 0x666c6f6174), (0x7462, 0x666c6f6174), (0x7463, 0x666c6f6174), (0x7461, 0x666c6f6174), (0x6b61, 0x666c6f6174), (0x6b63, 0x666c6f6174), (0x746a, 0x666c6f6174), (0x746b, 0x666c6f6174), (0x6b65, 0x666c6f6174), (0x7468, 0x666c6f6174), (0x6b64, 0x666c6f6174)],
  [],
  [],
  []⟩
def m_ExcitationSystemsExcAC6A : List RClass := d_ExcitationSystemsExcAC6A :: m_CorePowerSystemResource

/-- CIM14/ENTSOE/Dynamics/IEC61970/Dynamics/ExcitationSystems/ExcitationSystemsExcAC7B.py:23 -/
def d_ExcitationSystemsExcAC7B : RClass := ⟨0x45786369746174696f6e53797374656d7345786341433742, 0x43494d31342e454e54534f452e44796e616d6963732e49454336313937302e44796e616d6963732e45786369746174696f6e53797374656d732e45786369746174696f6e53797374656d7345786341433742, 0x43494d31342e454e54534f452e44796e616d6963732e49454336313937302e436f72652e436f7265506f77657253797374656d5265736f75726365,
  [(0x6b64, .flt 0x0), (0x6b63, .flt 0x0), (0x76726d696e, .flt 0x0), (0x6b6472, .flt 0x0), (0x76726d6178, .flt 0x0), (0x6b7072, .flt 0x0), (0x76656d696e, .flt 0x0), (0x6b6c, .flt 0x0), (0x6b6631, .flt 0x0), (0x6b6961, .flt 0x0), (0x6b6633, .flt 0x0), (0x736531, .flt 0x0), (0x7666656d6178, .flt 0x0), (0x6b6632, .flt 0x0), (0x7465, .flt 0x0), (0x7466, .flt 0x0), (0x6b65, .flt 0x0), (0x6b7061, .flt 0x0), (0x6532, .flt 0x0), (0x736532, .flt 0x0), (0x6b70, .flt 0x0), (0x6531, .flt 0x0), (0x6b6972, .flt 0x0), (0x7472, .flt 0x0), (0x746472, .flt 0x0), (0x76616d696e, .flt 0x0), (0x76616d6178, .flt 0x0)],
  [0x6b64, 0x6b63, 0x76726d696e, 0x6b6472, 0x76726d6178, 0x6b7072, 0x76656d696e, 0x6b6c, 0x6b6631, 0x6b6961, 0x6b6633, 0x736531, 0x7666656d6178, 0x6b6632, 0x7465, 0x7466, 0x6b65, 0x6b7061, 0x6532, 0x736532, 0x6b70, 0x6531, 0x6b6972, 0x7472, 0x746472, 0x76616d696e, 0x76616d6178],
  [(0x6b64, .flt 0x0), (0x6b63, .flt 0x0), (0x76726d696e, .flt 0x0), (0x6b6472, .flt 0x0), (0x76726d6178, .flt 0x0), (0x6b7072, .flt 0x0), (0x76656d696e, .flt 0x0), (0x6b6c, .flt 0x0), (0x6b6631, .flt 0x0), (0x6b6961, .flt 0x0), (0x6b6633, .flt 0x0), (0x736531, .flt 0x0), (0x7666656d6178, .flt 0x0), (0x6b6632, .flt 0x0), (0x7465, .flt 0x0), (0x7466, .flt 0x0), (0x6b65, .flt 0x0), (0x6b7061, .flt 0x0), (0x6532, .flt 0x0), (0x736532, .flt 0x0), (0x6b70, .flt 0x0), (0x6531, .flt 0x0), (0x6b6972, .flt 0x0), (0x7472, .flt 0x0), (0x746472, .flt 0x0), (0x76616d696e, .flt 0x0), (0x76616d6178, .flt 0x0)],
  [(0x6b64, 0x666c6f6174), (0x6b63, 0x666c6f6174), (0x76726d696e, 0x666c6f6174), (0x6b6472, 0x666c6f6174), (0x76726d6178, 0x666c6f6174), (0x6b7072, 0x666c6f6174), (0x76656d696e, 0x666c6f6174), (0x6b6c, 0x666c6f6174), (0x6b6631, 0x666c6f6174), (0x6b6961, 0x666c6f6174), (0x6b6633, 0x666c6f6174), (0x736531, 0x666c6f6174), (0x7666656d6178, 0x666c6f6174), (0x6b6632, 0x666c6f6174), (0x7465, 0x666c6f6174), (0x7466, 0x666c6f6174), (0x6b65, 0x666c6f6174), (0x6b7061, 0x666c6f6174), (0x6532, 0x666c6f6174), (0x736532, 0x666c6f6174), (0x6b70, 0x666c6f6174), (0x6531, 0x666c6f6174), (0x6b6972, 0x666c6f6174), (0x7472, 0x666c6f6174), (0x746472, 0x666c6f6174), (0x76616d696e, 0x666c6f6174), (0x76616d6178, 0x666c6f6174)],
  [],
  [],
  []⟩
def m_ExcitationSystemsExcAC7B : List RClass := d_ExcitationSystemsExcAC7B :: m_CorePowerSystemResource

/-- CIM14/ENTSOE/Dynamics/IEC61970/Dynamics/ExcitationSystems/ExcitationSystemsExcAC8B.py:23 -/
def d_ExcitationSystemsExcAC8B : RClass := ⟨0x45786369746174696f6e53797374656d7345786341433842, 0x43494d31342e454e54534f452e44796e616d6963732e49454336313937302e44796e616d6963732e45786369746174696f6e53797374656d732e45786369746174696f6e53797374656d7345786341433842, 0x43494d31342e454e54534f452e44796e616d6963732e49454336313937302e436f72652e436f7265506f77657253797374656d5265736f75726365,
  [(0x6b6472, .flt 0x0), (0x7472, .flt 0x0), (0x6531, .flt 0x0), (0x6532, .flt 0x0), (0x6b6972, .flt 0x0), (0x6b63, .flt 0x0), (0x76726d6178, .flt 0x0), (0x6b61, .flt 0x0), (0x736532, .flt 0x0), (0x746472, .flt 0x0), (0x6b7072, .flt 0x0), (0x76656d696e, .flt 0x0), (0x6b64, .flt 0x0), (0x7465, .flt 0x0), (0x736531, .flt 0x0), (0x6b65, .flt 0x0), (0x7666656d6178, .flt 0x0), (0x7461, .flt 0x0), (0x76726d696e, .flt 0x0), (0x76746d756c74, .flt 0x0)],
  [0x6b6472, 0x7472, 0x6531, 0x6532, 0x6b6972, 0x6b63, 0x76726d6178, 0x6b61, 0x736532, 0x746472, 0x6b7072, 0x76656d696e, 0x6b64, 0x7465, 0x736531, 0x6b65, 0x7666656d6178, 0x7461, 0x76726d696e, 0x76746d756c74],
  [(0x6b6472, .flt 0x0), (0x7472, .flt 0x0), (0x6531, .flt 0x0), (0x6532, .flt 0x0), (0x6b6972, .flt 0x0), (0x6b63, .flt 0x0), (0x76726d6178, .flt 0x0), (0x6b61, .flt 0x0), (0x736532, .flt 0x0), (0x746472, .flt 0x0), (0x6b7072, .flt 0x0), (0x76656d696e, .flt 0x0), (0x6b64, .flt 0x0), (0x7465, .flt 0x0), (0x736531, .flt 0x0), (0x6b65, .flt 0x0), (0x7666656d6178, .flt 0x0), (0x7461, .flt 0x0), (0x76726d696e, .flt 0x0), (0x76746d756c74, .flt 0x0)],
  [(0x6b6472, 0x666c6f6174), (0x7472, 0x666c6f6174), (0x6531, 0x666c6f6174), (0x6532, 0x666c6f6174), (0x6b6972, 0x666c6f6174), (0x6b63, 0x666c6f6174), (0x76726d6178, 0x666c6f6174), (0x6b61, 0x666c6f6174), (0x736532, 0x666c6f6174), (0x746472, 0x666c6f6174), (0x6b7072, 0x666c6f6174), (0x76656d696e, 0x666c6f6174), (0x6b64, 0x666c6f6174), (0x7465, 0x666c6f6174), (0x736531, 0x666c6f6174), (0x6b65, 0x666c6f6174), (0x7666656d6178, 0x666c6f6174), (0x7461, 0x666c6f6174), (0x76726d696e, 0x666c6f6174), (0x76746d756c74, 0x666c6f6174)],
  [],
  [],
  []⟩
def m_ExcitationSystemsExcAC8B : List RClass := d_ExcitationSystemsExcAC8B :: m_CorePowerSystemResource

/-- CIM14/ENTSOE/Dynamics/IEC61970/Dynamics/ExcitationSystems/ExcitationSystemsExcDC1A.py:23 -/
def d_ExcitationSystemsExcDC1A : RClass := ⟨0x45786369746174696f6e53797374656d7345786344433141, 0x43494d31342e454e54534f452e44796e616d6963732e49454336313937302e44796e616d6963732e45786369746174696f6e53797374656d732e45786369746174696f6e53797374656d7345786344433141, 0x43494d31342e454e54534f452e44796e616d6963732e49454336313937302e436f72652e436f7265506f77657253797374656d5265736f75726365,
  [(0x6578636c696d, .flt 0x0), (0x76726d696e, .flt 0x0), (0x7463, .flt 0x0), (0x7461, .flt 0x0), (0x7462, .flt 0x0), (0x6b61, .flt 0x0), (0x6b65, .flt 0x0), (0x736532, .flt 0x0), (0x7465, .flt 0x0), (0x736531, .flt 0x0), (0x7466, .flt 0x0), (0x6b66, .flt 0x0), (0x75656c696e, .flt 0x0), (0x7472, .flt 0x0), (0x6531, .flt 0x0), (0x76726d6178, .flt 0x0), (0x6532, .flt 0x0)],
  [0x6578636c696d, 0x76726d696e, 0x7463, 0x7461, 0x7462, 0x6b61, 0x6b65, 0x736532, 0x7465, 0x736531, 0x7466, 0x6b66, 0x75656c696e, 0x7472, 0x6531, 0x76726d6178, 0x6532],
  [(0x6578636c696d, .flt 0x0), (0x76726d696e, .flt 0x0), (0x7463, .flt 0x0), (0x7461, .flt 0x0), (0x7462, .flt 0x0), (0x6b61, .flt 0x0), (0x6b65, .flt 0x0), (0x736532, .flt 0x0), (0x7465, .flt 0x0), (0x736531, .flt 0x0), (0x7466, .flt 0x0), (0x6b66, .flt 0x0), (0x75656c696e, .flt 0x0), (0x7472, .flt 0x0), (0x6531, .flt 0x0), (0x76726d6178, .flt 0x0), (0x6532, .flt 0x0)],
  [(0x6578636c696d, 0x666c6f6174), (0x76726d696e, 0x666c6f6174), (0x7463, 0x666c6f6174), (0x7461, 0x666c6f6174), (0x7462, 0x666c6f6174), (0x6b61, 0x666c6f6174), (0x6b65, 0x666c6f6174), (0x736532, 0x666c6f6174), (0x7465, 0x666c6f6174), (0x736531, 0x666c6f6174), (0x7466, 0x666c6f6174), (0x6b66, 0x666c6f6174), (0x75656c696e, 0x666c6f6174), (0x7472, 0x666c6f6174), (0x6531, 0x666c6f6174), (0x76726d6178, 0x666c6f6174), (0x6532, 0x666c6f6174)],
  [],
  [],
  []⟩
def m_ExcitationSystemsExcDC1A : List RClass := d_ExcitationSystemsExcDC1A :: m_CorePowerSystemResource

/-- CIM14/ENTSOE/Dynamics/IEC61970/Dynamics/ExcitationSystems/ExcitationSystemsExcDC2A.py:23 -/
def d_ExcitationSystemsExcDC2A : RClass := ⟨0x45786369746174696f6e53797374656d7345786344433241, 0x43494d31342e454e54534f452e44796e616d6963732e49454336313937302e44796e616d6963732e45786369746174696f6e53797374656d732e45786369746174696f6e53797374656d7345786344433241, 0x43494d31342e454e54534f452e44796e616d6963732e49454336313937302e436f72652e436f7265506f77657253797374656d5265736f75726365,
  [(0x7465, .flt 0x0), (0x7466, .flt 0x0), (0x6b61, .flt 0x0), (0x7463, .flt 0x0), (0x76726d696e, .flt 0x0), (0x7461, .flt 0x0), (0x7462, .flt 0x0), (0x76726d6178, .flt 0x0), (0x6b66, .flt 0x0), (0x6b65, .flt 0x0), (0x75656c696e, .flt 0x0), (0x736531, .flt 0x0), (0x7472, .flt 0x0), (0x736532, .flt 0x0), (0x6578636c696d, .flt 0x0), (0x6532, .flt 0x0), (0x6531, .flt 0x0)],
  [0x7465, 0x7466, 0x6b61, 0x7463, 0x76726d696e, 0x7461, 0x7462, 0x76726d6178, 0x6b66, 0x6b65, 0x75656c696e, 0x736531, 0x7472, 0x736532, 0x6578636c696d, 0x6532, 0x6531],
  [(0x7465, .flt 0x0), (0x7466, .flt 0x0), (0x6b61, .flt 0x0), (0x7463, .flt 0x0), (0x76726d696e, .flt 0x0), (0x7461, .flt 0x0), (0x7462, .flt 0x0), (0x76726d6178, .flt 0x0), (0x6b66, .flt 0x0), (0x6b65, .flt 0x0), (0x75656c696e, .flt 0x0), (0x736531, .flt 0x0), (0x7472, .flt 0x0), (0x736532, .flt 0x0), (0x6578636c696d, .flt 0x0), (0x6532, .flt 0x0), (0x6531, .flt 0x0)],
  [(0x7465, 0x666c6f6174), (0x7466, 0x666c6f6174), (0x6b61, 0x666c6f6174), (0x7463, 0x666c6f6174), (0x76726d696e, 0x666c6f6174), (0x7461, 0x666c6f6174), (0x7462, 0x666c6f6174), (0x76726d6178, 0x666c6f6174), (0x6b66, 0x666c6f6174), (0x6b65, 0x666c6f6174), (0x75656c696e, 0x666c6f6174), (0x736531, 0x666c6f6174), (0x7472, 0x666c6f6174), (0x736532, 0x666c6f6174), (0x6578636c696d, 0x666c6f6174), (0x6532, 0x666c6f6174), (0x6531, 0x666c6f6174)],
  [],
  [],
  []⟩
def m_ExcitationSystemsExcDC2A : List RClass := d_ExcitationSystemsExcDC2A :: m_CorePowerSystemResource

/-- CIM14/ENTSOE/Dynamics/IEC61970/Dynamics/ExcitationSystems/ExcitationSystemsExcDC3A.py:23 -/
def d_ExcitationSystemsExcDC3A : RClass := ⟨0x45786369746174696f6e53797374656d7345786344433341, 0x43494d31342e454e54534f452e44796e616d6963732e49454336313937302e44796e616d6963732e45786369746174696f6e53797374656d732e45786369746174696f6e53797374656d7345786344433341, 0x43494d31342e454e54534f452e44796e616d6963732e49454336313937302e436f72652e436f7265506f77657253797374656d5265736f75726365,
  [(0x76726d6178, .flt 0x0), (0x6b65, .flt 0x0), (0x7465, .flt 0x0), (0x6578636c696d, .flt 0x0), (0x736531, .flt 0x0), (0x736532, .flt 0x0), (0x747268, .flt 0x0), (0x6b76, .flt 0x0), (0x6531, .flt 0x0), (0x6532, .flt 0x0), (0x76726d696e, .flt 0x0), (0x7472, .flt 0x0)],
  [0x76726d6178, 0x6b65, 0x7465, 0x6578636c696d, 0x736531, 0x736532, 0x747268, 0x6b76, 0x6531, 0x6532, 0x76726d696e, 0x7472],
  [(0x76726d6178, .flt 0x0), (0x6b65, .flt 0x0), (0x7465, .flt 0x0), (0x6578636c696d, .flt 0x0), (0x736531, .flt 0x0), (0x736532, .flt 0x0), (0x747268, .flt 0x0), (0x6b76, .flt 0x0), (0x6531, .flt 0x0), (0x6532, .flt 0x0), (0x76726d696e, .flt 0x0), (0x7472, .flt 0x0)],
  [(0x76726d6178, 0x666c6f6174), (0x6b65, 0x666c6f6174), (0x7465, 0x666c6f6174), (0x6578636c696d, 0x666c6f6174), (0x736531, 0x666c6f6174), (0x736532, 0x666c6f6174), (0x747268, 0x666c6f6174), (0x6b76, 0x666c6f6174), (0x6531, 0x666c6f6174), (0x6532, 0x666c6f6174), (0x76726d696e, 0x666c6f6174), (0x7472, 0x666c6f6174)],
  [],
  [],
  []⟩
def m_ExcitationSystemsExcDC3A : List RClass := d_ExcitationSystemsExcDC3A :: m_CorePowerSystemResource

/-- CIM14/ENTSOE/Dynamics/IEC61970/Dynamics/ExcitationSystems/ExcitationSystemsExcDC4B.py:23 -/
def d_ExcitationSystemsExcDC4B : RClass := ⟨0x45786369746174696f6e53797374656d7345786344433442, 0x43494d31342e454e54534f452e44796e616d6963732e49454336313937302e44796e616d6963732e45786369746174696f6e53797374656d732e45786369746174696f6e53797374656d7345786344433442, 0x43494d31342e454e54534f452e44796e616d6963732e49454336313937302e436f72652e436f7265506f77657253797374656d5265736f75726365,
  [(0x76726d696e, .flt 0x0), (0x75656c696e, .flt 0x0), (0x6b69, .flt 0x0), (0x6b70, .flt 0x0), (0x6532, .flt 0x0), (0x6f656c696e, .flt 0x0), (0x76726d6178, .flt 0x0), (0x6b66, .flt 0x0), (0x7465, .flt 0x0), (0x6b65, .flt 0x0), (0x76656d696e, .flt 0x0), (0x7466, .flt 0x0), (0x6b64, .flt 0x0), (0x736532, .flt 0x0), (0x7461, .flt 0x0), (0x7472, .flt 0x0), (0x6b61, .flt 0x0), (0x736531, .flt 0x0), (0x7464, .flt 0x0), (0x6531, .flt 0x0)],
  [0x76726d696e, 0x75656c696e, 0x6b69, 0x6b70, 0x6532, 0x6f656c696e, 0x76726d6178, 0x6b66, 0x7465, 0x6b65, 0x76656d696e, 0x7466, 0x6b64, 0x736532, 0x7461, 0x7472, 0x6b61, 0x736531, 0x7464, 0x6531],
  [(0x76726d696e, .flt 0x0), (0x75656c696e, .flt 0x0), (0x6b69, .flt 0x0), (0x6b70, .flt 0x0), (0x6532, .flt 0x0), (0x6f656c696e, .flt 0x0), (0x76726d6178, .flt 0x0), (0x6b66, .flt 0x0), (0x7465, .flt 0x0), (0x6b65, .flt 0x0), (0x76656d696e, .flt 0x0), (0x7466, .flt 0x0), (0x6b64, .flt 0x0), (0x736532, .flt 0x0), (0x7461, .flt 0x0), (0x7472, .flt 0x0), (0x6b61, .flt 0x0), (0x736531, .flt 0x0), (0x7464, .flt 0x0), (0x6531, .flt 0x0)],
  [(0x76726d696e, 0x666c6f6174), (0x75656c696e, 0x666c6f6174), (0x6b69, 0x666c6f6174), (0x6b70, 0x666c6f6174), (0x6532, 0x666c6f6174), (0x6f656c696e, 0x666c6f6174), (0x76726d6178, 0x666c6f6174), (0x6b66, 0x666c6f6174), (0x7465, 0x666c6f6174), (0x6b65, 0x666c6f6174), (0x76656d696e, 0x666c6f6174), (0x7466, 0x666c6f6174), (0x6b64, 0x666c6f6174), (0x736532, 0x666c6f6174), (0x7461, 0x666c6f6174), (0x7472, 0x666c6f6174), (0x6b61, 0x666c6f6174), (0x736531, 0x666c6f6174), (0x7464, 0x666c6f6174), (0x6531, 0x666c6f6174)],
  [],
  [],
  []⟩
def m_ExcitationSystemsExcDC4B : List RClass := d_ExcitationSystemsExcDC4B :: m_CorePowerSystemResource

/-- CIM14/ENTSOE/Dynamics/IEC61970/Dynamics/ExcitationSystems/ExcitationSystemsExcSCRX.py:23 -/
def d_ExcitationSystemsExcSCRX : RClass := ⟨0x45786369746174696f6e53797374656d7345786353435258, 0x43494d31342e454e54534f452e44796e616d6963732e49454336313937302e44796e616d6963732e45786369746174696f6e53797374656d732e45786369746174696f6e53797374656d7345786353435258, 0x43494d31342e454e54534f452e44796e616d6963732e49454336313937302e436f72652e436f7265506f77657253797374656d5265736f75726365,
  [(0x7465, .flt 0x0), (0x7462, .flt 0x0), (0x656d6178, .flt 0x0), (0x63737769746368, .bool false), (0x7263726664, .flt 0x0), (0x74617462, .flt 0x0), (0x6b, .flt 0x0), (0x656d696e, .flt 0x0)],
  [0x7465, 0x7462, 0x656d6178, 0x63737769746368, 0x7263726664, 0x74617462, 0x6b, 0x656d696e],
  [(0x7465, .flt 0x0), (0x7462, .flt 0x0), (0x656d6178, .flt 0x0), (0x63737769746368, .bool false), (0x7263726664, .flt 0x0), (0x74617462, .flt 0x0), (0x6b, .flt 0x0), (0x656d696e, .flt 0x0)],
  [(0x7465, 0x666c6f6174), (0x7462, 0x666c6f6174), (0x656d6178, 0x666c6f6174), (0x63737769746368, 0x626f6f6c), (0x7263726664, 0x666c6f6174), (0x74617462, 0x666c6f6174), (0x6b, 0x666c6f6174), (0x656d696e, 0x666c6f6174)],
  [],
  [],
  []⟩
def m_ExcitationSystemsExcSCRX : List RClass := d_ExcitationSystemsExcSCRX :: m_CorePowerSystemResource

/-- CIM14/ENTSOE/Dynamics/IEC61970/Dynamics/ExcitationSystems/ExcitationSystemsExcSEXS.py:23 -/
def d_ExcitationSystemsExcSEXS : RClass := ⟨0x45786369746174696f6e53797374656d7345786353455853, 0x43494d31342e454e54534f452e44796e616d6963732e49454336313937302e44796e616d6963732e45786369746174696f6e53797374656d732e45786369746174696f6e53797374656d7345786353455853, 0x43494d31342e454e54534f452e44796e616d6963732e49454336313937302e436f72652e436f7265506f77657253797374656d5265736f75726365,
  [(0x6b, .flt 0x0), (0x74617462, .flt 0x0), (0x6566646d696e, .flt 0x0), (0x7465, .flt 0x0), (0x7463, .flt 0x0), (0x6b63, .flt 0x0), (0x7462, .flt 0x0), (0x656d696e, .flt 0x0), (0x656d6178, .flt 0x0), (0x6566646d6178, .flt 0x0)],
  [0x6b, 0x74617462, 0x6566646d696e, 0x7465, 0x7463, 0x6b63, 0x7462, 0x656d696e, 0x656d6178, 0x6566646d6178],
  [(0x6b, .flt 0x0), (0x74617462, .flt 0x0), (0x6566646d696e, .flt 0x0), (0x7465, .flt 0x0), (0x7463, .flt 0x0), (0x6b63, .flt 0x0), (0x7462, .flt 0x0), (0x656d696e, .flt 0x0), (0x656d6178, .flt 0x0), (0x6566646d6178, .flt 0x0)],
  [(0x6b, 0x666c6f6174), (0x74617462, 0x666c6f6174), (0x6566646d696e, 0x666c6f6174), (0x7465, 0x666c6f6174), (0x7463, 0x666c6f6174), (0x6b63, 0x666c6f6174), (0x7462, 0x666c6f6174), (0x656d696e, 0x666c6f6174), (0x656d6178, 0x666c6f6174), (0x6566646d6178, 0x666c6f6174)],
  [],
  [],
  []⟩
def m_ExcitationSystemsExcSEXS : List RClass := d_ExcitationSystemsExcSEXS :: m_CorePowerSystemResource

/-- CIM14/ENTSOE/Dynamics/IEC61970/Dynamics/ExcitationSystems/ExcitationSystemsExcST1A.py:23 -/
def d_ExcitationSystemsExcST1A : RClass := ⟨0x45786369746174696f6e53797374656d7345786353543141, 0x43494d31342e454e54534f452e44796e616d6963732e49454336313937302e44796e616d6963732e45786369746174696f6e53797374656d732e45786369746174696f6e53797374656d7345786353543141, 0x43494d31342e454e54534f452e44796e616d6963732e49454336313937302e436f72652e436f7265506f77657253797374656d5265736f75726365,
  [(0x76726d696e, .flt 0x0), (0x6b63, .flt 0x0), (0x76696d696e, .flt 0x0), (0x75656c696e, .flt 0x0), (0x7466, .flt 0x0), (0x6b66, .flt 0x0), (0x746331, .flt 0x0), (0x707373696e, .flt 0x0), (0x7463, .flt 0x0), (0x7462, .flt 0x0), (0x6b61, .flt 0x0), (0x7461, .flt 0x0), (0x7472, .flt 0x0), (0x696c72, .flt 0x0), (0x76616d696e, .flt 0x0), (0x6b6c72, .flt 0x0), (0x746231, .flt 0x0), (0x76616d6178, .flt 0x0), (0x76726d6178, .flt 0x0), (0x76696d6178, .flt 0x0)],
  [0x76726d696e, 0x6b63, 0x76696d696e, 0x75656c696e, 0x7466, 0x6b66, 0x746331, 0x707373696e, 0x7463, 0x7462, 0x6b61, 0x7461, 0x7472, 0x696c72, 0x76616d696e, 0x6b6c72, 0x746231, 0x76616d6178, 0x76726d6178, 0x76696d6178],
  [(0x76726d696e, .flt 0x0), (0x6b63, .flt 0x0), (0x76696d696e, .flt 0x0), (0x75656c696e, .flt 0x0), (0x7466, .flt 0x0), (0x6b66, .flt 0x0), (0x746331, .flt 0x0), (0x707373696e, .flt 0x0), (0x7463, .flt 0x0), (0x7462, .flt 0x0), (0x6b61, .flt 0x0), (0x7461, .flt 0x0), (0x7472, .flt 0x0), (0x696c72, .flt 0x0), (0x76616d696e, .flt 0x0), (0x6b6c72, .flt 0x0), (0x746231, .flt 0x0), (0x76616d6178, .flt 0x0), (0x76726d6178, .flt 0x0), (0x76696d6178, .flt 0x0)],
  [(0x76726d696e, 0x666c6f6174), (0x6b63, 0x666c6f6174), (0x76696d696e, 0x666c6f6174), (0x75656c696e, 0x666c6f6174), (0x7466, 0x666c6f6174), (0x6b66, 0x666c6f6174), (0x746331, 0x666c6f6174), (0x707373696e, 0x666c6f6174), (0x7463, 0x666c6f6174), (0x7462, 0x666c6f6174), (0x6b61, 0x666c6f6174), (0x7461, 0x666c6f6174), (0x7472, 0x666c6f6174), (0x696c72, 0x666c6f6174), (0x76616d696e, 0x666c6f6174), (0x6b6c72, 0x666c6f6174), (0x746231, 0x666c6f6174), (0x76616d6178, 0x666c6f6174), (0x76726d6178, 0x666c6f6174), (0x76696d6178, 0x666c6f6174)],
  [],
  [],
  []⟩
def m_ExcitationSystemsExcST1A : List RClass := d_ExcitationSystemsExcST1A :: m_CorePowerSystemResource

/-- CIM14/ENTSOE/Dynamics/IEC61970/Dynamics/ExcitationSystems/ExcitationSystemsExcST2A.py:23 -/
def d_ExcitationSystemsExcST2A : RClass := ⟨0x45786369746174696f6e53797374656d7345786353543241, 0x43494d31342e454e54534f452e44796e616d6963732e49454336313937302e44796e616d6963732e45786369746174696f6e53797374656d732e45786369746174696f6e53797374656d7345786353543241, 0x43494d31342e454e54534f452e44796e616d6963732e49454336313937302e436f72652e436f7265506f77657253797374656d5265736f75726365,
  [(0x76726d696e, .flt 0x0), (0x7463, .flt 0x0), (0x7462, .flt 0x0), (0x7461, .flt 0x0), (0x6b61, .flt 0x0), (0x6b65, .flt 0x0), (0x75656c696e, .flt 0x0), (0x6b63, .flt 0x0), (0x7465, .flt 0x0), (0x6b69, .flt 0x0), (0x6b66, .flt 0x0), (0x7466, .flt 0x0), (0x76726d6178, .flt 0x0), (0x6566646d6178, .flt 0x0), (0x7472, .flt 0x0), (0x6b70, .flt 0x0)],
  [0x76726d696e, 0x7463, 0x7462, 0x7461, 0x6b61, 0x6b65, 0x75656c696e, 0x6b63, 0x7465, 0x6b69, 0x6b66, 0x7466, 0x76726d6178, 0x6566646d6178, 0x7472, 0x6b70],
  [(0x76726d696e, .flt 0x0), (0x7463, .flt 0x0), (0x7462, .flt 0x0), (0x7461, .flt 0x0), (0x6b61, .flt 0x0), (0x6b65, .flt 0x0), (0x75656c696e, .flt 0x0), (0x6b63, .flt 0x0), (0x7465, .flt 0x0), (0x6b69, .flt 0x0), (0x6b66, .flt 0x0), (0x7466, .flt 0x0), (0x76726d6178, .flt 0x0), (0x6566646d6178, .flt 0x0), (0x7472, .flt 0x0), (0x6b70, .flt 0x0)],
  [(0x76726d696e, 0x666c6f6174), (0x7463, 0x666c6f6174), (0x7462, 0x666c6f6174), (0x7461, 0x666c6f6174), (0x6b61, 0x666c6f6174), (0x6b65, 0x666c6f6174), (0x75656c696e, 0x666c6f6174), (0x6b63, 0x666c6f6174), (0x7465, 0x666c6f6174), (0x6b69, 0x666c6f6174), (0x6b66, 0x666c6f6174), (0x7466, 0x666c6f6174), (0x76726d6178, 0x666c6f6174), (0x6566646d6178, 0x666c6f6174), (0x7472, 0x666c6f6174), (0x6b70, 0x666c6f6174)],
  [],
  [],
  []⟩
def m_ExcitationSystemsExcST2A : List RClass := d_ExcitationSystemsExcST2A :: m_CorePowerSystemResource

/-- CIM14/ENTSOE/Dynamics/IEC61970/Dynamics/ExcitationSystems/ExcitationSystemsExcST3A.py:23 -/
def d_ExcitationSystemsExcST3A : RClass := ⟨0x45786369746174696f6e53797374656d7345786353543341, 0x43494d31342e454e54534f452e44796e616d6963732e49454336313937302e44796e616d6963732e45786369746174696f6e53797374656d732e45786369746174696f6e53797374656d7345786353543341, 0x43494d31342e454e54534f452e44796e616d6963732e49454336313937302e436f72652e436f7265506f77657253797374656d5265736f75726365,
  [(0x76726d696e, .flt 0x0), (0x6b63, .flt 0x0), (0x6b61, .flt 0x0), (0x76626d6178, .flt 0x0), (0x76696d696e, .flt 0x0), (0x786c, .flt 0x0), (0x76676d6178, .flt 0x0), (0x616e6770, .flt 0x0), (0x766d6d696e, .flt 0x0), (0x76726d6178, .flt 0x0), (0x6b70, .flt 0x0), (0x6b6d, .flt 0x0), (0x76696d6178, .flt 0x0), (0x7472, .flt 0x0), (0x766d6d6178, .flt 0x0), (0x6b69, .flt 0x0), (0x746d, .flt 0x0), (0x7461, .flt 0x0), (0x7462, .flt 0x0), (0x6b67, .flt 0x0), (0x7463, .flt 0x0)],
  [0x76726d696e, 0x6b63, 0x6b61, 0x76626d6178, 0x76696d696e, 0x786c, 0x76676d6178, 0x616e6770, 0x766d6d696e, 0x76726d6178, 0x6b70, 0x6b6d, 0x76696d6178, 0x7472, 0x766d6d6178, 0x6b69, 0x746d, 0x7461, 0x7462, 0x6b67, 0x7463],
  [(0x76726d696e, .flt 0x0), (0x6b63, .flt 0x0), (0x6b61, .flt 0x0), (0x76626d6178, .flt 0x0), (0x76696d696e, .flt 0x0), (0x786c, .flt 0x0), (0x76676d6178, .flt 0x0), (0x616e6770, .flt 0x0), (0x766d6d696e, .flt 0x0), (0x76726d6178, .flt 0x0), (0x6b70, .flt 0x0), (0x6b6d, .flt 0x0), (0x76696d6178, .flt 0x0), (0x7472, .flt 0x0), (0x766d6d6178, .flt 0x0), (0x6b69, .flt 0x0), (0x746d, .flt 0x0), (0x7461, .flt 0x0), (0x7462, .flt 0x0), (0x6b67, .flt 0x0), (0x7463, .flt 0x0)],
  [(0x76726d696e, 0x666c6f6174), (0x6b63, 0x666c6f6174), (0x6b61, 0x666c6f6174), (0x76626d6178, 0x666c6f6174), (0x76696d696e, 0x666c6f6174), (0x786c, 0x666c6f6174), (0x76676d6178, 0x666c6f6174), (0x616e6770, 0x666c6f6174), (0x766d6d696e, 0x666c6f6174), (0x76726d6178, 0x666c6f6174), (0x6b70, 0x666c6f6174), (0x6b6d, 0x666c6f6174), (0x76696d6178, 0x666c6f6174), (0x7472, 0x666c6f6174), (0x766d6d6178, 0x666c6f6174), (0x6b69, 0x666c6f6174), (0x746d, 0x666c6f6174), (0x7461, 0x666c6f6174), (0x7462, 0x666c6f6174), (0x6b67, 0x666c6f6174), (0x7463, 0x666c6f6174)],
  [],
  [],
  []⟩
def m_ExcitationSystemsExcST3A : List RClass := d_ExcitationSystemsExcST3A :: m_CorePowerSystemResource

/-- CIM14/ENTSOE/Dynamics/IEC61970/Dynamics/ExcitationSystems/ExcitationSystemsExcST4B.py:23 -/
def d_ExcitationSystemsExcST4B : RClass := ⟨0x45786369746174696f6e53797374656d7345786353543442, 0x43494d31342e454e54534f452e44796e616d6963732e49454336313937302e44796e616d6963732e45786369746174696f6e53797374656d732e45786369746174696f6e53797374656d7345786353543442, 0x43494d31342e454e54534f452e44796e616d6963732e49454336313937302e436f72652e436f7265506f77657253797374656d5265736f75726365,
  [(0x6b70, .flt 0x0), (0x786c, .flt 0x0), (0x76626d6178, .flt 0x0), (0x6b69, .flt 0x0), (0x6b6972, .flt 0x0), (0x76726d696e, .flt 0x0), (0x766d6d696e, .flt 0x0), (0x6b696d, .flt 0x0), (0x7461, .flt 0x0), (0x6b67, .flt 0x0), (0x7472, .flt 0x0), (0x6b63, .flt 0x0), (0x76726d6178, .flt 0x0), (0x616e6770, .flt 0x0), (0x6b7072, .flt 0x0), (0x76676d6178, .flt 0x0), (0x6b706d, .flt 0x0), (0x766d6d6178, .flt 0x0)],
  [0x6b70, 0x786c, 0x76626d6178, 0x6b69, 0x6b6972, 0x76726d696e, 0x766d6d696e, 0x6b696d, 0x7461, 0x6b67, 0x7472, 0x6b63, 0x76726d6178, 0x616e6770, 0x6b7072, 0x76676d6178, 0x6b706d, 0x766d6d6178],
  [(0x6b70, .flt 0x0), (0x786c, .flt 0x0), (0x76626d6178, .flt 0x0), (0x6b69, .flt 0x0), (0x6b6972, .flt 0x0), (0x76726d696e, .flt 0x0), (0x766d6d696e, .flt 0x0), (0x6b696d, .flt 0x0), (0x7461, .flt 0x0), (0x6b67, .flt 0x0), (0x7472, .flt 0x0), (0x6b63, .flt 0x0), (0x76726d6178, .flt 0x0), (0x616e6770, .flt 0x0), (0x6b7072, .flt 0x0), (0x76676d6178, .flt 0x0), (0x6b706d, .flt 0x0), (0x766d6d6178, .flt 0x0)],
  [(0x6b70, 0x666c6f6174), (0x786c, 0x666c6f6174), (0x76626d6178, 0x666c6f6174), (0x6b69, 0x666c6f6174), (0x6b6972, 0x666c6f6174), (0x76726d696e, 0x666c6f6174), (0x766d6d696e, 0x666c6f6174), (0x6b696d, 0x666c6f6174), (0x7461, 0x666c6f6174), (0x6b67, 0x666c6f6174), (0x7472, 0x666c6f6174), (0x6b63, 0x666c6f6174), (0x76726d6178, 0x666c6f6174), (0x616e6770, 0x666c6f6174), (0x6b7072, 0x666c6f6174), (0x76676d6178, 0x666c6f6174), (0x6b706d, 0x666c6f6174), (0x766d6d6178, 0x666c6f6174)],
  [],
  [],
  []⟩
def m_ExcitationSystemsExcST4B : List RClass := d_ExcitationSystemsExcST4B :: m_CorePowerSystemResource

/-- CIM14/ENTSOE/Dynamics/IEC61970/Dynamics/ExcitationSystems/ExcitationSystemsExcST5B.py:23 -/
def d_ExcitationSystemsExcST5B : RClass := ⟨0x45786369746174696f6e53797374656d7345786353543542, 0x43494d31342e454e54534f452e44796e616d6963732e49454336313937302e44796e616d6963732e45786369746174696f6e53797374656d732e45786369746174696f6e53797374656d7345786353543542, 0x43494d31342e454e54534f452e44796e616d6963732e49454336313937302e436f72652e436f7265506f77657253797374656d5265736f75726365,
  [(0x746f6332, .flt 0x0), (0x746f6331, .flt 0x0), (0x746331, .flt 0x0), (0x76726d696e, .flt 0x0), (0x746332, .flt 0x0), (0x6b63, .flt 0x0), (0x746232, .flt 0x0), (0x746f6231, .flt 0x0), (0x76726d6178, .flt 0x0), (0x746f6232, .flt 0x0), (0x746231, .flt 0x0), (0x74756231, .flt 0x0), (0x74756232, .flt 0x0), (0x74756331, .flt 0x0), (0x74756332, .flt 0x0), (0x6b72, .flt 0x0), (0x7472, .flt 0x0), (0x7431, .flt 0x0)],
  [0x746f6332, 0x746f6331, 0x746331, 0x76726d696e, 0x746332, 0x6b63, 0x746232, 0x746f6231, 0x76726d6178, 0x746f6232, 0x746231, 0x74756231, 0x74756232, 0x74756331, 0x74756332, 0x6b72, 0x7472, 0x7431],
  [(0x746f6332, .flt 0x0), (0x746f6331, .flt 0x0), (0x746331, .flt 0x0), (0x76726d696e, .flt 0x0), (0x746332, .flt 0x0), (0x6b63, .flt 0x0), (0x746232, .flt 0x0), (0x746f6231, .flt 0x0), (0x76726d6178, .flt 0x0), (0x746f6232, .flt 0x0), (0x746231, .flt 0x0), (0x74756231, .flt 0x0), (0x74756232, .flt 0x0), (0x74756331, .flt 0x0), (0x74756332, .flt 0x0), (0x6b72, .flt 0x0), (0x7472, .flt 0x0), (0x7431, .flt 0x0)],
  [(0x746f6332, 0x666c6f6174), (0x746f6331, 0x666c6f6174), (0x746331, 0x666c6f6174), (0x76726d696e, 0x666c6f6174), (0x746332, 0x666c6f6174), (0x6b63, 0x666c6f6174), (0x746232, 0x666c6f6174), (0x746f6231, 0x666c6f6174), (0x76726d6178, 0x666c6f6174), (0x746f6232, 0x666c6f6174), (0x746231, 0x666c6f6174), (0x74756231, 0x666c6f6174), (0x74756232, 0x666c6f6174), (0x74756331, 0x666c6f6174), (0x74756332, 0x666c6f6174), (0x6b72, 0x666c6f6174), (0x7472, 0x666c6f6174), (0x7431, 0x666c6f6174)],
  [],
  [],
  []⟩
def m_ExcitationSystemsExcST5B : List RClass := d_ExcitationSystemsExcST5B :: m_CorePowerSystemResource

/-- CIM14/ENTSOE/Dynamics/IEC61970/Dynamics/ExcitationSystems/ExcitationSystemsExcST6B.py:23 -/
def d_ExcitationSystemsExcST6B : RClass := ⟨0x45786369746174696f6e53797374656d7345786353543642, 0x43494d31342e454e54534f452e44796e616d6963732e49454336313937302e44796e616d6963732e45786369746174696f6e53797374656d732e45786369746174696f6e53797374656d7345786353543642, 0x43494d31342e454e54534f452e44796e616d6963732e49454336313937302e436f72652e436f7265506f77657253797374656d5265736f75726365,
  [(0x76616d696e, .flt 0x0), (0x76726d696e, .flt 0x0), (0x6b6d, .flt 0x0), (0x7473, .flt 0x0), (0x6b67, .flt 0x0), (0x7472, .flt 0x0), (0x6b636c, .flt 0x0), (0x6b6c72, .flt 0x0), (0x76726d6178, .flt 0x0), (0x696c72, .flt 0x0), (0x6b7061, .flt 0x0), (0x7467, .flt 0x0), (0x76616d6178, .flt 0x0), (0x6f656c696e, .flt 0x0), (0x6b6666, .flt 0x0), (0x766d756c74, .flt 0x0), (0x6b6961, .flt 0x0)],
  [0x76616d696e, 0x76726d696e, 0x6b6d, 0x7473, 0x6b67, 0x7472, 0x6b636c, 0x6b6c72, 0x76726d6178, 0x696c72, 0x6b7061, 0x7467, 0x76616d6178, 0x6f656c696e, 0x6b6666, 0x766d756c74, 0x6b6961],
  [(0x76616d696e, .flt 0x0), (0x76726d696e, .flt 0x0), (0x6b6d, .flt 0x0), (0x7473, .flt 0x0), (0x6b67, .flt 0x0), (0x7472, .flt 0x0), (0x6b636c, .flt 0x0), (0x6b6c72, .flt 0x0), (0x76726d6178, .flt 0x0), (0x696c72, .flt 0x0), (0x6b7061, .flt 0x0), (0x7467, .flt 0x0), (0x76616d6178, .flt 0x0), (0x6f656c696e, .flt 0x0), (0x6b6666, .flt 0x0), (0x766d756c74, .flt 0x0), (0x6b6961, .flt 0x0)],
  [(0x76616d696e, 0x666c6f6174), (0x76726d696e, 0x666c6f6174), (0x6b6d, 0x666c6f6174), (0x7473, 0x666c6f6174), (0x6b67, 0x666c6f6174), (0x7472, 0x666c6f6174), (0x6b636c, 0x666c6f6174), (0x6b6c72, 0x666c6f6174), (0x76726d6178, 0x666c6f6174), (0x696c72, 0x666c6f6174), (0x6b7061, 0x666c6f6174), (0x7467, 0x666c6f6174), (0x76616d6178, 0x666c6f6174), (0x6f656c696e, 0x666c6f6174), (0x6b6666, 0x666c6f6174), (0x766d756c74, 0x666c6f6174), (0x6b6961, 0x666c6f6174)],
  [],
  [],
  []⟩
def m_ExcitationSystemsExcST6B : List RClass := d_ExcitationSystemsExcST6B :: m_CorePowerSystemResource

/-- CIM14/ENTSOE/Dynamics/IEC61970/Dynamics/ExcitationSystems/ExcitationSystemsExcST7B.py:23 -/
def d_ExcitationSystemsExcST7B : RClass := ⟨0x45786369746174696f6e53797374656d7345786353543742, 0x43494d31342e454e54534f452e44796e616d6963732e49454336313937302e44796e616d6963732e45786369746174696f6e53797374656d732e45786369746174696f6e53797374656d7345786353543742, 0x43494d31342e454e54534f452e44796e616d6963732e49454336313937302e436f72652e436f7265506f77657253797374656d5265736f75726365,
  [(0x7467, .flt 0x0), (0x6b7061, .flt 0x0), (0x766d696e, .flt 0x0), (0x76726d6178, .flt 0x0), (0x6b6c, .flt 0x0), (0x7472, .flt 0x0), (0x6b68, .flt 0x0), (0x7473, .flt 0x0), (0x76726d696e, .flt 0x0), (0x6f656c696e, .flt 0x0), (0x75656c696e, .flt 0x0), (0x746961, .flt 0x0), (0x7462, .flt 0x0), (0x7463, .flt 0x0), (0x7466, .flt 0x0), (0x6b6961, .flt 0x0), (0x766d6178, .flt 0x0)],
  [0x7467, 0x6b7061, 0x766d696e, 0x76726d6178, 0x6b6c, 0x7472, 0x6b68, 0x7473, 0x76726d696e, 0x6f656c696e, 0x75656c696e, 0x746961, 0x7462, 0x7463, 0x7466, 0x6b6961, 0x766d6178],
  [(0x7467, .flt 0x0), (0x6b7061, .flt 0x0), (0x766d696e, .flt 0x0), (0x76726d6178, .flt 0x0), (0x6b6c, .flt 0x0), (0x7472, .flt 0x0), (0x6b68, .flt 0x0), (0x7473, .flt 0x0), (0x76726d696e, .flt 0x0), (0x6f656c696e, .flt 0x0), (0x75656c696e, .flt 0x0), (0x746961, .flt 0x0), (0x7462, .flt 0x0), (0x7463, .flt 0x0), (0x7466, .flt 0x0), (0x6b6961, .flt 0x0), (0x766d6178, .flt 0x0)],
  [(0x7467, 0x666c6f6174), (0x6b7061, 0x666c6f6174), (0x766d696e, 0x666c6f6174), (0x76726d6178, 0x666c6f6174), (0x6b6c, 0x666c6f6174), (0x7472, 0x666c6f6174), (0x6b68, 0x666c6f6174), (0x7473, 0x666c6f6174), (0x76726d696e, 0x666c6f6174), (0x6f656c696e, 0x666c6f6174), (0x75656c696e, 0x666c6f6174), (0x746961, 0x666c6f6174), (0x7462, 0x666c6f6174), (0x7463, 0x666c6f6174), (0x7466, 0x666c6f6174), (0x6b6961, 0x666c6f6174), (0x766d6178, 0x666c6f6174)],
  [],
  [],
  []⟩
def m_ExcitationSystemsExcST7B : List RClass := d_ExcitationSystemsExcST7B :: m_CorePowerSystemResource

/-- CIM14/ENTSOE/Dynamics/IEC61970/Dynamics/Loads/LoadsLoadMotor.py:23 -/
def d_LoadsLoadMotor : RClass := ⟨0x4c6f6164734c6f61644d6f746f72, 0x43494d31342e454e54534f452e44796e616d6963732e49454336313937302e44796e616d6963732e4c6f6164732e4c6f6164734c6f61644d6f746f72, 0x43494d31342e454e54534f452e44796e616d6963732e49454336313937302e436f72652e436f7265506f77657253797374656d5265736f75726365,
  [(0x6c666163, .flt 0x0), (0x7261, .flt 0x0), (0x64, .flt 0x0), (0x6c73, .flt 0x0), (0x7470706f, .flt 0x0), (0x74626b72, .flt 0x0), (0x6c7070, .flt 0x0), (0x74706f, .flt 0x0), (0x6c70, .flt 0x0), (0x68, .flt 0x0), (0x7674, .flt 0x0), (0x7066726163, .flt 0x0), (0x7476, .flt 0x0)],
  [0x6c666163, 0x7261, 0x64, 0x6c73, 0x7470706f, 0x74626b72, 0x6c7070, 0x74706f, 0x6c70, 0x68, 0x7674, 0x7066726163, 0x7476],
  [(0x6c666163, .flt 0x0), (0x7261, .flt 0x0), (0x64, .flt 0x0), (0x6c73, .flt 0x0), (0x7470706f, .flt 0x0), (0x74626b72, .flt 0x0), (0x6c7070, .flt 0x0), (0x74706f, .flt 0x0), (0x6c70, .flt 0x0), (0x68, .flt 0x0), (0x7674, .flt 0x0), (0x7066726163, .flt 0x0), (0x7476, .flt 0x0)],
  [(0x6c666163, 0x666c6f6174), (0x7261, 0x666c6f6174), (0x64, 0x666c6f6174), (0x6c73, 0x666c6f6174), (0x7470706f, 0x666c6f6174), (0x74626b72, 0x666c6f6174), (0x6c7070, 0x666c6f6174), (0x74706f, 0x666c6f6174), (0x6c70, 0x666c6f6174), (0x68, 0x666c6f6174), (0x7674, 0x666c6f6174), (0x7066726163, 0x666c6f6174), (0x7476, 0x666c6f6174)],
  [],
  [],
  []⟩
def m_LoadsLoadMotor : List RClass := d_LoadsLoadMotor :: m_CorePowerSystemResource

/-- CIM14/ENTSOE/Dynamics/IEC61970/Dynamics/Loads/LoadsLoadStatic.py:23 -/
def d_LoadsLoadStatic : RClass := ⟨0x4c6f6164734c6f6164537461746963, 0x43494d31342e454e54534f452e44796e616d6963732e49454336313937302e44796e616d6963732e4c6f6164732e4c6f6164734c6f6164537461746963, 0x43494d31342e454e54534f452e44796e616d6963732e49454336313937302e436f72652e436f7265506f77657253797374656d5265736f75726365,
  [(0x657032, .flt 0x0), (0x657031, .flt 0x0), (0x6b7032, .flt 0x0), (0x657033, .flt 0x0), (0x6b7031, .flt 0x0), (0x6b7134, .flt 0x0), (0x6b7133, .flt 0x0), (0x6b7132, .flt 0x0), (0x6b7131, .flt 0x0), (0x657131, .flt 0x0), (0x657132, .flt 0x0), (0x6b7034, .flt 0x0), (0x6b7033, .flt 0x0), (0x657133, .flt 0x0), (0x7374617469634c6f616454797065, .str 0), (0x6b7166, .flt 0x0), (0x6b7066, .flt 0x0)],
  [0x657032, 0x657031, 0x6b7032, 0x657033, 0x6b7031, 0x6b7134, 0x6b7133, 0x6b7132, 0x6b7131, 0x657131, 0x657132, 0x6b7034, 0x6b7033, 0x657133, 0x7374617469634c6f616454797065, 0x6b7166, 0x6b7066],
  [(0x657032, .flt 0x0), (0x657031, .flt 0x0), (0x6b7032, .flt 0x0), (0x657033, .flt 0x0), (0x6b7031, .flt 0x0), (0x6b7134, .flt 0x0), (0x6b7133, .flt 0x0), (0x6b7132, .flt 0x0), (0x6b7131, .flt 0x0), (0x657131, .flt 0x0), (0x657132, .flt 0x0), (0x6b7034, .flt 0x0), (0x6b7033, .flt 0x0), (0x657133, .flt 0x0), (0x7374617469634c6f616454797065, .str 0), (0x6b7166, .flt 0x0), (0x6b7066, .flt 0x0)],
  [(0x657032, 0x666c6f6174), (0x657031, 0x666c6f6174), (0x6b7032, 0x666c6f6174), (0x657033, 0x666c6f6174), (0x6b7031, 0x666c6f6174), (0x6b7134, 0x666c6f6174), (0x6b7133, 0x666c6f6174), (0x6b7132, 0x666c6f6174), (0x6b7131, 0x666c6f6174), (0x657131, 0x666c6f6174), (0x657132, 0x666c6f6174), (0x6b7034, 0x666c6f6174), (0x6b7033, 0x666c6f6174), (0x657133, 0x666c6f6174), (0x7374617469634c6f616454797065, 0x737472), (0x6b7166, 0x666c6f6174), (0x6b7066, 0x666c6f6174)],
  [(0x7374617469634c6f616454797065, 0x4c6f6164735374617469634c6f616454797065)],
  [],
  []⟩
def m_LoadsLoadStatic : List RClass := d_LoadsLoadStatic :: m_CorePowerSystemResource

/-- CIM14/ENTSOE/Dynamics/IEC61970/Dynamics/Motors/MotorsMechLoad1.py:23 -/
def d_MotorsMechLoad1 : RClass := ⟨0x4d6f746f72734d6563684c6f616431, 0x43494d31342e454e54534f452e44796e616d6963732e49454336313937302e44796e616d6963732e4d6f746f72732e4d6f746f72734d6563684c6f616431, 0x43494d31342e454e54534f452e44796e616d6963732e49454336313937302e436f72652e436f7265506f77657253797374656d5265736f75726365,
  [(0x62, .flt 0x0), (0x61, .flt 0x0), (0x64, .flt 0x0), (0x65, .flt 0x0)],
  [0x62, 0x61, 0x64, 0x65],
  [(0x62, .flt 0x0), (0x61, .flt 0x0), (0x64, .flt 0x0), (0x65, .flt 0x0)],
  [(0x62, 0x666c6f6174), (0x61, 0x666c6f6174), (0x64, 0x666c6f6174), (0x65, 0x666c6f6174)],
  [],
  [],
  []⟩
def m_MotorsMechLoad1 : List RClass := d_MotorsMechLoad1 :: m_CorePowerSystemResource

/-- CIM14/ENTSOE/Dynamics/IEC61970/Dynamics/PowerSystemStabilizers/PowerSystemStabilizersPssIEEE2B.py:23 -/
def d_PowerSystemStabilizersPssIEEE2B : RClass := ⟨0x506f77657253797374656d53746162696c697a657273507373494545453242, 0x43494d31342e454e54534f452e44796e616d6963732e49454336313937302e44796e616d6963732e506f77657253797374656d53746162696c697a6572732e506f77657253797374656d53746162696c697a657273507373494545453242, 0x43494d31342e454e54534f452e44796e616d6963732e49454336313937302e436f72652e436f7265506f77657253797374656d5265736f75726365,
  [(0x743130, .flt 0x0), (0x61, .flt 0x0), (0x6b7331, .flt 0x0), (0x6b7333, .flt 0x0), (0x743131, .flt 0x0), (0x6b7332, .flt 0x0), (0x7673746d696e, .flt 0x0), (0x767369316d6178, .flt 0x0), (0x767369326d6178, .flt 0x0), (0x7462, .flt 0x0), (0x7432, .flt 0x0), (0x7461, .flt 0x0), (0x7431, .flt 0x0), (0x7434, .flt 0x0), (0x6e, .int 0), (0x7433, .flt 0x0), (0x6d, .int 0), (0x6a31, .int 0), (0x7436, .flt 0x0), (0x6a32, .int 0), (0x7438, .flt 0x0), (0x767369316d696e, .flt 0x0), (0x7437, .flt 0x0), (0x7439, .flt 0x0), (0x6b7334, .flt 0x0), (0x747732, .flt 0x0), (0x747731, .flt 0x0), (0x747734, .flt 0x0), (0x767369326d696e, .flt 0x0), (0x747733, .flt 0x0), (0x7673746d6178, .flt 0x0)],
  [0x743130, 0x61, 0x6b7331, 0x6b7333, 0x743131, 0x6b7332, 0x7673746d696e, 0x767369316d6178, 0x767369326d6178, 0x7462, 0x7432, 0x7461, 0x7431, 0x7434, 0x6e, 0x7433, 0x6d, 0x6a31, 0x7436, 0x6a32, 0x7438, 0x767369316d696e, 0x7437, 0x7439, 0x6b7334, 0x747732, 0x747731, 0x747734, 0x767369326d696e, 0x747733, 0x7673746d6178],
  [(0x743130, .flt 0x0), (0x61, .flt 0x0), (0x6b7331, .flt 0x0), (0x6b7333, .flt 0x0), (0x743131, .flt 0x0), (0x6b7332, .flt 0x0), (0x7673746d696e, .flt 0x0), (0x767369316d6178, .flt 0x0), (0x767369326d6178, .flt 0x0), (0x7462, .flt 0x0), (0x7432, .flt 0x0), (0x7461, .flt 0x0), (0x7431, .flt 0x0), (0x7434, .flt 0x0), (0x6e, .int 0), (0x7433, .flt 0x0), (0x6d, .int 0), (0x6a31, .int 0), (0x7436, .flt 0x0), (0x6a32, .int 0), (0x7438, .flt 0x0), (0x767369316d696e, .flt 0x0), (0x7437, .flt 0x0), (0x7439, .flt 0x0), (0x6b7334, .flt 0x0), (0x747732, .flt 0x0), (0x747731, .flt 0x0), (0x747734, .flt 0x0), (0x767369326d696e, .flt 0x0), (0x747733, .flt 0x0), (0x7673746d6178, .flt 0x0)],
  [(0x743130, 0x666c6f6174), (0x61, 0x666c6f6174), (0x6b7331, 0x666c6f6174), (0x6b7333, 0x666c6f6174), (0x743131, 0x666c6f6174), (0x6b7332, 0x666c6f6174), (0x7673746d696e, 0x666c6f6174), (0x767369316d6178, 0x666c6f6174), (0x767369326d6178, 0x666c6f6174), (0x7462, 0x666c6f6174), (0x7432, 0x666c6f6174), (0x7461, 0x666c6f6174), (0x7431, 0x666c6f6174), (0x7434, 0x666c6f6174), (0x6e, 0x696e74), (0x7433, 0x666c6f6174), (0x6d, 0x696e74), (0x6a31, 0x696e74), (0x7436, 0x666c6f6174), (0x6a32, 0x696e74), (0x7438, 0x666c6f6174), (0x767369316d696e, 0x666c6f6174), (0x7437, 0x666c6f6174), (0x7439, 0x666c6f6174), (0x6b7334, 0x666c6f6174), (0x747732, 0x666c6f6174), (0x747731, 0x666c6f6174), (0x747734, 0x666c6f6174), (0x767369326d696e, 0x666c6f6174), (0x747733, 0x666c6f6174), (0x7673746d6178, 0x666c6f6174)],
  [],
  [],
  []⟩
def m_PowerSystemStabilizersPssIEEE2B : List RClass := d_PowerSystemStabilizersPssIEEE2B :: m_CorePowerSystemResource

/-- CIM14/ENTSOE/Dynamics/IEC61970/Dynamics/TurbineGovernors/TurbineGovernorsGovCT1.py:23 -/
def d_TurbineGovernorsGovCT1 : RClass := ⟨0x54757262696e65476f7665726e6f7273476f76435431, 0x43494d31342e454e54534f452e44796e616d6963732e49454336313937302e44796e616d6963732e54757262696e65476f7665726e6f72732e54757262696e65476f7665726e6f7273476f76435431, 0x43494d31342e454e54534f452e44796e616d6963732e49454336313937302e436f72652e436f7265506f77657253797374656d5265736f75726365,
  [(0x72646f776e, .flt 0x0), (0x766d6178, .flt 0x0), (0x77666e6c, .flt 0x0), (0x7464676f76, .flt 0x0), (0x61736574, .flt 0x0), (0x72, .flt 0x0), (0x7766737064, .bool false), (0x6b70676f76, .flt 0x0), (0x6d696e657272, .flt 0x0), (0x747361, .flt 0x0), (0x74616374, .flt 0x0), (0x747362, .flt 0x0), (0x6c64726566, .flt 0x0), (0x6b696d77, .flt 0x0), (0x6d6178657272, .flt 0x0), (0x766d696e, .flt 0x0), (0x6d7762617365, .flt 0x0), (0x72636c6f7365, .flt 0x0), (0x7470656c6563, .flt 0x0), (0x727570, .flt 0x0), (0x7462, .flt 0x0), (0x6b61, .flt 0x0), (0x7461, .flt 0x0), (0x6b64676f76, .flt 0x0), (0x6b74757262, .flt 0x0), (0x6462, .flt 0x0), (0x74656e67, .flt 0x0), (0x7463, .flt 0x0), (0x726f70656e, .flt 0x0), (0x646d, .flt 0x0), (0x6b696c6f6164, .flt 0x0), (0x706d77736574, .flt 0x0), (0x7273656c656374, .bool false), (0x6b69676f76, .flt 0x0), (0x6b706c6f6164, .flt 0x0), (0x74666c6f6164, .flt 0x0)],
  [0x72646f776e, 0x766d6178, 0x77666e6c, 0x7464676f76, 0x61736574, 0x72, 0x7766737064, 0x6b70676f76, 0x6d696e657272, 0x747361, 0x74616374, 0x747362, 0x6c64726566, 0x6b696d77, 0x6d6178657272, 0x766d696e, 0x6d7762617365, 0x72636c6f7365, 0x7470656c6563, 0x727570, 0x7462, 0x6b61, 0x7461, 0x6b64676f76, 0x6b74757262, 0x6462, 0x74656e67, 0x7463, 0x726f70656e, 0x646d, 0x6b696c6f6164, 0x706d77736574, 0x7273656c656374, 0x6b69676f76, 0x6b706c6f6164, 0x74666c6f6164],
  [(0x72646f776e, .flt 0x0), (0x766d6178, .flt 0x0), (0x77666e6c, .flt 0x0), (0x7464676f76, .flt 0x0), (0x61736574, .flt 0x0), (0x72, .flt 0x0), (0x7766737064, .bool false), (0x6b70676f76, .flt 0x0), (0x6d696e657272, .flt 0x0), (0x747361, .flt 0x0), (0x74616374, .flt 0x0), (0x747362, .flt 0x0), (0x6c64726566, .flt 0x0), (0x6b696d77, .flt 0x0), (0x6d6178657272, .flt 0x0), (0x766d696e, .flt 0x0), (0x6d7762617365, .flt 0x0), (0x72636c6f7365, .flt 0x0), (0x7470656c6563, .flt 0x0), (0x727570, .flt 0x0), (0x7462, .flt 0x0), (0x6b61, .flt 0x0), (0x7461, .flt 0x0), (0x6b64676f76, .flt 0x0), (0x6b74757262, .flt 0x0), (0x6462, .flt 0x0), (0x74656e67, .flt 0x0), (0x7463, .flt 0x0), (0x726f70656e, .flt 0x0), (0x646d, .flt 0x0), (0x6b696c6f6164, .flt 0x0), (0x706d77736574, .flt 0x0), (0x7273656c656374, .bool false), (0x6b69676f76, .flt 0x0), (0x6b706c6f6164, .flt 0x0), (0x74666c6f6164, .flt 0x0)],
  [(0x72646f776e, 0x666c6f6174), (0x766d6178, 0x666c6f6174), (0x77666e6c, 0x666c6f6174), (0x7464676f76, 0x666c6f6174), (0x61736574, 0x666c6f6174), (0x72, 0x666c6f6174), (0x7766737064, 0x626f6f6c), (0x6b70676f76, 0x666c6f6174), (0x6d696e657272, 0x666c6f6174), (0x747361, 0x666c6f6174), (0x74616374, 0x666c6f6174), (0x747362, 0x666c6f6174), (0x6c64726566, 0x666c6f6174), (0x6b696d77, 0x666c6f6174), (0x6d6178657272, 0x666c6f6174), (0x766d696e, 0x666c6f6174), (0x6d7762617365, 0x666c6f6174), (0x72636c6f7365, 0x666c6f6174), (0x7470656c6563, 0x666c6f6174), (0x727570, 0x666c6f6174), (0x7462, 0x666c6f6174), (0x6b61, 0x666c6f6174), (0x7461, 0x666c6f6174), (0x6b64676f76, 0x666c6f6174), (0x6b74757262, 0x666c6f6174), (0x6462, 0x666c6f6174), (0x74656e67, 0x666c6f6174), (0x7463, 0x666c6f6174), (0x726f70656e, 0x666c6f6174), (0x646d, 0x666c6f6174), (0x6b696c6f6164, 0x666c6f6174), (0x706d77736574, 0x666c6f6174), (0x7273656c656374, 0x626f6f6c), (0x6b69676f76, 0x666c6f6174), (0x6b706c6f6164, 0x666c6f6174), (0x74666c6f6164, 0x666c6f6174)],
  [],
  [],
  []⟩
def m_TurbineGovernorsGovCT1 : List RClass := d_TurbineGovernorsGovCT1 :: m_CorePowerSystemResource

/-- CIM14/ENTSOE/Dynamics/IEC61970/Dynamics/TurbineGovernors/TurbineGovernorsGovHydro1.py:23 -/
def d_TurbineGovernorsGovHydro1 : RClass := ⟨0x54757262696e65476f7665726e6f7273476f76487964726f31, 0x43494d31342e454e54534f452e44796e616d6963732e49454336313937302e44796e616d6963732e54757262696e65476f7665726e6f72732e54757262696e65476f7665726e6f7273476f76487964726f31, 0x43494d31342e454e54534f452e44796e616d6963732e49454336313937302e436f72652e436f7265506f77657253797374656d5265736f75726365,
  [(0x727065726d, .flt 0x0), (0x7467, .flt 0x0), (0x7466, .flt 0x0), (0x6d7762617365, .flt 0x0), (0x676d6178, .flt 0x0), (0x6174, .flt 0x0), (0x676d696e, .flt 0x0), (0x716e6c, .flt 0x0), (0x76656c6d, .flt 0x0), (0x7477, .flt 0x0), (0x6474757262, .flt 0x0), (0x7274656d70, .flt 0x0), (0x7472, .flt 0x0)],
  [0x727065726d, 0x7467, 0x7466, 0x6d7762617365, 0x676d6178, 0x6174, 0x676d696e, 0x716e6c, 0x76656c6d, 0x7477, 0x6474757262, 0x7274656d70, 0x7472],
  [(0x727065726d, .flt 0x0), (0x7467, .flt 0x0), (0x7466, .flt 0x0), (0x6d7762617365, .flt 0x0), (0x676d6178, .flt 0x0), (0x6174, .flt 0x0), (0x676d696e, .flt 0x0), (0x716e6c, .flt 0x0), (0x76656c6d, .flt 0x0), (0x7477, .flt 0x0), (0x6474757262, .flt 0x0), (0x7274656d70, .flt 0x0), (0x7472, .flt 0x0)],
  [(0x727065726d, 0x666c6f6174), (0x7467, 0x666c6f6174), (0x7466, 0x666c6f6174), (0x6d7762617365, 0x666c6f6174), (0x676d6178, 0x666c6f6174), (0x6174, 0x666c6f6174), (0x676d696e, 0x666c6f6174), (0x716e6c, 0x666c6f6174), (0x76656c6d, 0x666c6f6174), (0x7477, 0x666c6f6174), (0x6474757262, 0x666c6f6174), (0x7274656d70, 0x666c6f6174), (0x7472, 0x666c6f6174)],
  [],
  [],
  []⟩
def m_TurbineGovernorsGovHydro1 : List RClass := d_TurbineGovernorsGovHydro1 :: m_CorePowerSystemResource

/-- CIM14/ENTSOE/Dynamics/IEC61970/Dynamics/TurbineGovernors/TurbineGovernorsGovHydro2.py:23 -/
def d_TurbineGovernorsGovHydro2 : RClass := ⟨0x54757262696e65476f7665726e6f7273476f76487964726f32, 0x43494d31342e454e54534f452e44796e616d6963732e49454336313937302e44796e616d6963732e54757262696e65476f7665726e6f72732e54757262696e65476f7665726e6f7273476f76487964726f32, 0x43494d31342e454e54534f452e44796e616d6963732e49454336313937302e436f72652e436f7265506f77657253797374656d5265736f75726365,
  [(0x6274757262, .flt 0x0), (0x7274656d70, .flt 0x0), (0x7477, .flt 0x0), (0x727065726d, .flt 0x0), (0x677631, .flt 0x0), (0x677632, .flt 0x0), (0x7472, .flt 0x0), (0x6174757262, .flt 0x0), (0x7470, .flt 0x0), (0x756f, .flt 0x0), (0x677636, .flt 0x0), (0x677635, .flt 0x0), (0x70677635, .flt 0x0), (0x677634, .flt 0x0), (0x70677636, .flt 0x0), (0x677633, .flt 0x0), (0x70677632, .flt 0x0), (0x70677631, .flt 0x0), (0x646231, .flt 0x0), (0x70677634, .flt 0x0), (0x6b74757262, .flt 0x0), (0x646232, .flt 0x0), (0x7467, .flt 0x0), (0x706d6178, .flt 0x0), (0x70677633, .flt 0x0), (0x6d7762617365, .flt 0x0), (0x7563, .flt 0x0), (0x706d696e, .flt 0x0), (0x657073, .flt 0x0)],
  [0x6274757262, 0x7274656d70, 0x7477, 0x727065726d, 0x677631, 0x677632, 0x7472, 0x6174757262, 0x7470, 0x756f, 0x677636, 0x677635, 0x70677635, 0x677634, 0x70677636, 0x677633, 0x70677632, 0x70677631, 0x646231, 0x70677634, 0x6b74757262, 0x646232, 0x7467, 0x706d6178, 0x70677633, 0x6d7762617365, 0x7563, 0x706d696e, 0x657073],
  [(0x6274757262, .flt 0x0), (0x7274656d70, .flt 0x0), (0x7477, .flt 0x0), (0x727065726d, .flt 0x0), (0x677631, .flt 0x0), (0x677632, .flt 0x0), (0x7472, .flt 0x0), (0x6174757262, .flt 0x0), (0x7470, .flt 0x0), (0x756f, .flt 0x0), (0x677636, .flt 0x0), (0x677635, .flt 0x0), (0x70677635, .flt 0x0), (0x677634, .flt 0x0), (0x70677636, .flt 0x0), (0x677633, .flt 0x0), (0x70677632, .flt 0x0), (0x70677631, .flt 0x0), (0x646231, .flt 0x0), (0x70677634, .flt 0x0), (0x6b74757262, .flt 0x0), (0x646232, .flt 0x0), (0x7467, .flt 0x0), (0x706d6178, .flt 0x0), (0x70677633, .flt 0x0), (0x6d7762617365, .flt 0x0), (0x7563, .flt 0x0), (0x706d696e, .flt 0x0), (0x657073, .flt 0x0)],
  [(0x6274757262, 0x666c6f6174), (0x7274656d70, 0x666c6f6174), (0x7477, 0x666c6f6174), (0x727065726d, 0x666c6f6174), (0x677631, 0x666c6f6174), (0x677632, 0x666c6f6174), (0x7472, 0x666c6f6174), (0x6174757262, 0x666c6f6174), (0x7470, 0x666c6f6174), (0x756f, 0x666c6f6174), (0x677636, 0x666c6f6174), (0x677635, 0x666c6f6174), (0x70677635, 0x666c6f6174), (0x677634, 0x666c6f6174), (0x70677636, 0x666c6f6174), (0x677633, 0x666c6f6174), (0x70677632, 0x666c6f6174), (0x70677631, 0x666c6f6174), (0x646231, 0x666c6f6174), (0x70677634, 0x666c6f6174), (0x6b74757262, 0x666c6f6174), (0x646232, 0x666c6f6174), (0x7467, 0x666c6f6174), (0x706d6178, 0x666c6f6174), (0x70677633, 0x666c6f6174), (0x6d7762617365, 0x666c6f6174), (0x7563, 0x666c6f6174), (0x706d696e, 0x666c6f6174), (0x657073, 0x666c6f6174)],
  [],
  [],
  []⟩
def m_TurbineGovernorsGovHydro2 : List RClass := d_TurbineGovernorsGovHydro2 :: m_CorePowerSystemResource

/-- CIM14/ENTSOE/Dynamics/IEC61970/Dynamics/TurbineGovernors/TurbineGovernorsGovSteam0.py:23 -/
def d_TurbineGovernorsGovSteam0 : RClass := ⟨0x54757262696e65476f7665726e6f7273476f76537465616d30, 0x43494d31342e454e54534f452e44796e616d6963732e49454336313937302e44796e616d6963732e54757262696e65476f7665726e6f72732e54757262696e65476f7665726e6f7273476f76537465616d30, 0x43494d31342e454e54534f452e44796e616d6963732e49454336313937302e436f72652e436f7265506f77657253797374656d5265736f75726365,
  [(0x7432, .flt 0x0), (0x7433, .flt 0x0), (0x7431, .flt 0x0), (0x766d6178, .flt 0x0), (0x6474, .flt 0x0), (0x72, .flt 0x0), (0x766d696e, .flt 0x0), (0x6d7762617365, .flt 0x0)],
  [0x7432, 0x7433, 0x7431, 0x766d6178, 0x6474, 0x72, 0x766d696e, 0x6d7762617365],
  [(0x7432, .flt 0x0), (0x7433, .flt 0x0), (0x7431, .flt 0x0), (0x766d6178, .flt 0x0), (0x6474, .flt 0x0), (0x72, .flt 0x0), (0x766d696e, .flt 0x0), (0x6d7762617365, .flt 0x0)],
  [(0x7432, 0x666c6f6174), (0x7433, 0x666c6f6174), (0x7431, 0x666c6f6174), (0x766d6178, 0x666c6f6174), (0x6474, 0x666c6f6174), (0x72, 0x666c6f6174), (0x766d696e, 0x666c6f6174), (0x6d7762617365, 0x666c6f6174)],
  [],
  [],
  []⟩
def m_TurbineGovernorsGovSteam0 : List RClass := d_TurbineGovernorsGovSteam0 :: m_CorePowerSystemResource

/-- CIM14/ENTSOE/Dynamics/IEC61970/Dynamics/TurbineGovernors/TurbineGovernorsGovSteam1.py:23 -/
def d_TurbineGovernorsGovSteam1 : RClass := ⟨0x54757262696e65476f7665726e6f7273476f76537465616d31, 0x43494d31342e454e54534f452e44796e616d6963732e49454336313937302e44796e616d6963732e54757262696e65476f7665726e6f72732e54757262696e65476f7665726e6f7273476f76537465616d31, 0x43494d31342e454e54534f452e44796e616d6963732e49454336313937302e436f72652e436f7265506f77657253797374656d5265736f75726365,
  [(0x657073, .flt 0x0), (0x7563, .flt 0x0), (0x6d7762617365, .flt 0x0), (0x706d696e, .flt 0x0), (0x6b33, .flt 0x0), (0x6b, .flt 0x0), (0x6b32, .flt 0x0), (0x6b31, .flt 0x0), (0x70677631, .flt 0x0), (0x6b37, .flt 0x0), (0x6b36, .flt 0x0), (0x706d6178, .flt 0x0), (0x6b35, .flt 0x0), (0x6b34, .flt 0x0), (0x677636, .flt 0x0), (0x7436, .flt 0x0), (0x70677636, .flt 0x0), (0x7437, .flt 0x0), (0x677635, .flt 0x0), (0x6b38, .flt 0x0), (0x677631, .flt 0x0), (0x7431, .flt 0x0), (0x7432, .flt 0x0), (0x70677633, .flt 0x0), (0x646231, .flt 0x0), (0x7433, .flt 0x0), (0x756f, .flt 0x0), (0x70677632, .flt 0x0), (0x677634, .flt 0x0), (0x70677635, .flt 0x0), (0x7434, .flt 0x0), (0x677632, .flt 0x0), (0x677633, .flt 0x0), (0x7435, .flt 0x0), (0x70677634, .flt 0x0), (0x646232, .flt 0x0)],
  [0x657073, 0x7563, 0x6d7762617365, 0x706d696e, 0x6b33, 0x6b, 0x6b32, 0x6b31, 0x70677631, 0x6b37, 0x6b36, 0x706d6178, 0x6b35, 0x6b34, 0x677636, 0x7436, 0x70677636, 0x7437, 0x677635, 0x6b38, 0x677631, 0x7431, 0x7432, 0x70677633, 0x646231, 0x7433, 0x756f, 0x70677632, 0x677634, 0x70677635, 0x7434, 0x677632, 0x677633, 0x7435, 0x70677634, 0x646232],
  [(0x657073, .flt 0x0), (0x7563, .flt 0x0), (0x6d7762617365, .flt 0x0), (0x706d696e, .flt 0x0), (0x6b33, .flt 0x0), (0x6b, .flt 0x0), (0x6b32, .flt 0x0), (0x6b31, .flt 0x0), (0x70677631, .flt 0x0), (0x6b37, .flt 0x0), (0x6b36, .flt 0x0), (0x706d6178, .flt 0x0), (0x6b35, .flt 0x0), (0x6b34, .flt 0x0), (0x677636, .flt 0x0), (0x7436, .flt 0x0), (0x70677636, .flt 0x0), (0x7437, .flt 0x0), (0x677635, .flt 0x0), (0x6b38, .flt 0x0), (0x677631, .flt 0x0), (0x7431, .flt 0x0), (0x7432, .flt 0x0), (0x70677633, .flt 0x0), (0x646231, .flt 0x0), (0x7433, .flt 0x0), (0x756f, .flt 0x0), (0x70677632, .flt 0x0), (0x677634, .flt 0x0), (0x70677635, .flt 0x0), (0x7434, .flt 0x0), (0x677632, .flt 0x0), (0x677633, .flt 0x0), (0x7435, .flt 0x0), (0x70677634, .flt 0x0), (0x646232, .flt 0x0)],
  [(0x657073, 0x666c6f6174), (0x7563, 0x666c6f6174), (0x6d7762617365, 0x666c6f6174), (0x706d696e, 0x666c6f6174), (0x6b33, 0x666c6f6174), (0x6b, 0x666c6f6174), (0x6b32, 0x666c6f6174), (0x6b31, 0x666c6f6174), (0x70677631, 0x666c6f6174), (0x6b37, 0x666c6f6174), (0x6b36, 0x666c6f6174), (0x706d6178, 0x666c6f6174), (0x6b35, 0x666c6f6174), (0x6b34, 0x666c6f6174), (0x677636, 0x666c6f6174), (0x7436, 0x666c6f6174), (0x70677636, 0x666c6f6174), (0x7437, 0x666c6f6174), (0x677635, 0x666c6f6174), (0x6b38, 0x666c6f6174), (0x677631, 0x666c6f6174), (0x7431, 0x666c6f6174), (0x7432, 0x666c6f6174), (0x70677633, 0x666c6f6174), (0x646231, 0x666c6f6174), (0x7433, 0x666c6f6174), (0x756f, 0x666c6f6174), (0x70677632, 0x666c6f6174), (0x677634, 0x666c6f6174), (0x70677635, 0x666c6f6174), (0x7434, 0x666c6f6174), (0x677632, 0x666c6f6174), (0x677633, 0x666c6f6174), (0x7435, 0x666c6f6174), (0x70677634, 0x666c6f6174), (0x646232, 0x666c6f6174)],
  [],
  [],
  []⟩
def m_TurbineGovernorsGovSteam1 : List RClass := d_TurbineGovernorsGovSteam1 :: m_CorePowerSystemResource

/-- CIM14/ENTSOE/Dynamics/IEC61970/Dynamics/VoltageCompensator/VoltageCompensatorVcompCross.py:23 -/
def d_VoltageCompensatorVcompCross : RClass := ⟨0x566f6c74616765436f6d70656e7361746f7256636f6d7043726f7373, 0x43494d31342e454e54534f452e44796e616d6963732e49454336313937302e44796e616d6963732e566f6c74616765436f6d70656e7361746f722e566f6c74616765436f6d70656e7361746f7256636f6d7043726f7373, 0x43494d31342e454e54534f452e44796e616d6963732e49454336313937302e436f72652e436f7265506f77657253797374656d5265736f75726365,
  [(0x78636f6d7032, .flt 0x0), (0x72636f6d7032, .flt 0x0)],
  [0x78636f6d7032, 0x72636f6d7032],
  [(0x78636f6d7032, .flt 0x0), (0x72636f6d7032, .flt 0x0)],
  [(0x78636f6d7032, 0x666c6f6174), (0x72636f6d7032, 0x666c6f6174)],
  [],
  [],
  []⟩
def m_VoltageCompensatorVcompCross : List RClass := d_VoltageCompensatorVcompCross :: m_CorePowerSystemResource

/-- CIM14/ENTSOE/Dynamics/IEC61970/Dynamics/VoltageCompensator/VoltageCompensatorVcompIEEE.py:23 -/
def d_VoltageCompensatorVcompIEEE : RClass := ⟨0x566f6c74616765436f6d70656e7361746f7256636f6d7049454545, 0x43494d31342e454e54534f452e44796e616d6963732e49454336313937302e44796e616d6963732e566f6c74616765436f6d70656e7361746f722e566f6c74616765436f6d70656e7361746f7256636f6d7049454545, 0x43494d31342e454e54534f452e44796e616d6963732e49454336313937302e436f72652e436f7265506f77657253797374656d5265736f75726365,
  [(0x78636f6d70, .flt 0x0), (0x72636f6d70, .flt 0x0)],
  [0x78636f6d70, 0x72636f6d70],
  [(0x78636f6d70, .flt 0x0), (0x72636f6d70, .flt 0x0)],
  [(0x78636f6d70, 0x666c6f6174), (0x72636f6d70, 0x666c6f6174)],
  [],
  [],
  []⟩
def m_VoltageCompensatorVcompIEEE : List RClass := d_VoltageCompensatorVcompIEEE :: m_CorePowerSystemResource

/-- CIM14/ENTSOE/Dynamics/IEC61970/Wires/WiresRegulatingControl.py:23 -/
def d_WiresRegulatingControl : RClass := ⟨0x5769726573526567756c6174696e67436f6e74726f6c, 0x43494d31342e454e54534f452e44796e616d6963732e49454336313937302e57697265732e5769726573526567756c6174696e67436f6e74726f6c, 0x43494d31342e454e54534f452e44796e616d6963732e49454336313937302e436f72652e436f7265506f77657253797374656d5265736f75726365,
  [],
  [],
  [],
  [],
  [],
  [⟨0x526567756c6174696e67436f6e644571, .many2one, 0x526567756c6174696e67436f6e74726f6c, 0, false⟩],
  [0x526567756c6174696e67436f6e644571]⟩
def m_WiresRegulatingControl : List RClass := d_WiresRegulatingControl :: m_CorePowerSystemResource

/-- CIM14/ENTSOE/Dynamics/IEC61970/Core/CoreConductingEquipment.py:23 -/
def d_CoreConductingEquipment : RClass := ⟨0x436f7265436f6e64756374696e6745717569706d656e74, 0x43494d31342e454e54534f452e44796e616d6963732e49454336313937302e436f72652e436f7265436f6e64756374696e6745717569706d656e74, 0x43494d31342e454e54534f452e44796e616d6963732e49454336313937302e436f72652e436f726545717569706d656e74,
  [(0x706861736573, .str 0x414243)],
  [0x706861736573],
  [(0x706861736573, .str 0x414243)],
  [(0x706861736573, 0x737472)],
  [(0x706861736573, 0x436f72655068617365436f6465)],
  [⟨0x5376537461747573, .one2one, 0x436f6e64756374696e6745717569706d656e74, 0, false⟩, ⟨0x436c656172616e636554616773, .many2one, 0x436f6e64756374696e6745717569706d656e74, 0, false⟩, ⟨0x5465726d696e616c73, .many2one, 0x436f6e64756374696e6745717569706d656e74, 0, false⟩, ⟨0x50726f74656374696f6e45717569706d656e7473, .many2many, 0x436f6e64756374696e6745717569706d656e7473, 0, false⟩, ⟨0x42617365566f6c74616765, .one2many, 0x436f6e64756374696e6745717569706d656e74, 0, false⟩],
  [0x436c656172616e636554616773, 0x5465726d696e616c73, 0x50726f74656374696f6e45717569706d656e7473]⟩
def m_CoreConductingEquipment : List RClass := d_CoreConductingEquipment :: m_CoreEquipment

/-- CIM14/ENTSOE/Dynamics/IEC61970/Dynamics/DynamicsAttributeBlockParameter.py:23 -/
def d_DynamicsAttributeBlockParameter : RClass := ⟨0x44796e616d696373417474726962757465426c6f636b506172616d65746572, 0x43494d31342e454e54534f452e44796e616d6963732e49454336313937302e44796e616d6963732e44796e616d696373417474726962757465426c6f636b506172616d65746572, 0x43494d31342e454e54534f452e44796e616d6963732e49454336313937302e44796e616d6963732e44796e616d6963734d657461426c6f636b506172616d65746572,
  [(0x6174747269627574654e616d65, .str 0)],
  [0x6174747269627574654e616d65],
  [(0x6174747269627574654e616d65, .str 0)],
  [(0x6174747269627574654e616d65, 0x737472)],
  [],
  [],
  []⟩
def m_DynamicsAttributeBlockParameter : List RClass := d_DynamicsAttributeBlockParameter :: m_DynamicsMetaBlockParameter

/-- CIM14/ENTSOE/Dynamics/IEC61970/Protection/ProtectionProtectionEquipment.py:23 -/
def d_ProtectionProtectionEquipment : RClass := ⟨0x50726f74656374696f6e50726f74656374696f6e45717569706d656e74, 0x43494d31342e454e54534f452e44796e616d6963732e49454336313937302e50726f74656374696f6e2e50726f74656374696f6e50726f74656374696f6e45717569706d656e74, 0x43494d31342e454e54534f452e44796e616d6963732e49454336313937302e436f72652e436f726545717569706d656e74,
  [],
  [],
  [],
  [],
  [],
  [⟨0x436f6e64756374696e6745717569706d656e7473, .many2many, 0x50726f74656374696f6e45717569706d656e7473, 0, false⟩],
  [0x436f6e64756374696e6745717569706d656e7473]⟩
def m_ProtectionProtectionEquipment : List RClass := d_ProtectionProtectionEquipment :: m_CoreEquipment

/-- CIM14/ENTSOE/Dynamics/IEC61970/Wires/WiresRegulatingCondEq.py:23 -/
def d_WiresRegulatingCondEq : RClass := ⟨0x5769726573526567756c6174696e67436f6e644571, 0x43494d31342e454e54534f452e44796e616d6963732e49454336313937302e57697265732e5769726573526567756c6174696e67436f6e644571, 0x43494d31342e454e54534f452e44796e616d6963732e49454336313937302e436f72652e436f7265436f6e64756374696e6745717569706d656e74,
  [],
  [],
  [],
  [],
  [],
  [⟨0x436f6e74726f6c73, .many2one, 0x526567756c6174696e67436f6e644571, 0, false⟩, ⟨0x526567756c6174696e67436f6e74726f6c, .one2many, 0x526567756c6174696e67436f6e644571, 0, false⟩],
  [0x436f6e74726f6c73]⟩
def m_WiresRegulatingCondEq : List RClass := d_WiresRegulatingCondEq :: m_CoreConductingEquipment

/-- CIM14/ENTSOE/Dynamics/IEC61970/Dynamics/DynamicsRotatingMachine.py:23 -/
def d_DynamicsRotatingMachine : RClass := ⟨0x44796e616d696373526f746174696e674d616368696e65, 0x43494d31342e454e54534f452e44796e616d6963732e49454336313937302e44796e616d6963732e44796e616d696373526f746174696e674d616368696e65, 0x43494d31342e454e54534f452e44796e616d6963732e49454336313937302e57697265732e5769726573526567756c6174696e67436f6e644571,
  [(0x726174656453, .flt 0x0), (0x7331, .flt 0x0), (0x733132, .flt 0x0), (0x68, .flt 0x0), (0x706172616d6574657273466f726d54797065, .str 0x6571756976616c656e7443697263756974), (0x64, .flt 0x0), (0x7273, .flt 0x0), (0x786c73, .flt 0x0)],
  [0x726174656453, 0x7331, 0x733132, 0x68, 0x706172616d6574657273466f726d54797065, 0x64, 0x7273, 0x786c73],
  [(0x726174656453, .flt 0x0), (0x7331, .flt 0x0), (0x733132, .flt 0x0), (0x68, .flt 0x0), (0x706172616d6574657273466f726d54797065, .str 0x6571756976616c656e7443697263756974), (0x64, .flt 0x0), (0x7273, .flt 0x0), (0x786c73, .flt 0x0)],
  [(0x726174656453, 0x666c6f6174), (0x7331, 0x666c6f6174), (0x733132, 0x666c6f6174), (0x68, 0x666c6f6174), (0x706172616d6574657273466f726d54797065, 0x737472), (0x64, 0x666c6f6174), (0x7273, 0x666c6f6174), (0x786c73, 0x666c6f6174)],
  [(0x706172616d6574657273466f726d54797065, 0x47656e657261746f7273506172616d6574657273466f726d54797065)],
  [],
  []⟩
def m_DynamicsRotatingMachine : List RClass := d_DynamicsRotatingMachine :: m_WiresRegulatingCondEq

/-- CIM14/ENTSOE/Dynamics/IEC61970/Dynamics/DynamicsAsynchronousMachine.py:23 -/
def d_DynamicsAsynchronousMachine : RClass := ⟨0x44796e616d6963734173796e6368726f6e6f75734d616368696e65, 0x43494d31342e454e54534f452e44796e616d6963732e49454336313937302e44796e616d6963732e44796e616d6963734173796e6368726f6e6f75734d616368696e65, 0x43494d31342e454e54534f452e44796e616d6963732e49454336313937302e44796e616d6963732e44796e616d696373526f746174696e674d616368696e65,
  [(0x727231, .flt 0x0), (0x7870, .flt 0x0), (0x74706f, .flt 0x0), (0x786d, .flt 0x0), (0x7873, .flt 0x0), (0x727232, .flt 0x0), (0x786c7231, .flt 0x0), (0x786c7232, .flt 0x0), (0x7470706f, .flt 0x0), (0x787070, .flt 0x0)],
  [0x727231, 0x7870, 0x74706f, 0x786d, 0x7873, 0x727232, 0x786c7231, 0x786c7232, 0x7470706f, 0x787070],
  [(0x727231, .flt 0x0), (0x7870, .flt 0x0), (0x74706f, .flt 0x0), (0x786d, .flt 0x0), (0x7873, .flt 0x0), (0x727232, .flt 0x0), (0x786c7231, .flt 0x0), (0x786c7232, .flt 0x0), (0x7470706f, .flt 0x0), (0x787070, .flt 0x0)],
  [(0x727231, 0x666c6f6174), (0x7870, 0x666c6f6174), (0x74706f, 0x666c6f6174), (0x786d, 0x666c6f6174), (0x7873, 0x666c6f6174), (0x727232, 0x666c6f6174), (0x786c7231, 0x666c6f6174), (0x786c7232, 0x666c6f6174), (0x7470706f, 0x666c6f6174), (0x787070, 0x666c6f6174)],
  [],
  [],
  []⟩
def m_DynamicsAsynchronousMachine : List RClass := d_DynamicsAsynchronousMachine :: m_DynamicsRotatingMachine

/-- CIM14/ENTSOE/Dynamics/IEC61970/Dynamics/Generators/GeneratorsGenEquiv.py:23 -/
def d_GeneratorsGenEquiv : RClass := ⟨0x47656e657261746f727347656e4571756976, 0x43494d31342e454e54534f452e44796e616d6963732e49454336313937302e44796e616d6963732e47656e657261746f72732e47656e657261746f727347656e4571756976, 0x43494d31342e454e54534f452e44796e616d6963732e49454336313937302e44796e616d6963732e44796e616d696373526f746174696e674d616368696e65,
  [(0x7870, .flt 0x0)],
  [0x7870],
  [(0x7870, .flt 0x0)],
  [(0x7870, 0x666c6f6174)],
  [],
  [],
  []⟩
def m_GeneratorsGenEquiv : List RClass := d_GeneratorsGenEquiv :: m_DynamicsRotatingMachine

/-- CIM14/ENTSOE/Dynamics/IEC61970/Wires/WiresSynchronousMachine.py:23 -/
def d_WiresSynchronousMachine : RClass := ⟨0x576972657353796e6368726f6e6f75734d616368696e65, 0x43494d31342e454e54534f452e44796e616d6963732e49454336313937302e57697265732e576972657353796e6368726f6e6f75734d616368696e65, 0x43494d31342e454e54534f452e44796e616d6963732e49454336313937302e44796e616d6963732e44796e616d696373526f746174696e674d616368696e65,
  [(0x7844697265637453796e63, .flt 0x0), (0x784469726563745472616e73, .flt 0x0), (0x78517561645472616e73, .flt 0x0), (0x785175616453796e63, .flt 0x0), (0x78517561645375627472616e73, .flt 0x0), (0x784469726563745375627472616e73, .flt 0x0)],
  [0x7844697265637453796e63, 0x784469726563745472616e73, 0x78517561645472616e73, 0x785175616453796e63, 0x78517561645375627472616e73, 0x784469726563745375627472616e73],
  [(0x7844697265637453796e63, .flt 0x0), (0x784469726563745472616e73, .flt 0x0), (0x78517561645472616e73, .flt 0x0), (0x785175616453796e63, .flt 0x0), (0x78517561645375627472616e73, .flt 0x0), (0x784469726563745375627472616e73, .flt 0x0)],
  [(0x7844697265637453796e63, 0x666c6f6174), (0x784469726563745472616e73, 0x666c6f6174), (0x78517561645472616e73, 0x666c6f6174), (0x785175616453796e63, 0x666c6f6174), (0x78517561645375627472616e73, 0x666c6f6174), (0x784469726563745375627472616e73, 0x666c6f6174)],
  [],
  [],
  []⟩
def m_WiresSynchronousMachine : List RClass := d_WiresSynchronousMachine :: m_DynamicsRotatingMachine

def classes : List (List RClass) := [
  m_Element,
  m_AssetsAsset,
  m_CommonLocation,
  m_CustomersCustomerAgreement,
  m_ContingencyContingencyEquipment,
  m_CoreBaseVoltage,
  m_CoreConductingEquipment,
  m_CoreEquipment,
  m_CoreEquipmentContainer,
  m_CoreIdentifiedObject,
  m_CoreOperatingShare,
  m_CorePSRType,
  m_CorePowerSystemResource,
  m_CorePsrList,
  m_CoreReportingGroup,
  m_CoreTerminal,
  m_DynamicsAsynchronousMachine,
  m_DynamicsAttributeBlockParameter,
  m_DynamicsBlock,
  m_DynamicsBlockConnection,
  m_DynamicsBlockConnectivity,
  m_DynamicsBlockParameter,
  m_DynamicsMetaBlock,
  m_DynamicsMetaBlockConInput,
  m_DynamicsMetaBlockConOutput,
  m_DynamicsMetaBlockConSignal,
  m_DynamicsMetaBlockConnectable,
  m_DynamicsMetaBlockConnection,
  m_DynamicsMetaBlockConnectivity,
  m_DynamicsMetaBlockInput,
  m_DynamicsMetaBlockInputReference,
  m_DynamicsMetaBlockOutput,
  m_DynamicsMetaBlockOutputReference,
  m_DynamicsMetaBlockParameter,
  m_DynamicsMetaBlockParameterReference,
  m_DynamicsMetaBlockReference,
  m_DynamicsMetaBlockSignal,
  m_DynamicsMetaBlockState,
  m_DynamicsMetaBlockStateReference,
  m_DynamicsRotatingMachine,
  m_ExcitationSystemsExcAC1A,
  m_ExcitationSystemsExcAC2A,
  m_ExcitationSystemsExcAC3A,
  m_ExcitationSystemsExcAC4A,
  m_ExcitationSystemsExcAC5A,
  m_ExcitationSystemsExcAC6A,
  m_ExcitationSystemsExcAC7B,
  m_ExcitationSystemsExcAC8B,
  m_ExcitationSystemsExcDC1A,
  m_ExcitationSystemsExcDC2A,
  m_ExcitationSystemsExcDC3A,
  m_ExcitationSystemsExcDC4B,
  m_ExcitationSystemsExcSCRX,
  m_ExcitationSystemsExcSEXS,
  m_ExcitationSystemsExcST1A,
  m_ExcitationSystemsExcST2A,
  m_ExcitationSystemsExcST3A,
  m_ExcitationSystemsExcST4B,
  m_ExcitationSystemsExcST5B,
  m_ExcitationSystemsExcST6B,
  m_ExcitationSystemsExcST7B,
  m_GeneratorsGenEquiv,
  m_LoadsLoadMotor,
  m_LoadsLoadStatic,
  m_MotorsMechLoad1,
  m_PowerSystemStabilizersPssIEEE2B,
  m_TurbineGovernorsGovCT1,
  m_TurbineGovernorsGovHydro1,
  m_TurbineGovernorsGovHydro2,
  m_TurbineGovernorsGovSteam0,
  m_TurbineGovernorsGovSteam1,
  m_VoltageCompensatorVcompCross,
  m_VoltageCompensatorVcompIEEE,
  m_InfCoreModelingAuthoritySet,
  m_MeasControl,
  m_MeasMeasurement,
  m_OperationalLimitsOperationalLimitSet,
  m_OutageClearanceTag,
  m_OutageOutageSchedule,
  m_ProtectionProtectionEquipment,
  m_StateVariablesSvStatus,
  m_WiresRegulatingCondEq,
  m_WiresRegulatingControl,
  m_WiresSynchronousMachine,
  m_Thing]

/-- `packageMap` of CIM14/ENTSOE/Dynamics/__init__.py -/
def pmap : List (Nat × Nat) := [
  (0x456c656d656e74, 0x43494d31342e454e54534f452e44796e616d696373),
  (0x5468696e67, 0x43494d31342e454e54534f452e44796e616d696373),
  (0x4173736574734173736574, 0x43494d31342e454e54534f452e44796e616d6963732e49454336313936382e417373657473),
  (0x437573746f6d657273437573746f6d657241677265656d656e74, 0x43494d31342e454e54534f452e44796e616d6963732e49454336313936382e437573746f6d657273),
  (0x436f6d6d6f6e4c6f636174696f6e, 0x43494d31342e454e54534f452e44796e616d6963732e49454336313936382e436f6d6d6f6e),
  (0x436f726545717569706d656e74, 0x43494d31342e454e54534f452e44796e616d6963732e49454336313937302e436f7265),
  (0x436f72654964656e7469666965644f626a656374, 0x43494d31342e454e54534f452e44796e616d6963732e49454336313937302e436f7265),
  (0x436f726550535254797065, 0x43494d31342e454e54534f452e44796e616d6963732e49454336313937302e436f7265),
  (0x436f726542617365566f6c74616765, 0x43494d31342e454e54534f452e44796e616d6963732e49454336313937302e436f7265),
  (0x436f726545717569706d656e74436f6e7461696e6572, 0x43494d31342e454e54534f452e44796e616d6963732e49454336313937302e436f7265),
  (0x436f72655465726d696e616c, 0x43494d31342e454e54534f452e44796e616d6963732e49454336313937302e436f7265),
  (0x436f7265506f77657253797374656d5265736f75726365, 0x43494d31342e454e54534f452e44796e616d6963732e49454336313937302e436f7265),
  (0x436f72654f7065726174696e675368617265, 0x43494d31342e454e54534f452e44796e616d6963732e49454336313937302e436f7265),
  (0x436f72655265706f7274696e6747726f7570, 0x43494d31342e454e54534f452e44796e616d6963732e49454336313937302e436f7265),
  (0x436f7265436f6e64756374696e6745717569706d656e74, 0x43494d31342e454e54534f452e44796e616d6963732e49454336313937302e436f7265),
  (0x436f72655073724c697374, 0x43494d31342e454e54534f452e44796e616d6963732e49454336313937302e436f7265),
  (0x436f6e74696e67656e6379436f6e74696e67656e637945717569706d656e74, 0x43494d31342e454e54534f452e44796e616d6963732e49454336313937302e436f6e74696e67656e6379),
  (0x576972657353796e6368726f6e6f75734d616368696e65, 0x43494d31342e454e54534f452e44796e616d6963732e49454336313937302e5769726573),
  (0x5769726573526567756c6174696e67436f6e74726f6c, 0x43494d31342e454e54534f452e44796e616d6963732e49454336313937302e5769726573),
  (0x5769726573526567756c6174696e67436f6e644571, 0x43494d31342e454e54534f452e44796e616d6963732e49454336313937302e5769726573),
  (0x4f75746167654f75746167655363686564756c65, 0x43494d31342e454e54534f452e44796e616d6963732e49454336313937302e4f7574616765),
  (0x4f7574616765436c656172616e6365546167, 0x43494d31342e454e54534f452e44796e616d6963732e49454336313937302e4f7574616765),
  (0x4f7065726174696f6e616c4c696d6974734f7065726174696f6e616c4c696d6974536574, 0x43494d31342e454e54534f452e44796e616d6963732e49454336313937302e4f7065726174696f6e616c4c696d697473),
  (0x496e66436f72654d6f64656c696e67417574686f72697479536574, 0x43494d31342e454e54534f452e44796e616d6963732e49454336313937302e496e666f726d61746976652e496e66436f7265),
  (0x4d6561734d6561737572656d656e74, 0x43494d31342e454e54534f452e44796e616d6963732e49454336313937302e4d656173),
  (0x4d656173436f6e74726f6c, 0x43494d31342e454e54534f452e44796e616d6963732e49454336313937302e4d656173),
  (0x53746174655661726961626c65735376537461747573, 0x43494d31342e454e54534f452e44796e616d6963732e49454336313937302e53746174655661726961626c6573),
  (0x50726f74656374696f6e50726f74656374696f6e45717569706d656e74, 0x43494d31342e454e54534f452e44796e616d6963732e49454336313937302e50726f74656374696f6e),
  (0x44796e616d6963734d657461426c6f636b5374617465, 0x43494d31342e454e54534f452e44796e616d6963732e49454336313937302e44796e616d696373),
  (0x44796e616d6963734d657461426c6f636b436f6e5369676e616c, 0x43494d31342e454e54534f452e44796e616d6963732e49454336313937302e44796e616d696373),
  (0x44796e616d6963734d657461426c6f636b5265666572656e6365, 0x43494d31342e454e54534f452e44796e616d6963732e49454336313937302e44796e616d696373),
  (0x44796e616d6963734d657461426c6f636b5369676e616c, 0x43494d31342e454e54534f452e44796e616d6963732e49454336313937302e44796e616d696373),
  (0x44796e616d696373417474726962757465426c6f636b506172616d65746572, 0x43494d31342e454e54534f452e44796e616d6963732e49454336313937302e44796e616d696373),
  (0x44796e616d6963734d657461426c6f636b436f6e6e656374696f6e, 0x43494d31342e454e54534f452e44796e616d6963732e49454336313937302e44796e616d696373),
  (0x44796e616d6963734d657461426c6f636b436f6e4f7574707574, 0x43494d31342e454e54534f452e44796e616d6963732e49454336313937302e44796e616d696373),
  (0x44796e616d6963734d657461426c6f636b496e707574, 0x43494d31342e454e54534f452e44796e616d6963732e49454336313937302e44796e616d696373),
  (0x44796e616d6963734d657461426c6f636b4f75747075745265666572656e6365, 0x43494d31342e454e54534f452e44796e616d6963732e49454336313937302e44796e616d696373),
  (0x44796e616d6963734d657461426c6f636b53746174655265666572656e6365, 0x43494d31342e454e54534f452e44796e616d6963732e49454336313937302e44796e616d696373),
  (0x44796e616d696373426c6f636b436f6e6e656374696f6e, 0x43494d31342e454e54534f452e44796e616d6963732e49454336313937302e44796e616d696373),
  (0x44796e616d6963734d657461426c6f636b436f6e6e6563746976697479, 0x43494d31342e454e54534f452e44796e616d6963732e49454336313937302e44796e616d696373),
  (0x44796e616d6963734d657461426c6f636b, 0x43494d31342e454e54534f452e44796e616d6963732e49454336313937302e44796e616d696373),
  (0x44796e616d6963734d657461426c6f636b436f6e496e707574, 0x43494d31342e454e54534f452e44796e616d6963732e49454336313937302e44796e616d696373),
  (0x44796e616d6963734d657461426c6f636b506172616d65746572, 0x43494d31342e454e54534f452e44796e616d6963732e49454336313937302e44796e616d696373),
  (0x44796e616d6963734d657461426c6f636b436f6e6e65637461626c65, 0x43494d31342e454e54534f452e44796e616d6963732e49454336313937302e44796e616d696373),
  (0x44796e616d6963734d657461426c6f636b496e7075745265666572656e6365, 0x43494d31342e454e54534f452e44796e616d6963732e49454336313937302e44796e616d696373),
  (0x44796e616d696373526f746174696e674d616368696e65, 0x43494d31342e454e54534f452e44796e616d6963732e49454336313937302e44796e616d696373),
  (0x44796e616d696373426c6f636b436f6e6e6563746976697479, 0x43494d31342e454e54534f452e44796e616d6963732e49454336313937302e44796e616d696373),
  (0x44796e616d6963734d657461426c6f636b506172616d657465725265666572656e6365, 0x43494d31342e454e54534f452e44796e616d6963732e49454336313937302e44796e616d696373),
  (0x44796e616d6963734173796e6368726f6e6f75734d616368696e65, 0x43494d31342e454e54534f452e44796e616d6963732e49454336313937302e44796e616d696373),
  (0x44796e616d696373426c6f636b506172616d65746572, 0x43494d31342e454e54534f452e44796e616d6963732e49454336313937302e44796e616d696373),
  (0x44796e616d696373426c6f636b, 0x43494d31342e454e54534f452e44796e616d6963732e49454336313937302e44796e616d696373),
  (0x44796e616d6963734d657461426c6f636b4f7574707574, 0x43494d31342e454e54534f452e44796e616d6963732e49454336313937302e44796e616d696373),
  (0x45786369746174696f6e53797374656d7345786344433442, 0x43494d31342e454e54534f452e44796e616d6963732e49454336313937302e44796e616d6963732e45786369746174696f6e53797374656d73),
  (0x45786369746174696f6e53797374656d7345786344433241, 0x43494d31342e454e54534f452e44796e616d6963732e49454336313937302e44796e616d6963732e45786369746174696f6e53797374656d73),
  (0x45786369746174696f6e53797374656d7345786344433141, 0x43494d31342e454e54534f452e44796e616d6963732e49454336313937302e44796e616d6963732e45786369746174696f6e53797374656d73),
  (0x45786369746174696f6e53797374656d7345786341433341, 0x43494d31342e454e54534f452e44796e616d6963732e49454336313937302e44796e616d6963732e45786369746174696f6e53797374656d73),
  (0x45786369746174696f6e53797374656d7345786341433241, 0x43494d31342e454e54534f452e44796e616d6963732e49454336313937302e44796e616d6963732e45786369746174696f6e53797374656d73),
  (0x45786369746174696f6e53797374656d7345786341433141, 0x43494d31342e454e54534f452e44796e616d6963732e49454336313937302e44796e616d6963732e45786369746174696f6e53797374656d73),
  (0x45786369746174696f6e53797374656d7345786341433842, 0x43494d31342e454e54534f452e44796e616d6963732e49454336313937302e44796e616d6963732e45786369746174696f6e53797374656d73),
  (0x45786369746174696f6e53797374656d7345786353543542, 0x43494d31342e454e54534f452e44796e616d6963732e49454336313937302e44796e616d6963732e45786369746174696f6e53797374656d73),
  (0x45786369746174696f6e53797374656d7345786341433742, 0x43494d31342e454e54534f452e44796e616d6963732e49454336313937302e44796e616d6963732e45786369746174696f6e53797374656d73),
  (0x45786369746174696f6e53797374656d7345786341433441, 0x43494d31342e454e54534f452e44796e616d6963732e49454336313937302e44796e616d6963732e45786369746174696f6e53797374656d73),
  (0x45786369746174696f6e53797374656d7345786353543442, 0x43494d31342e454e54534f452e44796e616d6963732e49454336313937302e44796e616d6963732e45786369746174696f6e53797374656d73),
  (0x45786369746174696f6e53797374656d7345786353543642, 0x43494d31342e454e54534f452e44796e616d6963732e49454336313937302e44796e616d6963732e45786369746174696f6e53797374656d73),
  (0x45786369746174696f6e53797374656d7345786341433641, 0x43494d31342e454e54534f452e44796e616d6963732e49454336313937302e44796e616d6963732e45786369746174696f6e53797374656d73),
  (0x45786369746174696f6e53797374656d7345786341433541, 0x43494d31342e454e54534f452e44796e616d6963732e49454336313937302e44796e616d6963732e45786369746174696f6e53797374656d73),
  (0x45786369746174696f6e53797374656d7345786353435258, 0x43494d31342e454e54534f452e44796e616d6963732e49454336313937302e44796e616d6963732e45786369746174696f6e53797374656d73),
  (0x45786369746174696f6e53797374656d7345786353455853, 0x43494d31342e454e54534f452e44796e616d6963732e49454336313937302e44796e616d6963732e45786369746174696f6e53797374656d73),
  (0x45786369746174696f6e53797374656d7345786353543742, 0x43494d31342e454e54534f452e44796e616d6963732e49454336313937302e44796e616d6963732e45786369746174696f6e53797374656d73),
  (0x45786369746174696f6e53797374656d7345786353543241, 0x43494d31342e454e54534f452e44796e616d6963732e49454336313937302e44796e616d6963732e45786369746174696f6e53797374656d73),
  (0x45786369746174696f6e53797374656d7345786353543141, 0x43494d31342e454e54534f452e44796e616d6963732e49454336313937302e44796e616d6963732e45786369746174696f6e53797374656d73),
  (0x45786369746174696f6e53797374656d7345786344433341, 0x43494d31342e454e54534f452e44796e616d6963732e49454336313937302e44796e616d6963732e45786369746174696f6e53797374656d73),
  (0x45786369746174696f6e53797374656d7345786353543341, 0x43494d31342e454e54534f452e44796e616d6963732e49454336313937302e44796e616d6963732e45786369746174696f6e53797374656d73),
  (0x47656e657261746f727347656e4571756976, 0x43494d31342e454e54534f452e44796e616d6963732e49454336313937302e44796e616d6963732e47656e657261746f7273),
  (0x54757262696e65476f7665726e6f7273476f76487964726f32, 0x43494d31342e454e54534f452e44796e616d6963732e49454336313937302e44796e616d6963732e54757262696e65476f7665726e6f7273),
  (0x54757262696e65476f7665726e6f7273476f76537465616d30, 0x43494d31342e454e54534f452e44796e616d6963732e49454336313937302e44796e616d6963732e54757262696e65476f7665726e6f7273),
  (0x54757262696e65476f7665726e6f7273476f76487964726f31, 0x43494d31342e454e54534f452e44796e616d6963732e49454336313937302e44796e616d6963732e54757262696e65476f7665726e6f7273),
  (0x54757262696e65476f7665726e6f7273476f76537465616d31, 0x43494d31342e454e54534f452e44796e616d6963732e49454336313937302e44796e616d6963732e54757262696e65476f7665726e6f7273),
  (0x54757262696e65476f7665726e6f7273476f76435431, 0x43494d31342e454e54534f452e44796e616d6963732e49454336313937302e44796e616d6963732e54757262696e65476f7665726e6f7273),
  (0x4c6f6164734c6f6164537461746963, 0x43494d31342e454e54534f452e44796e616d6963732e49454336313937302e44796e616d6963732e4c6f616473),
  (0x4c6f6164734c6f61644d6f746f72, 0x43494d31342e454e54534f452e44796e616d6963732e49454336313937302e44796e616d6963732e4c6f616473),
  (0x4d6f746f72734d6563684c6f616431, 0x43494d31342e454e54534f452e44796e616d6963732e49454336313937302e44796e616d6963732e4d6f746f7273),
  (0x566f6c74616765436f6d70656e7361746f7256636f6d7043726f7373, 0x43494d31342e454e54534f452e44796e616d6963732e49454336313937302e44796e616d6963732e566f6c74616765436f6d70656e7361746f72),
  (0x566f6c74616765436f6d70656e7361746f7256636f6d7049454545, 0x43494d31342e454e54534f452e44796e616d6963732e49454336313937302e44796e616d6963732e566f6c74616765436f6d70656e7361746f72),
  (0x506f77657253797374656d53746162696c697a657273507373494545453242, 0x43494d31342e454e54534f452e44796e616d6963732e49454336313937302e44796e616d6963732e506f77657253797374656d53746162696c697a657273)]

/-- Names bound by `from m import C` in the `__init__.py` files of the packages occurring in `pmap`: (package, C, m). -/
def exports : List (Nat × Nat × Nat) := [
  (0x43494d31342e454e54534f452e44796e616d696373, 0x456c656d656e74, 0x43494d31342e454e54534f452e44796e616d6963732e456c656d656e74),
  (0x43494d31342e454e54534f452e44796e616d696373, 0x5468696e67, 0x43494d31342e454e54534f452e44796e616d6963732e5468696e67),
  (0x43494d31342e454e54534f452e44796e616d6963732e49454336313936382e417373657473, 0x4173736574734173736574, 0x43494d31342e454e54534f452e44796e616d6963732e49454336313936382e4173736574732e4173736574734173736574),
  (0x43494d31342e454e54534f452e44796e616d6963732e49454336313936382e436f6d6d6f6e, 0x436f6d6d6f6e4c6f636174696f6e, 0x43494d31342e454e54534f452e44796e616d6963732e49454336313936382e436f6d6d6f6e2e436f6d6d6f6e4c6f636174696f6e),
  (0x43494d31342e454e54534f452e44796e616d6963732e49454336313936382e437573746f6d657273, 0x437573746f6d657273437573746f6d657241677265656d656e74, 0x43494d31342e454e54534f452e44796e616d6963732e49454336313936382e437573746f6d6572732e437573746f6d657273437573746f6d657241677265656d656e74),
  (0x43494d31342e454e54534f452e44796e616d6963732e49454336313937302e436f6e74696e67656e6379, 0x436f6e74696e67656e6379436f6e74696e67656e637945717569706d656e74, 0x43494d31342e454e54534f452e44796e616d6963732e49454336313937302e436f6e74696e67656e63792e436f6e74696e67656e6379436f6e74696e67656e637945717569706d656e74),
  (0x43494d31342e454e54534f452e44796e616d6963732e49454336313937302e436f7265, 0x436f726545717569706d656e74, 0x43494d31342e454e54534f452e44796e616d6963732e49454336313937302e436f72652e436f726545717569706d656e74),
  (0x43494d31342e454e54534f452e44796e616d6963732e49454336313937302e436f7265, 0x436f72654964656e7469666965644f626a656374, 0x43494d31342e454e54534f452e44796e616d6963732e49454336313937302e436f72652e436f72654964656e7469666965644f626a656374),
  (0x43494d31342e454e54534f452e44796e616d6963732e49454336313937302e436f7265, 0x436f726550535254797065, 0x43494d31342e454e54534f452e44796e616d6963732e49454336313937302e436f72652e436f726550535254797065),
  (0x43494d31342e454e54534f452e44796e616d6963732e49454336313937302e436f7265, 0x436f726542617365566f6c74616765, 0x43494d31342e454e54534f452e44796e616d6963732e49454336313937302e436f72652e436f726542617365566f6c74616765),
  (0x43494d31342e454e54534f452e44796e616d6963732e49454336313937302e436f7265, 0x436f726545717569706d656e74436f6e7461696e6572, 0x43494d31342e454e54534f452e44796e616d6963732e49454336313937302e436f72652e436f726545717569706d656e74436f6e7461696e6572),
  (0x43494d31342e454e54534f452e44796e616d6963732e49454336313937302e436f7265, 0x436f72655465726d696e616c, 0x43494d31342e454e54534f452e44796e616d6963732e49454336313937302e436f72652e436f72655465726d696e616c),
  (0x43494d31342e454e54534f452e44796e616d6963732e49454336313937302e436f7265, 0x436f7265506f77657253797374656d5265736f75726365, 0x43494d31342e454e54534f452e44796e616d6963732e49454336313937302e436f72652e436f7265506f77657253797374656d5265736f75726365),
  (0x43494d31342e454e54534f452e44796e616d6963732e49454336313937302e436f7265, 0x436f72654f7065726174696e675368617265, 0x43494d31342e454e54534f452e44796e616d6963732e49454336313937302e436f72652e436f72654f7065726174696e675368617265),
  (0x43494d31342e454e54534f452e44796e616d6963732e49454336313937302e436f7265, 0x436f72655265706f7274696e6747726f7570, 0x43494d31342e454e54534f452e44796e616d6963732e49454336313937302e436f72652e436f72655265706f7274696e6747726f7570),
  (0x43494d31342e454e54534f452e44796e616d6963732e49454336313937302e436f7265, 0x436f7265436f6e64756374696e6745717569706d656e74, 0x43494d31342e454e54534f452e44796e616d6963732e49454336313937302e436f72652e436f7265436f6e64756374696e6745717569706d656e74),
  (0x43494d31342e454e54534f452e44796e616d6963732e49454336313937302e436f7265, 0x436f72655073724c697374, 0x43494d31342e454e54534f452e44796e616d6963732e49454336313937302e436f72652e436f72655073724c697374),
  (0x43494d31342e454e54534f452e44796e616d6963732e49454336313937302e44796e616d696373, 0x44796e616d6963734d657461426c6f636b5374617465, 0x43494d31342e454e54534f452e44796e616d6963732e49454336313937302e44796e616d6963732e44796e616d6963734d657461426c6f636b5374617465),
  (0x43494d31342e454e54534f452e44796e616d6963732e49454336313937302e44796e616d696373, 0x44796e616d6963734d657461426c6f636b436f6e5369676e616c, 0x43494d31342e454e54534f452e44796e616d6963732e49454336313937302e44796e616d6963732e44796e616d6963734d657461426c6f636b436f6e5369676e616c),
  (0x43494d31342e454e54534f452e44796e616d6963732e49454336313937302e44796e616d696373, 0x44796e616d6963734d657461426c6f636b5265666572656e6365, 0x43494d31342e454e54534f452e44796e616d6963732e49454336313937302e44796e616d6963732e44796e616d6963734d657461426c6f636b5265666572656e6365),
  (0x43494d31342e454e54534f452e44796e616d6963732e49454336313937302e44796e616d696373, 0x44796e616d6963734d657461426c6f636b5369676e616c, 0x43494d31342e454e54534f452e44796e616d6963732e49454336313937302e44796e616d6963732e44796e616d6963734d657461426c6f636b5369676e616c),
  (0x43494d31342e454e54534f452e44796e616d6963732e49454336313937302e44796e616d696373, 0x44796e616d696373417474726962757465426c6f636b506172616d65746572, 0x43494d31342e454e54534f452e44796e616d6963732e49454336313937302e44796e616d6963732e44796e616d696373417474726962757465426c6f636b506172616d65746572),
  (0x43494d31342e454e54534f452e44796e616d6963732e49454336313937302e44796e616d696373, 0x44796e616d6963734d657461426c6f636b436f6e6e656374696f6e, 0x43494d31342e454e54534f452e44796e616d6963732e49454336313937302e44796e616d6963732e44796e616d6963734d657461426c6f636b436f6e6e656374696f6e),
  (0x43494d31342e454e54534f452e44796e616d6963732e49454336313937302e44796e616d696373, 0x44796e616d6963734d657461426c6f636b436f6e4f7574707574, 0x43494d31342e454e54534f452e44796e616d6963732e49454336313937302e44796e616d6963732e44796e616d6963734d657461426c6f636b436f6e4f7574707574),
  (0x43494d31342e454e54534f452e44796e616d6963732e49454336313937302e44796e616d696373, 0x44796e616d6963734d657461426c6f636b496e707574, 0x43494d31342e454e54534f452e44796e616d6963732e49454336313937302e44796e616d6963732e44796e616d6963734d657461426c6f636b496e707574),
  (0x43494d31342e454e54534f452e44796e616d6963732e49454336313937302e44796e616d696373, 0x44796e616d6963734d657461426c6f636b4f75747075745265666572656e6365, 0x43494d31342e454e54534f452e44796e616d6963732e49454336313937302e44796e616d6963732e44796e616d6963734d657461426c6f636b4f75747075745265666572656e6365),
  (0x43494d31342e454e54534f452e44796e616d6963732e49454336313937302e44796e616d696373, 0x44796e616d6963734d657461426c6f636b53746174655265666572656e6365, 0x43494d31342e454e54534f452e44796e616d6963732e49454336313937302e44796e616d6963732e44796e616d6963734d657461426c6f636b53746174655265666572656e6365),
  (0x43494d31342e454e54534f452e44796e616d6963732e49454336313937302e44796e616d696373, 0x44796e616d696373426c6f636b436f6e6e656374696f6e, 0x43494d31342e454e54534f452e44796e616d6963732e49454336313937302e44796e616d6963732e44796e616d696373426c6f636b436f6e6e656374696f6e),
  (0x43494d31342e454e54534f452e44796e616d6963732e49454336313937302e44796e616d696373, 0x44796e616d6963734d657461426c6f636b436f6e6e6563746976697479, 0x43494d31342e454e54534f452e44796e616d6963732e49454336313937302e44796e616d6963732e44796e616d6963734d657461426c6f636b436f6e6e6563746976697479),
  (0x43494d31342e454e54534f452e44796e616d6963732e49454336313937302e44796e616d696373, 0x44796e616d6963734d657461426c6f636b, 0x43494d31342e454e54534f452e44796e616d6963732e49454336313937302e44796e616d6963732e44796e616d6963734d657461426c6f636b),
  (0x43494d31342e454e54534f452e44796e616d6963732e49454336313937302e44796e616d696373, 0x44796e616d6963734d657461426c6f636b436f6e496e707574, 0x43494d31342e454e54534f452e44796e616d6963732e49454336313937302e44796e616d6963732e44796e616d6963734d657461426c6f636b436f6e496e707574),
  (0x43494d31342e454e54534f452e44796e616d6963732e49454336313937302e44796e616d696373, 0x44796e616d6963734d657461426c6f636b506172616d65746572, 0x43494d31342e454e54534f452e44796e616d6963732e49454336313937302e44796e616d6963732e44796e616d6963734d657461426c6f636b506172616d65746572),
  (0x43494d31342e454e54534f452e44796e616d6963732e49454336313937302e44796e616d696373, 0x44796e616d6963734d657461426c6f636b436f6e6e65637461626c65, 0x43494d31342e454e54534f452e44796e616d6963732e49454336313937302e44796e616d6963732e44796e616d6963734d657461426c6f636b436f6e6e65637461626c65),
  (0x43494d31342e454e54534f452e44796e616d6963732e49454336313937302e44796e616d696373, 0x44796e616d6963734d657461426c6f636b496e7075745265666572656e6365, 0x43494d31342e454e54534f452e44796e616d6963732e49454336313937302e44796e616d6963732e44796e616d6963734d657461426c6f636b496e7075745265666572656e6365),
  (0x43494d31342e454e54534f452e44796e616d6963732e49454336313937302e44796e616d696373, 0x44796e616d696373526f746174696e674d616368696e65, 0x43494d31342e454e54534f452e44796e616d6963732e49454336313937302e44796e616d6963732e44796e616d696373526f746174696e674d616368696e65),
  (0x43494d31342e454e54534f452e44796e616d6963732e49454336313937302e44796e616d696373, 0x44796e616d696373426c6f636b436f6e6e6563746976697479, 0x43494d31342e454e54534f452e44796e616d6963732e49454336313937302e44796e616d6963732e44796e616d696373426c6f636b436f6e6e6563746976697479),
  (0x43494d31342e454e54534f452e44796e616d6963732e49454336313937302e44796e616d696373, 0x44796e616d6963734d657461426c6f636b506172616d657465725265666572656e6365, 0x43494d31342e454e54534f452e44796e616d6963732e49454336313937302e44796e616d6963732e44796e616d6963734d657461426c6f636b506172616d657465725265666572656e6365),
  (0x43494d31342e454e54534f452e44796e616d6963732e49454336313937302e44796e616d696373, 0x44796e616d6963734173796e6368726f6e6f75734d616368696e65, 0x43494d31342e454e54534f452e44796e616d6963732e49454336313937302e44796e616d6963732e44796e616d6963734173796e6368726f6e6f75734d616368696e65),
  (0x43494d31342e454e54534f452e44796e616d6963732e49454336313937302e44796e616d696373, 0x44796e616d696373426c6f636b506172616d65746572, 0x43494d31342e454e54534f452e44796e616d6963732e49454336313937302e44796e616d6963732e44796e616d696373426c6f636b506172616d65746572),
  (0x43494d31342e454e54534f452e44796e616d6963732e49454336313937302e44796e616d696373, 0x44796e616d696373426c6f636b, 0x43494d31342e454e54534f452e44796e616d6963732e49454336313937302e44796e616d6963732e44796e616d696373426c6f636b),
  (0x43494d31342e454e54534f452e44796e616d6963732e49454336313937302e44796e616d696373, 0x44796e616d6963734d657461426c6f636b4f7574707574, 0x43494d31342e454e54534f452e44796e616d6963732e49454336313937302e44796e616d6963732e44796e616d6963734d657461426c6f636b4f7574707574),
  (0x43494d31342e454e54534f452e44796e616d6963732e49454336313937302e44796e616d6963732e45786369746174696f6e53797374656d73, 0x45786369746174696f6e53797374656d7345786344433442, 0x43494d31342e454e54534f452e44796e616d6963732e49454336313937302e44796e616d6963732e45786369746174696f6e53797374656d732e45786369746174696f6e53797374656d7345786344433442),
  (0x43494d31342e454e54534f452e44796e616d6963732e49454336313937302e44796e616d6963732e45786369746174696f6e53797374656d73, 0x45786369746174696f6e53797374656d7345786344433241, 0x43494d31342e454e54534f452e44796e616d6963732e49454336313937302e44796e616d6963732e45786369746174696f6e53797374656d732e45786369746174696f6e53797374656d7345786344433241),
  (0x43494d31342e454e54534f452e44796e616d6963732e49454336313937302e44796e616d6963732e45786369746174696f6e53797374656d73, 0x45786369746174696f6e53797374656d7345786344433141, 0x43494d31342e454e54534f452e44796e616d6963732e49454336313937302e44796e616d6963732e45786369746174696f6e53797374656d732e45786369746174696f6e53797374656d7345786344433141),
  (0x43494d31342e454e54534f452e44796e616d6963732e49454336313937302e44796e616d6963732e45786369746174696f6e53797374656d73, 0x45786369746174696f6e53797374656d7345786341433341, 0x43494d31342e454e54534f452e44796e616d6963732e49454336313937302e44796e616d6963732e45786369746174696f6e53797374656d732e45786369746174696f6e53797374656d7345786341433341),
  (0x43494d31342e454e54534f452e44796e616d6963732e49454336313937302e44796e616d6963732e45786369746174696f6e53797374656d73, 0x45786369746174696f6e53797374656d7345786341433241, 0x43494d31342e454e54534f452e44796e616d6963732e49454336313937302e44796e616d6963732e45786369746174696f6e53797374656d732e45786369746174696f6e53797374656d7345786341433241),
  (0x43494d31342e454e54534f452e44796e616d6963732e49454336313937302e44796e616d6963732e45786369746174696f6e53797374656d73, 0x45786369746174696f6e53797374656d7345786341433141, 0x43494d31342e454e54534f452e44796e616d6963732e49454336313937302e44796e616d6963732e45786369746174696f6e53797374656d732e45786369746174696f6e53797374656d7345786341433141),
  (0x43494d31342e454e54534f452e44796e616d6963732e49454336313937302e44796e616d6963732e45786369746174696f6e53797374656d73, 0x45786369746174696f6e53797374656d7345786341433842, 0x43494d31342e454e54534f452e44796e616d6963732e49454336313937302e44796e616d6963732e45786369746174696f6e53797374656d732e45786369746174696f6e53797374656d7345786341433842),
  (0x43494d31342e454e54534f452e44796e616d6963732e49454336313937302e44796e616d6963732e45786369746174696f6e53797374656d73, 0x45786369746174696f6e53797374656d7345786353543542, 0x43494d31342e454e54534f452e44796e616d6963732e49454336313937302e44796e616d6963732e45786369746174696f6e53797374656d732e45786369746174696f6e53797374656d7345786353543542),
  (0x43494d31342e454e54534f452e44796e616d6963732e49454336313937302e44796e616d6963732e45786369746174696f6e53797374656d73, 0x45786369746174696f6e53797374656d7345786341433742, 0x43494d31342e454e54534f452e44796e616d6963732e49454336313937302e44796e616d6963732e45786369746174696f6e53797374656d732e45786369746174696f6e53797374656d7345786341433742),
  (0x43494d31342e454e54534f452e44796e616d6963732e49454336313937302e44796e616d6963732e45786369746174696f6e53797374656d73, 0x45786369746174696f6e53797374656d7345786341433441, 0x43494d31342e454e54534f452e44796e616d6963732e49454336313937302e44796e616d6963732e45786369746174696f6e53797374656d732e45786369746174696f6e53797374656d7345786341433441),
  (0x43494d31342e454e54534f452e44796e616d6963732e49454336313937302e44796e616d6963732e45786369746174696f6e53797374656d73, 0x45786369746174696f6e53797374656d7345786353543442, 0x43494d31342e454e54534f452e44796e616d6963732e49454336313937302e44796e616d6963732e45786369746174696f6e53797374656d732e45786369746174696f6e53797374656d7345786353543442),
  (0x43494d31342e454e54534f452e44796e616d6963732e49454336313937302e44796e616d6963732e45786369746174696f6e53797374656d73, 0x45786369746174696f6e53797374656d7345786353543642, 0x43494d31342e454e54534f452e44796e616d6963732e49454336313937302e44796e616d6963732e45786369746174696f6e53797374656d732e45786369746174696f6e53797374656d7345786353543642),
  (0x43494d31342e454e54534f452e44796e616d6963732e49454336313937302e44796e616d6963732e45786369746174696f6e53797374656d73, 0x45786369746174696f6e53797374656d7345786341433641, 0x43494d31342e454e54534f452e44796e616d6963732e49454336313937302e44796e616d6963732e45786369746174696f6e53797374656d732e45786369746174696f6e53797374656d7345786341433641),
  (0x43494d31342e454e54534f452e44796e616d6963732e49454336313937302e44796e616d6963732e45786369746174696f6e53797374656d73, 0x45786369746174696f6e53797374656d7345786341433541, 0x43494d31342e454e54534f452e44796e616d6963732e49454336313937302e44796e616d6963732e45786369746174696f6e53797374656d732e45786369746174696f6e53797374656d7345786341433541),
  (0x43494d31342e454e54534f452e44796e616d6963732e49454336313937302e44796e616d6963732e45786369746174696f6e53797374656d73, 0x45786369746174696f6e53797374656d7345786353435258, 0x43494d31342e454e54534f452e44796e616d6963732e49454336313937302e44796e616d6963732e45786369746174696f6e53797374656d732e45786369746174696f6e53797374656d7345786353435258),
  (0x43494d31342e454e54534f452e44796e616d6963732e49454336313937302e44796e616d6963732e45786369746174696f6e53797374656d73, 0x45786369746174696f6e53797374656d7345786353455853, 0x43494d31342e454e54534f452e44796e616d6963732e49454336313937302e44796e616d6963732e45786369746174696f6e53797374656d732e45786369746174696f6e53797374656d7345786353455853),
  (0x43494d31342e454e54534f452e44796e616d6963732e49454336313937302e44796e616d6963732e45786369746174696f6e53797374656d73, 0x45786369746174696f6e53797374656d7345786353543742, 0x43494d31342e454e54534f452e44796e616d6963732e49454336313937302e44796e616d6963732e45786369746174696f6e53797374656d732e45786369746174696f6e53797374656d7345786353543742),
  (0x43494d31342e454e54534f452e44796e616d6963732e49454336313937302e44796e616d6963732e45786369746174696f6e53797374656d73, 0x45786369746174696f6e53797374656d7345786353543241, 0x43494d31342e454e54534f452e44796e616d6963732e49454336313937302e44796e616d6963732e45786369746174696f6e53797374656d732e45786369746174696f6e53797374656d7345786353543241),
  (0x43494d31342e454e54534f452e44796e616d6963732e49454336313937302e44796e616d6963732e45786369746174696f6e53797374656d73, 0x45786369746174696f6e53797374656d7345786353543141, 0x43494d31342e454e54534f452e44796e616d6963732e49454336313937302e44796e616d6963732e45786369746174696f6e53797374656d732e45786369746174696f6e53797374656d7345786353543141),
  (0x43494d31342e454e54534f452e44796e616d6963732e49454336313937302e44796e616d6963732e45786369746174696f6e53797374656d73, 0x45786369746174696f6e53797374656d7345786344433341, 0x43494d31342e454e54534f452e44796e616d6963732e49454336313937302e44796e616d6963732e45786369746174696f6e53797374656d732e45786369746174696f6e53797374656d7345786344433341),
  (0x43494d31342e454e54534f452e44796e616d6963732e49454336313937302e44796e616d6963732e45786369746174696f6e53797374656d73, 0x45786369746174696f6e53797374656d7345786353543341, 0x43494d31342e454e54534f452e44796e616d6963732e49454336313937302e44796e616d6963732e45786369746174696f6e53797374656d732e45786369746174696f6e53797374656d7345786353543341),
  (0x43494d31342e454e54534f452e44796e616d6963732e49454336313937302e44796e616d6963732e47656e657261746f7273, 0x47656e657261746f727347656e4571756976, 0x43494d31342e454e54534f452e44796e616d6963732e49454336313937302e44796e616d6963732e47656e657261746f72732e47656e657261746f727347656e4571756976),
  (0x43494d31342e454e54534f452e44796e616d6963732e49454336313937302e44796e616d6963732e4c6f616473, 0x4c6f6164734c6f6164537461746963, 0x43494d31342e454e54534f452e44796e616d6963732e49454336313937302e44796e616d6963732e4c6f6164732e4c6f6164734c6f6164537461746963),
  (0x43494d31342e454e54534f452e44796e616d6963732e49454336313937302e44796e616d6963732e4c6f616473, 0x4c6f6164734c6f61644d6f746f72, 0x43494d31342e454e54534f452e44796e616d6963732e49454336313937302e44796e616d6963732e4c6f6164732e4c6f6164734c6f61644d6f746f72),
  (0x43494d31342e454e54534f452e44796e616d6963732e49454336313937302e44796e616d6963732e4d6f746f7273, 0x4d6f746f72734d6563684c6f616431, 0x43494d31342e454e54534f452e44796e616d6963732e49454336313937302e44796e616d6963732e4d6f746f72732e4d6f746f72734d6563684c6f616431),
  (0x43494d31342e454e54534f452e44796e616d6963732e49454336313937302e44796e616d6963732e506f77657253797374656d53746162696c697a657273, 0x506f77657253797374656d53746162696c697a657273507373494545453242, 0x43494d31342e454e54534f452e44796e616d6963732e49454336313937302e44796e616d6963732e506f77657253797374656d53746162696c697a6572732e506f77657253797374656d53746162696c697a657273507373494545453242),
  (0x43494d31342e454e54534f452e44796e616d6963732e49454336313937302e44796e616d6963732e54757262696e65476f7665726e6f7273, 0x54757262696e65476f7665726e6f7273476f76487964726f32, 0x43494d31342e454e54534f452e44796e616d6963732e49454336313937302e44796e616d6963732e54757262696e65476f7665726e6f72732e54757262696e65476f7665726e6f7273476f76487964726f32),
  (0x43494d31342e454e54534f452e44796e616d6963732e49454336313937302e44796e616d6963732e54757262696e65476f7665726e6f7273, 0x54757262696e65476f7665726e6f7273476f76537465616d30, 0x43494d31342e454e54534f452e44796e616d6963732e49454336313937302e44796e616d6963732e54757262696e65476f7665726e6f72732e54757262696e65476f7665726e6f7273476f76537465616d30),
  (0x43494d31342e454e54534f452e44796e616d6963732e49454336313937302e44796e616d6963732e54757262696e65476f7665726e6f7273, 0x54757262696e65476f7665726e6f7273476f76487964726f31, 0x43494d31342e454e54534f452e44796e616d6963732e49454336313937302e44796e616d6963732e54757262696e65476f7665726e6f72732e54757262696e65476f7665726e6f7273476f76487964726f31),
  (0x43494d31342e454e54534f452e44796e616d6963732e49454336313937302e44796e616d6963732e54757262696e65476f7665726e6f7273, 0x54757262696e65476f7665726e6f7273476f76537465616d31, 0x43494d31342e454e54534f452e44796e616d6963732e49454336313937302e44796e616d6963732e54757262696e65476f7665726e6f72732e54757262696e65476f7665726e6f7273476f76537465616d31),
  (0x43494d31342e454e54534f452e44796e616d6963732e49454336313937302e44796e616d6963732e54757262696e65476f7665726e6f7273, 0x54757262696e65476f7665726e6f7273476f76435431, 0x43494d31342e454e54534f452e44796e616d6963732e49454336313937302e44796e616d6963732e54757262696e65476f7665726e6f72732e54757262696e65476f7665726e6f7273476f76435431),
  (0x43494d31342e454e54534f452e44796e616d6963732e49454336313937302e44796e616d6963732e566f6c74616765436f6d70656e7361746f72, 0x566f6c74616765436f6d70656e7361746f7256636f6d7043726f7373, 0x43494d31342e454e54534f452e44796e616d6963732e49454336313937302e44796e616d6963732e566f6c74616765436f6d70656e7361746f722e566f6c74616765436f6d70656e7361746f7256636f6d7043726f7373),
  (0x43494d31342e454e54534f452e44796e616d6963732e49454336313937302e44796e616d6963732e566f6c74616765436f6d70656e7361746f72, 0x566f6c74616765436f6d70656e7361746f7256636f6d7049454545, 0x43494d31342e454e54534f452e44796e616d6963732e49454336313937302e44796e616d6963732e566f6c74616765436f6d70656e7361746f722e566f6c74616765436f6d70656e7361746f7256636f6d7049454545),
  (0x43494d31342e454e54534f452e44796e616d6963732e49454336313937302e496e666f726d61746976652e496e66436f7265, 0x496e66436f72654d6f64656c696e67417574686f72697479536574, 0x43494d31342e454e54534f452e44796e616d6963732e49454336313937302e496e666f726d61746976652e496e66436f72652e496e66436f72654d6f64656c696e67417574686f72697479536574),
  (0x43494d31342e454e54534f452e44796e616d6963732e49454336313937302e4d656173, 0x4d6561734d6561737572656d656e74, 0x43494d31342e454e54534f452e44796e616d6963732e49454336313937302e4d6561732e4d6561734d6561737572656d656e74),
  (0x43494d31342e454e54534f452e44796e616d6963732e49454336313937302e4d656173, 0x4d656173436f6e74726f6c, 0x43494d31342e454e54534f452e44796e616d6963732e49454336313937302e4d6561732e4d656173436f6e74726f6c),
  (0x43494d31342e454e54534f452e44796e616d6963732e49454336313937302e4f7065726174696f6e616c4c696d697473, 0x4f7065726174696f6e616c4c696d6974734f7065726174696f6e616c4c696d6974536574, 0x43494d31342e454e54534f452e44796e616d6963732e49454336313937302e4f7065726174696f6e616c4c696d6974732e4f7065726174696f6e616c4c696d6974734f7065726174696f6e616c4c696d6974536574),
  (0x43494d31342e454e54534f452e44796e616d6963732e49454336313937302e4f7574616765, 0x4f75746167654f75746167655363686564756c65, 0x43494d31342e454e54534f452e44796e616d6963732e49454336313937302e4f75746167652e4f75746167654f75746167655363686564756c65),
  (0x43494d31342e454e54534f452e44796e616d6963732e49454336313937302e4f7574616765, 0x4f7574616765436c656172616e6365546167, 0x43494d31342e454e54534f452e44796e616d6963732e49454336313937302e4f75746167652e4f7574616765436c656172616e6365546167),
  (0x43494d31342e454e54534f452e44796e616d6963732e49454336313937302e50726f74656374696f6e, 0x50726f74656374696f6e50726f74656374696f6e45717569706d656e74, 0x43494d31342e454e54534f452e44796e616d6963732e49454336313937302e50726f74656374696f6e2e50726f74656374696f6e50726f74656374696f6e45717569706d656e74),
  (0x43494d31342e454e54534f452e44796e616d6963732e49454336313937302e53746174655661726961626c6573, 0x53746174655661726961626c65735376537461747573, 0x43494d31342e454e54534f452e44796e616d6963732e49454336313937302e53746174655661726961626c65732e53746174655661726961626c65735376537461747573),
  (0x43494d31342e454e54534f452e44796e616d6963732e49454336313937302e5769726573, 0x576972657353796e6368726f6e6f75734d616368696e65, 0x43494d31342e454e54534f452e44796e616d6963732e49454336313937302e57697265732e576972657353796e6368726f6e6f75734d616368696e65),
  (0x43494d31342e454e54534f452e44796e616d6963732e49454336313937302e5769726573, 0x5769726573526567756c6174696e67436f6e74726f6c, 0x43494d31342e454e54534f452e44796e616d6963732e49454336313937302e57697265732e5769726573526567756c6174696e67436f6e74726f6c),
  (0x43494d31342e454e54534f452e44796e616d6963732e49454336313937302e5769726573, 0x5769726573526567756c6174696e67436f6e644571, 0x43494d31342e454e54534f452e44796e616d6963732e49454336313937302e57697265732e5769726573526567756c6174696e67436f6e644571)]

def pkg : RPkg := ⟨0x43494d31342e454e54534f452e44796e616d696373, classes, pmap, exports⟩

end Verif.Gen.CIM14_ENTSOE_Dynamics
