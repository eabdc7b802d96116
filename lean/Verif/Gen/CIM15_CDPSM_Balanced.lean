import Verif.Gen.Types
/-! Generated by tools/gen.py from /repo/CIM15/CDPSM/Balanced: do not edit. -/
namespace Verif.Gen.CIM15_CDPSM_Balanced
set_option maxRecDepth 10000

/-- CIM15/CDPSM/Balanced/Element.py:22 -/
def d_Element : RClass := ⟨0x456c656d656e74, 0x43494d31352e434450534d2e42616c616e6365642e456c656d656e74, 0,
  [(0x55554944, .str 0)],
  [0x55554944],
  [(0x55554944, .str 0)],
  [(0x55554944, 0x737472)],
  [],
  [],
  []⟩
def m_Element : List RClass := d_Element :: []

/-- CIM15/CDPSM/Balanced/IEC61970/Core/IdentifiedObject.py:23 -/
def d_IdentifiedObject : RClass := ⟨0x4964656e7469666965644f626a656374, 0x43494d31352e434450534d2e42616c616e6365642e49454336313937302e436f72652e4964656e7469666965644f626a656374, 0x43494d31352e434450534d2e42616c616e6365642e456c656d656e74,
  [(0x6e616d65, .str 0), (0x616c6961734e616d65, .str 0)],
  [0x6e616d65, 0x616c6961734e616d65],
  [(0x6e616d65, .str 0), (0x616c6961734e616d65, .str 0)],
  [(0x6e616d65, 0x737472), (0x616c6961734e616d65, 0x737472)],
  [],
  [⟨0x4e616d6573, .many2one, 0x4964656e7469666965644f626a656374, 0, false⟩],
  [0x4e616d6573]⟩
def m_IdentifiedObject : List RClass := d_IdentifiedObject :: m_Element

/-- CIM15/CDPSM/Balanced/IEC61970/Core/Name.py:23 -/
def d_Name : RClass := ⟨0x4e616d65, 0x43494d31352e434450534d2e42616c616e6365642e49454336313937302e436f72652e4e616d65, 0x43494d31352e434450534d2e42616c616e6365642e456c656d656e74,
  [(0x6e616d65, .str 0)],
  [0x6e616d65],
  [(0x6e616d65, .str 0)],
  [(0x6e616d65, 0x737472)],
  [],
  [⟨0x4964656e7469666965644f626a656374, .one2many, 0x4e616d6573, 0, false⟩, ⟨0x4e616d6554797065, .one2many, 0x4e616d6573, 0, false⟩],
  []⟩
def m_Name : List RClass := d_Name :: m_Element

/-- CIM15/CDPSM/Balanced/IEC61970/Core/NameType.py:23 -/
def d_NameType : RClass := ⟨0x4e616d6554797065, 0x43494d31352e434450534d2e42616c616e6365642e49454336313937302e436f72652e4e616d6554797065, 0x43494d31352e434450534d2e42616c616e6365642e456c656d656e74,
  [],
  [],
  [],
  [],
  [],
  [⟨0x4e616d6573, .many2one, 0x4e616d6554797065, 0, false⟩],
  [0x4e616d6573]⟩
def m_NameType : List RClass := d_NameType :: m_Element

/-- CIM15/CDPSM/Balanced/IEC61970/Generation/Production/GeneratingUnit.py:23 -/
def d_GeneratingUnit : RClass := ⟨0x47656e65726174696e67556e6974, 0x43494d31352e434450534d2e42616c616e6365642e49454336313937302e47656e65726174696f6e2e50726f64756374696f6e2e47656e65726174696e67556e6974, 0x43494d31352e434450534d2e42616c616e6365642e49454336313937302e436f72652e4964656e7469666965644f626a656374,
  [(0x6261736550, .flt 0x0), (0x67656e436f6e74726f6c536f75726365, .str 0x706c616e74436f6e74726f6c), (0x72617465644e65744d617850, .flt 0x0), (0x696e697469616c50, .flt 0x0)],
  [0x6261736550, 0x67656e436f6e74726f6c536f75726365, 0x72617465644e65744d617850, 0x696e697469616c50],
  [(0x6261736550, .flt 0x0), (0x67656e436f6e74726f6c536f75726365, .str 0x706c616e74436f6e74726f6c), (0x72617465644e65744d617850, .flt 0x0), (0x696e697469616c50, .flt 0x0)],
  [(0x6261736550, 0x666c6f6174), (0x67656e436f6e74726f6c536f75726365, 0x737472), (0x72617465644e65744d617850, 0x666c6f6174), (0x696e697469616c50, 0x666c6f6174)],
  [(0x67656e436f6e74726f6c536f75726365, 0x47656e657261746f72436f6e74726f6c536f75726365)],
  [⟨0x53796e6368726f6e6f75734d616368696e6573, .many2one, 0x47656e65726174696e67556e6974, 0, false⟩],
  [0x53796e6368726f6e6f75734d616368696e6573]⟩
def m_GeneratingUnit : List RClass := d_GeneratingUnit :: m_IdentifiedObject

/-- CIM15/CDPSM/Balanced/IEC61970/LoadModel/LoadResponseCharacteristic.py:23 -/
def d_LoadResponseCharacteristic : RClass := ⟨0x4c6f6164526573706f6e73654368617261637465726973746963, 0x43494d31352e434450534d2e42616c616e6365642e49454336313937302e4c6f61644d6f64656c2e4c6f6164526573706f6e73654368617261637465726973746963, 0x43494d31352e434450534d2e42616c616e6365642e49454336313937302e436f72652e4964656e7469666965644f626a656374,
  [(0x704672657175656e63794578706f6e656e74, .flt 0x0), (0x70436f6e7374616e74506f776572, .flt 0x0), (0x70566f6c746167654578706f6e656e74, .flt 0x0), (0x6578706f6e656e744d6f64656c, .bool false), (0x714672657175656e63794578706f6e656e74, .flt 0x0), (0x71436f6e7374616e74496d706564616e6365, .flt 0x0), (0x71436f6e7374616e74506f776572, .flt 0x0), (0x70436f6e7374616e7443757272656e74, .flt 0x0), (0x71566f6c746167654578706f6e656e74, .flt 0x0), (0x70436f6e7374616e74496d706564616e6365, .flt 0x0), (0x71436f6e7374616e7443757272656e74, .flt 0x0)],
  [0x704672657175656e63794578706f6e656e74, 0x70436f6e7374616e74506f776572, 0x70566f6c746167654578706f6e656e74, 0x6578706f6e656e744d6f64656c, 0x714672657175656e63794578706f6e656e74, 0x71436f6e7374616e74496d706564616e6365, 0x71436f6e7374616e74506f776572, 0x70436f6e7374616e7443757272656e74, 0x71566f6c746167654578706f6e656e74, 0x70436f6e7374616e74496d706564616e6365, 0x71436f6e7374616e7443757272656e74],
  [(0x704672657175656e63794578706f6e656e74, .flt 0x0), (0x70436f6e7374616e74506f776572, .flt 0x0), (0x70566f6c746167654578706f6e656e74, .flt 0x0), (0x6578706f6e656e744d6f64656c, .bool false), (0x714672657175656e63794578706f6e656e74, .flt 0x0), (0x71436f6e7374616e74496d706564616e6365, .flt 0x0), (0x71436f6e7374616e74506f776572, .flt 0x0), (0x70436f6e7374616e7443757272656e74, .flt 0x0), (0x71566f6c746167654578706f6e656e74, .flt 0x0), (0x70436f6e7374616e74496d706564616e6365, .flt 0x0), (0x71436f6e7374616e7443757272656e74, .flt 0x0)],
  [(0x704672657175656e63794578706f6e656e74, 0x666c6f6174), (0x70436f6e7374616e74506f776572, 0x666c6f6174), (0x70566f6c746167654578706f6e656e74, 0x666c6f6174), (0x6578706f6e656e744d6f64656c, 0x626f6f6c), (0x714672657175656e63794578706f6e656e74, 0x666c6f6174), (0x71436f6e7374616e74496d706564616e6365, 0x666c6f6174), (0x71436f6e7374616e74506f776572, 0x666c6f6174), (0x70436f6e7374616e7443757272656e74, 0x666c6f6174), (0x71566f6c746167654578706f6e656e74, 0x666c6f6174), (0x70436f6e7374616e74496d706564616e6365, 0x666c6f6174), (0x71436f6e7374616e7443757272656e74, 0x666c6f6174)],
  [],
  [⟨0x456e65726779436f6e73756d6572, .many2one, 0x4c6f6164526573706f6e7365, 0, false⟩],
  [0x456e65726779436f6e73756d6572]⟩
def m_LoadResponseCharacteristic : List RClass := d_LoadResponseCharacteristic :: m_IdentifiedObject

/-- CIM15/CDPSM/Balanced/IEC61970/Wires/ACLineSegment.py:23 -/
def d_ACLineSegment : RClass := ⟨0x41434c696e655365676d656e74, 0x43494d31352e434450534d2e42616c616e6365642e49454336313937302e57697265732e41434c696e655365676d656e74, 0x43494d31352e434450534d2e42616c616e6365642e49454336313937302e436f72652e4964656e7469666965644f626a656374,
  [(0x7830, .flt 0x0), (0x626368, .flt 0x0), (0x62306368, .flt 0x0), (0x72, .flt 0x0), (0x7230, .flt 0x0), (0x78, .flt 0x0)],
  [0x7830, 0x626368, 0x62306368, 0x72, 0x7230, 0x78],
  [(0x7830, .flt 0x0), (0x626368, .flt 0x0), (0x62306368, .flt 0x0), (0x72, .flt 0x0), (0x7230, .flt 0x0), (0x78, .flt 0x0)],
  [(0x7830, 0x666c6f6174), (0x626368, 0x666c6f6174), (0x62306368, 0x666c6f6174), (0x72, 0x666c6f6174), (0x7230, 0x666c6f6174), (0x78, 0x666c6f6174)],
  [],
  [],
  []⟩
def m_ACLineSegment : List RClass := d_ACLineSegment :: m_IdentifiedObject

/-- CIM15/CDPSM/Balanced/IEC61970/Wires/DCLineSegment.py:23 -/
def d_DCLineSegment : RClass := ⟨0x44434c696e655365676d656e74, 0x43494d31352e434450534d2e42616c616e6365642e49454336313937302e57697265732e44434c696e655365676d656e74, 0x43494d31352e434450534d2e42616c616e6365642e49454336313937302e436f72652e4964656e7469666965644f626a656374,
  [],
  [],
  [],
  [],
  [],
  [],
  []⟩
def m_DCLineSegment : List RClass := d_DCLineSegment :: m_IdentifiedObject

/-- CIM15/CDPSM/Balanced/IEC61970/Wires/EnergyConsumer.py:23 -/
def d_EnergyConsumer : RClass := ⟨0x456e65726779436f6e73756d6572, 0x43494d31352e434450534d2e42616c616e6365642e49454336313937302e57697265732e456e65726779436f6e73756d6572, 0x43494d31352e434450534d2e42616c616e6365642e49454336313937302e436f72652e4964656e7469666965644f626a656374,
  [(0x637573746f6d6572436f756e74, .int 0), (0x706669786564506374, .flt 0x0), (0x716669786564506374, .flt 0x0), (0x716669786564, .flt 0x0), (0x706669786564, .flt 0x0)],
  [0x637573746f6d6572436f756e74, 0x706669786564506374, 0x716669786564506374, 0x716669786564, 0x706669786564],
  [(0x637573746f6d6572436f756e74, .int 0), (0x706669786564506374, .flt 0x0), (0x716669786564506374, .flt 0x0), (0x716669786564, .flt 0x0), (0x706669786564, .flt 0x0)],
  [(0x637573746f6d6572436f756e74, 0x696e74), (0x706669786564506374, 0x666c6f6174), (0x716669786564506374, 0x666c6f6174), (0x716669786564, 0x666c6f6174), (0x706669786564, 0x666c6f6174)],
  [],
  [⟨0x4c6f6164526573706f6e7365, .one2many, 0x456e65726779436f6e73756d6572, 0, false⟩],
  []⟩
def m_EnergyConsumer : List RClass := d_EnergyConsumer :: m_IdentifiedObject

/-- CIM15/CDPSM/Balanced/IEC61970/Wires/EnergySource.py:23 -/
def d_EnergySource : RClass := ⟨0x456e65726779536f75726365, 0x43494d31352e434450534d2e42616c616e6365642e49454336313937302e57697265732e456e65726779536f75726365, 0x43494d31352e434450534d2e42616c616e6365642e49454336313937302e436f72652e4964656e7469666965644f626a656374,
  [(0x766f6c746167654d61676e6974756465, .flt 0x0), (0x78, .flt 0x0), (0x72, .flt 0x0), (0x6e6f6d696e616c566f6c74616765, .flt 0x0), (0x766f6c74616765416e676c65, .flt 0x0)],
  [0x766f6c746167654d61676e6974756465, 0x78, 0x72, 0x6e6f6d696e616c566f6c74616765, 0x766f6c74616765416e676c65],
  [(0x766f6c746167654d61676e6974756465, .flt 0x0), (0x78, .flt 0x0), (0x72, .flt 0x0), (0x6e6f6d696e616c566f6c74616765, .flt 0x0), (0x766f6c74616765416e676c65, .flt 0x0)],
  [(0x766f6c746167654d61676e6974756465, 0x666c6f6174), (0x78, 0x666c6f6174), (0x72, 0x666c6f6174), (0x6e6f6d696e616c566f6c74616765, 0x666c6f6174), (0x766f6c74616765416e676c65, 0x666c6f6174)],
  [],
  [],
  []⟩
def m_EnergySource : List RClass := d_EnergySource :: m_IdentifiedObject

/-- CIM15/CDPSM/Balanced/IEC61970/Wires/PowerTransformer.py:23 -/
def d_PowerTransformer : RClass := ⟨0x506f7765725472616e73666f726d6572, 0x43494d31352e434450534d2e42616c616e6365642e49454336313937302e57697265732e506f7765725472616e73666f726d6572, 0x43494d31352e434450534d2e42616c616e6365642e49454336313937302e436f72652e4964656e7469666965644f626a656374,
  [],
  [],
  [],
  [],
  [],
  [],
  []⟩
def m_PowerTransformer : List RClass := d_PowerTransformer :: m_IdentifiedObject

/-- CIM15/CDPSM/Balanced/IEC61970/Wires/ProtectedSwitch.py:23 -/
def d_ProtectedSwitch : RClass := ⟨0x50726f746563746564537769746368, 0x43494d31352e434450534d2e42616c616e6365642e49454336313937302e57697265732e50726f746563746564537769746368, 0x43494d31352e434450534d2e42616c616e6365642e49454336313937302e436f72652e4964656e7469666965644f626a656374,
  [(0x627265616b696e674361706163697479, .flt 0x0)],
  [0x627265616b696e674361706163697479],
  [(0x627265616b696e674361706163697479, .flt 0x0)],
  [(0x627265616b696e674361706163697479, 0x666c6f6174)],
  [],
  [],
  []⟩
def m_ProtectedSwitch : List RClass := d_ProtectedSwitch :: m_IdentifiedObject

/-- CIM15/CDPSM/Balanced/IEC61970/Wires/SeriesCompensator.py:23 -/
def d_SeriesCompensator : RClass := ⟨0x536572696573436f6d70656e7361746f72, 0x43494d31352e434450534d2e42616c616e6365642e49454336313937302e57697265732e536572696573436f6d70656e7361746f72, 0x43494d31352e434450534d2e42616c616e6365642e49454336313937302e436f72652e4964656e7469666965644f626a656374,
  [(0x78, .flt 0x0), (0x72, .flt 0x0)],
  [0x78, 0x72],
  [(0x78, .flt 0x0), (0x72, .flt 0x0)],
  [(0x78, 0x666c6f6174), (0x72, 0x666c6f6174)],
  [],
  [],
  []⟩
def m_SeriesCompensator : List RClass := d_SeriesCompensator :: m_IdentifiedObject

/-- CIM15/CDPSM/Balanced/IEC61970/Wires/ShuntCompensator.py:23 -/
def d_ShuntCompensator : RClass := ⟨0x5368756e74436f6d70656e7361746f72, 0x43494d31352e434450534d2e42616c616e6365642e49454336313937302e57697265732e5368756e74436f6d70656e7361746f72, 0x43494d31352e434450534d2e42616c616e6365642e49454336313937302e436f72652e4964656e7469666965644f626a656374,
  [(0x6e6f6d51, .flt 0x0), (0x6d617855, .flt 0x0), (0x673050657253656374696f6e, .flt 0x0), (0x6750657253656374696f6e, .flt 0x0), (0x6d696e55, .flt 0x0), (0x6250657253656374696f6e, .flt 0x0), (0x726561637469766550657253656374696f6e, .flt 0x0), (0x766f6c7461676553656e7369746976697479, .flt 0x0), (0x6e6f6d55, .flt 0x0), (0x6e6f726d616c53656374696f6e73, .int 0), (0x623050657253656374696f6e, .flt 0x0), (0x6d6178696d756d53656374696f6e73, .int 0)],
  [0x6e6f6d51, 0x6d617855, 0x673050657253656374696f6e, 0x6750657253656374696f6e, 0x6d696e55, 0x6250657253656374696f6e, 0x726561637469766550657253656374696f6e, 0x766f6c7461676553656e7369746976697479, 0x6e6f6d55, 0x6e6f726d616c53656374696f6e73, 0x623050657253656374696f6e, 0x6d6178696d756d53656374696f6e73],
  [(0x6e6f6d51, .flt 0x0), (0x6d617855, .flt 0x0), (0x673050657253656374696f6e, .flt 0x0), (0x6750657253656374696f6e, .flt 0x0), (0x6d696e55, .flt 0x0), (0x6250657253656374696f6e, .flt 0x0), (0x726561637469766550657253656374696f6e, .flt 0x0), (0x766f6c7461676553656e7369746976697479, .flt 0x0), (0x6e6f6d55, .flt 0x0), (0x6e6f726d616c53656374696f6e73, .int 0), (0x623050657253656374696f6e, .flt 0x0), (0x6d6178696d756d53656374696f6e73, .int 0)],
  [(0x6e6f6d51, 0x666c6f6174), (0x6d617855, 0x666c6f6174), (0x673050657253656374696f6e, 0x666c6f6174), (0x6750657253656374696f6e, 0x666c6f6174), (0x6d696e55, 0x666c6f6174), (0x6250657253656374696f6e, 0x666c6f6174), (0x726561637469766550657253656374696f6e, 0x666c6f6174), (0x766f6c7461676553656e7369746976697479, 0x666c6f6174), (0x6e6f6d55, 0x666c6f6174), (0x6e6f726d616c53656374696f6e73, 0x696e74), (0x623050657253656374696f6e, 0x666c6f6174), (0x6d6178696d756d53656374696f6e73, 0x696e74)],
  [],
  [],
  []⟩
def m_ShuntCompensator : List RClass := d_ShuntCompensator :: m_IdentifiedObject

/-- CIM15/CDPSM/Balanced/IEC61970/Wires/SynchronousMachine.py:23 -/
def d_SynchronousMachine : RClass := ⟨0x53796e6368726f6e6f75734d616368696e65, 0x43494d31352e434450534d2e42616c616e6365642e49454336313937302e57697265732e53796e6368726f6e6f75734d616368696e65, 0x43494d31352e434450534d2e42616c616e6365642e49454336313937302e436f72652e4964656e7469666965644f626a656374,
  [(0x6f7065726174696e674d6f6465, .str 0x636f6e64656e736572), (0x6d617851, .flt 0x0), (0x6261736551, .flt 0x0), (0x6d696e51, .flt 0x0), (0x74797065, .str 0x636f6e64656e736572)],
  [0x6f7065726174696e674d6f6465, 0x6d617851, 0x6261736551, 0x6d696e51, 0x74797065],
  [(0x6f7065726174696e674d6f6465, .str 0x636f6e64656e736572), (0x6d617851, .flt 0x0), (0x6261736551, .flt 0x0), (0x6d696e51, .flt 0x0), (0x74797065, .str 0x636f6e64656e736572)],
  [(0x6f7065726174696e674d6f6465, 0x737472), (0x6d617851, 0x666c6f6174), (0x6261736551, 0x666c6f6174), (0x6d696e51, 0x666c6f6174), (0x74797065, 0x737472)],
  [(0x6f7065726174696e674d6f6465, 0x53796e6368726f6e6f75734d616368696e654f7065726174696e674d6f6465), (0x74797065, 0x53796e6368726f6e6f75734d616368696e6554797065)],
  [⟨0x47656e65726174696e67556e6974, .one2many, 0x53796e6368726f6e6f75734d616368696e6573, 0, false⟩],
  []⟩
def m_SynchronousMachine : List RClass := d_SynchronousMachine :: m_IdentifiedObject

/-- CIM15/CDPSM/Balanced/IEC61970/Wires/TapChanger.py:23 -/
def d_TapChanger : RClass := ⟨0x5461704368616e676572, 0x43494d31352e434450534d2e42616c616e6365642e49454336313937302e57697265732e5461704368616e676572, 0x43494d31352e434450534d2e42616c616e6365642e49454336313937302e436f72652e4964656e7469666965644f626a656374,
  [(0x6e65757472616c55, .flt 0x0), (0x6c6f7753746570, .int 0), (0x6e6f726d616c53746570, .int 0), (0x6e65757472616c53746570, .int 0), (0x6869676853746570, .int 0)],
  [0x6e65757472616c55, 0x6c6f7753746570, 0x6e6f726d616c53746570, 0x6e65757472616c53746570, 0x6869676853746570],
  [(0x6e65757472616c55, .flt 0x0), (0x6c6f7753746570, .int 0), (0x6e6f726d616c53746570, .int 0), (0x6e65757472616c53746570, .int 0), (0x6869676853746570, .int 0)],
  [(0x6e65757472616c55, 0x666c6f6174), (0x6c6f7753746570, 0x696e74), (0x6e6f726d616c53746570, 0x696e74), (0x6e65757472616c53746570, 0x696e74), (0x6869676853746570, 0x696e74)],
  [],
  [],
  []⟩
def m_TapChanger : List RClass := d_TapChanger :: m_IdentifiedObject

/-- CIM15/CDPSM/Balanced/IEC61970/Wires/TransformerCoreAdmittance.py:23 -/
def d_TransformerCoreAdmittance : RClass := ⟨0x5472616e73666f726d6572436f726541646d697474616e6365, 0x43494d31352e434450534d2e42616c616e6365642e49454336313937302e57697265732e5472616e73666f726d6572436f726541646d697474616e6365, 0x43494d31352e434450534d2e42616c616e6365642e49454336313937302e436f72652e4964656e7469666965644f626a656374,
  [(0x6730, .flt 0x0), (0x67, .flt 0x0), (0x62, .flt 0x0), (0x6230, .flt 0x0)],
  [0x6730, 0x67, 0x62, 0x6230],
  [(0x6730, .flt 0x0), (0x67, .flt 0x0), (0x62, .flt 0x0), (0x6230, .flt 0x0)],
  [(0x6730, 0x666c6f6174), (0x67, 0x666c6f6174), (0x62, 0x666c6f6174), (0x6230, 0x666c6f6174)],
  [],
  [⟨0x5472616e73666f726d6572456e64, .many2one, 0x436f726541646d697474616e6365, 0, false⟩],
  [0x5472616e73666f726d6572456e64]⟩
def m_TransformerCoreAdmittance : List RClass := d_TransformerCoreAdmittance :: m_IdentifiedObject

/-- CIM15/CDPSM/Balanced/IEC61970/Wires/TransformerEnd.py:23 -/
def d_TransformerEnd : RClass := ⟨0x5472616e73666f726d6572456e64, 0x43494d31352e434450534d2e42616c616e6365642e49454336313937302e57697265732e5472616e73666f726d6572456e64, 0x43494d31352e434450534d2e42616c616e6365642e49454336313937302e436f72652e4964656e7469666965644f626a656374,
  [],
  [],
  [],
  [],
  [],
  [⟨0x46726f6d4d657368496d706564616e6365, .many2one, 0x46726f6d5472616e73666f726d6572456e64, 0, false⟩, ⟨0x546f4d657368496d706564616e6365, .many2many, 0x546f5472616e73666f726d6572456e64, 0, false⟩, ⟨0x436f726541646d697474616e6365, .one2many, 0x5472616e73666f726d6572456e64, 0, false⟩, ⟨0x53746172496d706564616e6365, .one2many, 0x5472616e73666f726d6572456e64, 0, false⟩],
  [0x46726f6d4d657368496d706564616e6365, 0x546f4d657368496d706564616e6365]⟩
def m_TransformerEnd : List RClass := d_TransformerEnd :: m_IdentifiedObject

/-- CIM15/CDPSM/Balanced/IEC61970/Wires/TransformerMeshImpedance.py:23 -/
def d_TransformerMeshImpedance : RClass := ⟨0x5472616e73666f726d65724d657368496d706564616e6365, 0x43494d31352e434450534d2e42616c616e6365642e49454336313937302e57697265732e5472616e73666f726d65724d657368496d706564616e6365, 0x43494d31352e434450534d2e42616c616e6365642e49454336313937302e436f72652e4964656e7469666965644f626a656374,
  [(0x72, .flt 0x0), (0x78, .flt 0x0), (0x7830, .flt 0x0), (0x7230, .flt 0x0)],
  [0x72, 0x78, 0x7830, 0x7230],
  [(0x72, .flt 0x0), (0x78, .flt 0x0), (0x7830, .flt 0x0), (0x7230, .flt 0x0)],
  [(0x72, 0x666c6f6174), (0x78, 0x666c6f6174), (0x7830, 0x666c6f6174), (0x7230, 0x666c6f6174)],
  [],
  [⟨0x46726f6d5472616e73666f726d6572456e64, .one2many, 0x46726f6d4d657368496d706564616e6365, 0, false⟩, ⟨0x546f5472616e73666f726d6572456e64, .many2many, 0x546f4d657368496d706564616e6365, 0, false⟩],
  [0x546f5472616e73666f726d6572456e64]⟩
def m_TransformerMeshImpedance : List RClass := d_TransformerMeshImpedance :: m_IdentifiedObject

/-- CIM15/CDPSM/Balanced/IEC61970/Wires/TransformerStarImpedance.py:23 -/
def d_TransformerStarImpedance : RClass := ⟨0x5472616e73666f726d657253746172496d706564616e6365, 0x43494d31352e434450534d2e42616c616e6365642e49454336313937302e57697265732e5472616e73666f726d657253746172496d706564616e6365, 0x43494d31352e434450534d2e42616c616e6365642e49454336313937302e436f72652e4964656e7469666965644f626a656374,
  [(0x7830, .flt 0x0), (0x78, .flt 0x0), (0x7230, .flt 0x0), (0x72, .flt 0x0)],
  [0x7830, 0x78, 0x7230, 0x72],
  [(0x7830, .flt 0x0), (0x78, .flt 0x0), (0x7230, .flt 0x0), (0x72, .flt 0x0)],
  [(0x7830, 0x666c6f6174), (0x78, 0x666c6f6174), (0x7230, 0x666c6f6174), (0x72, 0x666c6f6174)],
  [],
  [⟨0x5472616e73666f726d6572456e64, .many2one, 0x53746172496d706564616e6365, 0, false⟩],
  [0x5472616e73666f726d6572456e64]⟩
def m_TransformerStarImpedance : List RClass := d_TransformerStarImpedance :: m_IdentifiedObject

/-- CIM15/CDPSM/Balanced/IEC61970/Wires/PhaseTapChanger.py:23 -/
def d_PhaseTapChanger : RClass := ⟨0x50686173655461704368616e676572, 0x43494d31352e434450534d2e42616c616e6365642e49454336313937302e57697265732e50686173655461704368616e676572, 0x43494d31352e434450534d2e42616c616e6365642e49454336313937302e57697265732e5461704368616e676572,
  [],
  [],
  [],
  [],
  [],
  [],
  []⟩
def m_PhaseTapChanger : List RClass := d_PhaseTapChanger :: m_TapChanger

/-- CIM15/CDPSM/Balanced/IEC61970/Wires/PowerTransformerEnd.py:23 -/
def d_PowerTransformerEnd : RClass := ⟨0x506f7765725472616e73666f726d6572456e64, 0x43494d31352e434450534d2e42616c616e6365642e49454336313937302e57697265732e506f7765725472616e73666f726d6572456e64, 0x43494d31352e434450534d2e42616c616e6365642e49454336313937302e57697265732e5472616e73666f726d6572456e64,
  [(0x6730, .flt 0x0), (0x726174656453, .flt 0x0), (0x6230, .flt 0x0), (0x7230, .flt 0x0), (0x636f6e6e656374696f6e4b696e64, .str 0x5a), (0x62, .flt 0x0), (0x72, .flt 0x0), (0x726174656455, .flt 0x0), (0x7830, .flt 0x0), (0x78, .flt 0x0), (0x67, .flt 0x0)],
  [0x6730, 0x726174656453, 0x6230, 0x7230, 0x636f6e6e656374696f6e4b696e64, 0x62, 0x72, 0x726174656455, 0x7830, 0x78, 0x67],
  [(0x6730, .flt 0x0), (0x726174656453, .flt 0x0), (0x6230, .flt 0x0), (0x7230, .flt 0x0), (0x636f6e6e656374696f6e4b696e64, .str 0x5a), (0x62, .flt 0x0), (0x72, .flt 0x0), (0x726174656455, .flt 0x0), (0x7830, .flt 0x0), (0x78, .flt 0x0), (0x67, .flt 0x0)],
  [(0x6730, 0x666c6f6174), (0x726174656453, 0x666c6f6174), (0x6230, 0x666c6f6174), (0x7230, 0x666c6f6174), (0x636f6e6e656374696f6e4b696e64, 0x737472), (0x62, 0x666c6f6174), (0x72, 0x666c6f6174), (0x726174656455, 0x666c6f6174), (0x7830, 0x666c6f6174), (0x78, 0x666c6f6174), (0x67, 0x666c6f6174)],
  [(0x636f6e6e656374696f6e4b696e64, 0x57696e64696e67436f6e6e656374696f6e)],
  [],
  []⟩
def m_PowerTransformerEnd : List RClass := d_PowerTransformerEnd :: m_TransformerEnd

/-- CIM15/CDPSM/Balanced/IEC61970/Wires/RatioTapChanger.py:23 -/
def d_RatioTapChanger : RClass := ⟨0x526174696f5461704368616e676572, 0x43494d31352e434450534d2e42616c616e6365642e49454336313937302e57697265732e526174696f5461704368616e676572, 0x43494d31352e434450534d2e42616c616e6365642e49454336313937302e57697265732e5461704368616e676572,
  [(0x73746570566f6c74616765496e6372656d656e74, .flt 0x0), (0x7463756c436f6e74726f6c4d6f6465, .str 0x7265616374697665)],
  [0x73746570566f6c74616765496e6372656d656e74, 0x7463756c436f6e74726f6c4d6f6465],
  [(0x73746570566f6c74616765496e6372656d656e74, .flt 0x0), (0x7463756c436f6e74726f6c4d6f6465, .str 0x7265616374697665)],
  [(0x73746570566f6c74616765496e6372656d656e74, 0x666c6f6174), (0x7463756c436f6e74726f6c4d6f6465, 0x737472)],
  [(0x7463756c436f6e74726f6c4d6f6465, 0x5472616e73666f726d6572436f6e74726f6c4d6f6465)],
  [],
  []⟩
def m_RatioTapChanger : List RClass := d_RatioTapChanger :: m_TapChanger

/-- CIM15/CDPSM/Balanced/IEC61970/Wires/TransformerTankEnd.py:23 -/
def d_TransformerTankEnd : RClass := ⟨0x5472616e73666f726d657254616e6b456e64, 0x43494d31352e434450534d2e42616c616e6365642e49454336313937302e57697265732e5472616e73666f726d657254616e6b456e64, 0x43494d31352e434450534d2e42616c616e6365642e49454336313937302e57697265732e5472616e73666f726d6572456e64,
  [],
  [],
  [],
  [],
  [],
  [],
  []⟩
def m_TransformerTankEnd : List RClass := d_TransformerTankEnd :: m_TransformerEnd

/-- CIM15/CDPSM/Balanced/IEC61970/Wires/PhaseTapChangerLinear.py:23 -/
def d_PhaseTapChangerLinear : RClass := ⟨0x50686173655461704368616e6765724c696e656172, 0x43494d31352e434450534d2e42616c616e6365642e49454336313937302e57697265732e50686173655461704368616e6765724c696e656172, 0x43494d31352e434450534d2e42616c616e6365642e49454336313937302e57697265732e50686173655461704368616e676572,
  [(0x7374657050686173655368696674496e6372656d656e74, .flt 0x0)],
  [0x7374657050686173655368696674496e6372656d656e74],
  [(0x7374657050686173655368696674496e6372656d656e74, .flt 0x0)],
  [(0x7374657050686173655368696674496e6372656d656e74, 0x666c6f6174)],
  [],
  [],
  []⟩
def m_PhaseTapChangerLinear : List RClass := d_PhaseTapChangerLinear :: m_PhaseTapChanger

/-- CIM15/CDPSM/Balanced/IEC61970/Wires/PhaseTapChangerNonLinear.py:23 -/
def d_PhaseTapChangerNonLinear : RClass := ⟨0x50686173655461704368616e6765724e6f6e4c696e656172, 0x43494d31352e434450534d2e42616c616e6365642e49454336313937302e57697265732e50686173655461704368616e6765724e6f6e4c696e656172, 0x43494d31352e434450534d2e42616c616e6365642e49454336313937302e57697265732e50686173655461704368616e676572,
  [(0x766f6c7461676553746570496e6372656d656e74, .flt 0x0)],
  [0x766f6c7461676553746570496e6372656d656e74],
  [(0x766f6c7461676553746570496e6372656d656e74, .flt 0x0)],
  [(0x766f6c7461676553746570496e6372656d656e74, 0x666c6f6174)],
  [],
  [],
  []⟩
def m_PhaseTapChangerNonLinear : List RClass := d_PhaseTapChangerNonLinear :: m_PhaseTapChanger

/-- CIM15/CDPSM/Balanced/IEC61970/Wires/PhaseTapChangerAsymetrical.py:23 -/
def d_PhaseTapChangerAsymetrical : RClass := ⟨0x50686173655461704368616e6765724173796d6574726963616c, 0x43494d31352e434450534d2e42616c616e6365642e49454336313937302e57697265732e50686173655461704368616e6765724173796d6574726963616c, 0x43494d31352e434450534d2e42616c616e6365642e49454336313937302e57697265732e50686173655461704368616e6765724e6f6e4c696e656172,
  [(0x77696e64696e67436f6e6e656374696f6e416e676c65, .flt 0x0)],
  [0x77696e64696e67436f6e6e656374696f6e416e676c65],
  [(0x77696e64696e67436f6e6e656374696f6e416e676c65, .flt 0x0)],
  [(0x77696e64696e67436f6e6e656374696f6e416e676c65, 0x666c6f6174)],
  [],
  [],
  []⟩
def m_PhaseTapChangerAsymetrical : List RClass := d_PhaseTapChangerAsymetrical :: m_PhaseTapChangerNonLinear

/-- CIM15/CDPSM/Balanced/IEC61970/Wires/PhaseTapChangerSymetrical.py:23 -/
def d_PhaseTapChangerSymetrical : RClass := ⟨0x50686173655461704368616e67657253796d6574726963616c, 0x43494d31352e434450534d2e42616c616e6365642e49454336313937302e57697265732e50686173655461704368616e67657253796d6574726963616c, 0x43494d31352e434450534d2e42616c616e6365642e49454336313937302e57697265732e50686173655461704368616e6765724e6f6e4c696e656172,
  [],
  [],
  [],
  [],
  [],
  [],
  []⟩
def m_PhaseTapChangerSymetrical : List RClass := d_PhaseTapChangerSymetrical :: m_PhaseTapChangerNonLinear

def classes : List (List RClass) := [
  m_Element,
  m_IdentifiedObject,
  m_Name,
  m_NameType,
  m_GeneratingUnit,
  m_LoadResponseCharacteristic,
  m_ACLineSegment,
  m_DCLineSegment,
  m_EnergyConsumer,
  m_EnergySource,
  m_PhaseTapChanger,
  m_PhaseTapChangerAsymetrical,
  m_PhaseTapChangerLinear,
  m_PhaseTapChangerNonLinear,
  m_PhaseTapChangerSymetrical,
  m_PowerTransformer,
  m_PowerTransformerEnd,
  m_ProtectedSwitch,
  m_RatioTapChanger,
  m_SeriesCompensator,
  m_ShuntCompensator,
  m_SynchronousMachine,
  m_TapChanger,
  m_TransformerCoreAdmittance,
  m_TransformerEnd,
  m_TransformerMeshImpedance,
  m_TransformerStarImpedance,
  m_TransformerTankEnd]

/-- `packageMap` of CIM15/CDPSM/Balanced/__init__.py -/
def pmap : List (Nat × Nat) := [
  (0x456c656d656e74, 0x43494d31352e434450534d2e42616c616e636564),
  (0x50686173655461704368616e6765724c696e656172, 0x43494d31352e434450534d2e42616c616e6365642e49454336313937302e5769726573),
  (0x456e65726779436f6e73756d6572, 0x43494d31352e434450534d2e42616c616e6365642e49454336313937302e5769726573),
  (0x41434c696e655365676d656e74, 0x43494d31352e434450534d2e42616c616e6365642e49454336313937302e5769726573),
  (0x5472616e73666f726d6572436f726541646d697474616e6365, 0x43494d31352e434450534d2e42616c616e6365642e49454336313937302e5769726573),
  (0x53796e6368726f6e6f75734d616368696e65, 0x43494d31352e434450534d2e42616c616e6365642e49454336313937302e5769726573),
  (0x506f7765725472616e73666f726d6572456e64, 0x43494d31352e434450534d2e42616c616e6365642e49454336313937302e5769726573),
  (0x50686173655461704368616e6765724173796d6574726963616c, 0x43494d31352e434450534d2e42616c616e6365642e49454336313937302e5769726573),
  (0x5472616e73666f726d65724d657368496d706564616e6365, 0x43494d31352e434450534d2e42616c616e6365642e49454336313937302e5769726573),
  (0x50726f746563746564537769746368, 0x43494d31352e434450534d2e42616c616e6365642e49454336313937302e5769726573),
  (0x50686173655461704368616e6765724e6f6e4c696e656172, 0x43494d31352e434450534d2e42616c616e6365642e49454336313937302e5769726573),
  (0x526174696f5461704368616e676572, 0x43494d31352e434450534d2e42616c616e6365642e49454336313937302e5769726573),
  (0x536572696573436f6d70656e7361746f72, 0x43494d31352e434450534d2e42616c616e6365642e49454336313937302e5769726573),
  (0x50686173655461704368616e676572, 0x43494d31352e434450534d2e42616c616e6365642e49454336313937302e5769726573),
  (0x5472616e73666f726d657254616e6b456e64, 0x43494d31352e434450534d2e42616c616e6365642e49454336313937302e5769726573),
  (0x44434c696e655365676d656e74, 0x43494d31352e434450534d2e42616c616e6365642e49454336313937302e5769726573),
  (0x5461704368616e676572, 0x43494d31352e434450534d2e42616c616e6365642e49454336313937302e5769726573),
  (0x50686173655461704368616e67657253796d6574726963616c, 0x43494d31352e434450534d2e42616c616e6365642e49454336313937302e5769726573),
  (0x5472616e73666f726d657253746172496d706564616e6365, 0x43494d31352e434450534d2e42616c616e6365642e49454336313937302e5769726573),
  (0x506f7765725472616e73666f726d6572, 0x43494d31352e434450534d2e42616c616e6365642e49454336313937302e5769726573),
  (0x5472616e73666f726d6572456e64, 0x43494d31352e434450534d2e42616c616e6365642e49454336313937302e5769726573),
  (0x456e65726779536f75726365, 0x43494d31352e434450534d2e42616c616e6365642e49454336313937302e5769726573),
  (0x5368756e74436f6d70656e7361746f72, 0x43494d31352e434450534d2e42616c616e6365642e49454336313937302e5769726573),
  (0x4c6f6164526573706f6e73654368617261637465726973746963, 0x43494d31352e434450534d2e42616c616e6365642e49454336313937302e4c6f61644d6f64656c),
  (0x47656e65726174696e67556e6974, 0x43494d31352e434450534d2e42616c616e6365642e49454336313937302e47656e65726174696f6e2e50726f64756374696f6e),
  (0x4e616d6554797065, 0x43494d31352e434450534d2e42616c616e6365642e49454336313937302e436f7265),
  (0x4964656e7469666965644f626a656374, 0x43494d31352e434450534d2e42616c616e6365642e49454336313937302e436f7265),
  (0x4e616d65, 0x43494d31352e434450534d2e42616c616e6365642e49454336313937302e436f7265)]

/-- Names bound by `from m import C` in the `__init__.py` files of the packages occurring in `pmap`: (package, C, m). -/
def exports : List (Nat × Nat × Nat) := [
  (0x43494d31352e434450534d2e42616c616e636564, 0x456c656d656e74, 0x43494d31352e434450534d2e42616c616e6365642e456c656d656e74),
  (0x43494d31352e434450534d2e42616c616e6365642e49454336313937302e436f7265, 0x4e616d6554797065, 0x43494d31352e434450534d2e42616c616e6365642e49454336313937302e436f72652e4e616d6554797065),
  (0x43494d31352e434450534d2e42616c616e6365642e49454336313937302e436f7265, 0x4964656e7469666965644f626a656374, 0x43494d31352e434450534d2e42616c616e6365642e49454336313937302e436f72652e4964656e7469666965644f626a656374),
  (0x43494d31352e434450534d2e42616c616e6365642e49454336313937302e436f7265, 0x4e616d65, 0x43494d31352e434450534d2e42616c616e6365642e49454336313937302e436f72652e4e616d65),
  (0x43494d31352e434450534d2e42616c616e6365642e49454336313937302e47656e65726174696f6e2e50726f64756374696f6e, 0x47656e65726174696e67556e6974, 0x43494d31352e434450534d2e42616c616e6365642e49454336313937302e47656e65726174696f6e2e50726f64756374696f6e2e47656e65726174696e67556e6974),
  (0x43494d31352e434450534d2e42616c616e6365642e49454336313937302e4c6f61644d6f64656c, 0x4c6f6164526573706f6e73654368617261637465726973746963, 0x43494d31352e434450534d2e42616c616e6365642e49454336313937302e4c6f61644d6f64656c2e4c6f6164526573706f6e73654368617261637465726973746963),
  (0x43494d31352e434450534d2e42616c616e6365642e49454336313937302e5769726573, 0x50686173655461704368616e6765724c696e656172, 0x43494d31352e434450534d2e42616c616e6365642e49454336313937302e57697265732e50686173655461704368616e6765724c696e656172),
  (0x43494d31352e434450534d2e42616c616e6365642e49454336313937302e5769726573, 0x456e65726779436f6e73756d6572, 0x43494d31352e434450534d2e42616c616e6365642e49454336313937302e57697265732e456e65726779436f6e73756d6572),
  (0x43494d31352e434450534d2e42616c616e6365642e49454336313937302e5769726573, 0x41434c696e655365676d656e74, 0x43494d31352e434450534d2e42616c616e6365642e49454336313937302e57697265732e41434c696e655365676d656e74),
  (0x43494d31352e434450534d2e42616c616e6365642e49454336313937302e5769726573, 0x5472616e73666f726d6572436f726541646d697474616e6365, 0x43494d31352e434450534d2e42616c616e6365642e49454336313937302e57697265732e5472616e73666f726d6572436f726541646d697474616e6365),
  (0x43494d31352e434450534d2e42616c616e6365642e49454336313937302e5769726573, 0x53796e6368726f6e6f75734d616368696e65, 0x43494d31352e434450534d2e42616c616e6365642e49454336313937302e57697265732e53796e6368726f6e6f75734d616368696e65),
  (0x43494d31352e434450534d2e42616c616e6365642e49454336313937302e5769726573, 0x506f7765725472616e73666f726d6572456e64, 0x43494d31352e434450534d2e42616c616e6365642e49454336313937302e57697265732e506f7765725472616e73666f726d6572456e64),
  (0x43494d31352e434450534d2e42616c616e6365642e49454336313937302e5769726573, 0x50686173655461704368616e6765724173796d6574726963616c, 0x43494d31352e434450534d2e42616c616e6365642e49454336313937302e57697265732e50686173655461704368616e6765724173796d6574726963616c),
  (0x43494d31352e434450534d2e42616c616e6365642e49454336313937302e5769726573, 0x5472616e73666f726d65724d657368496d706564616e6365, 0x43494d31352e434450534d2e42616c616e6365642e49454336313937302e57697265732e5472616e73666f726d65724d657368496d706564616e6365),
  (0x43494d31352e434450534d2e42616c616e6365642e49454336313937302e5769726573, 0x50726f746563746564537769746368, 0x43494d31352e434450534d2e42616c616e6365642e49454336313937302e57697265732e50726f746563746564537769746368),
  (0x43494d31352e434450534d2e42616c616e6365642e49454336313937302e5769726573, 0x50686173655461704368616e6765724e6f6e4c696e656172, 0x43494d31352e434450534d2e42616c616e6365642e49454336313937302e57697265732e50686173655461704368616e6765724e6f6e4c696e656172),
  (0x43494d31352e434450534d2e42616c616e6365642e49454336313937302e5769726573, 0x526174696f5461704368616e676572, 0x43494d31352e434450534d2e42616c616e6365642e49454336313937302e57697265732e526174696f5461704368616e676572),
  (0x43494d31352e434450534d2e42616c616e6365642e49454336313937302e5769726573, 0x536572696573436f6d70656e7361746f72, 0x43494d31352e434450534d2e42616c616e6365642e49454336313937302e57697265732e536572696573436f6d70656e7361746f72),
  (0x43494d31352e434450534d2e42616c616e6365642e49454336313937302e5769726573, 0x50686173655461704368616e676572, 0x43494d31352e434450534d2e42616c616e6365642e49454336313937302e57697265732e50686173655461704368616e676572),
  (0x43494d31352e434450534d2e42616c616e6365642e49454336313937302e5769726573, 0x5472616e73666f726d657254616e6b456e64, 0x43494d31352e434450534d2e42616c616e6365642e49454336313937302e57697265732e5472616e73666f726d657254616e6b456e64),
  (0x43494d31352e434450534d2e42616c616e6365642e49454336313937302e5769726573, 0x44434c696e655365676d656e74, 0x43494d31352e434450534d2e42616c616e6365642e49454336313937302e57697265732e44434c696e655365676d656e74),
  (0x43494d31352e434450534d2e42616c616e6365642e49454336313937302e5769726573, 0x5461704368616e676572, 0x43494d31352e434450534d2e42616c616e6365642e49454336313937302e57697265732e5461704368616e676572),
  (0x43494d31352e434450534d2e42616c616e6365642e49454336313937302e5769726573, 0x50686173655461704368616e67657253796d6574726963616c, 0x43494d31352e434450534d2e42616c616e6365642e49454336313937302e57697265732e50686173655461704368616e67657253796d6574726963616c),
  (0x43494d31352e434450534d2e42616c616e6365642e49454336313937302e5769726573, 0x5472616e73666f726d657253746172496d706564616e6365, 0x43494d31352e434450534d2e42616c616e6365642e49454336313937302e57697265732e5472616e73666f726d657253746172496d706564616e6365),
  (0x43494d31352e434450534d2e42616c616e6365642e49454336313937302e5769726573, 0x506f7765725472616e73666f726d6572, 0x43494d31352e434450534d2e42616c616e6365642e49454336313937302e57697265732e506f7765725472616e73666f726d6572),
  (0x43494d31352e434450534d2e42616c616e6365642e49454336313937302e5769726573, 0x5472616e73666f726d6572456e64, 0x43494d31352e434450534d2e42616c616e6365642e49454336313937302e57697265732e5472616e73666f726d6572456e64),
  (0x43494d31352e434450534d2e42616c616e6365642e49454336313937302e5769726573, 0x456e65726779536f75726365, 0x43494d31352e434450534d2e42616c616e6365642e49454336313937302e57697265732e456e65726779536f75726365),
  (0x43494d31352e434450534d2e42616c616e6365642e49454336313937302e5769726573, 0x5368756e74436f6d70656e7361746f72, 0x43494d31352e434450534d2e42616c616e6365642e49454336313937302e57697265732e5368756e74436f6d70656e7361746f72)]

def pkg : RPkg := ⟨0x43494d31352e434450534d2e42616c616e636564, classes, pmap, exports⟩

end Verif.Gen.CIM15_CDPSM_Balanced
