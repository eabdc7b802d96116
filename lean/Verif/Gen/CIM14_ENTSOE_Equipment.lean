import Verif.Gen.Types
/-! Generated by tools/gen.py from /repo/CIM14/ENTSOE/Equipment: do not edit. -/
namespace Verif.Gen.CIM14_ENTSOE_Equipment
set_option maxRecDepth 10000

/-- CIM14/ENTSOE/Equipment/Element.py:22 -/
def d_Element : RClass := ⟨0x456c656d656e74, 0x43494d31342e454e54534f452e45717569706d656e742e456c656d656e74, 0,
  [(0x55554944, .str 0)],
  [0x55554944],
  [(0x55554944, .str 0)],
  [(0x55554944, 0x737472)],
  [],
  [],
  []⟩
def m_Element : List RClass := d_Element :: []

/-- CIM14/ENTSOE/Equipment/ControlArea/ControlAreaGeneratingUnit.py:23 -/
def d_ControlAreaGeneratingUnit : RClass := ⟨0x436f6e74726f6c4172656147656e65726174696e67556e6974, 0x43494d31342e454e54534f452e45717569706d656e742e436f6e74726f6c417265612e436f6e74726f6c4172656147656e65726174696e67556e6974, 0x43494d31342e454e54534f452e45717569706d656e742e456c656d656e74,
  [],
  [],
  [],
  [],
  [],
  [⟨0x436f6e74726f6c41726561, .one2many, 0x436f6e74726f6c4172656147656e65726174696e67556e6974, 0, false⟩, ⟨0x47656e65726174696e67556e6974, .one2many, 0x436f6e74726f6c4172656147656e65726174696e67556e6974, 0, false⟩],
  []⟩
def m_ControlAreaGeneratingUnit : List RClass := d_ControlAreaGeneratingUnit :: m_Element

/-- CIM14/ENTSOE/Equipment/ControlArea/TieFlow.py:23 -/
def d_TieFlow : RClass := ⟨0x546965466c6f77, 0x43494d31342e454e54534f452e45717569706d656e742e436f6e74726f6c417265612e546965466c6f77, 0x43494d31342e454e54534f452e45717569706d656e742e456c656d656e74,
  [(0x706f736974697665466c6f77496e, .bool false)],
  [0x706f736974697665466c6f77496e],
  [(0x706f736974697665466c6f77496e, .bool false)],
  [(0x706f736974697665466c6f77496e, 0x626f6f6c)],
  [],
  [⟨0x436f6e74726f6c41726561, .one2many, 0x546965466c6f77, 0, false⟩, ⟨0x5465726d696e616c, .one2many, 0x546965466c6f77, 0, false⟩],
  []⟩
def m_TieFlow : List RClass := d_TieFlow :: m_Element

/-- CIM14/ENTSOE/Equipment/Core/CurveData.py:23 -/
def d_CurveData : RClass := ⟨0x437572766544617461, 0x43494d31342e454e54534f452e45717569706d656e742e436f72652e437572766544617461, 0x43494d31342e454e54534f452e45717569706d656e742e456c656d656e74,
  [(0x793176616c7565, .flt 0x0), (0x7876616c7565, .flt 0x0), (0x793276616c7565, .flt 0x0)],
  [0x793176616c7565, 0x7876616c7565, 0x793276616c7565],
  [(0x793176616c7565, .flt 0x0), (0x7876616c7565, .flt 0x0), (0x793276616c7565, .flt 0x0)],
  [(0x793176616c7565, 0x666c6f6174), (0x7876616c7565, 0x666c6f6174), (0x793276616c7565, 0x666c6f6174)],
  [],
  [⟨0x4375727665, .one2many, 0x43757276654461746173, 0, false⟩],
  []⟩
def m_CurveData : List RClass := d_CurveData :: m_Element

/-- CIM14/ENTSOE/Equipment/Core/IdentifiedObject.py:23 -/
def d_IdentifiedObject : RClass := ⟨0x4964656e7469666965644f626a656374, 0x43494d31342e454e54534f452e45717569706d656e742e436f72652e4964656e7469666965644f626a656374, 0x43494d31342e454e54534f452e45717569706d656e742e456c656d656e74,
  [(0x6465736372697074696f6e, .str 0), (0x6e616d65, .str 0), (0x616c6961734e616d65, .str 0), (0x706174684e616d65, .str 0)],
  [0x6465736372697074696f6e, 0x6e616d65, 0x616c6961734e616d65, 0x706174684e616d65],
  [(0x6465736372697074696f6e, .str 0), (0x6e616d65, .str 0), (0x616c6961734e616d65, .str 0), (0x706174684e616d65, .str 0)],
  [(0x6465736372697074696f6e, 0x737472), (0x6e616d65, 0x737472), (0x616c6961734e616d65, 0x737472), (0x706174684e616d65, 0x737472)],
  [],
  [],
  []⟩
def m_IdentifiedObject : List RClass := d_IdentifiedObject :: m_Element

/-- CIM14/ENTSOE/Equipment/IEC61970CIMVersion.py:23 -/
def d_IEC61970CIMVersion : RClass := ⟨0x494543363139373043494d56657273696f6e, 0x43494d31342e454e54534f452e45717569706d656e742e494543363139373043494d56657273696f6e, 0x43494d31342e454e54534f452e45717569706d656e742e456c656d656e74,
  [(0x64617465, .str 0), (0x76657273696f6e, .str 0)],
  [0x64617465, 0x76657273696f6e],
  [(0x64617465, .str 0), (0x76657273696f6e, .str 0)],
  [(0x64617465, 0x737472), (0x76657273696f6e, 0x737472)],
  [],
  [],
  []⟩
def m_IEC61970CIMVersion : List RClass := d_IEC61970CIMVersion :: m_Element

/-- CIM14/ENTSOE/Equipment/LoadModel/Season.py:23 -/
def d_Season : RClass := ⟨0x536561736f6e, 0x43494d31342e454e54534f452e45717569706d656e742e4c6f61644d6f64656c2e536561736f6e, 0x43494d31342e454e54534f452e45717569706d656e742e456c656d656e74,
  [],
  [],
  [],
  [],
  [],
  [⟨0x536561736f6e446179547970655363686564756c6573, .many2one, 0x536561736f6e, 0, false⟩],
  [0x536561736f6e446179547970655363686564756c6573]⟩
def m_Season : List RClass := d_Season :: m_Element

/-- CIM14/ENTSOE/Equipment/Core/BaseVoltage.py:23 -/
def d_BaseVoltage : RClass := ⟨0x42617365566f6c74616765, 0x43494d31342e454e54534f452e45717569706d656e742e436f72652e42617365566f6c74616765, 0x43494d31342e454e54534f452e45717569706d656e742e436f72652e4964656e7469666965644f626a656374,
  [(0x6e6f6d696e616c566f6c74616765, .flt 0x0)],
  [0x6e6f6d696e616c566f6c74616765],
  [(0x6e6f6d696e616c566f6c74616765, .flt 0x0)],
  [(0x6e6f6d696e616c566f6c74616765, 0x666c6f6174)],
  [],
  [⟨0x436f6e64756374696e6745717569706d656e74, .many2one, 0x42617365566f6c74616765, 0, false⟩, ⟨0x566f6c746167654c6576656c, .many2one, 0x42617365566f6c74616765, 0, false⟩],
  [0x436f6e64756374696e6745717569706d656e74, 0x566f6c746167654c6576656c]⟩
def m_BaseVoltage : List RClass := d_BaseVoltage :: m_IdentifiedObject

/-- CIM14/ENTSOE/Equipment/Core/BasicIntervalSchedule.py:23 -/
def d_BasicIntervalSchedule : RClass := ⟨0x4261736963496e74657276616c5363686564756c65, 0x43494d31342e454e54534f452e45717569706d656e742e436f72652e4261736963496e74657276616c5363686564756c65, 0x43494d31342e454e54534f452e45717569706d656e742e436f72652e4964656e7469666965644f626a656374,
  [(0x737461727454696d65, .str 0), (0x76616c756531556e6974, .str 0x41), (0x76616c756532556e6974, .str 0x41)],
  [0x737461727454696d65, 0x76616c756531556e6974, 0x76616c756532556e6974],
  [(0x737461727454696d65, .str 0), (0x76616c756531556e6974, .str 0x41), (0x76616c756532556e6974, .str 0x41)],
  [(0x737461727454696d65, 0x737472), (0x76616c756531556e6974, 0x737472), (0x76616c756532556e6974, 0x737472)],
  [(0x76616c756531556e6974, 0x556e697453796d626f6c), (0x76616c756532556e6974, 0x556e697453796d626f6c)],
  [],
  []⟩
def m_BasicIntervalSchedule : List RClass := d_BasicIntervalSchedule :: m_IdentifiedObject

/-- CIM14/ENTSOE/Equipment/Core/ConnectivityNode.py:23 -/
def d_ConnectivityNode : RClass := ⟨0x436f6e6e65637469766974794e6f6465, 0x43494d31342e454e54534f452e45717569706d656e742e436f72652e436f6e6e65637469766974794e6f6465, 0x43494d31342e454e54534f452e45717569706d656e742e436f72652e4964656e7469666965644f626a656374,
  [],
  [],
  [],
  [],
  [],
  [⟨0x5465726d696e616c73, .many2one, 0x436f6e6e65637469766974794e6f6465, 0, false⟩],
  [0x5465726d696e616c73]⟩
def m_ConnectivityNode : List RClass := d_ConnectivityNode :: m_IdentifiedObject

/-- CIM14/ENTSOE/Equipment/Core/Curve.py:23 -/
def d_Curve : RClass := ⟨0x4375727665, 0x43494d31342e454e54534f452e45717569706d656e742e436f72652e4375727665, 0x43494d31342e454e54534f452e45717569706d656e742e436f72652e4964656e7469666965644f626a656374,
  [(0x7931556e6974, .str 0x41), (0x63757276655374796c65, .str 0x73747261696768744c696e655956616c756573), (0x78556e6974, .str 0x41)],
  [0x7931556e6974, 0x63757276655374796c65, 0x78556e6974],
  [(0x7931556e6974, .str 0x41), (0x63757276655374796c65, .str 0x73747261696768744c696e655956616c756573), (0x78556e6974, .str 0x41)],
  [(0x7931556e6974, 0x737472), (0x63757276655374796c65, 0x737472), (0x78556e6974, 0x737472)],
  [(0x7931556e6974, 0x556e697453796d626f6c), (0x63757276655374796c65, 0x43757276655374796c65), (0x78556e6974, 0x556e697453796d626f6c)],
  [⟨0x43757276654461746173, .many2one, 0x4375727665, 0, false⟩],
  [0x43757276654461746173]⟩
def m_Curve : List RClass := d_Curve :: m_IdentifiedObject

/-- CIM14/ENTSOE/Equipment/Core/GeographicalRegion.py:23 -/
def d_GeographicalRegion : RClass := ⟨0x47656f67726170686963616c526567696f6e, 0x43494d31342e454e54534f452e45717569706d656e742e436f72652e47656f67726170686963616c526567696f6e, 0x43494d31342e454e54534f452e45717569706d656e742e436f72652e4964656e7469666965644f626a656374,
  [],
  [],
  [],
  [],
  [],
  [⟨0x526567696f6e73, .many2one, 0x526567696f6e, 0, false⟩],
  [0x526567696f6e73]⟩
def m_GeographicalRegion : List RClass := d_GeographicalRegion :: m_IdentifiedObject

/-- CIM14/ENTSOE/Equipment/Core/PowerSystemResource.py:23 -/
def d_PowerSystemResource : RClass := ⟨0x506f77657253797374656d5265736f75726365, 0x43494d31342e454e54534f452e45717569706d656e742e436f72652e506f77657253797374656d5265736f75726365, 0x43494d31342e454e54534f452e45717569706d656e742e436f72652e4964656e7469666965644f626a656374,
  [],
  [],
  [],
  [],
  [],
  [⟨0x4d6561737572656d656e7473, .many2one, 0x506f77657253797374656d5265736f75726365, 0, false⟩],
  [0x4d6561737572656d656e7473]⟩
def m_PowerSystemResource : List RClass := d_PowerSystemResource :: m_IdentifiedObject

/-- CIM14/ENTSOE/Equipment/Core/SubGeographicalRegion.py:23 -/
def d_SubGeographicalRegion : RClass := ⟨0x53756247656f67726170686963616c526567696f6e, 0x43494d31342e454e54534f452e45717569706d656e742e436f72652e53756247656f67726170686963616c526567696f6e, 0x43494d31342e454e54534f452e45717569706d656e742e436f72652e4964656e7469666965644f626a656374,
  [],
  [],
  [],
  [],
  [],
  [⟨0x526567696f6e, .one2many, 0x526567696f6e73, 0, false⟩, ⟨0x4c696e6573, .many2one, 0x526567696f6e, 0, false⟩, ⟨0x53756273746174696f6e73, .many2one, 0x526567696f6e, 0, false⟩],
  [0x4c696e6573, 0x53756273746174696f6e73]⟩
def m_SubGeographicalRegion : List RClass := d_SubGeographicalRegion :: m_IdentifiedObject

/-- CIM14/ENTSOE/Equipment/Core/Terminal.py:23 -/
def d_Terminal : RClass := ⟨0x5465726d696e616c, 0x43494d31342e454e54534f452e45717569706d656e742e436f72652e5465726d696e616c, 0x43494d31342e454e54534f452e45717569706d656e742e436f72652e4964656e7469666965644f626a656374,
  [(0x73657175656e63654e756d626572, .int 0)],
  [0x73657175656e63654e756d626572],
  [(0x73657175656e63654e756d626572, .int 0)],
  [(0x73657175656e63654e756d626572, 0x696e74)],
  [],
  [⟨0x4f7065726174696f6e616c4c696d6974536574, .many2one, 0x5465726d696e616c, 0, false⟩, ⟨0x436f6e64756374696e6745717569706d656e74, .one2many, 0x5465726d696e616c73, 0, false⟩, ⟨0x48617346697273745f4d757475616c436f75706c696e67, .many2one, 0x46697273745f5465726d696e616c, 0, false⟩, ⟨0x4d6561737572656d656e7473, .many2one, 0x5465726d696e616c, 0, false⟩, ⟨0x436f6e6e65637469766974794e6f6465, .one2many, 0x5465726d696e616c73, 0, false⟩, ⟨0x526567756c6174696e67436f6e74726f6c, .many2one, 0x5465726d696e616c, 0, false⟩, ⟨0x546965466c6f77, .many2one, 0x5465726d696e616c, 0, false⟩, ⟨0x4861735365636f6e645f4d757475616c436f75706c696e67, .many2one, 0x5365636f6e645f5465726d696e616c, 0, false⟩],
  [0x4f7065726174696f6e616c4c696d6974536574, 0x48617346697273745f4d757475616c436f75706c696e67, 0x4d6561737572656d656e7473, 0x526567756c6174696e67436f6e74726f6c, 0x546965466c6f77, 0x4861735365636f6e645f4d757475616c436f75706c696e67]⟩
def m_Terminal : List RClass := d_Terminal :: m_IdentifiedObject

/-- CIM14/ENTSOE/Equipment/Core/Unit.py:23 -/
def d_Unit : RClass := ⟨0x556e6974, 0x43494d31342e454e54534f452e45717569706d656e742e436f72652e556e6974, 0x43494d31342e454e54534f452e45717569706d656e742e436f72652e4964656e7469666965644f626a656374,
  [],
  [],
  [],
  [],
  [],
  [⟨0x4d6561737572656d656e7473, .many2one, 0x556e6974, 0, false⟩],
  [0x4d6561737572656d656e7473]⟩
def m_Unit : List RClass := d_Unit :: m_IdentifiedObject

/-- CIM14/ENTSOE/Equipment/Generation/Production/FossilFuel.py:23 -/
def d_FossilFuel : RClass := ⟨0x466f7373696c4675656c, 0x43494d31342e454e54534f452e45717569706d656e742e47656e65726174696f6e2e50726f64756374696f6e2e466f7373696c4675656c, 0x43494d31342e454e54534f452e45717569706d656e742e436f72652e4964656e7469666965644f626a656374,
  [(0x666f7373696c4675656c54797065, .str 0x6f696c)],
  [0x666f7373696c4675656c54797065],
  [(0x666f7373696c4675656c54797065, .str 0x6f696c)],
  [(0x666f7373696c4675656c54797065, 0x737472)],
  [(0x666f7373696c4675656c54797065, 0x4675656c54797065)],
  [⟨0x546865726d616c47656e65726174696e67556e6974, .one2one, 0x466f7373696c4675656c73, 0, false⟩],
  []⟩
def m_FossilFuel : List RClass := d_FossilFuel :: m_IdentifiedObject

/-- CIM14/ENTSOE/Equipment/LoadModel/DayType.py:23 -/
def d_DayType : RClass := ⟨0x44617954797065, 0x43494d31342e454e54534f452e45717569706d656e742e4c6f61644d6f64656c2e44617954797065, 0x43494d31342e454e54534f452e45717569706d656e742e436f72652e4964656e7469666965644f626a656374,
  [],
  [],
  [],
  [],
  [],
  [⟨0x536561736f6e446179547970655363686564756c6573, .many2one, 0x44617954797065, 0, false⟩],
  [0x536561736f6e446179547970655363686564756c6573]⟩
def m_DayType : List RClass := d_DayType :: m_IdentifiedObject

/-- CIM14/ENTSOE/Equipment/LoadModel/EnergyArea.py:23 -/
def d_EnergyArea : RClass := ⟨0x456e6572677941726561, 0x43494d31342e454e54534f452e45717569706d656e742e4c6f61644d6f64656c2e456e6572677941726561, 0x43494d31342e454e54534f452e45717569706d656e742e436f72652e4964656e7469666965644f626a656374,
  [],
  [],
  [],
  [],
  [],
  [⟨0x436f6e74726f6c41726561, .one2one, 0x456e6572677941726561, 0, false⟩],
  []⟩
def m_EnergyArea : List RClass := d_EnergyArea :: m_IdentifiedObject

/-- CIM14/ENTSOE/Equipment/LoadModel/LoadGroup.py:23 -/
def d_LoadGroup : RClass := ⟨0x4c6f616447726f7570, 0x43494d31342e454e54534f452e45717569706d656e742e4c6f61644d6f64656c2e4c6f616447726f7570, 0x43494d31342e454e54534f452e45717569706d656e742e436f72652e4964656e7469666965644f626a656374,
  [],
  [],
  [],
  [],
  [],
  [⟨0x5375624c6f616441726561, .one2many, 0x4c6f616447726f757073, 0, false⟩],
  []⟩
def m_LoadGroup : List RClass := d_LoadGroup :: m_IdentifiedObject

/-- CIM14/ENTSOE/Equipment/LoadModel/LoadResponseCharacteristic.py:23 -/
def d_LoadResponseCharacteristic : RClass := ⟨0x4c6f6164526573706f6e73654368617261637465726973746963, 0x43494d31342e454e54534f452e45717569706d656e742e4c6f61644d6f64656c2e4c6f6164526573706f6e73654368617261637465726973746963, 0x43494d31342e454e54534f452e45717569706d656e742e436f72652e4964656e7469666965644f626a656374,
  [(0x70566f6c746167654578706f6e656e74, .flt 0x0), (0x71436f6e7374616e7443757272656e74, .flt 0x0), (0x704672657175656e63794578706f6e656e74, .flt 0x0), (0x6578706f6e656e744d6f64656c, .bool false), (0x71436f6e7374616e74496d706564616e6365, .flt 0x0), (0x70436f6e7374616e7443757272656e74, .flt 0x0), (0x714672657175656e63794578706f6e656e74, .flt 0x0), (0x70436f6e7374616e74506f776572, .flt 0x0), (0x71566f6c746167654578706f6e656e74, .flt 0x0), (0x71436f6e7374616e74506f776572, .flt 0x0), (0x70436f6e7374616e74496d706564616e6365, .flt 0x0)],
  [0x70566f6c746167654578706f6e656e74, 0x71436f6e7374616e7443757272656e74, 0x704672657175656e63794578706f6e656e74, 0x6578706f6e656e744d6f64656c, 0x71436f6e7374616e74496d706564616e6365, 0x70436f6e7374616e7443757272656e74, 0x714672657175656e63794578706f6e656e74, 0x70436f6e7374616e74506f776572, 0x71566f6c746167654578706f6e656e74, 0x71436f6e7374616e74506f776572, 0x70436f6e7374616e74496d706564616e6365],
  [(0x70566f6c746167654578706f6e656e74, .flt 0x0), (0x71436f6e7374616e7443757272656e74, .flt 0x0), (0x704672657175656e63794578706f6e656e74, .flt 0x0), (0x6578706f6e656e744d6f64656c, .bool false), (0x71436f6e7374616e74496d706564616e6365, .flt 0x0), (0x70436f6e7374616e7443757272656e74, .flt 0x0), (0x714672657175656e63794578706f6e656e74, .flt 0x0), (0x70436f6e7374616e74506f776572, .flt 0x0), (0x71566f6c746167654578706f6e656e74, .flt 0x0), (0x71436f6e7374616e74506f776572, .flt 0x0), (0x70436f6e7374616e74496d706564616e6365, .flt 0x0)],
  [(0x70566f6c746167654578706f6e656e74, 0x666c6f6174), (0x71436f6e7374616e7443757272656e74, 0x666c6f6174), (0x704672657175656e63794578706f6e656e74, 0x666c6f6174), (0x6578706f6e656e744d6f64656c, 0x626f6f6c), (0x71436f6e7374616e74496d706564616e6365, 0x666c6f6174), (0x70436f6e7374616e7443757272656e74, 0x666c6f6174), (0x714672657175656e63794578706f6e656e74, 0x666c6f6174), (0x70436f6e7374616e74506f776572, 0x666c6f6174), (0x71566f6c746167654578706f6e656e74, 0x666c6f6174), (0x71436f6e7374616e74506f776572, 0x666c6f6174), (0x70436f6e7374616e74496d706564616e6365, 0x666c6f6174)],
  [],
  [⟨0x456e65726779436f6e73756d6572, .many2one, 0x4c6f6164526573706f6e7365, 0, false⟩],
  [0x456e65726779436f6e73756d6572]⟩
def m_LoadResponseCharacteristic : List RClass := d_LoadResponseCharacteristic :: m_IdentifiedObject

/-- CIM14/ENTSOE/Equipment/Meas/Measurement.py:23 -/
def d_Measurement : RClass := ⟨0x4d6561737572656d656e74, 0x43494d31342e454e54534f452e45717569706d656e742e4d6561732e4d6561737572656d656e74, 0x43494d31342e454e54534f452e45717569706d656e742e436f72652e4964656e7469666965644f626a656374,
  [(0x6d6561737572656d656e7454797065, .str 0)],
  [0x6d6561737572656d656e7454797065],
  [(0x6d6561737572656d656e7454797065, .str 0)],
  [(0x6d6561737572656d656e7454797065, 0x737472)],
  [],
  [⟨0x556e6974, .one2many, 0x4d6561737572656d656e7473, 0, false⟩, ⟨0x5465726d696e616c, .one2many, 0x4d6561737572656d656e7473, 0, false⟩, ⟨0x506f77657253797374656d5265736f75726365, .one2many, 0x4d6561737572656d656e7473, 0, false⟩],
  []⟩
def m_Measurement : List RClass := d_Measurement :: m_IdentifiedObject

/-- CIM14/ENTSOE/Equipment/Meas/MeasurementValue.py:23 -/
def d_MeasurementValue : RClass := ⟨0x4d6561737572656d656e7456616c7565, 0x43494d31342e454e54534f452e45717569706d656e742e4d6561732e4d6561737572656d656e7456616c7565, 0x43494d31342e454e54534f452e45717569706d656e742e436f72652e4964656e7469666965644f626a656374,
  [],
  [],
  [],
  [],
  [],
  [⟨0x4d6561737572656d656e7456616c7565536f75726365, .one2many, 0x4d6561737572656d656e7456616c756573, 0, false⟩],
  []⟩
def m_MeasurementValue : List RClass := d_MeasurementValue :: m_IdentifiedObject

/-- CIM14/ENTSOE/Equipment/Meas/MeasurementValueSource.py:23 -/
def d_MeasurementValueSource : RClass := ⟨0x4d6561737572656d656e7456616c7565536f75726365, 0x43494d31342e454e54534f452e45717569706d656e742e4d6561732e4d6561737572656d656e7456616c7565536f75726365, 0x43494d31342e454e54534f452e45717569706d656e742e436f72652e4964656e7469666965644f626a656374,
  [],
  [],
  [],
  [],
  [],
  [⟨0x4d6561737572656d656e7456616c756573, .many2one, 0x4d6561737572656d656e7456616c7565536f75726365, 0, false⟩],
  [0x4d6561737572656d656e7456616c756573]⟩
def m_MeasurementValueSource : List RClass := d_MeasurementValueSource :: m_IdentifiedObject

/-- CIM14/ENTSOE/Equipment/OperationalLimits/OperationalLimit.py:23 -/
def d_OperationalLimits_OperationalLimit : RClass := ⟨0x4f7065726174696f6e616c4c696d6974, 0x43494d31342e454e54534f452e45717569706d656e742e4f7065726174696f6e616c4c696d6974732e4f7065726174696f6e616c4c696d6974, 0x43494d31342e454e54534f452e45717569706d656e742e436f72652e4964656e7469666965644f626a656374,
  [(0x74797065, .str 0)],
  [0x74797065],
  [(0x74797065, .str 0)],
  [(0x74797065, 0x737472)],
  [],
  [⟨0x4f7065726174696f6e616c4c696d697454797065, .one2many, 0x4f7065726174696f6e616c4c696d6974, 0, false⟩, ⟨0x4f7065726174696f6e616c4c696d6974536574, .one2many, 0x4f7065726174696f6e616c4c696d697456616c7565, 0, false⟩],
  []⟩
def m_OperationalLimits_OperationalLimit : List RClass := d_OperationalLimits_OperationalLimit :: m_IdentifiedObject

/-- CIM14/ENTSOE/Equipment/OperationalLimits/OperationalLimitSet.py:23 -/
def d_OperationalLimitSet : RClass := ⟨0x4f7065726174696f6e616c4c696d6974536574, 0x43494d31342e454e54534f452e45717569706d656e742e4f7065726174696f6e616c4c696d6974732e4f7065726174696f6e616c4c696d6974536574, 0x43494d31342e454e54534f452e45717569706d656e742e436f72652e4964656e7469666965644f626a656374,
  [],
  [],
  [],
  [],
  [],
  [⟨0x5465726d696e616c, .one2many, 0x4f7065726174696f6e616c4c696d6974536574, 0, false⟩, ⟨0x45717569706d656e74, .one2many, 0x4f7065726174696f6e616c4c696d6974536574, 0, false⟩, ⟨0x4f7065726174696f6e616c4c696d697456616c7565, .many2one, 0x4f7065726174696f6e616c4c696d6974536574, 0, false⟩],
  [0x4f7065726174696f6e616c4c696d697456616c7565]⟩
def m_OperationalLimitSet : List RClass := d_OperationalLimitSet :: m_IdentifiedObject

/-- CIM14/ENTSOE/Equipment/OperationalLimits/OperationalLimitType.py:23 -/
def d_OperationalLimitType : RClass := ⟨0x4f7065726174696f6e616c4c696d697454797065, 0x43494d31342e454e54534f452e45717569706d656e742e4f7065726174696f6e616c4c696d6974732e4f7065726174696f6e616c4c696d697454797065, 0x43494d31342e454e54534f452e45717569706d656e742e436f72652e4964656e7469666965644f626a656374,
  [(0x646972656374696f6e, .str 0x68696768), (0x61636365707461626c654475726174696f6e, .flt 0x0)],
  [0x646972656374696f6e, 0x61636365707461626c654475726174696f6e],
  [(0x646972656374696f6e, .str 0x68696768), (0x61636365707461626c654475726174696f6e, .flt 0x0)],
  [(0x646972656374696f6e, 0x737472), (0x61636365707461626c654475726174696f6e, 0x666c6f6174)],
  [(0x646972656374696f6e, 0x4f7065726174696f6e616c4c696d6974446972656374696f6e4b696e64)],
  [⟨0x4f7065726174696f6e616c4c696d6974, .many2one, 0x4f7065726174696f6e616c4c696d697454797065, 0, false⟩],
  [0x4f7065726174696f6e616c4c696d6974]⟩
def m_OperationalLimitType : List RClass := d_OperationalLimitType :: m_IdentifiedObject

/-- CIM14/ENTSOE/Equipment/Wires/MutualCoupling.py:23 -/
def d_MutualCoupling : RClass := ⟨0x4d757475616c436f75706c696e67, 0x43494d31342e454e54534f452e45717569706d656e742e57697265732e4d757475616c436f75706c696e67, 0x43494d31342e454e54534f452e45717569706d656e742e436f72652e4964656e7469666965644f626a656374,
  [(0x67306368, .flt 0x0), (0x7230, .flt 0x0), (0x7830, .flt 0x0), (0x64697374616e63653131, .flt 0x0), (0x64697374616e63653132, .flt 0x0), (0x64697374616e63653232, .flt 0x0), (0x64697374616e63653231, .flt 0x0), (0x62306368, .flt 0x0)],
  [0x67306368, 0x7230, 0x7830, 0x64697374616e63653131, 0x64697374616e63653132, 0x64697374616e63653232, 0x64697374616e63653231, 0x62306368],
  [(0x67306368, .flt 0x0), (0x7230, .flt 0x0), (0x7830, .flt 0x0), (0x64697374616e63653131, .flt 0x0), (0x64697374616e63653132, .flt 0x0), (0x64697374616e63653232, .flt 0x0), (0x64697374616e63653231, .flt 0x0), (0x62306368, .flt 0x0)],
  [(0x67306368, 0x666c6f6174), (0x7230, 0x666c6f6174), (0x7830, 0x666c6f6174), (0x64697374616e63653131, 0x666c6f6174), (0x64697374616e63653132, 0x666c6f6174), (0x64697374616e63653232, 0x666c6f6174), (0x64697374616e63653231, 0x666c6f6174), (0x62306368, 0x666c6f6174)],
  [],
  [⟨0x5365636f6e645f5465726d696e616c, .one2many, 0x4861735365636f6e645f4d757475616c436f75706c696e67, 0, false⟩, ⟨0x46697273745f5465726d696e616c, .one2many, 0x48617346697273745f4d757475616c436f75706c696e67, 0, false⟩],
  []⟩
def m_MutualCoupling : List RClass := d_MutualCoupling :: m_IdentifiedObject

/-- CIM14/ENTSOE/Equipment/ControlArea/ControlArea.py:23 -/
def d_ControlArea : RClass := ⟨0x436f6e74726f6c41726561, 0x43494d31342e454e54534f452e45717569706d656e742e436f6e74726f6c417265612e436f6e74726f6c41726561, 0x43494d31342e454e54534f452e45717569706d656e742e436f72652e506f77657253797374656d5265736f75726365,
  [(0x6e6574496e7465726368616e6765, .flt 0x0), (0x74797065, .str 0x496e7465726368616e6765), (0x70546f6c6572616e6365, .flt 0x0)],
  [0x6e6574496e7465726368616e6765, 0x74797065, 0x70546f6c6572616e6365],
  [(0x6e6574496e7465726368616e6765, .flt 0x0), (0x74797065, .str 0x496e7465726368616e6765), (0x70546f6c6572616e6365, .flt 0x0)],
  [(0x6e6574496e7465726368616e6765, 0x666c6f6174), (0x74797065, 0x737472), (0x70546f6c6572616e6365, 0x666c6f6174)],
  [(0x74797065, 0x436f6e74726f6c41726561547970654b696e64)],
  [⟨0x456e6572677941726561, .one2one, 0x436f6e74726f6c41726561, 0, false⟩, ⟨0x436f6e74726f6c4172656147656e65726174696e67556e6974, .many2one, 0x436f6e74726f6c41726561, 0, false⟩, ⟨0x546965466c6f77, .many2one, 0x436f6e74726f6c41726561, 0, false⟩],
  [0x436f6e74726f6c4172656147656e65726174696e67556e6974, 0x546965466c6f77]⟩
def m_ControlArea : List RClass := d_ControlArea :: m_PowerSystemResource

/-- CIM14/ENTSOE/Equipment/Core/ConnectivityNodeContainer.py:23 -/
def d_ConnectivityNodeContainer : RClass := ⟨0x436f6e6e65637469766974794e6f6465436f6e7461696e6572, 0x43494d31342e454e54534f452e45717569706d656e742e436f72652e436f6e6e65637469766974794e6f6465436f6e7461696e6572, 0x43494d31342e454e54534f452e45717569706d656e742e436f72652e506f77657253797374656d5265736f75726365,
  [],
  [],
  [],
  [],
  [],
  [],
  []⟩
def m_ConnectivityNodeContainer : List RClass := d_ConnectivityNodeContainer :: m_PowerSystemResource

/-- CIM14/ENTSOE/Equipment/Core/Equipment.py:23 -/
def d_Equipment : RClass := ⟨0x45717569706d656e74, 0x43494d31342e454e54534f452e45717569706d656e742e436f72652e45717569706d656e74, 0x43494d31342e454e54534f452e45717569706d656e742e436f72652e506f77657253797374656d5265736f75726365,
  [(0x616767726567617465, .bool false)],
  [0x616767726567617465],
  [(0x616767726567617465, .bool false)],
  [(0x616767726567617465, 0x626f6f6c)],
  [],
  [⟨0x4f7065726174696f6e616c4c696d6974536574, .many2one, 0x45717569706d656e74, 0, false⟩, ⟨0x45717569706d656e74436f6e7461696e6572, .one2many, 0x45717569706d656e7473, 0, false⟩],
  [0x4f7065726174696f6e616c4c696d6974536574]⟩
def m_Equipment : List RClass := d_Equipment :: m_PowerSystemResource

/-- CIM14/ENTSOE/Equipment/Core/RegularIntervalSchedule.py:23 -/
def d_RegularIntervalSchedule : RClass := ⟨0x526567756c6172496e74657276616c5363686564756c65, 0x43494d31342e454e54534f452e45717569706d656e742e436f72652e526567756c6172496e74657276616c5363686564756c65, 0x43494d31342e454e54534f452e45717569706d656e742e436f72652e4261736963496e74657276616c5363686564756c65,
  [(0x74696d6553746570, .flt 0x0), (0x656e6454696d65, .str 0)],
  [0x74696d6553746570, 0x656e6454696d65],
  [(0x74696d6553746570, .flt 0x0), (0x656e6454696d65, .str 0)],
  [(0x74696d6553746570, 0x666c6f6174), (0x656e6454696d65, 0x737472)],
  [],
  [],
  []⟩
def m_RegularIntervalSchedule : List RClass := d_RegularIntervalSchedule :: m_BasicIntervalSchedule

/-- CIM14/ENTSOE/Equipment/Generation/Production/HydroPump.py:23 -/
def d_HydroPump : RClass := ⟨0x487964726f50756d70, 0x43494d31342e454e54534f452e45717569706d656e742e47656e65726174696f6e2e50726f64756374696f6e2e487964726f50756d70, 0x43494d31342e454e54534f452e45717569706d656e742e436f72652e506f77657253797374656d5265736f75726365,
  [],
  [],
  [],
  [],
  [],
  [⟨0x53796e6368726f6e6f75734d616368696e65, .one2one, 0x487964726f50756d70, 0, false⟩],
  []⟩
def m_HydroPump : List RClass := d_HydroPump :: m_PowerSystemResource

/-- CIM14/ENTSOE/Equipment/LoadModel/ConformLoadGroup.py:23 -/
def d_ConformLoadGroup : RClass := ⟨0x436f6e666f726d4c6f616447726f7570, 0x43494d31342e454e54534f452e45717569706d656e742e4c6f61644d6f64656c2e436f6e666f726d4c6f616447726f7570, 0x43494d31342e454e54534f452e45717569706d656e742e4c6f61644d6f64656c2e4c6f616447726f7570,
  [],
  [],
  [],
  [],
  [],
  [⟨0x456e65726779436f6e73756d657273, .many2one, 0x4c6f616447726f7570, 0, false⟩],
  [0x456e65726779436f6e73756d657273]⟩
def m_ConformLoadGroup : List RClass := d_ConformLoadGroup :: m_LoadGroup

/-- CIM14/ENTSOE/Equipment/LoadModel/NonConformLoadGroup.py:23 -/
def d_NonConformLoadGroup : RClass := ⟨0x4e6f6e436f6e666f726d4c6f616447726f7570, 0x43494d31342e454e54534f452e45717569706d656e742e4c6f61644d6f64656c2e4e6f6e436f6e666f726d4c6f616447726f7570, 0x43494d31342e454e54534f452e45717569706d656e742e4c6f61644d6f64656c2e4c6f616447726f7570,
  [],
  [],
  [],
  [],
  [],
  [⟨0x456e65726779436f6e73756d657273, .many2one, 0x4c6f616447726f7570, 0, false⟩],
  [0x456e65726779436f6e73756d657273]⟩
def m_NonConformLoadGroup : List RClass := d_NonConformLoadGroup :: m_LoadGroup

/-- CIM14/ENTSOE/Equipment/LoadModel/SubLoadArea.py:23 -/
def d_SubLoadArea : RClass := ⟨0x5375624c6f616441726561, 0x43494d31342e454e54534f452e45717569706d656e742e4c6f61644d6f64656c2e5375624c6f616441726561, 0x43494d31342e454e54534f452e45717569706d656e742e4c6f61644d6f64656c2e456e6572677941726561,
  [],
  [],
  [],
  [],
  [],
  [⟨0x4c6f616447726f757073, .many2one, 0x5375624c6f616441726561, 0, false⟩],
  [0x4c6f616447726f757073]⟩
def m_SubLoadArea : List RClass := d_SubLoadArea :: m_EnergyArea

/-- CIM14/ENTSOE/Equipment/OperationalLimit.py:23 -/
def d_Equipment_OperationalLimit : RClass := ⟨0x4f7065726174696f6e616c4c696d6974, 0x43494d31342e454e54534f452e45717569706d656e742e4f7065726174696f6e616c4c696d6974, 0x43494d31342e454e54534f452e45717569706d656e742e4f7065726174696f6e616c4c696d6974732e4f7065726174696f6e616c4c696d6974,
  [],
  [],
  [],
  [],
  [],
  [],
  []⟩
def m_Equipment_OperationalLimit : List RClass := d_Equipment_OperationalLimit :: m_OperationalLimits_OperationalLimit

/-- CIM14/ENTSOE/Equipment/OperationalLimits/CurrentLimit.py:23 -/
def d_CurrentLimit : RClass := ⟨0x43757272656e744c696d6974, 0x43494d31342e454e54534f452e45717569706d656e742e4f7065726174696f6e616c4c696d6974732e43757272656e744c696d6974, 0x43494d31342e454e54534f452e45717569706d656e742e4f7065726174696f6e616c4c696d6974732e4f7065726174696f6e616c4c696d6974,
  [(0x76616c7565, .flt 0x0)],
  [0x76616c7565],
  [(0x76616c7565, .flt 0x0)],
  [(0x76616c7565, 0x666c6f6174)],
  [],
  [],
  []⟩
def m_CurrentLimit : List RClass := d_CurrentLimit :: m_OperationalLimits_OperationalLimit

/-- CIM14/ENTSOE/Equipment/OperationalLimits/VoltageLimit.py:23 -/
def d_VoltageLimit : RClass := ⟨0x566f6c746167654c696d6974, 0x43494d31342e454e54534f452e45717569706d656e742e4f7065726174696f6e616c4c696d6974732e566f6c746167654c696d6974, 0x43494d31342e454e54534f452e45717569706d656e742e4f7065726174696f6e616c4c696d6974732e4f7065726174696f6e616c4c696d6974,
  [(0x76616c7565, .flt 0x0)],
  [0x76616c7565],
  [(0x76616c7565, .flt 0x0)],
  [(0x76616c7565, 0x666c6f6174)],
  [],
  [],
  []⟩
def m_VoltageLimit : List RClass := d_VoltageLimit :: m_OperationalLimits_OperationalLimit

/-- CIM14/ENTSOE/Equipment/Wires/ReactiveCapabilityCurve.py:23 -/
def d_ReactiveCapabilityCurve : RClass := ⟨0x52656163746976654361706162696c6974794375727665, 0x43494d31342e454e54534f452e45717569706d656e742e57697265732e52656163746976654361706162696c6974794375727665, 0x43494d31342e454e54534f452e45717569706d656e742e436f72652e4375727665,
  [(0x7932556e6974, .str 0x41)],
  [0x7932556e6974],
  [(0x7932556e6974, .str 0x41)],
  [(0x7932556e6974, 0x737472)],
  [(0x7932556e6974, 0x556e697453796d626f6c)],
  [⟨0x496e697469616c6c7955736564427953796e6368726f6e6f75734d616368696e6573, .many2one, 0x496e697469616c52656163746976654361706162696c6974794375727665, 0, false⟩],
  [0x496e697469616c6c7955736564427953796e6368726f6e6f75734d616368696e6573]⟩
def m_ReactiveCapabilityCurve : List RClass := d_ReactiveCapabilityCurve :: m_Curve

/-- CIM14/ENTSOE/Equipment/Wires/RegulatingControl.py:23 -/
def d_RegulatingControl : RClass := ⟨0x526567756c6174696e67436f6e74726f6c, 0x43494d31342e454e54534f452e45717569706d656e742e57697265732e526567756c6174696e67436f6e74726f6c, 0x43494d31342e454e54534f452e45717569706d656e742e436f72652e506f77657253797374656d5265736f75726365,
  [(0x74617267657452616e6765, .flt 0x0), (0x6d6f6465, .str 0x7265616374697665506f776572), (0x6469736372657465, .bool false), (0x74617267657456616c7565, .flt 0x0)],
  [0x74617267657452616e6765, 0x6d6f6465, 0x6469736372657465, 0x74617267657456616c7565],
  [(0x74617267657452616e6765, .flt 0x0), (0x6d6f6465, .str 0x7265616374697665506f776572), (0x6469736372657465, .bool false), (0x74617267657456616c7565, .flt 0x0)],
  [(0x74617267657452616e6765, 0x666c6f6174), (0x6d6f6465, 0x737472), (0x6469736372657465, 0x626f6f6c), (0x74617267657456616c7565, 0x666c6f6174)],
  [(0x6d6f6465, 0x526567756c6174696e67436f6e74726f6c4d6f64654b696e64)],
  [⟨0x5465726d696e616c, .one2many, 0x526567756c6174696e67436f6e74726f6c, 0, false⟩, ⟨0x526567756c6174696e67436f6e644571, .many2one, 0x526567756c6174696e67436f6e74726f6c, 0, false⟩, ⟨0x5461704368616e676572, .many2one, 0x526567756c6174696e67436f6e74726f6c, 0, false⟩],
  [0x526567756c6174696e67436f6e644571, 0x5461704368616e676572]⟩
def m_RegulatingControl : List RClass := d_RegulatingControl :: m_PowerSystemResource

/-- CIM14/ENTSOE/Equipment/Wires/TapChanger.py:23 -/
def d_TapChanger : RClass := ⟨0x5461704368616e676572, 0x43494d31342e454e54534f452e45717569706d656e742e57697265732e5461704368616e676572, 0x43494d31342e454e54534f452e45717569706d656e742e436f72652e506f77657253797374656d5265736f75726365,
  [(0x73746570566f6c74616765496e6372656d656e74, .flt 0x0), (0x6e65757472616c53746570, .int 0), (0x6e6f726d616c53746570, .int 0), (0x6c7463466c6167, .bool false), (0x6e65757472616c55, .flt 0x0), (0x6c6f7753746570, .int 0), (0x726567756c6174696f6e537461747573, .bool false), (0x6869676853746570, .int 0)],
  [0x73746570566f6c74616765496e6372656d656e74, 0x6e65757472616c53746570, 0x6e6f726d616c53746570, 0x6c7463466c6167, 0x6e65757472616c55, 0x6c6f7753746570, 0x726567756c6174696f6e537461747573, 0x6869676853746570],
  [(0x73746570566f6c74616765496e6372656d656e74, .flt 0x0), (0x6e65757472616c53746570, .int 0), (0x6e6f726d616c53746570, .int 0), (0x6c7463466c6167, .bool false), (0x6e65757472616c55, .flt 0x0), (0x6c6f7753746570, .int 0), (0x726567756c6174696f6e537461747573, .bool false), (0x6869676853746570, .int 0)],
  [(0x73746570566f6c74616765496e6372656d656e74, 0x666c6f6174), (0x6e65757472616c53746570, 0x696e74), (0x6e6f726d616c53746570, 0x696e74), (0x6c7463466c6167, 0x626f6f6c), (0x6e65757472616c55, 0x666c6f6174), (0x6c6f7753746570, 0x696e74), (0x726567756c6174696f6e537461747573, 0x626f6f6c), (0x6869676853746570, 0x696e74)],
  [],
  [⟨0x526567756c6174696e67436f6e74726f6c, .one2many, 0x5461704368616e676572, 0, false⟩],
  []⟩
def m_TapChanger : List RClass := d_TapChanger :: m_PowerSystemResource

/-- CIM14/ENTSOE/Equipment/Core/ConductingEquipment.py:23 -/
def d_ConductingEquipment : RClass := ⟨0x436f6e64756374696e6745717569706d656e74, 0x43494d31342e454e54534f452e45717569706d656e742e436f72652e436f6e64756374696e6745717569706d656e74, 0x43494d31342e454e54534f452e45717569706d656e742e436f72652e45717569706d656e74,
  [],
  [],
  [],
  [],
  [],
  [⟨0x5465726d696e616c73, .many2one, 0x436f6e64756374696e6745717569706d656e74, 0, false⟩, ⟨0x42617365566f6c74616765, .one2many, 0x436f6e64756374696e6745717569706d656e74, 0, false⟩],
  [0x5465726d696e616c73]⟩
def m_ConductingEquipment : List RClass := d_ConductingEquipment :: m_Equipment

/-- CIM14/ENTSOE/Equipment/Core/EquipmentContainer.py:23 -/
def d_EquipmentContainer : RClass := ⟨0x45717569706d656e74436f6e7461696e6572, 0x43494d31342e454e54534f452e45717569706d656e742e436f72652e45717569706d656e74436f6e7461696e6572, 0x43494d31342e454e54534f452e45717569706d656e742e436f72652e436f6e6e65637469766974794e6f6465436f6e7461696e6572,
  [],
  [],
  [],
  [],
  [],
  [⟨0x45717569706d656e7473, .many2one, 0x45717569706d656e74436f6e7461696e6572, 0, false⟩],
  [0x45717569706d656e7473]⟩
def m_EquipmentContainer : List RClass := d_EquipmentContainer :: m_ConnectivityNodeContainer

/-- CIM14/ENTSOE/Equipment/Equivalents/EquivalentNetwork.py:23 -/
def d_EquivalentNetwork : RClass := ⟨0x4571756976616c656e744e6574776f726b, 0x43494d31342e454e54534f452e45717569706d656e742e4571756976616c656e74732e4571756976616c656e744e6574776f726b, 0x43494d31342e454e54534f452e45717569706d656e742e436f72652e436f6e6e65637469766974794e6f6465436f6e7461696e6572,
  [],
  [],
  [],
  [],
  [],
  [⟨0x4571756976616c656e7445717569706d656e7473, .many2one, 0x4571756976616c656e744e6574776f726b, 0, false⟩],
  [0x4571756976616c656e7445717569706d656e7473]⟩
def m_EquivalentNetwork : List RClass := d_EquivalentNetwork :: m_ConnectivityNodeContainer

/-- CIM14/ENTSOE/Equipment/Generation/Production/GeneratingUnit.py:23 -/
def d_GeneratingUnit : RClass := ⟨0x47656e65726174696e67556e6974, 0x43494d31342e454e54534f452e45717569706d656e742e47656e65726174696f6e2e50726f64756374696f6e2e47656e65726174696e67556e6974, 0x43494d31342e454e54534f452e45717569706d656e742e436f72652e45717569706d656e74,
  [(0x6d61784f7065726174696e6750, .flt 0x0), (0x726174656447726f73734d617850, .flt 0x0), (0x7661726961626c65436f7374, .flt 0x0), (0x6d696e4f7065726174696e6750, .flt 0x0), (0x726174656447726f73734d696e50, .flt 0x0), (0x73686f72745046, .flt 0x0), (0x72617465644e65744d617850, .flt 0x0), (0x6c6f6e675046, .flt 0x0), (0x73746172747570436f7374, .flt 0x0), (0x67656e436f6e74726f6c536f75726365, .str 0x6f6e414743), (0x6e6f6d696e616c50, .flt 0x0), (0x676f7665726e6f72534344, .flt 0x0), (0x6d6178696d756d416c6c6f7761626c655370696e6e696e6752657365727665, .flt 0x0), (0x696e697469616c50, .flt 0x0), (0x6e6f726d616c5046, .flt 0x0)],
  [0x6d61784f7065726174696e6750, 0x726174656447726f73734d617850, 0x7661726961626c65436f7374, 0x6d696e4f7065726174696e6750, 0x726174656447726f73734d696e50, 0x73686f72745046, 0x72617465644e65744d617850, 0x6c6f6e675046, 0x73746172747570436f7374, 0x67656e436f6e74726f6c536f75726365, 0x6e6f6d696e616c50, 0x676f7665726e6f72534344, 0x6d6178696d756d416c6c6f7761626c655370696e6e696e6752657365727665, 0x696e697469616c50, 0x6e6f726d616c5046],
  [(0x6d61784f7065726174696e6750, .flt 0x0), (0x726174656447726f73734d617850, .flt 0x0), (0x7661726961626c65436f7374, .flt 0x0), (0x6d696e4f7065726174696e6750, .flt 0x0), (0x726174656447726f73734d696e50, .flt 0x0), (0x73686f72745046, .flt 0x0), (0x72617465644e65744d617850, .flt 0x0), (0x6c6f6e675046, .flt 0x0), (0x73746172747570436f7374, .flt 0x0), (0x67656e436f6e74726f6c536f75726365, .str 0x6f6e414743), (0x6e6f6d696e616c50, .flt 0x0), (0x676f7665726e6f72534344, .flt 0x0), (0x6d6178696d756d416c6c6f7761626c655370696e6e696e6752657365727665, .flt 0x0), (0x696e697469616c50, .flt 0x0), (0x6e6f726d616c5046, .flt 0x0)],
  [(0x6d61784f7065726174696e6750, 0x666c6f6174), (0x726174656447726f73734d617850, 0x666c6f6174), (0x7661726961626c65436f7374, 0x666c6f6174), (0x6d696e4f7065726174696e6750, 0x666c6f6174), (0x726174656447726f73734d696e50, 0x666c6f6174), (0x73686f72745046, 0x666c6f6174), (0x72617465644e65744d617850, 0x666c6f6174), (0x6c6f6e675046, 0x666c6f6174), (0x73746172747570436f7374, 0x666c6f6174), (0x67656e436f6e74726f6c536f75726365, 0x737472), (0x6e6f6d696e616c50, 0x666c6f6174), (0x676f7665726e6f72534344, 0x666c6f6174), (0x6d6178696d756d416c6c6f7761626c655370696e6e696e6752657365727665, 0x666c6f6174), (0x696e697469616c50, 0x666c6f6174), (0x6e6f726d616c5046, 0x666c6f6174)],
  [(0x67656e436f6e74726f6c536f75726365, 0x47656e657261746f72436f6e74726f6c536f75726365)],
  [⟨0x53796e6368726f6e6f75734d616368696e6573, .many2one, 0x47656e65726174696e67556e6974, 0, false⟩, ⟨0x436f6e74726f6c4172656147656e65726174696e67556e6974, .many2one, 0x47656e65726174696e67556e6974, 0, false⟩],
  [0x53796e6368726f6e6f75734d616368696e6573, 0x436f6e74726f6c4172656147656e65726174696e67556e6974]⟩
def m_GeneratingUnit : List RClass := d_GeneratingUnit :: m_Equipment

/-- CIM14/ENTSOE/Equipment/LoadModel/SeasonDayTypeSchedule.py:23 -/
def d_SeasonDayTypeSchedule : RClass := ⟨0x536561736f6e446179547970655363686564756c65, 0x43494d31342e454e54534f452e45717569706d656e742e4c6f61644d6f64656c2e536561736f6e446179547970655363686564756c65, 0x43494d31342e454e54534f452e45717569706d656e742e436f72652e526567756c6172496e74657276616c5363686564756c65,
  [],
  [],
  [],
  [],
  [],
  [⟨0x44617954797065, .one2many, 0x536561736f6e446179547970655363686564756c6573, 0, false⟩, ⟨0x536561736f6e, .one2many, 0x536561736f6e446179547970655363686564756c6573, 0, false⟩],
  []⟩
def m_SeasonDayTypeSchedule : List RClass := d_SeasonDayTypeSchedule :: m_RegularIntervalSchedule

/-- CIM14/ENTSOE/Equipment/Wires/PhaseTapChanger.py:23 -/
def d_PhaseTapChanger : RClass := ⟨0x50686173655461704368616e676572, 0x43494d31342e454e54534f452e45717569706d656e742e57697265732e50686173655461704368616e676572, 0x43494d31342e454e54534f452e45717569706d656e742e57697265732e5461704368616e676572,
  [(0x6e6f6d696e616c566f6c746167654f75744f665068617365, .flt 0x0), (0x77696e64696e67436f6e6e656374696f6e416e676c65, .flt 0x0), (0x70686173655461704368616e67657254797065, .str 0x6173796d6d6574726963616c), (0x78537465704d696e, .flt 0x0), (0x78537465704d6178, .flt 0x0), (0x7374657050686173655368696674496e6372656d656e74, .flt 0x0), (0x766f6c7461676553746570496e6372656d656e744f75744f665068617365, .flt 0x0)],
  [0x6e6f6d696e616c566f6c746167654f75744f665068617365, 0x77696e64696e67436f6e6e656374696f6e416e676c65, 0x70686173655461704368616e67657254797065, 0x78537465704d696e, 0x78537465704d6178, 0x7374657050686173655368696674496e6372656d656e74, 0x766f6c7461676553746570496e6372656d656e744f75744f665068617365],
  [(0x6e6f6d696e616c566f6c746167654f75744f665068617365, .flt 0x0), (0x77696e64696e67436f6e6e656374696f6e416e676c65, .flt 0x0), (0x70686173655461704368616e67657254797065, .str 0x6173796d6d6574726963616c), (0x78537465704d696e, .flt 0x0), (0x78537465704d6178, .flt 0x0), (0x7374657050686173655368696674496e6372656d656e74, .flt 0x0), (0x766f6c7461676553746570496e6372656d656e744f75744f665068617365, .flt 0x0)],
  [(0x6e6f6d696e616c566f6c746167654f75744f665068617365, 0x666c6f6174), (0x77696e64696e67436f6e6e656374696f6e416e676c65, 0x666c6f6174), (0x70686173655461704368616e67657254797065, 0x737472), (0x78537465704d696e, 0x666c6f6174), (0x78537465704d6178, 0x666c6f6174), (0x7374657050686173655368696674496e6372656d656e74, 0x666c6f6174), (0x766f6c7461676553746570496e6372656d656e744f75744f665068617365, 0x666c6f6174)],
  [(0x70686173655461704368616e67657254797065, 0x50686173655461704368616e6765724b696e64)],
  [⟨0x5472616e73666f726d657257696e64696e67, .one2one, 0x50686173655461704368616e676572, 0, false⟩],
  []⟩
def m_PhaseTapChanger : List RClass := d_PhaseTapChanger :: m_TapChanger

/-- CIM14/ENTSOE/Equipment/Wires/PowerTransformer.py:23 -/
def d_PowerTransformer : RClass := ⟨0x506f7765725472616e73666f726d6572, 0x43494d31342e454e54534f452e45717569706d656e742e57697265732e506f7765725472616e73666f726d6572, 0x43494d31342e454e54534f452e45717569706d656e742e436f72652e45717569706d656e74,
  [],
  [],
  [],
  [],
  [],
  [⟨0x5472616e73666f726d657257696e64696e6773, .many2one, 0x506f7765725472616e73666f726d6572, 0, false⟩],
  [0x5472616e73666f726d657257696e64696e6773]⟩
def m_PowerTransformer : List RClass := d_PowerTransformer :: m_Equipment

/-- CIM14/ENTSOE/Equipment/Wires/RatioTapChanger.py:23 -/
def d_RatioTapChanger : RClass := ⟨0x526174696f5461704368616e676572, 0x43494d31342e454e54534f452e45717569706d656e742e57697265732e526174696f5461704368616e676572, 0x43494d31342e454e54534f452e45717569706d656e742e57697265732e5461704368616e676572,
  [(0x7463756c436f6e74726f6c4d6f6465, .str 0x7265616374697665)],
  [0x7463756c436f6e74726f6c4d6f6465],
  [(0x7463756c436f6e74726f6c4d6f6465, .str 0x7265616374697665)],
  [(0x7463756c436f6e74726f6c4d6f6465, 0x737472)],
  [(0x7463756c436f6e74726f6c4d6f6465, 0x5472616e73666f726d6572436f6e74726f6c4d6f6465)],
  [⟨0x5472616e73666f726d657257696e64696e67, .one2one, 0x526174696f5461704368616e676572, 0, false⟩],
  []⟩
def m_RatioTapChanger : List RClass := d_RatioTapChanger :: m_TapChanger

/-- CIM14/ENTSOE/Equipment/Core/Substation.py:23 -/
def d_Substation : RClass := ⟨0x53756273746174696f6e, 0x43494d31342e454e54534f452e45717569706d656e742e436f72652e53756273746174696f6e, 0x43494d31342e454e54534f452e45717569706d656e742e436f72652e45717569706d656e74436f6e7461696e6572,
  [],
  [],
  [],
  [],
  [],
  [⟨0x526567696f6e, .one2many, 0x53756273746174696f6e73, 0, false⟩, ⟨0x566f6c746167654c6576656c73, .many2one, 0x53756273746174696f6e, 0, false⟩],
  [0x566f6c746167654c6576656c73]⟩
def m_Substation : List RClass := d_Substation :: m_EquipmentContainer

/-- CIM14/ENTSOE/Equipment/Core/VoltageLevel.py:23 -/
def d_VoltageLevel : RClass := ⟨0x566f6c746167654c6576656c, 0x43494d31342e454e54534f452e45717569706d656e742e436f72652e566f6c746167654c6576656c, 0x43494d31342e454e54534f452e45717569706d656e742e436f72652e45717569706d656e74436f6e7461696e6572,
  [(0x6c6f77566f6c746167654c696d6974, .flt 0x0), (0x68696768566f6c746167654c696d6974, .flt 0x0)],
  [0x6c6f77566f6c746167654c696d6974, 0x68696768566f6c746167654c696d6974],
  [(0x6c6f77566f6c746167654c696d6974, .flt 0x0), (0x68696768566f6c746167654c696d6974, .flt 0x0)],
  [(0x6c6f77566f6c746167654c696d6974, 0x666c6f6174), (0x68696768566f6c746167654c696d6974, 0x666c6f6174)],
  [],
  [⟨0x42617365566f6c74616765, .one2many, 0x566f6c746167654c6576656c, 0, false⟩, ⟨0x53756273746174696f6e, .one2many, 0x566f6c746167654c6576656c73, 0, false⟩],
  []⟩
def m_VoltageLevel : List RClass := d_VoltageLevel :: m_EquipmentContainer

/-- CIM14/ENTSOE/Equipment/Equivalents/EquivalentEquipment.py:23 -/
def d_EquivalentEquipment : RClass := ⟨0x4571756976616c656e7445717569706d656e74, 0x43494d31342e454e54534f452e45717569706d656e742e4571756976616c656e74732e4571756976616c656e7445717569706d656e74, 0x43494d31342e454e54534f452e45717569706d656e742e436f72652e436f6e64756374696e6745717569706d656e74,
  [],
  [],
  [],
  [],
  [],
  [⟨0x4571756976616c656e744e6574776f726b, .one2many, 0x4571756976616c656e7445717569706d656e7473, 0, false⟩],
  []⟩
def m_EquivalentEquipment : List RClass := d_EquivalentEquipment :: m_ConductingEquipment

/-- CIM14/ENTSOE/Equipment/Generation/Production/HydroGeneratingUnit.py:23 -/
def d_HydroGeneratingUnit : RClass := ⟨0x487964726f47656e65726174696e67556e6974, 0x43494d31342e454e54534f452e45717569706d656e742e47656e65726174696f6e2e50726f64756374696f6e2e487964726f47656e65726174696e67556e6974, 0x43494d31342e454e54534f452e45717569706d656e742e47656e65726174696f6e2e50726f64756374696f6e2e47656e65726174696e67556e6974,
  [],
  [],
  [],
  [],
  [],
  [],
  []⟩
def m_HydroGeneratingUnit : List RClass := d_HydroGeneratingUnit :: m_GeneratingUnit

/-- CIM14/ENTSOE/Equipment/Generation/Production/NuclearGeneratingUnit.py:23 -/
def d_NuclearGeneratingUnit : RClass := ⟨0x4e75636c65617247656e65726174696e67556e6974, 0x43494d31342e454e54534f452e45717569706d656e742e47656e65726174696f6e2e50726f64756374696f6e2e4e75636c65617247656e65726174696e67556e6974, 0x43494d31342e454e54534f452e45717569706d656e742e47656e65726174696f6e2e50726f64756374696f6e2e47656e65726174696e67556e6974,
  [],
  [],
  [],
  [],
  [],
  [],
  []⟩
def m_NuclearGeneratingUnit : List RClass := d_NuclearGeneratingUnit :: m_GeneratingUnit

/-- CIM14/ENTSOE/Equipment/Generation/Production/ThermalGeneratingUnit.py:23 -/
def d_ThermalGeneratingUnit : RClass := ⟨0x546865726d616c47656e65726174696e67556e6974, 0x43494d31342e454e54534f452e45717569706d656e742e47656e65726174696f6e2e50726f64756374696f6e2e546865726d616c47656e65726174696e67556e6974, 0x43494d31342e454e54534f452e45717569706d656e742e47656e65726174696f6e2e50726f64756374696f6e2e47656e65726174696e67556e6974,
  [],
  [],
  [],
  [],
  [],
  [⟨0x466f7373696c4675656c73, .one2one, 0x546865726d616c47656e65726174696e67556e6974, 0, false⟩],
  []⟩
def m_ThermalGeneratingUnit : List RClass := d_ThermalGeneratingUnit :: m_GeneratingUnit

/-- CIM14/ENTSOE/Equipment/Generation/Production/WindGeneratingUnit.py:23 -/
def d_WindGeneratingUnit : RClass := ⟨0x57696e6447656e65726174696e67556e6974, 0x43494d31342e454e54534f452e45717569706d656e742e47656e65726174696f6e2e50726f64756374696f6e2e57696e6447656e65726174696e67556e6974, 0x43494d31342e454e54534f452e45717569706d656e742e47656e65726174696f6e2e50726f64756374696f6e2e47656e65726174696e67556e6974,
  [],
  [],
  [],
  [],
  [],
  [],
  []⟩
def m_WindGeneratingUnit : List RClass := d_WindGeneratingUnit :: m_GeneratingUnit

/-- CIM14/ENTSOE/Equipment/Wires/BusbarSection.py:23 -/
def d_BusbarSection : RClass := ⟨0x42757362617253656374696f6e, 0x43494d31342e454e54534f452e45717569706d656e742e57697265732e42757362617253656374696f6e, 0x43494d31342e454e54534f452e45717569706d656e742e436f72652e436f6e64756374696e6745717569706d656e74,
  [],
  [],
  [],
  [],
  [],
  [],
  []⟩
def m_BusbarSection : List RClass := d_BusbarSection :: m_ConductingEquipment

/-- CIM14/ENTSOE/Equipment/Wires/Conductor.py:23 -/
def d_Conductor : RClass := ⟨0x436f6e647563746f72, 0x43494d31342e454e54534f452e45717569706d656e742e57697265732e436f6e647563746f72, 0x43494d31342e454e54534f452e45717569706d656e742e436f72652e436f6e64756374696e6745717569706d656e74,
  [(0x6c656e677468, .flt 0x0)],
  [0x6c656e677468],
  [(0x6c656e677468, .flt 0x0)],
  [(0x6c656e677468, 0x666c6f6174)],
  [],
  [],
  []⟩
def m_Conductor : List RClass := d_Conductor :: m_ConductingEquipment

/-- CIM14/ENTSOE/Equipment/Wires/EnergyConsumer.py:23 -/
def d_EnergyConsumer : RClass := ⟨0x456e65726779436f6e73756d6572, 0x43494d31342e454e54534f452e45717569706d656e742e57697265732e456e65726779436f6e73756d6572, 0x43494d31342e454e54534f452e45717569706d656e742e436f72652e436f6e64756374696e6745717569706d656e74,
  [(0x706669786564, .flt 0x0), (0x706669786564506374, .flt 0x0), (0x716669786564506374, .flt 0x0), (0x716669786564, .flt 0x0)],
  [0x706669786564, 0x706669786564506374, 0x716669786564506374, 0x716669786564],
  [(0x706669786564, .flt 0x0), (0x706669786564506374, .flt 0x0), (0x716669786564506374, .flt 0x0), (0x716669786564, .flt 0x0)],
  [(0x706669786564, 0x666c6f6174), (0x706669786564506374, 0x666c6f6174), (0x716669786564506374, 0x666c6f6174), (0x716669786564, 0x666c6f6174)],
  [],
  [⟨0x4c6f6164526573706f6e7365, .one2many, 0x456e65726779436f6e73756d6572, 0, false⟩],
  []⟩
def m_EnergyConsumer : List RClass := d_EnergyConsumer :: m_ConductingEquipment

/-- CIM14/ENTSOE/Equipment/Wires/Line.py:23 -/
def d_Line : RClass := ⟨0x4c696e65, 0x43494d31342e454e54534f452e45717569706d656e742e57697265732e4c696e65, 0x43494d31342e454e54534f452e45717569706d656e742e436f72652e45717569706d656e74436f6e7461696e6572,
  [],
  [],
  [],
  [],
  [],
  [⟨0x526567696f6e, .one2many, 0x4c696e6573, 0, false⟩],
  []⟩
def m_Line : List RClass := d_Line :: m_EquipmentContainer

/-- CIM14/ENTSOE/Equipment/Wires/RegulatingCondEq.py:23 -/
def d_RegulatingCondEq : RClass := ⟨0x526567756c6174696e67436f6e644571, 0x43494d31342e454e54534f452e45717569706d656e742e57697265732e526567756c6174696e67436f6e644571, 0x43494d31342e454e54534f452e45717569706d656e742e436f72652e436f6e64756374696e6745717569706d656e74,
  [],
  [],
  [],
  [],
  [],
  [⟨0x526567756c6174696e67436f6e74726f6c, .one2many, 0x526567756c6174696e67436f6e644571, 0, false⟩],
  []⟩
def m_RegulatingCondEq : List RClass := d_RegulatingCondEq :: m_ConductingEquipment

/-- CIM14/ENTSOE/Equipment/Wires/SeriesCompensator.py:23 -/
def d_SeriesCompensator : RClass := ⟨0x536572696573436f6d70656e7361746f72, 0x43494d31342e454e54534f452e45717569706d656e742e57697265732e536572696573436f6d70656e7361746f72, 0x43494d31342e454e54534f452e45717569706d656e742e436f72652e436f6e64756374696e6745717569706d656e74,
  [(0x72, .flt 0x0), (0x78, .flt 0x0)],
  [0x72, 0x78],
  [(0x72, .flt 0x0), (0x78, .flt 0x0)],
  [(0x72, 0x666c6f6174), (0x78, 0x666c6f6174)],
  [],
  [],
  []⟩
def m_SeriesCompensator : List RClass := d_SeriesCompensator :: m_ConductingEquipment

/-- CIM14/ENTSOE/Equipment/Wires/Switch.py:23 -/
def d_Switch : RClass := ⟨0x537769746368, 0x43494d31342e454e54534f452e45717569706d656e742e57697265732e537769746368, 0x43494d31342e454e54534f452e45717569706d656e742e436f72652e436f6e64756374696e6745717569706d656e74,
  [(0x6e6f726d616c4f70656e, .bool false)],
  [0x6e6f726d616c4f70656e],
  [(0x6e6f726d616c4f70656e, .bool false)],
  [(0x6e6f726d616c4f70656e, 0x626f6f6c)],
  [],
  [],
  []⟩
def m_Switch : List RClass := d_Switch :: m_ConductingEquipment

/-- CIM14/ENTSOE/Equipment/Wires/TransformerWinding.py:23 -/
def d_TransformerWinding : RClass := ⟨0x5472616e73666f726d657257696e64696e67, 0x43494d31342e454e54534f452e45717569706d656e742e57697265732e5472616e73666f726d657257696e64696e67, 0x43494d31342e454e54534f452e45717569706d656e742e436f72652e436f6e64756374696e6745717569706d656e74,
  [(0x78, .flt 0x0), (0x7830, .flt 0x0), (0x6230, .flt 0x0), (0x6730, .flt 0x0), (0x7267726f756e64, .flt 0x0), (0x62, .flt 0x0), (0x636f6e6e656374696f6e54797065, .str 0x49), (0x726174656453, .flt 0x0), (0x72, .flt 0x0), (0x7230, .flt 0x0), (0x726174656455, .flt 0x0), (0x7867726f756e64, .flt 0x0), (0x77696e64696e6754797065, .str 0x7465727469617279)],
  [0x78, 0x7830, 0x6230, 0x6730, 0x7267726f756e64, 0x62, 0x636f6e6e656374696f6e54797065, 0x726174656453, 0x72, 0x7230, 0x726174656455, 0x7867726f756e64, 0x77696e64696e6754797065],
  [(0x78, .flt 0x0), (0x7830, .flt 0x0), (0x6230, .flt 0x0), (0x6730, .flt 0x0), (0x7267726f756e64, .flt 0x0), (0x62, .flt 0x0), (0x636f6e6e656374696f6e54797065, .str 0x49), (0x726174656453, .flt 0x0), (0x72, .flt 0x0), (0x7230, .flt 0x0), (0x726174656455, .flt 0x0), (0x7867726f756e64, .flt 0x0), (0x77696e64696e6754797065, .str 0x7465727469617279)],
  [(0x78, 0x666c6f6174), (0x7830, 0x666c6f6174), (0x6230, 0x666c6f6174), (0x6730, 0x666c6f6174), (0x7267726f756e64, 0x666c6f6174), (0x62, 0x666c6f6174), (0x636f6e6e656374696f6e54797065, 0x737472), (0x726174656453, 0x666c6f6174), (0x72, 0x666c6f6174), (0x7230, 0x666c6f6174), (0x726174656455, 0x666c6f6174), (0x7867726f756e64, 0x666c6f6174), (0x77696e64696e6754797065, 0x737472)],
  [(0x636f6e6e656374696f6e54797065, 0x57696e64696e67436f6e6e656374696f6e), (0x77696e64696e6754797065, 0x57696e64696e6754797065)],
  [⟨0x526174696f5461704368616e676572, .one2one, 0x5472616e73666f726d657257696e64696e67, 0, false⟩, ⟨0x50686173655461704368616e676572, .one2one, 0x5472616e73666f726d657257696e64696e67, 0, false⟩, ⟨0x506f7765725472616e73666f726d6572, .one2many, 0x5472616e73666f726d657257696e64696e6773, 0, false⟩],
  []⟩
def m_TransformerWinding : List RClass := d_TransformerWinding :: m_ConductingEquipment

/-- CIM14/ENTSOE/Equipment/LoadModel/ConformLoad.py:23 -/
def d_ConformLoad : RClass := ⟨0x436f6e666f726d4c6f6164, 0x43494d31342e454e54534f452e45717569706d656e742e4c6f61644d6f64656c2e436f6e666f726d4c6f6164, 0x43494d31342e454e54534f452e45717569706d656e742e57697265732e456e65726779436f6e73756d6572,
  [],
  [],
  [],
  [],
  [],
  [⟨0x4c6f616447726f7570, .one2many, 0x456e65726779436f6e73756d657273, 0, false⟩],
  []⟩
def m_ConformLoad : List RClass := d_ConformLoad :: m_EnergyConsumer

/-- CIM14/ENTSOE/Equipment/LoadModel/NonConformLoad.py:23 -/
def d_NonConformLoad : RClass := ⟨0x4e6f6e436f6e666f726d4c6f6164, 0x43494d31342e454e54534f452e45717569706d656e742e4c6f61644d6f64656c2e4e6f6e436f6e666f726d4c6f6164, 0x43494d31342e454e54534f452e45717569706d656e742e57697265732e456e65726779436f6e73756d6572,
  [],
  [],
  [],
  [],
  [],
  [⟨0x4c6f616447726f7570, .one2many, 0x456e65726779436f6e73756d657273, 0, false⟩],
  []⟩
def m_NonConformLoad : List RClass := d_NonConformLoad :: m_EnergyConsumer

/-- CIM14/ENTSOE/Equipment/Wires/ACLineSegment.py:23 -/
def d_ACLineSegment : RClass := ⟨0x41434c696e655365676d656e74, 0x43494d31342e454e54534f452e45717569706d656e742e57697265732e41434c696e655365676d656e74, 0x43494d31342e454e54534f452e45717569706d656e742e57697265732e436f6e647563746f72,
  [(0x67306368, .flt 0x0), (0x72, .flt 0x0), (0x7830, .flt 0x0), (0x626368, .flt 0x0), (0x78, .flt 0x0), (0x62306368, .flt 0x0), (0x676368, .flt 0x0), (0x7230, .flt 0x0)],
  [0x67306368, 0x72, 0x7830, 0x626368, 0x78, 0x62306368, 0x676368, 0x7230],
  [(0x67306368, .flt 0x0), (0x72, .flt 0x0), (0x7830, .flt 0x0), (0x626368, .flt 0x0), (0x78, .flt 0x0), (0x62306368, .flt 0x0), (0x676368, .flt 0x0), (0x7230, .flt 0x0)],
  [(0x67306368, 0x666c6f6174), (0x72, 0x666c6f6174), (0x7830, 0x666c6f6174), (0x626368, 0x666c6f6174), (0x78, 0x666c6f6174), (0x62306368, 0x666c6f6174), (0x676368, 0x666c6f6174), (0x7230, 0x666c6f6174)],
  [],
  [],
  []⟩
def m_ACLineSegment : List RClass := d_ACLineSegment :: m_Conductor

/-- CIM14/ENTSOE/Equipment/Wires/Breaker.py:23 -/
def d_Breaker : RClass := ⟨0x427265616b6572, 0x43494d31342e454e54534f452e45717569706d656e742e57697265732e427265616b6572, 0x43494d31342e454e54534f452e45717569706d656e742e57697265732e537769746368,
  [(0x726174656443757272656e74, .flt 0x0)],
  [0x726174656443757272656e74],
  [(0x726174656443757272656e74, .flt 0x0)],
  [(0x726174656443757272656e74, 0x666c6f6174)],
  [],
  [],
  []⟩
def m_Breaker : List RClass := d_Breaker :: m_Switch

/-- CIM14/ENTSOE/Equipment/Wires/Disconnector.py:23 -/
def d_Disconnector : RClass := ⟨0x446973636f6e6e6563746f72, 0x43494d31342e454e54534f452e45717569706d656e742e57697265732e446973636f6e6e6563746f72, 0x43494d31342e454e54534f452e45717569706d656e742e57697265732e537769746368,
  [],
  [],
  [],
  [],
  [],
  [],
  []⟩
def m_Disconnector : List RClass := d_Disconnector :: m_Switch

/-- CIM14/ENTSOE/Equipment/Wires/LoadBreakSwitch.py:23 -/
def d_LoadBreakSwitch : RClass := ⟨0x4c6f6164427265616b537769746368, 0x43494d31342e454e54534f452e45717569706d656e742e57697265732e4c6f6164427265616b537769746368, 0x43494d31342e454e54534f452e45717569706d656e742e57697265732e537769746368,
  [(0x726174656443757272656e74, .flt 0x0)],
  [0x726174656443757272656e74],
  [(0x726174656443757272656e74, .flt 0x0)],
  [(0x726174656443757272656e74, 0x666c6f6174)],
  [],
  [],
  []⟩
def m_LoadBreakSwitch : List RClass := d_LoadBreakSwitch :: m_Switch

/-- CIM14/ENTSOE/Equipment/Wires/ShuntCompensator.py:23 -/
def d_ShuntCompensator : RClass := ⟨0x5368756e74436f6d70656e7361746f72, 0x43494d31342e454e54534f452e45717569706d656e742e57697265732e5368756e74436f6d70656e7361746f72, 0x43494d31342e454e54534f452e45717569706d656e742e57697265732e526567756c6174696e67436f6e644571,
  [(0x673050657253656374696f6e, .flt 0x0), (0x6250657253656374696f6e, .flt 0x0), (0x6e6f6d55, .flt 0x0), (0x6750657253656374696f6e, .flt 0x0), (0x6e6f726d616c53656374696f6e73, .int 0), (0x623050657253656374696f6e, .flt 0x0), (0x6d6178696d756d53656374696f6e73, .int 0)],
  [0x673050657253656374696f6e, 0x6250657253656374696f6e, 0x6e6f6d55, 0x6750657253656374696f6e, 0x6e6f726d616c53656374696f6e73, 0x623050657253656374696f6e, 0x6d6178696d756d53656374696f6e73],
  [(0x673050657253656374696f6e, .flt 0x0), (0x6250657253656374696f6e, .flt 0x0), (0x6e6f6d55, .flt 0x0), (0x6750657253656374696f6e, .flt 0x0), (0x6e6f726d616c53656374696f6e73, .int 0), (0x623050657253656374696f6e, .flt 0x0), (0x6d6178696d756d53656374696f6e73, .int 0)],
  [(0x673050657253656374696f6e, 0x666c6f6174), (0x6250657253656374696f6e, 0x666c6f6174), (0x6e6f6d55, 0x666c6f6174), (0x6750657253656374696f6e, 0x666c6f6174), (0x6e6f726d616c53656374696f6e73, 0x696e74), (0x623050657253656374696f6e, 0x666c6f6174), (0x6d6178696d756d53656374696f6e73, 0x696e74)],
  [],
  [],
  []⟩
def m_ShuntCompensator : List RClass := d_ShuntCompensator :: m_RegulatingCondEq

/-- CIM14/ENTSOE/Equipment/Wires/StaticVarCompensator.py:23 -/
def d_StaticVarCompensator : RClass := ⟨0x537461746963566172436f6d70656e7361746f72, 0x43494d31342e454e54534f452e45717569706d656e742e57697265732e537461746963566172436f6d70656e7361746f72, 0x43494d31342e454e54534f452e45717569706d656e742e57697265732e526567756c6174696e67436f6e644571,
  [(0x766f6c74616765536574506f696e74, .flt 0x0), (0x63617061636974697665526174696e67, .flt 0x0), (0x736c6f7065, .flt 0x0), (0x696e64756374697665526174696e67, .flt 0x0), (0x735643436f6e74726f6c4d6f6465, .str 0x766f6c74616765)],
  [0x766f6c74616765536574506f696e74, 0x63617061636974697665526174696e67, 0x736c6f7065, 0x696e64756374697665526174696e67, 0x735643436f6e74726f6c4d6f6465],
  [(0x766f6c74616765536574506f696e74, .flt 0x0), (0x63617061636974697665526174696e67, .flt 0x0), (0x736c6f7065, .flt 0x0), (0x696e64756374697665526174696e67, .flt 0x0), (0x735643436f6e74726f6c4d6f6465, .str 0x766f6c74616765)],
  [(0x766f6c74616765536574506f696e74, 0x666c6f6174), (0x63617061636974697665526174696e67, 0x666c6f6174), (0x736c6f7065, 0x666c6f6174), (0x696e64756374697665526174696e67, 0x666c6f6174), (0x735643436f6e74726f6c4d6f6465, 0x737472)],
  [(0x735643436f6e74726f6c4d6f6465, 0x535643436f6e74726f6c4d6f6465)],
  [],
  []⟩
def m_StaticVarCompensator : List RClass := d_StaticVarCompensator :: m_RegulatingCondEq

/-- CIM14/ENTSOE/Equipment/Wires/SynchronousMachine.py:23 -/
def d_SynchronousMachine : RClass := ⟨0x53796e6368726f6e6f75734d616368696e65, 0x43494d31342e454e54534f452e45717569706d656e742e57697265732e53796e6368726f6e6f75734d616368696e65, 0x43494d31342e454e54534f452e45717569706d656e742e57697265732e526567756c6174696e67436f6e644571,
  [(0x7830, .flt 0x0), (0x7150657263656e74, .flt 0x0), (0x7832, .flt 0x0), (0x72, .flt 0x0), (0x7265666572656e63655072696f72697479, .int 0), (0x6f7065726174696e674d6f6465, .str 0x636f6e64656e736572), (0x7230, .flt 0x0), (0x74797065, .str 0x636f6e64656e736572), (0x7232, .flt 0x0), (0x6d617851, .flt 0x0), (0x78, .flt 0x0), (0x726174656453, .flt 0x0), (0x6d696e51, .flt 0x0)],
  [0x7830, 0x7150657263656e74, 0x7832, 0x72, 0x7265666572656e63655072696f72697479, 0x6f7065726174696e674d6f6465, 0x7230, 0x74797065, 0x7232, 0x6d617851, 0x78, 0x726174656453, 0x6d696e51],
  [(0x7830, .flt 0x0), (0x7150657263656e74, .flt 0x0), (0x7832, .flt 0x0), (0x72, .flt 0x0), (0x7265666572656e63655072696f72697479, .int 0), (0x6f7065726174696e674d6f6465, .str 0x636f6e64656e736572), (0x7230, .flt 0x0), (0x74797065, .str 0x636f6e64656e736572), (0x7232, .flt 0x0), (0x6d617851, .flt 0x0), (0x78, .flt 0x0), (0x726174656453, .flt 0x0), (0x6d696e51, .flt 0x0)],
  [(0x7830, 0x666c6f6174), (0x7150657263656e74, 0x666c6f6174), (0x7832, 0x666c6f6174), (0x72, 0x666c6f6174), (0x7265666572656e63655072696f72697479, 0x696e74), (0x6f7065726174696e674d6f6465, 0x737472), (0x7230, 0x666c6f6174), (0x74797065, 0x737472), (0x7232, 0x666c6f6174), (0x6d617851, 0x666c6f6174), (0x78, 0x666c6f6174), (0x726174656453, 0x666c6f6174), (0x6d696e51, 0x666c6f6174)],
  [(0x6f7065726174696e674d6f6465, 0x53796e6368726f6e6f75734d616368696e654f7065726174696e674d6f6465), (0x74797065, 0x53796e6368726f6e6f75734d616368696e6554797065)],
  [⟨0x496e697469616c52656163746976654361706162696c6974794375727665, .one2many, 0x496e697469616c6c7955736564427953796e6368726f6e6f75734d616368696e6573, 0, false⟩, ⟨0x487964726f50756d70, .one2one, 0x53796e6368726f6e6f75734d616368696e65, 0, false⟩, ⟨0x47656e65726174696e67556e6974, .one2many, 0x53796e6368726f6e6f75734d616368696e6573, 0, false⟩],
  []⟩
def m_SynchronousMachine : List RClass := d_SynchronousMachine :: m_RegulatingCondEq

def classes : List (List RClass) := [
  m_ControlArea,
  m_ControlAreaGeneratingUnit,
  m_TieFlow,
  m_BaseVoltage,
  m_BasicIntervalSchedule,
  m_ConductingEquipment,
  m_ConnectivityNode,
  m_ConnectivityNodeContainer,
  m_Curve,
  m_CurveData,
  m_Equipment,
  m_EquipmentContainer,
  m_GeographicalRegion,
  m_IdentifiedObject,
  m_PowerSystemResource,
  m_RegularIntervalSchedule,
  m_SubGeographicalRegion,
  m_Substation,
  m_Terminal,
  m_Unit,
  m_VoltageLevel,
  m_Element,
  m_EquivalentEquipment,
  m_EquivalentNetwork,
  m_FossilFuel,
  m_GeneratingUnit,
  m_HydroGeneratingUnit,
  m_HydroPump,
  m_NuclearGeneratingUnit,
  m_ThermalGeneratingUnit,
  m_WindGeneratingUnit,
  m_IEC61970CIMVersion,
  m_ConformLoad,
  m_ConformLoadGroup,
  m_DayType,
  m_EnergyArea,
  m_LoadGroup,
  m_LoadResponseCharacteristic,
  m_NonConformLoad,
  m_NonConformLoadGroup,
  m_Season,
  m_SeasonDayTypeSchedule,
  m_SubLoadArea,
  m_Measurement,
  m_MeasurementValue,
  m_MeasurementValueSource,
  m_Equipment_OperationalLimit,
  m_CurrentLimit,
  m_OperationalLimits_OperationalLimit,
  m_OperationalLimitSet,
  m_OperationalLimitType,
  m_VoltageLimit,
  m_ACLineSegment,
  m_Breaker,
  m_BusbarSection,
  m_Conductor,
  m_Disconnector,
  m_EnergyConsumer,
  m_Line,
  m_LoadBreakSwitch,
  m_MutualCoupling,
  m_PhaseTapChanger,
  m_PowerTransformer,
  m_RatioTapChanger,
  m_ReactiveCapabilityCurve,
  m_RegulatingCondEq,
  m_RegulatingControl,
  m_SeriesCompensator,
  m_ShuntCompensator,
  m_StaticVarCompensator,
  m_Switch,
  m_SynchronousMachine,
  m_TapChanger,
  m_TransformerWinding]

/-- `packageMap` of CIM14/ENTSOE/Equipment/__init__.py -/
def pmap : List (Nat × Nat) := [
  (0x456c656d656e74, 0x43494d31342e454e54534f452e45717569706d656e74),
  (0x4f7065726174696f6e616c4c696d6974, 0x43494d31342e454e54534f452e45717569706d656e74),
  (0x494543363139373043494d56657273696f6e, 0x43494d31342e454e54534f452e45717569706d656e74),
  (0x436f6e74726f6c41726561, 0x43494d31342e454e54534f452e45717569706d656e742e436f6e74726f6c41726561),
  (0x436f6e74726f6c4172656147656e65726174696e67556e6974, 0x43494d31342e454e54534f452e45717569706d656e742e436f6e74726f6c41726561),
  (0x546965466c6f77, 0x43494d31342e454e54534f452e45717569706d656e742e436f6e74726f6c41726561),
  (0x42757362617253656374696f6e, 0x43494d31342e454e54534f452e45717569706d656e742e5769726573),
  (0x4c6f6164427265616b537769746368, 0x43494d31342e454e54534f452e45717569706d656e742e5769726573),
  (0x5461704368616e676572, 0x43494d31342e454e54534f452e45717569706d656e742e5769726573),
  (0x5472616e73666f726d657257696e64696e67, 0x43494d31342e454e54534f452e45717569706d656e742e5769726573),
  (0x526567756c6174696e67436f6e74726f6c, 0x43494d31342e454e54534f452e45717569706d656e742e5769726573),
  (0x52656163746976654361706162696c6974794375727665, 0x43494d31342e454e54534f452e45717569706d656e742e5769726573),
  (0x41434c696e655365676d656e74, 0x43494d31342e454e54534f452e45717569706d656e742e5769726573),
  (0x446973636f6e6e6563746f72, 0x43494d31342e454e54534f452e45717569706d656e742e5769726573),
  (0x50686173655461704368616e676572, 0x43494d31342e454e54534f452e45717569706d656e742e5769726573),
  (0x536572696573436f6d70656e7361746f72, 0x43494d31342e454e54534f452e45717569706d656e742e5769726573),
  (0x4d757475616c436f75706c696e67, 0x43494d31342e454e54534f452e45717569706d656e742e5769726573),
  (0x53796e6368726f6e6f75734d616368696e65, 0x43494d31342e454e54534f452e45717569706d656e742e5769726573),
  (0x526174696f5461704368616e676572, 0x43494d31342e454e54534f452e45717569706d656e742e5769726573),
  (0x506f7765725472616e73666f726d6572, 0x43494d31342e454e54534f452e45717569706d656e742e5769726573),
  (0x456e65726779436f6e73756d6572, 0x43494d31342e454e54534f452e45717569706d656e742e5769726573),
  (0x537769746368, 0x43494d31342e454e54534f452e45717569706d656e742e5769726573),
  (0x526567756c6174696e67436f6e644571, 0x43494d31342e454e54534f452e45717569706d656e742e5769726573),
  (0x4c696e65, 0x43494d31342e454e54534f452e45717569706d656e742e5769726573),
  (0x537461746963566172436f6d70656e7361746f72, 0x43494d31342e454e54534f452e45717569706d656e742e5769726573),
  (0x5368756e74436f6d70656e7361746f72, 0x43494d31342e454e54534f452e45717569706d656e742e5769726573),
  (0x427265616b6572, 0x43494d31342e454e54534f452e45717569706d656e742e5769726573),
  (0x436f6e647563746f72, 0x43494d31342e454e54534f452e45717569706d656e742e5769726573),
  (0x4d6561737572656d656e74, 0x43494d31342e454e54534f452e45717569706d656e742e4d656173),
  (0x4d6561737572656d656e7456616c7565536f75726365, 0x43494d31342e454e54534f452e45717569706d656e742e4d656173),
  (0x4d6561737572656d656e7456616c7565, 0x43494d31342e454e54534f452e45717569706d656e742e4d656173),
  (0x4375727665, 0x43494d31342e454e54534f452e45717569706d656e742e436f7265),
  (0x436f6e6e65637469766974794e6f6465436f6e7461696e6572, 0x43494d31342e454e54534f452e45717569706d656e742e436f7265),
  (0x526567756c6172496e74657276616c5363686564756c65, 0x43494d31342e454e54534f452e45717569706d656e742e436f7265),
  (0x566f6c746167654c6576656c, 0x43494d31342e454e54534f452e45717569706d656e742e436f7265),
  (0x556e6974, 0x43494d31342e454e54534f452e45717569706d656e742e436f7265),
  (0x45717569706d656e74, 0x43494d31342e454e54534f452e45717569706d656e742e436f7265),
  (0x42617365566f6c74616765, 0x43494d31342e454e54534f452e45717569706d656e742e436f7265),
  (0x436f6e6e65637469766974794e6f6465, 0x43494d31342e454e54534f452e45717569706d656e742e436f7265),
  (0x45717569706d656e74436f6e7461696e6572, 0x43494d31342e454e54534f452e45717569706d656e742e436f7265),
  (0x4964656e7469666965644f626a656374, 0x43494d31342e454e54534f452e45717569706d656e742e436f7265),
  (0x53756273746174696f6e, 0x43494d31342e454e54534f452e45717569706d656e742e436f7265),
  (0x436f6e64756374696e6745717569706d656e74, 0x43494d31342e454e54534f452e45717569706d656e742e436f7265),
  (0x53756247656f67726170686963616c526567696f6e, 0x43494d31342e454e54534f452e45717569706d656e742e436f7265),
  (0x5465726d696e616c, 0x43494d31342e454e54534f452e45717569706d656e742e436f7265),
  (0x47656f67726170686963616c526567696f6e, 0x43494d31342e454e54534f452e45717569706d656e742e436f7265),
  (0x506f77657253797374656d5265736f75726365, 0x43494d31342e454e54534f452e45717569706d656e742e436f7265),
  (0x437572766544617461, 0x43494d31342e454e54534f452e45717569706d656e742e436f7265),
  (0x4261736963496e74657276616c5363686564756c65, 0x43494d31342e454e54534f452e45717569706d656e742e436f7265),
  (0x566f6c746167654c696d6974, 0x43494d31342e454e54534f452e45717569706d656e742e4f7065726174696f6e616c4c696d697473),
  (0x43757272656e744c696d6974, 0x43494d31342e454e54534f452e45717569706d656e742e4f7065726174696f6e616c4c696d697473),
  (0x4f7065726174696f6e616c4c696d6974, 0x43494d31342e454e54534f452e45717569706d656e742e4f7065726174696f6e616c4c696d697473),
  (0x4f7065726174696f6e616c4c696d6974536574, 0x43494d31342e454e54534f452e45717569706d656e742e4f7065726174696f6e616c4c696d697473),
  (0x4f7065726174696f6e616c4c696d697454797065, 0x43494d31342e454e54534f452e45717569706d656e742e4f7065726174696f6e616c4c696d697473),
  (0x4571756976616c656e7445717569706d656e74, 0x43494d31342e454e54534f452e45717569706d656e742e4571756976616c656e7473),
  (0x4571756976616c656e744e6574776f726b, 0x43494d31342e454e54534f452e45717569706d656e742e4571756976616c656e7473),
  (0x57696e6447656e65726174696e67556e6974, 0x43494d31342e454e54534f452e45717569706d656e742e47656e65726174696f6e2e50726f64756374696f6e),
  (0x47656e65726174696e67556e6974, 0x43494d31342e454e54534f452e45717569706d656e742e47656e65726174696f6e2e50726f64756374696f6e),
  (0x466f7373696c4675656c, 0x43494d31342e454e54534f452e45717569706d656e742e47656e65726174696f6e2e50726f64756374696f6e),
  (0x4e75636c65617247656e65726174696e67556e6974, 0x43494d31342e454e54534f452e45717569706d656e742e47656e65726174696f6e2e50726f64756374696f6e),
  (0x487964726f47656e65726174696e67556e6974, 0x43494d31342e454e54534f452e45717569706d656e742e47656e65726174696f6e2e50726f64756374696f6e),
  (0x546865726d616c47656e65726174696e67556e6974, 0x43494d31342e454e54534f452e45717569706d656e742e47656e65726174696f6e2e50726f64756374696f6e),
  (0x487964726f50756d70, 0x43494d31342e454e54534f452e45717569706d656e742e47656e65726174696f6e2e50726f64756374696f6e),
  (0x4e6f6e436f6e666f726d4c6f6164, 0x43494d31342e454e54534f452e45717569706d656e742e4c6f61644d6f64656c),
  (0x456e6572677941726561, 0x43494d31342e454e54534f452e45717569706d656e742e4c6f61644d6f64656c),
  (0x536561736f6e, 0x43494d31342e454e54534f452e45717569706d656e742e4c6f61644d6f64656c),
  (0x5375624c6f616441726561, 0x43494d31342e454e54534f452e45717569706d656e742e4c6f61644d6f64656c),
  (0x4c6f6164526573706f6e73654368617261637465726973746963, 0x43494d31342e454e54534f452e45717569706d656e742e4c6f61644d6f64656c),
  (0x4e6f6e436f6e666f726d4c6f616447726f7570, 0x43494d31342e454e54534f452e45717569706d656e742e4c6f61644d6f64656c),
  (0x536561736f6e446179547970655363686564756c65, 0x43494d31342e454e54534f452e45717569706d656e742e4c6f61644d6f64656c),
  (0x436f6e666f726d4c6f616447726f7570, 0x43494d31342e454e54534f452e45717569706d656e742e4c6f61644d6f64656c),
  (0x44617954797065, 0x43494d31342e454e54534f452e45717569706d656e742e4c6f61644d6f64656c),
  (0x4c6f616447726f7570, 0x43494d31342e454e54534f452e45717569706d656e742e4c6f61644d6f64656c),
  (0x436f6e666f726d4c6f6164, 0x43494d31342e454e54534f452e45717569706d656e742e4c6f61644d6f64656c)]

/-- Names bound by `from m import C` in the `__init__.py` files of the packages occurring in `pmap`: (package, C, m). -/
def exports : List (Nat × Nat × Nat) := [
  (0x43494d31342e454e54534f452e45717569706d656e74, 0x456c656d656e74, 0x43494d31342e454e54534f452e45717569706d656e742e456c656d656e74),
  (0x43494d31342e454e54534f452e45717569706d656e74, 0x4f7065726174696f6e616c4c696d6974, 0x43494d31342e454e54534f452e45717569706d656e742e4f7065726174696f6e616c4c696d6974),
  (0x43494d31342e454e54534f452e45717569706d656e74, 0x494543363139373043494d56657273696f6e, 0x43494d31342e454e54534f452e45717569706d656e742e494543363139373043494d56657273696f6e),
  (0x43494d31342e454e54534f452e45717569706d656e742e436f6e74726f6c41726561, 0x436f6e74726f6c41726561, 0x43494d31342e454e54534f452e45717569706d656e742e436f6e74726f6c417265612e436f6e74726f6c41726561),
  (0x43494d31342e454e54534f452e45717569706d656e742e436f6e74726f6c41726561, 0x436f6e74726f6c4172656147656e65726174696e67556e6974, 0x43494d31342e454e54534f452e45717569706d656e742e436f6e74726f6c417265612e436f6e74726f6c4172656147656e65726174696e67556e6974),
  (0x43494d31342e454e54534f452e45717569706d656e742e436f6e74726f6c41726561, 0x546965466c6f77, 0x43494d31342e454e54534f452e45717569706d656e742e436f6e74726f6c417265612e546965466c6f77),
  (0x43494d31342e454e54534f452e45717569706d656e742e436f7265, 0x4375727665, 0x43494d31342e454e54534f452e45717569706d656e742e436f72652e4375727665),
  (0x43494d31342e454e54534f452e45717569706d656e742e436f7265, 0x436f6e6e65637469766974794e6f6465436f6e7461696e6572, 0x43494d31342e454e54534f452e45717569706d656e742e436f72652e436f6e6e65637469766974794e6f6465436f6e7461696e6572),
  (0x43494d31342e454e54534f452e45717569706d656e742e436f7265, 0x526567756c6172496e74657276616c5363686564756c65, 0x43494d31342e454e54534f452e45717569706d656e742e436f72652e526567756c6172496e74657276616c5363686564756c65),
  (0x43494d31342e454e54534f452e45717569706d656e742e436f7265, 0x566f6c746167654c6576656c, 0x43494d31342e454e54534f452e45717569706d656e742e436f72652e566f6c746167654c6576656c),
  (0x43494d31342e454e54534f452e45717569706d656e742e436f7265, 0x556e6974, 0x43494d31342e454e54534f452e45717569706d656e742e436f72652e556e6974),
  (0x43494d31342e454e54534f452e45717569706d656e742e436f7265, 0x45717569706d656e74, 0x43494d31342e454e54534f452e45717569706d656e742e436f72652e45717569706d656e74),
  (0x43494d31342e454e54534f452e45717569706d656e742e436f7265, 0x42617365566f6c74616765, 0x43494d31342e454e54534f452e45717569706d656e742e436f72652e42617365566f6c74616765),
  (0x43494d31342e454e54534f452e45717569706d656e742e436f7265, 0x436f6e6e65637469766974794e6f6465, 0x43494d31342e454e54534f452e45717569706d656e742e436f72652e436f6e6e65637469766974794e6f6465),
  (0x43494d31342e454e54534f452e45717569706d656e742e436f7265, 0x45717569706d656e74436f6e7461696e6572, 0x43494d31342e454e54534f452e45717569706d656e742e436f72652e45717569706d656e74436f6e7461696e6572),
  (0x43494d31342e454e54534f452e45717569706d656e742e436f7265, 0x4964656e7469666965644f626a656374, 0x43494d31342e454e54534f452e45717569706d656e742e436f72652e4964656e7469666965644f626a656374),
  (0x43494d31342e454e54534f452e45717569706d656e742e436f7265, 0x53756273746174696f6e, 0x43494d31342e454e54534f452e45717569706d656e742e436f72652e53756273746174696f6e),
  (0x43494d31342e454e54534f452e45717569706d656e742e436f7265, 0x436f6e64756374696e6745717569706d656e74, 0x43494d31342e454e54534f452e45717569706d656e742e436f72652e436f6e64756374696e6745717569706d656e74),
  (0x43494d31342e454e54534f452e45717569706d656e742e436f7265, 0x53756247656f67726170686963616c526567696f6e, 0x43494d31342e454e54534f452e45717569706d656e742e436f72652e53756247656f67726170686963616c526567696f6e),
  (0x43494d31342e454e54534f452e45717569706d656e742e436f7265, 0x5465726d696e616c, 0x43494d31342e454e54534f452e45717569706d656e742e436f72652e5465726d696e616c),
  (0x43494d31342e454e54534f452e45717569706d656e742e436f7265, 0x47656f67726170686963616c526567696f6e, 0x43494d31342e454e54534f452e45717569706d656e742e436f72652e47656f67726170686963616c526567696f6e),
  (0x43494d31342e454e54534f452e45717569706d656e742e436f7265, 0x506f77657253797374656d5265736f75726365, 0x43494d31342e454e54534f452e45717569706d656e742e436f72652e506f77657253797374656d5265736f75726365),
  (0x43494d31342e454e54534f452e45717569706d656e742e436f7265, 0x437572766544617461, 0x43494d31342e454e54534f452e45717569706d656e742e436f72652e437572766544617461),
  (0x43494d31342e454e54534f452e45717569706d656e742e436f7265, 0x4261736963496e74657276616c5363686564756c65, 0x43494d31342e454e54534f452e45717569706d656e742e436f72652e4261736963496e74657276616c5363686564756c65),
  (0x43494d31342e454e54534f452e45717569706d656e742e4571756976616c656e7473, 0x4571756976616c656e7445717569706d656e74, 0x43494d31342e454e54534f452e45717569706d656e742e4571756976616c656e74732e4571756976616c656e7445717569706d656e74),
  (0x43494d31342e454e54534f452e45717569706d656e742e4571756976616c656e7473, 0x4571756976616c656e744e6574776f726b, 0x43494d31342e454e54534f452e45717569706d656e742e4571756976616c656e74732e4571756976616c656e744e6574776f726b),
  (0x43494d31342e454e54534f452e45717569706d656e742e47656e65726174696f6e2e50726f64756374696f6e, 0x57696e6447656e65726174696e67556e6974, 0x43494d31342e454e54534f452e45717569706d656e742e47656e65726174696f6e2e50726f64756374696f6e2e57696e6447656e65726174696e67556e6974),
  (0x43494d31342e454e54534f452e45717569706d656e742e47656e65726174696f6e2e50726f64756374696f6e, 0x47656e65726174696e67556e6974, 0x43494d31342e454e54534f452e45717569706d656e742e47656e65726174696f6e2e50726f64756374696f6e2e47656e65726174696e67556e6974),
  (0x43494d31342e454e54534f452e45717569706d656e742e47656e65726174696f6e2e50726f64756374696f6e, 0x466f7373696c4675656c, 0x43494d31342e454e54534f452e45717569706d656e742e47656e65726174696f6e2e50726f64756374696f6e2e466f7373696c4675656c),
  (0x43494d31342e454e54534f452e45717569706d656e742e47656e65726174696f6e2e50726f64756374696f6e, 0x4e75636c65617247656e65726174696e67556e6974, 0x43494d31342e454e54534f452e45717569706d656e742e47656e65726174696f6e2e50726f64756374696f6e2e4e75636c65617247656e65726174696e67556e6974),
  (0x43494d31342e454e54534f452e45717569706d656e742e47656e65726174696f6e2e50726f64756374696f6e, 0x487964726f47656e65726174696e67556e6974, 0x43494d31342e454e54534f452e45717569706d656e742e47656e65726174696f6e2e50726f64756374696f6e2e487964726f47656e65726174696e67556e6974),
  (0x43494d31342e454e54534f452e45717569706d656e742e47656e65726174696f6e2e50726f64756374696f6e, 0x546865726d616c47656e65726174696e67556e6974, 0x43494d31342e454e54534f452e45717569706d656e742e47656e65726174696f6e2e50726f64756374696f6e2e546865726d616c47656e65726174696e67556e6974),
  (0x43494d31342e454e54534f452e45717569706d656e742e47656e65726174696f6e2e50726f64756374696f6e, 0x487964726f50756d70, 0x43494d31342e454e54534f452e45717569706d656e742e47656e65726174696f6e2e50726f64756374696f6e2e487964726f50756d70),
  (0x43494d31342e454e54534f452e45717569706d656e742e4c6f61644d6f64656c, 0x4e6f6e436f6e666f726d4c6f6164, 0x43494d31342e454e54534f452e45717569706d656e742e4c6f61644d6f64656c2e4e6f6e436f6e666f726d4c6f6164),
  (0x43494d31342e454e54534f452e45717569706d656e742e4c6f61644d6f64656c, 0x456e6572677941726561, 0x43494d31342e454e54534f452e45717569706d656e742e4c6f61644d6f64656c2e456e6572677941726561),
  (0x43494d31342e454e54534f452e45717569706d656e742e4c6f61644d6f64656c, 0x536561736f6e, 0x43494d31342e454e54534f452e45717569706d656e742e4c6f61644d6f64656c2e536561736f6e),
  (0x43494d31342e454e54534f452e45717569706d656e742e4c6f61644d6f64656c, 0x5375624c6f616441726561, 0x43494d31342e454e54534f452e45717569706d656e742e4c6f61644d6f64656c2e5375624c6f616441726561),
  (0x43494d31342e454e54534f452e45717569706d656e742e4c6f61644d6f64656c, 0x4c6f6164526573706f6e73654368617261637465726973746963, 0x43494d31342e454e54534f452e45717569706d656e742e4c6f61644d6f64656c2e4c6f6164526573706f6e73654368617261637465726973746963),
  (0x43494d31342e454e54534f452e45717569706d656e742e4c6f61644d6f64656c, 0x4e6f6e436f6e666f726d4c6f616447726f7570, 0x43494d31342e454e54534f452e45717569706d656e742e4c6f61644d6f64656c2e4e6f6e436f6e666f726d4c6f616447726f7570),
  (0x43494d31342e454e54534f452e45717569706d656e742e4c6f61644d6f64656c, 0x536561736f6e446179547970655363686564756c65, 0x43494d31342e454e54534f452e45717569706d656e742e4c6f61644d6f64656c2e536561736f6e446179547970655363686564756c65),
  (0x43494d31342e454e54534f452e45717569706d656e742e4c6f61644d6f64656c, 0x436f6e666f726d4c6f616447726f7570, 0x43494d31342e454e54534f452e45717569706d656e742e4c6f61644d6f64656c2e436f6e666f726d4c6f616447726f7570),
  (0x43494d31342e454e54534f452e45717569706d656e742e4c6f61644d6f64656c, 0x44617954797065, 0x43494d31342e454e54534f452e45717569706d656e742e4c6f61644d6f64656c2e44617954797065),
  (0x43494d31342e454e54534f452e45717569706d656e742e4c6f61644d6f64656c, 0x4c6f616447726f7570, 0x43494d31342e454e54534f452e45717569706d656e742e4c6f61644d6f64656c2e4c6f616447726f7570),
  (0x43494d31342e454e54534f452e45717569706d656e742e4c6f61644d6f64656c, 0x436f6e666f726d4c6f6164, 0x43494d31342e454e54534f452e45717569706d656e742e4c6f61644d6f64656c2e436f6e666f726d4c6f6164),
  (0x43494d31342e454e54534f452e45717569706d656e742e4d656173, 0x4d6561737572656d656e74, 0x43494d31342e454e54534f452e45717569706d656e742e4d6561732e4d6561737572656d656e74),
  (0x43494d31342e454e54534f452e45717569706d656e742e4d656173, 0x4d6561737572656d656e7456616c7565536f75726365, 0x43494d31342e454e54534f452e45717569706d656e742e4d6561732e4d6561737572656d656e7456616c7565536f75726365),
  (0x43494d31342e454e54534f452e45717569706d656e742e4d656173, 0x4d6561737572656d656e7456616c7565, 0x43494d31342e454e54534f452e45717569706d656e742e4d6561732e4d6561737572656d656e7456616c7565),
  (0x43494d31342e454e54534f452e45717569706d656e742e4f7065726174696f6e616c4c696d697473, 0x566f6c746167654c696d6974, 0x43494d31342e454e54534f452e45717569706d656e742e4f7065726174696f6e616c4c696d6974732e566f6c746167654c696d6974),
  (0x43494d31342e454e54534f452e45717569706d656e742e4f7065726174696f6e616c4c696d697473, 0x43757272656e744c696d6974, 0x43494d31342e454e54534f452e45717569706d656e742e4f7065726174696f6e616c4c696d6974732e43757272656e744c696d6974),
  (0x43494d31342e454e54534f452e45717569706d656e742e4f7065726174696f6e616c4c696d697473, 0x4f7065726174696f6e616c4c696d6974, 0x43494d31342e454e54534f452e45717569706d656e742e4f7065726174696f6e616c4c696d6974732e4f7065726174696f6e616c4c696d6974),
  (0x43494d31342e454e54534f452e45717569706d656e742e4f7065726174696f6e616c4c696d697473, 0x4f7065726174696f6e616c4c696d6974536574, 0x43494d31342e454e54534f452e45717569706d656e742e4f7065726174696f6e616c4c696d6974732e4f7065726174696f6e616c4c696d6974536574),
  (0x43494d31342e454e54534f452e45717569706d656e742e4f7065726174696f6e616c4c696d697473, 0x4f7065726174696f6e616c4c696d697454797065, 0x43494d31342e454e54534f452e45717569706d656e742e4f7065726174696f6e616c4c696d6974732e4f7065726174696f6e616c4c696d697454797065),
  (0x43494d31342e454e54534f452e45717569706d656e742e5769726573, 0x42757362617253656374696f6e, 0x43494d31342e454e54534f452e45717569706d656e742e57697265732e42757362617253656374696f6e),
  (0x43494d31342e454e54534f452e45717569706d656e742e5769726573, 0x4c6f6164427265616b537769746368, 0x43494d31342e454e54534f452e45717569706d656e742e57697265732e4c6f6164427265616b537769746368),
  (0x43494d31342e454e54534f452e45717569706d656e742e5769726573, 0x5461704368616e676572, 0x43494d31342e454e54534f452e45717569706d656e742e57697265732e5461704368616e676572),
  (0x43494d31342e454e54534f452e45717569706d656e742e5769726573, 0x5472616e73666f726d657257696e64696e67, 0x43494d31342e454e54534f452e45717569706d656e742e57697265732e5472616e73666f726d657257696e64696e67),
  (0x43494d31342e454e54534f452e45717569706d656e742e5769726573, 0x526567756c6174696e67436f6e74726f6c, 0x43494d31342e454e54534f452e45717569706d656e742e57697265732e526567756c6174696e67436f6e74726f6c),
  (0x43494d31342e454e54534f452e45717569706d656e742e5769726573, 0x52656163746976654361706162696c6974794375727665, 0x43494d31342e454e54534f452e45717569706d656e742e57697265732e52656163746976654361706162696c6974794375727665),
  (0x43494d31342e454e54534f452e45717569706d656e742e5769726573, 0x41434c696e655365676d656e74, 0x43494d31342e454e54534f452e45717569706d656e742e57697265732e41434c696e655365676d656e74),
  (0x43494d31342e454e54534f452e45717569706d656e742e5769726573, 0x446973636f6e6e6563746f72, 0x43494d31342e454e54534f452e45717569706d656e742e57697265732e446973636f6e6e6563746f72),
  (0x43494d31342e454e54534f452e45717569706d656e742e5769726573, 0x50686173655461704368616e676572, 0x43494d31342e454e54534f452e45717569706d656e742e57697265732e50686173655461704368616e676572),
  (0x43494d31342e454e54534f452e45717569706d656e742e5769726573, 0x536572696573436f6d70656e7361746f72, 0x43494d31342e454e54534f452e45717569706d656e742e57697265732e536572696573436f6d70656e7361746f72),
  (0x43494d31342e454e54534f452e45717569706d656e742e5769726573, 0x4d757475616c436f75706c696e67, 0x43494d31342e454e54534f452e45717569706d656e742e57697265732e4d757475616c436f75706c696e67),
  (0x43494d31342e454e54534f452e45717569706d656e742e5769726573, 0x53796e6368726f6e6f75734d616368696e65, 0x43494d31342e454e54534f452e45717569706d656e742e57697265732e53796e6368726f6e6f75734d616368696e65),
  (0x43494d31342e454e54534f452e45717569706d656e742e5769726573, 0x526174696f5461704368616e676572, 0x43494d31342e454e54534f452e45717569706d656e742e57697265732e526174696f5461704368616e676572),
  (0x43494d31342e454e54534f452e45717569706d656e742e5769726573, 0x506f7765725472616e73666f726d6572, 0x43494d31342e454e54534f452e45717569706d656e742e57697265732e506f7765725472616e73666f726d6572),
  (0x43494d31342e454e54534f452e45717569706d656e742e5769726573, 0x456e65726779436f6e73756d6572, 0x43494d31342e454e54534f452e45717569706d656e742e57697265732e456e65726779436f6e73756d6572),
  (0x43494d31342e454e54534f452e45717569706d656e742e5769726573, 0x537769746368, 0x43494d31342e454e54534f452e45717569706d656e742e57697265732e537769746368),
  (0x43494d31342e454e54534f452e45717569706d656e742e5769726573, 0x526567756c6174696e67436f6e644571, 0x43494d31342e454e54534f452e45717569706d656e742e57697265732e526567756c6174696e67436f6e644571),
  (0x43494d31342e454e54534f452e45717569706d656e742e5769726573, 0x4c696e65, 0x43494d31342e454e54534f452e45717569706d656e742e57697265732e4c696e65),
  (0x43494d31342e454e54534f452e45717569706d656e742e5769726573, 0x537461746963566172436f6d70656e7361746f72, 0x43494d31342e454e54534f452e45717569706d656e742e57697265732e537461746963566172436f6d70656e7361746f72),
  (0x43494d31342e454e54534f452e45717569706d656e742e5769726573, 0x5368756e74436f6d70656e7361746f72, 0x43494d31342e454e54534f452e45717569706d656e742e57697265732e5368756e74436f6d70656e7361746f72),
  (0x43494d31342e454e54534f452e45717569706d656e742e5769726573, 0x427265616b6572, 0x43494d31342e454e54534f452e45717569706d656e742e57697265732e427265616b6572),
  (0x43494d31342e454e54534f452e45717569706d656e742e5769726573, 0x436f6e647563746f72, 0x43494d31342e454e54534f452e45717569706d656e742e57697265732e436f6e647563746f72)]

def pkg : RPkg := ⟨0x43494d31342e454e54534f452e45717569706d656e74, classes, pmap, exports⟩

end Verif.Gen.CIM14_ENTSOE_Equipment
