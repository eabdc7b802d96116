import Verif.Spec.Schema
/-! Generated by tools/ecore.py from /repo/Model/CIM14/CPSM/Equipment.ecore: do not edit. -/
namespace Verif.Gen.Model_CIM14_CPSM_Equipment
open Spec
set_option maxRecDepth 10000

/-- Enumeration CIM14.CPSM.Equipment.ControlArea.ControlAreaTypeKind -/
def e_ControlAreaTypeKind : SType := .enum 0x436f6e74726f6c41726561547970654b696e64 [0x496e7465726368616e6765, 0x466f726563617374, 0x414743]
/-- Enumeration CIM14.CPSM.Equipment.Core.CurveStyle -/
def e_CurveStyle : SType := .enum 0x43757276655374796c65 [0x73747261696768744c696e655956616c756573, 0x72616d705956616c7565, 0x636f6e7374616e745956616c7565, 0x666f726d756c61]
/-- Enumeration CIM14.CPSM.Equipment.Domain.UnitSymbol -/
def e_UnitSymbol : SType := .enum 0x556e697453796d626f6c [0x41, 0x726164, 0x6e6f6e65, 0x67, 0x572f487a, 0x56, 0x6d32, 0x5641, 0x56417268, 0x4e, 0x5061, 0x564168, 0x46, 0x48, 0x487a2d31, 0x572f73, 0x4a, 0x6d, 0x53, 0x6d696e, 0x646567, 0x4a2f73, 0x73, 0x5768, 0x6d33, 0xba43, 0x562f564172, 0x732d31, 0x68, 0x57, 0x6f686d, 0x487a, 0x564172, 0x6b672f4a]
/-- Enumeration CIM14.CPSM.Equipment.Generation.Production.FuelType -/
def e_FuelType : SType := .enum 0x4675656c54797065 [0x6f696c, 0x636f616c, 0x6c69676e697465, 0x676173]
/-- Enumeration CIM14.CPSM.Equipment.Generation.Production.GeneratorControlSource -/
def e_GeneratorControlSource : SType := .enum 0x47656e657261746f72436f6e74726f6c536f75726365 [0x6f6e414743, 0x756e617661696c61626c65, 0x706c616e74436f6e74726f6c, 0x6f6666414743]
/-- Enumeration CIM14.CPSM.Equipment.LoadModel.SeasonName -/
def e_SeasonName : SType := .enum 0x536561736f6e4e616d65 [0x66616c6c, 0x77696e746572, 0x737072696e67, 0x73756d6d6572]
/-- Enumeration CIM14.CPSM.Equipment.OperationalLimits.OperationalLimitDirectionKind -/
def e_OperationalLimitDirectionKind : SType := .enum 0x4f7065726174696f6e616c4c696d6974446972656374696f6e4b696e64 [0x68696768, 0x6162736f6c75746556616c7565, 0x6c6f77]
/-- Enumeration CIM14.CPSM.Equipment.Wires.PhaseTapChangerKind -/
def e_PhaseTapChangerKind : SType := .enum 0x50686173655461704368616e6765724b696e64 [0x6173796d6d6574726963616c, 0x73796d6d6574726963616c, 0x756e6b6e6f776e]
/-- Enumeration CIM14.CPSM.Equipment.Wires.RegulatingControlModeKind -/
def e_RegulatingControlModeKind : SType := .enum 0x526567756c6174696e67436f6e74726f6c4d6f64654b696e64 [0x7265616374697665506f776572, 0x74696d655363686564756c6564, 0x766f6c74616765, 0x616374697665506f776572, 0x63757272656e74466c6f77, 0x6669786564, 0x74656d7065726174757265, 0x706f776572466163746f72, 0x61646d697474616e6365]
/-- Enumeration CIM14.CPSM.Equipment.Wires.SVCControlMode -/
def e_SVCControlMode : SType := .enum 0x535643436f6e74726f6c4d6f6465 [0x766f6c74616765, 0x7265616374697665506f776572, 0x6f6666]
/-- Enumeration CIM14.CPSM.Equipment.Wires.SynchronousMachineOperatingMode -/
def e_SynchronousMachineOperatingMode : SType := .enum 0x53796e6368726f6e6f75734d616368696e654f7065726174696e674d6f6465 [0x636f6e64656e736572, 0x67656e657261746f72]
/-- Enumeration CIM14.CPSM.Equipment.Wires.SynchronousMachineType -/
def e_SynchronousMachineType : SType := .enum 0x53796e6368726f6e6f75734d616368696e6554797065 [0x636f6e64656e736572, 0x67656e657261746f725f6f725f636f6e64656e736572, 0x67656e657261746f72]
/-- Enumeration CIM14.CPSM.Equipment.Wires.TransformerControlMode -/
def e_TransformerControlMode : SType := .enum 0x5472616e73666f726d6572436f6e74726f6c4d6f6465 [0x7265616374697665, 0x766f6c74]
/-- Enumeration CIM14.CPSM.Equipment.Wires.WindingConnection -/
def e_WindingConnection : SType := .enum 0x57696e64696e67436f6e6e656374696f6e [0x49, 0x596e, 0x5a, 0x59, 0x41, 0x44, 0x5a6e]
/-- Enumeration CIM14.CPSM.Equipment.Wires.WindingType -/
def e_WindingType : SType := .enum 0x57696e64696e6754797065 [0x7465727469617279, 0x7072696d617279, 0x7365636f6e64617279]
/-- Data type with values of EBoolean -/
def t_EBoolean : SType := .prim 0x45426f6f6c65616e
/-- Data type with values of EFloat -/
def t_EFloat : SType := .prim 0x45466c6f6174
/-- Data type with values of EInt -/
def t_EInt : SType := .prim 0x45496e74
/-- Data type with values of EString -/
def t_EString : SType := .prim 0x45537472696e67
/-- Data type with values of float -/
def t_float : SType := .prim 0x666c6f6174
/-- Data type with values of java.util.Date -/
def t_java_util_Date : SType := .prim 0x6a6176612e7574696c2e44617465

/-- Class CIM14.CPSM.Equipment.ControlArea.ControlArea -/
def s_ControlArea : SClass := ⟨0x436f6e74726f6c41726561, 0x43494d31342e4350534d2e45717569706d656e742e436f6e74726f6c417265612e436f6e74726f6c41726561, 0x43494d31342e4350534d2e45717569706d656e742e436f72652e506f77657253797374656d5265736f75726365,
  [(0x6e6574496e7465726368616e6765, t_float), (0x74797065, e_ControlAreaTypeKind), (0x70546f6c6572616e6365, t_float)],
  [⟨0x436f6e74726f6c4172656147656e65726174696e67556e6974, 0x43494d31342e4350534d2e45717569706d656e742e436f6e74726f6c417265612e436f6e74726f6c4172656147656e65726174696e67556e6974, true, 0x436f6e74726f6c41726561⟩, ⟨0x456e6572677941726561, 0x43494d31342e4350534d2e45717569706d656e742e4c6f61644d6f64656c2e456e6572677941726561, false, 0x436f6e74726f6c41726561⟩, ⟨0x546965466c6f77, 0x43494d31342e4350534d2e45717569706d656e742e436f6e74726f6c417265612e546965466c6f77, true, 0x436f6e74726f6c41726561⟩]⟩
/-- Class CIM14.CPSM.Equipment.ControlArea.ControlAreaGeneratingUnit -/
def s_ControlAreaGeneratingUnit : SClass := ⟨0x436f6e74726f6c4172656147656e65726174696e67556e6974, 0x43494d31342e4350534d2e45717569706d656e742e436f6e74726f6c417265612e436f6e74726f6c4172656147656e65726174696e67556e6974, 0x43494d31342e4350534d2e45717569706d656e742e456c656d656e74,
  [],
  [⟨0x436f6e74726f6c41726561, 0x43494d31342e4350534d2e45717569706d656e742e436f6e74726f6c417265612e436f6e74726f6c41726561, false, 0x436f6e74726f6c4172656147656e65726174696e67556e6974⟩, ⟨0x47656e65726174696e67556e6974, 0x43494d31342e4350534d2e45717569706d656e742e47656e65726174696f6e2e50726f64756374696f6e2e47656e65726174696e67556e6974, false, 0x436f6e74726f6c4172656147656e65726174696e67556e6974⟩]⟩
/-- Class CIM14.CPSM.Equipment.ControlArea.TieFlow -/
def s_TieFlow : SClass := ⟨0x546965466c6f77, 0x43494d31342e4350534d2e45717569706d656e742e436f6e74726f6c417265612e546965466c6f77, 0x43494d31342e4350534d2e45717569706d656e742e456c656d656e74,
  [(0x706f736974697665466c6f77496e, t_EBoolean)],
  [⟨0x436f6e74726f6c41726561, 0x43494d31342e4350534d2e45717569706d656e742e436f6e74726f6c417265612e436f6e74726f6c41726561, false, 0x546965466c6f77⟩, ⟨0x5465726d696e616c, 0x43494d31342e4350534d2e45717569706d656e742e436f72652e5465726d696e616c, false, 0x546965466c6f77⟩]⟩
/-- Class CIM14.CPSM.Equipment.Core.BaseVoltage -/
def s_BaseVoltage : SClass := ⟨0x42617365566f6c74616765, 0x43494d31342e4350534d2e45717569706d656e742e436f72652e42617365566f6c74616765, 0x43494d31342e4350534d2e45717569706d656e742e436f72652e4964656e7469666965644f626a656374,
  [(0x6e6f6d696e616c566f6c74616765, t_float)],
  [⟨0x436f6e64756374696e6745717569706d656e74, 0x43494d31342e4350534d2e45717569706d656e742e436f72652e436f6e64756374696e6745717569706d656e74, true, 0x42617365566f6c74616765⟩, ⟨0x566f6c746167654c6576656c, 0x43494d31342e4350534d2e45717569706d656e742e436f72652e566f6c746167654c6576656c, true, 0x42617365566f6c74616765⟩]⟩
/-- Class CIM14.CPSM.Equipment.Core.BasicIntervalSchedule -/
def s_BasicIntervalSchedule : SClass := ⟨0x4261736963496e74657276616c5363686564756c65, 0x43494d31342e4350534d2e45717569706d656e742e436f72652e4261736963496e74657276616c5363686564756c65, 0x43494d31342e4350534d2e45717569706d656e742e436f72652e4964656e7469666965644f626a656374,
  [(0x737461727454696d65, t_java_util_Date), (0x76616c756531556e6974, e_UnitSymbol), (0x76616c756532556e6974, e_UnitSymbol)],
  []⟩
/-- Class CIM14.CPSM.Equipment.Core.Bay -/
def s_Bay : SClass := ⟨0x426179, 0x43494d31342e4350534d2e45717569706d656e742e436f72652e426179, 0x43494d31342e4350534d2e45717569706d656e742e436f72652e45717569706d656e74436f6e7461696e6572,
  [],
  [⟨0x566f6c746167654c6576656c, 0x43494d31342e4350534d2e45717569706d656e742e436f72652e566f6c746167654c6576656c, false, 0x42617973⟩]⟩
/-- Class CIM14.CPSM.Equipment.Core.ConductingEquipment -/
def s_ConductingEquipment : SClass := ⟨0x436f6e64756374696e6745717569706d656e74, 0x43494d31342e4350534d2e45717569706d656e742e436f72652e436f6e64756374696e6745717569706d656e74, 0x43494d31342e4350534d2e45717569706d656e742e436f72652e45717569706d656e74,
  [],
  [⟨0x5465726d696e616c73, 0x43494d31342e4350534d2e45717569706d656e742e436f72652e5465726d696e616c, true, 0x436f6e64756374696e6745717569706d656e74⟩, ⟨0x42617365566f6c74616765, 0x43494d31342e4350534d2e45717569706d656e742e436f72652e42617365566f6c74616765, false, 0x436f6e64756374696e6745717569706d656e74⟩]⟩
/-- Class CIM14.CPSM.Equipment.Core.ConnectivityNode -/
def s_ConnectivityNode : SClass := ⟨0x436f6e6e65637469766974794e6f6465, 0x43494d31342e4350534d2e45717569706d656e742e436f72652e436f6e6e65637469766974794e6f6465, 0x43494d31342e4350534d2e45717569706d656e742e436f72652e4964656e7469666965644f626a656374,
  [],
  [⟨0x5465726d696e616c73, 0x43494d31342e4350534d2e45717569706d656e742e436f72652e5465726d696e616c, true, 0x436f6e6e65637469766974794e6f6465⟩, ⟨0x436f6e6e65637469766974794e6f6465436f6e7461696e6572, 0x43494d31342e4350534d2e45717569706d656e742e436f72652e436f6e6e65637469766974794e6f6465436f6e7461696e6572, false, 0x436f6e6e65637469766974794e6f646573⟩]⟩
/-- Class CIM14.CPSM.Equipment.Core.ConnectivityNodeContainer -/
def s_ConnectivityNodeContainer : SClass := ⟨0x436f6e6e65637469766974794e6f6465436f6e7461696e6572, 0x43494d31342e4350534d2e45717569706d656e742e436f72652e436f6e6e65637469766974794e6f6465436f6e7461696e6572, 0x43494d31342e4350534d2e45717569706d656e742e436f72652e506f77657253797374656d5265736f75726365,
  [],
  [⟨0x436f6e6e65637469766974794e6f646573, 0x43494d31342e4350534d2e45717569706d656e742e436f72652e436f6e6e65637469766974794e6f6465, true, 0x436f6e6e65637469766974794e6f6465436f6e7461696e6572⟩]⟩
/-- Class CIM14.CPSM.Equipment.Core.Curve -/
def s_Curve : SClass := ⟨0x4375727665, 0x43494d31342e4350534d2e45717569706d656e742e436f72652e4375727665, 0x43494d31342e4350534d2e45717569706d656e742e436f72652e4964656e7469666965644f626a656374,
  [(0x7931556e6974, e_UnitSymbol), (0x7932556e6974, e_UnitSymbol), (0x7933556e6974, e_UnitSymbol), (0x63757276655374796c65, e_CurveStyle), (0x78556e6974, e_UnitSymbol)],
  [⟨0x43757276654461746173, 0x43494d31342e4350534d2e45717569706d656e742e436f72652e437572766544617461, true, 0x4375727665⟩]⟩
/-- Class CIM14.CPSM.Equipment.Core.CurveData -/
def s_CurveData : SClass := ⟨0x437572766544617461, 0x43494d31342e4350534d2e45717569706d656e742e436f72652e437572766544617461, 0x43494d31342e4350534d2e45717569706d656e742e456c656d656e74,
  [(0x793176616c7565, t_EFloat), (0x7876616c7565, t_EFloat), (0x793376616c7565, t_EFloat), (0x793276616c7565, t_EFloat)],
  [⟨0x4375727665, 0x43494d31342e4350534d2e45717569706d656e742e436f72652e4375727665, false, 0x43757276654461746173⟩]⟩
/-- Class CIM14.CPSM.Equipment.Core.Equipment -/
def s_Equipment : SClass := ⟨0x45717569706d656e74, 0x43494d31342e4350534d2e45717569706d656e742e436f72652e45717569706d656e74, 0x43494d31342e4350534d2e45717569706d656e742e436f72652e506f77657253797374656d5265736f75726365,
  [(0x616767726567617465, t_EBoolean)],
  [⟨0x4f7065726174696f6e616c4c696d6974536574, 0x43494d31342e4350534d2e45717569706d656e742e4f7065726174696f6e616c4c696d6974732e4f7065726174696f6e616c4c696d6974536574, true, 0x45717569706d656e74⟩, ⟨0x45717569706d656e74436f6e7461696e6572, 0x43494d31342e4350534d2e45717569706d656e742e436f72652e45717569706d656e74436f6e7461696e6572, false, 0x45717569706d656e7473⟩]⟩
/-- Class CIM14.CPSM.Equipment.Core.EquipmentContainer -/
def s_EquipmentContainer : SClass := ⟨0x45717569706d656e74436f6e7461696e6572, 0x43494d31342e4350534d2e45717569706d656e742e436f72652e45717569706d656e74436f6e7461696e6572, 0x43494d31342e4350534d2e45717569706d656e742e436f72652e436f6e6e65637469766974794e6f6465436f6e7461696e6572,
  [],
  [⟨0x45717569706d656e7473, 0x43494d31342e4350534d2e45717569706d656e742e436f72652e45717569706d656e74, true, 0x45717569706d656e74436f6e7461696e6572⟩]⟩
/-- Class CIM14.CPSM.Equipment.Core.GeographicalRegion -/
def s_GeographicalRegion : SClass := ⟨0x47656f67726170686963616c526567696f6e, 0x43494d31342e4350534d2e45717569706d656e742e436f72652e47656f67726170686963616c526567696f6e, 0x43494d31342e4350534d2e45717569706d656e742e436f72652e4964656e7469666965644f626a656374,
  [],
  [⟨0x526567696f6e73, 0x43494d31342e4350534d2e45717569706d656e742e436f72652e53756247656f67726170686963616c526567696f6e, true, 0x526567696f6e⟩]⟩
/-- Class CIM14.CPSM.Equipment.Core.IdentifiedObject -/
def s_IdentifiedObject : SClass := ⟨0x4964656e7469666965644f626a656374, 0x43494d31342e4350534d2e45717569706d656e742e436f72652e4964656e7469666965644f626a656374, 0x43494d31342e4350534d2e45717569706d656e742e456c656d656e74,
  [(0x6465736372697074696f6e, t_EString), (0x6e616d65, t_EString), (0x616c6961734e616d65, t_EString), (0x706174684e616d65, t_EString)],
  []⟩
/-- Class CIM14.CPSM.Equipment.Core.PowerSystemResource -/
def s_PowerSystemResource : SClass := ⟨0x506f77657253797374656d5265736f75726365, 0x43494d31342e4350534d2e45717569706d656e742e436f72652e506f77657253797374656d5265736f75726365, 0x43494d31342e4350534d2e45717569706d656e742e436f72652e4964656e7469666965644f626a656374,
  [],
  [⟨0x4d6561737572656d656e7473, 0x43494d31342e4350534d2e45717569706d656e742e4d6561732e4d6561737572656d656e74, true, 0x506f77657253797374656d5265736f75726365⟩]⟩
/-- Class CIM14.CPSM.Equipment.Core.RegularIntervalSchedule -/
def s_RegularIntervalSchedule : SClass := ⟨0x526567756c6172496e74657276616c5363686564756c65, 0x43494d31342e4350534d2e45717569706d656e742e436f72652e526567756c6172496e74657276616c5363686564756c65, 0x43494d31342e4350534d2e45717569706d656e742e436f72652e4261736963496e74657276616c5363686564756c65,
  [(0x74696d6553746570, t_float), (0x656e6454696d65, t_java_util_Date)],
  [⟨0x54696d65506f696e7473, 0x43494d31342e4350534d2e45717569706d656e742e436f72652e526567756c617254696d65506f696e74, true, 0x496e74657276616c5363686564756c65⟩]⟩
/-- Class CIM14.CPSM.Equipment.Core.RegularTimePoint -/
def s_RegularTimePoint : SClass := ⟨0x526567756c617254696d65506f696e74, 0x43494d31342e4350534d2e45717569706d656e742e436f72652e526567756c617254696d65506f696e74, 0x43494d31342e4350534d2e45717569706d656e742e456c656d656e74,
  [(0x73657175656e63654e756d626572, t_EInt), (0x76616c756531, t_EFloat), (0x76616c756532, t_EFloat)],
  [⟨0x496e74657276616c5363686564756c65, 0x43494d31342e4350534d2e45717569706d656e742e436f72652e526567756c6172496e74657276616c5363686564756c65, false, 0x54696d65506f696e7473⟩]⟩
/-- Class CIM14.CPSM.Equipment.Core.SubGeographicalRegion -/
def s_SubGeographicalRegion : SClass := ⟨0x53756247656f67726170686963616c526567696f6e, 0x43494d31342e4350534d2e45717569706d656e742e436f72652e53756247656f67726170686963616c526567696f6e, 0x43494d31342e4350534d2e45717569706d656e742e436f72652e4964656e7469666965644f626a656374,
  [],
  [⟨0x526567696f6e, 0x43494d31342e4350534d2e45717569706d656e742e436f72652e47656f67726170686963616c526567696f6e, false, 0x526567696f6e73⟩, ⟨0x4c696e6573, 0x43494d31342e4350534d2e45717569706d656e742e57697265732e4c696e65, true, 0x526567696f6e⟩, ⟨0x53756273746174696f6e73, 0x43494d31342e4350534d2e45717569706d656e742e436f72652e53756273746174696f6e, true, 0x526567696f6e⟩]⟩
/-- Class CIM14.CPSM.Equipment.Core.Substation -/
def s_Substation : SClass := ⟨0x53756273746174696f6e, 0x43494d31342e4350534d2e45717569706d656e742e436f72652e53756273746174696f6e, 0x43494d31342e4350534d2e45717569706d656e742e436f72652e45717569706d656e74436f6e7461696e6572,
  [],
  [⟨0x526567696f6e, 0x43494d31342e4350534d2e45717569706d656e742e436f72652e53756247656f67726170686963616c526567696f6e, false, 0x53756273746174696f6e73⟩, ⟨0x566f6c746167654c6576656c73, 0x43494d31342e4350534d2e45717569706d656e742e436f72652e566f6c746167654c6576656c, true, 0x53756273746174696f6e⟩]⟩
/-- Class CIM14.CPSM.Equipment.Core.Terminal -/
def s_Terminal : SClass := ⟨0x5465726d696e616c, 0x43494d31342e4350534d2e45717569706d656e742e436f72652e5465726d696e616c, 0x43494d31342e4350534d2e45717569706d656e742e436f72652e4964656e7469666965644f626a656374,
  [(0x73657175656e63654e756d626572, t_EInt)],
  [⟨0x4f7065726174696f6e616c4c696d6974536574, 0x43494d31342e4350534d2e45717569706d656e742e4f7065726174696f6e616c4c696d6974732e4f7065726174696f6e616c4c696d6974536574, true, 0x5465726d696e616c⟩, ⟨0x436f6e64756374696e6745717569706d656e74, 0x43494d31342e4350534d2e45717569706d656e742e436f72652e436f6e64756374696e6745717569706d656e74, false, 0x5465726d696e616c73⟩, ⟨0x48617346697273745f4d757475616c436f75706c696e67, 0x43494d31342e4350534d2e45717569706d656e742e57697265732e4d757475616c436f75706c696e67, true, 0x46697273745f5465726d696e616c⟩, ⟨0x4d6561737572656d656e7473, 0x43494d31342e4350534d2e45717569706d656e742e4d6561732e4d6561737572656d656e74, true, 0x5465726d696e616c⟩, ⟨0x436f6e6e65637469766974794e6f6465, 0x43494d31342e4350534d2e45717569706d656e742e436f72652e436f6e6e65637469766974794e6f6465, false, 0x5465726d696e616c73⟩, ⟨0x526567756c6174696e67436f6e74726f6c, 0x43494d31342e4350534d2e45717569706d656e742e57697265732e526567756c6174696e67436f6e74726f6c, true, 0x5465726d696e616c⟩, ⟨0x546965466c6f77, 0x43494d31342e4350534d2e45717569706d656e742e436f6e74726f6c417265612e546965466c6f77, true, 0x5465726d696e616c⟩, ⟨0x4861735365636f6e645f4d757475616c436f75706c696e67, 0x43494d31342e4350534d2e45717569706d656e742e57697265732e4d757475616c436f75706c696e67, true, 0x5365636f6e645f5465726d696e616c⟩]⟩
/-- Class CIM14.CPSM.Equipment.Core.Unit -/
def s_Unit : SClass := ⟨0x556e6974, 0x43494d31342e4350534d2e45717569706d656e742e436f72652e556e6974, 0x43494d31342e4350534d2e45717569706d656e742e436f72652e4964656e7469666965644f626a656374,
  [],
  [⟨0x4d6561737572656d656e7473, 0x43494d31342e4350534d2e45717569706d656e742e4d6561732e4d6561737572656d656e74, true, 0x556e6974⟩]⟩
/-- Class CIM14.CPSM.Equipment.Core.VoltageLevel -/
def s_VoltageLevel : SClass := ⟨0x566f6c746167654c6576656c, 0x43494d31342e4350534d2e45717569706d656e742e436f72652e566f6c746167654c6576656c, 0x43494d31342e4350534d2e45717569706d656e742e436f72652e45717569706d656e74436f6e7461696e6572,
  [(0x6c6f77566f6c746167654c696d6974, t_float), (0x68696768566f6c746167654c696d6974, t_float)],
  [⟨0x42617365566f6c74616765, 0x43494d31342e4350534d2e45717569706d656e742e436f72652e42617365566f6c74616765, false, 0x566f6c746167654c6576656c⟩, ⟨0x42617973, 0x43494d31342e4350534d2e45717569706d656e742e436f72652e426179, true, 0x566f6c746167654c6576656c⟩, ⟨0x53756273746174696f6e, 0x43494d31342e4350534d2e45717569706d656e742e436f72652e53756273746174696f6e, false, 0x566f6c746167654c6576656c73⟩]⟩
/-- Class CIM14.CPSM.Equipment.Element -/
def s_Element : SClass := ⟨0x456c656d656e74, 0x43494d31342e4350534d2e45717569706d656e742e456c656d656e74, 0,
  [(0x55554944, t_EString)],
  []⟩
/-- Class CIM14.CPSM.Equipment.Equivalents.EquivalentBranch -/
def s_EquivalentBranch : SClass := ⟨0x4571756976616c656e744272616e6368, 0x43494d31342e4350534d2e45717569706d656e742e4571756976616c656e74732e4571756976616c656e744272616e6368, 0x43494d31342e4350534d2e45717569706d656e742e4571756976616c656e74732e4571756976616c656e7445717569706d656e74,
  [(0x72, t_float), (0x78, t_float)],
  []⟩
/-- Class CIM14.CPSM.Equipment.Equivalents.EquivalentEquipment -/
def s_EquivalentEquipment : SClass := ⟨0x4571756976616c656e7445717569706d656e74, 0x43494d31342e4350534d2e45717569706d656e742e4571756976616c656e74732e4571756976616c656e7445717569706d656e74, 0x43494d31342e4350534d2e45717569706d656e742e436f72652e436f6e64756374696e6745717569706d656e74,
  [],
  [⟨0x4571756976616c656e744e6574776f726b, 0x43494d31342e4350534d2e45717569706d656e742e4571756976616c656e74732e4571756976616c656e744e6574776f726b, false, 0x4571756976616c656e7445717569706d656e7473⟩]⟩
/-- Class CIM14.CPSM.Equipment.Equivalents.EquivalentInjection -/
def s_EquivalentInjection : SClass := ⟨0x4571756976616c656e74496e6a656374696f6e, 0x43494d31342e4350534d2e45717569706d656e742e4571756976616c656e74732e4571756976616c656e74496e6a656374696f6e, 0x43494d31342e4350534d2e45717569706d656e742e4571756976616c656e74732e4571756976616c656e7445717569706d656e74,
  [(0x726567756c6174696f6e4361706162696c697479, t_EBoolean), (0x6d617850, t_float), (0x726567756c6174696f6e537461747573, t_EBoolean), (0x6d696e50, t_float), (0x726567756c6174696f6e546172676574, t_float)],
  []⟩
/-- Class CIM14.CPSM.Equipment.Equivalents.EquivalentNetwork -/
def s_EquivalentNetwork : SClass := ⟨0x4571756976616c656e744e6574776f726b, 0x43494d31342e4350534d2e45717569706d656e742e4571756976616c656e74732e4571756976616c656e744e6574776f726b, 0x43494d31342e4350534d2e45717569706d656e742e436f72652e436f6e6e65637469766974794e6f6465436f6e7461696e6572,
  [],
  [⟨0x4571756976616c656e7445717569706d656e7473, 0x43494d31342e4350534d2e45717569706d656e742e4571756976616c656e74732e4571756976616c656e7445717569706d656e74, true, 0x4571756976616c656e744e6574776f726b⟩]⟩
/-- Class CIM14.CPSM.Equipment.Equivalents.EquivalentShunt -/
def s_EquivalentShunt : SClass := ⟨0x4571756976616c656e745368756e74, 0x43494d31342e4350534d2e45717569706d656e742e4571756976616c656e74732e4571756976616c656e745368756e74, 0x43494d31342e4350534d2e45717569706d656e742e4571756976616c656e74732e4571756976616c656e7445717569706d656e74,
  [(0x62, t_float), (0x67, t_float)],
  []⟩
/-- Class CIM14.CPSM.Equipment.Generation.Production.FossilFuel -/
def s_FossilFuel : SClass := ⟨0x466f7373696c4675656c, 0x43494d31342e4350534d2e45717569706d656e742e47656e65726174696f6e2e50726f64756374696f6e2e466f7373696c4675656c, 0x43494d31342e4350534d2e45717569706d656e742e436f72652e4964656e7469666965644f626a656374,
  [(0x666f7373696c4675656c54797065, e_FuelType)],
  [⟨0x546865726d616c47656e65726174696e67556e6974, 0x43494d31342e4350534d2e45717569706d656e742e47656e65726174696f6e2e50726f64756374696f6e2e546865726d616c47656e65726174696e67556e6974, false, 0x466f7373696c4675656c73⟩]⟩
/-- Class CIM14.CPSM.Equipment.Generation.Production.GeneratingUnit -/
def s_GeneratingUnit : SClass := ⟨0x47656e65726174696e67556e6974, 0x43494d31342e4350534d2e45717569706d656e742e47656e65726174696f6e2e50726f64756374696f6e2e47656e65726174696e67556e6974, 0x43494d31342e4350534d2e45717569706d656e742e436f72652e45717569706d656e74,
  [(0x6d61784f7065726174696e6750, t_float), (0x726174656447726f73734d617850, t_float), (0x7661726961626c65436f7374, t_float), (0x6d696e4f7065726174696e6750, t_float), (0x726174656447726f73734d696e50, t_float), (0x73686f72745046, t_EFloat), (0x72617465644e65744d617850, t_float), (0x6c6f6e675046, t_EFloat), (0x73746172747570436f7374, t_float), (0x67656e436f6e74726f6c536f75726365, e_GeneratorControlSource), (0x6e6f6d696e616c50, t_float), (0x676f7665726e6f72534344, t_float), (0x6d6178696d756d416c6c6f7761626c655370696e6e696e6752657365727665, t_float), (0x696e697469616c50, t_float), (0x6e6f726d616c5046, t_EFloat)],
  [⟨0x53796e6368726f6e6f75734d616368696e6573, 0x43494d31342e4350534d2e45717569706d656e742e57697265732e53796e6368726f6e6f75734d616368696e65, true, 0x47656e65726174696e67556e6974⟩, ⟨0x436f6e74726f6c4172656147656e65726174696e67556e6974, 0x43494d31342e4350534d2e45717569706d656e742e436f6e74726f6c417265612e436f6e74726f6c4172656147656e65726174696e67556e6974, true, 0x47656e65726174696e67556e6974⟩, ⟨0x47726f7373546f4e6574416374697665506f776572437572766573, 0x43494d31342e4350534d2e45717569706d656e742e47656e65726174696f6e2e50726f64756374696f6e2e47726f7373546f4e6574416374697665506f7765724375727665, true, 0x47656e65726174696e67556e6974⟩]⟩
/-- Class CIM14.CPSM.Equipment.Generation.Production.GrossToNetActivePowerCurve -/
def s_GrossToNetActivePowerCurve : SClass := ⟨0x47726f7373546f4e6574416374697665506f7765724375727665, 0x43494d31342e4350534d2e45717569706d656e742e47656e65726174696f6e2e50726f64756374696f6e2e47726f7373546f4e6574416374697665506f7765724375727665, 0x43494d31342e4350534d2e45717569706d656e742e436f72652e4375727665,
  [],
  [⟨0x47656e65726174696e67556e6974, 0x43494d31342e4350534d2e45717569706d656e742e47656e65726174696f6e2e50726f64756374696f6e2e47656e65726174696e67556e6974, false, 0x47726f7373546f4e6574416374697665506f776572437572766573⟩]⟩
/-- Class CIM14.CPSM.Equipment.Generation.Production.HydroGeneratingUnit -/
def s_HydroGeneratingUnit : SClass := ⟨0x487964726f47656e65726174696e67556e6974, 0x43494d31342e4350534d2e45717569706d656e742e47656e65726174696f6e2e50726f64756374696f6e2e487964726f47656e65726174696e67556e6974, 0x43494d31342e4350534d2e45717569706d656e742e47656e65726174696f6e2e50726f64756374696f6e2e47656e65726174696e67556e6974,
  [],
  []⟩
/-- Class CIM14.CPSM.Equipment.Generation.Production.HydroPump -/
def s_HydroPump : SClass := ⟨0x487964726f50756d70, 0x43494d31342e4350534d2e45717569706d656e742e47656e65726174696f6e2e50726f64756374696f6e2e487964726f50756d70, 0x43494d31342e4350534d2e45717569706d656e742e436f72652e506f77657253797374656d5265736f75726365,
  [],
  [⟨0x53796e6368726f6e6f75734d616368696e65, 0x43494d31342e4350534d2e45717569706d656e742e57697265732e53796e6368726f6e6f75734d616368696e65, false, 0x487964726f50756d70⟩]⟩
/-- Class CIM14.CPSM.Equipment.Generation.Production.NuclearGeneratingUnit -/
def s_NuclearGeneratingUnit : SClass := ⟨0x4e75636c65617247656e65726174696e67556e6974, 0x43494d31342e4350534d2e45717569706d656e742e47656e65726174696f6e2e50726f64756374696f6e2e4e75636c65617247656e65726174696e67556e6974, 0x43494d31342e4350534d2e45717569706d656e742e47656e65726174696f6e2e50726f64756374696f6e2e47656e65726174696e67556e6974,
  [],
  []⟩
/-- Class CIM14.CPSM.Equipment.Generation.Production.ThermalGeneratingUnit -/
def s_ThermalGeneratingUnit : SClass := ⟨0x546865726d616c47656e65726174696e67556e6974, 0x43494d31342e4350534d2e45717569706d656e742e47656e65726174696f6e2e50726f64756374696f6e2e546865726d616c47656e65726174696e67556e6974, 0x43494d31342e4350534d2e45717569706d656e742e47656e65726174696f6e2e50726f64756374696f6e2e47656e65726174696e67556e6974,
  [],
  [⟨0x466f7373696c4675656c73, 0x43494d31342e4350534d2e45717569706d656e742e47656e65726174696f6e2e50726f64756374696f6e2e466f7373696c4675656c, false, 0x546865726d616c47656e65726174696e67556e6974⟩]⟩
/-- Class CIM14.CPSM.Equipment.Generation.Production.WindGeneratingUnit -/
def s_WindGeneratingUnit : SClass := ⟨0x57696e6447656e65726174696e67556e6974, 0x43494d31342e4350534d2e45717569706d656e742e47656e65726174696f6e2e50726f64756374696f6e2e57696e6447656e65726174696e67556e6974, 0x43494d31342e4350534d2e45717569706d656e742e47656e65726174696f6e2e50726f64756374696f6e2e47656e65726174696e67556e6974,
  [],
  []⟩
/-- Class CIM14.CPSM.Equipment.IEC61970CIMVersion -/
def s_IEC61970CIMVersion : SClass := ⟨0x494543363139373043494d56657273696f6e, 0x43494d31342e4350534d2e45717569706d656e742e494543363139373043494d56657273696f6e, 0x43494d31342e4350534d2e45717569706d656e742e456c656d656e74,
  [(0x64617465, t_java_util_Date), (0x76657273696f6e, t_EString)],
  []⟩
/-- Class CIM14.CPSM.Equipment.LoadModel.ConformLoad -/
def s_ConformLoad : SClass := ⟨0x436f6e666f726d4c6f6164, 0x43494d31342e4350534d2e45717569706d656e742e4c6f61644d6f64656c2e436f6e666f726d4c6f6164, 0x43494d31342e4350534d2e45717569706d656e742e57697265732e456e65726779436f6e73756d6572,
  [],
  [⟨0x4c6f616447726f7570, 0x43494d31342e4350534d2e45717569706d656e742e4c6f61644d6f64656c2e436f6e666f726d4c6f616447726f7570, false, 0x456e65726779436f6e73756d657273⟩]⟩
/-- Class CIM14.CPSM.Equipment.LoadModel.ConformLoadGroup -/
def s_ConformLoadGroup : SClass := ⟨0x436f6e666f726d4c6f616447726f7570, 0x43494d31342e4350534d2e45717569706d656e742e4c6f61644d6f64656c2e436f6e666f726d4c6f616447726f7570, 0x43494d31342e4350534d2e45717569706d656e742e4c6f61644d6f64656c2e4c6f616447726f7570,
  [],
  [⟨0x456e65726779436f6e73756d657273, 0x43494d31342e4350534d2e45717569706d656e742e4c6f61644d6f64656c2e436f6e666f726d4c6f6164, true, 0x4c6f616447726f7570⟩, ⟨0x436f6e666f726d4c6f61645363686564756c6573, 0x43494d31342e4350534d2e45717569706d656e742e4c6f61644d6f64656c2e436f6e666f726d4c6f61645363686564756c65, true, 0x436f6e666f726d4c6f616447726f7570⟩]⟩
/-- Class CIM14.CPSM.Equipment.LoadModel.ConformLoadSchedule -/
def s_ConformLoadSchedule : SClass := ⟨0x436f6e666f726d4c6f61645363686564756c65, 0x43494d31342e4350534d2e45717569706d656e742e4c6f61644d6f64656c2e436f6e666f726d4c6f61645363686564756c65, 0x43494d31342e4350534d2e45717569706d656e742e4c6f61644d6f64656c2e536561736f6e446179547970655363686564756c65,
  [],
  [⟨0x436f6e666f726d4c6f616447726f7570, 0x43494d31342e4350534d2e45717569706d656e742e4c6f61644d6f64656c2e436f6e666f726d4c6f616447726f7570, false, 0x436f6e666f726d4c6f61645363686564756c6573⟩]⟩
/-- Class CIM14.CPSM.Equipment.LoadModel.DayType -/
def s_DayType : SClass := ⟨0x44617954797065, 0x43494d31342e4350534d2e45717569706d656e742e4c6f61644d6f64656c2e44617954797065, 0x43494d31342e4350534d2e45717569706d656e742e436f72652e4964656e7469666965644f626a656374,
  [],
  [⟨0x536561736f6e446179547970655363686564756c6573, 0x43494d31342e4350534d2e45717569706d656e742e4c6f61644d6f64656c2e536561736f6e446179547970655363686564756c65, true, 0x44617954797065⟩]⟩
/-- Class CIM14.CPSM.Equipment.LoadModel.EnergyArea -/
def s_EnergyArea : SClass := ⟨0x456e6572677941726561, 0x43494d31342e4350534d2e45717569706d656e742e4c6f61644d6f64656c2e456e6572677941726561, 0x43494d31342e4350534d2e45717569706d656e742e436f72652e4964656e7469666965644f626a656374,
  [],
  [⟨0x436f6e74726f6c41726561, 0x43494d31342e4350534d2e45717569706d656e742e436f6e74726f6c417265612e436f6e74726f6c41726561, false, 0x456e6572677941726561⟩]⟩
/-- Class CIM14.CPSM.Equipment.LoadModel.LoadArea -/
def s_LoadArea : SClass := ⟨0x4c6f616441726561, 0x43494d31342e4350534d2e45717569706d656e742e4c6f61644d6f64656c2e4c6f616441726561, 0x43494d31342e4350534d2e45717569706d656e742e4c6f61644d6f64656c2e456e6572677941726561,
  [],
  [⟨0x5375624c6f61644172656173, 0x43494d31342e4350534d2e45717569706d656e742e4c6f61644d6f64656c2e5375624c6f616441726561, true, 0x4c6f616441726561⟩]⟩
/-- Class CIM14.CPSM.Equipment.LoadModel.LoadGroup -/
def s_LoadGroup : SClass := ⟨0x4c6f616447726f7570, 0x43494d31342e4350534d2e45717569706d656e742e4c6f61644d6f64656c2e4c6f616447726f7570, 0x43494d31342e4350534d2e45717569706d656e742e436f72652e4964656e7469666965644f626a656374,
  [],
  [⟨0x5375624c6f616441726561, 0x43494d31342e4350534d2e45717569706d656e742e4c6f61644d6f64656c2e5375624c6f616441726561, false, 0x4c6f616447726f757073⟩]⟩
/-- Class CIM14.CPSM.Equipment.LoadModel.LoadResponseCharacteristic -/
def s_LoadResponseCharacteristic : SClass := ⟨0x4c6f6164526573706f6e73654368617261637465726973746963, 0x43494d31342e4350534d2e45717569706d656e742e4c6f61644d6f64656c2e4c6f6164526573706f6e73654368617261637465726973746963, 0x43494d31342e4350534d2e45717569706d656e742e436f72652e4964656e7469666965644f626a656374,
  [(0x70566f6c746167654578706f6e656e74, t_EFloat), (0x71436f6e7374616e7443757272656e74, t_EFloat), (0x704672657175656e63794578706f6e656e74, t_EFloat), (0x6578706f6e656e744d6f64656c, t_EBoolean), (0x71436f6e7374616e74496d706564616e6365, t_EFloat), (0x70436f6e7374616e7443757272656e74, t_EFloat), (0x714672657175656e63794578706f6e656e74, t_EFloat), (0x70436f6e7374616e74506f776572, t_EFloat), (0x71566f6c746167654578706f6e656e74, t_EFloat), (0x71436f6e7374616e74506f776572, t_EFloat), (0x70436f6e7374616e74496d706564616e6365, t_EFloat)],
  [⟨0x456e65726779436f6e73756d6572, 0x43494d31342e4350534d2e45717569706d656e742e57697265732e456e65726779436f6e73756d6572, true, 0x4c6f6164526573706f6e7365⟩]⟩
/-- Class CIM14.CPSM.Equipment.LoadModel.NonConformLoad -/
def s_NonConformLoad : SClass := ⟨0x4e6f6e436f6e666f726d4c6f6164, 0x43494d31342e4350534d2e45717569706d656e742e4c6f61644d6f64656c2e4e6f6e436f6e666f726d4c6f6164, 0x43494d31342e4350534d2e45717569706d656e742e57697265732e456e65726779436f6e73756d6572,
  [],
  [⟨0x4c6f616447726f7570, 0x43494d31342e4350534d2e45717569706d656e742e4c6f61644d6f64656c2e4e6f6e436f6e666f726d4c6f616447726f7570, false, 0x456e65726779436f6e73756d657273⟩]⟩
/-- Class CIM14.CPSM.Equipment.LoadModel.NonConformLoadGroup -/
def s_NonConformLoadGroup : SClass := ⟨0x4e6f6e436f6e666f726d4c6f616447726f7570, 0x43494d31342e4350534d2e45717569706d656e742e4c6f61644d6f64656c2e4e6f6e436f6e666f726d4c6f616447726f7570, 0x43494d31342e4350534d2e45717569706d656e742e4c6f61644d6f64656c2e4c6f616447726f7570,
  [],
  [⟨0x4e6f6e436f6e666f726d4c6f61645363686564756c6573, 0x43494d31342e4350534d2e45717569706d656e742e4c6f61644d6f64656c2e4e6f6e436f6e666f726d4c6f61645363686564756c65, true, 0x4e6f6e436f6e666f726d4c6f616447726f7570⟩, ⟨0x456e65726779436f6e73756d657273, 0x43494d31342e4350534d2e45717569706d656e742e4c6f61644d6f64656c2e4e6f6e436f6e666f726d4c6f6164, true, 0x4c6f616447726f7570⟩]⟩
/-- Class CIM14.CPSM.Equipment.LoadModel.NonConformLoadSchedule -/
def s_NonConformLoadSchedule : SClass := ⟨0x4e6f6e436f6e666f726d4c6f61645363686564756c65, 0x43494d31342e4350534d2e45717569706d656e742e4c6f61644d6f64656c2e4e6f6e436f6e666f726d4c6f61645363686564756c65, 0x43494d31342e4350534d2e45717569706d656e742e4c6f61644d6f64656c2e536561736f6e446179547970655363686564756c65,
  [],
  [⟨0x4e6f6e436f6e666f726d4c6f616447726f7570, 0x43494d31342e4350534d2e45717569706d656e742e4c6f61644d6f64656c2e4e6f6e436f6e666f726d4c6f616447726f7570, false, 0x4e6f6e436f6e666f726d4c6f61645363686564756c6573⟩]⟩
/-- Class CIM14.CPSM.Equipment.LoadModel.Season -/
def s_Season : SClass := ⟨0x536561736f6e, 0x43494d31342e4350534d2e45717569706d656e742e4c6f61644d6f64656c2e536561736f6e, 0x43494d31342e4350534d2e45717569706d656e742e456c656d656e74,
  [(0x737461727444617465, t_java_util_Date), (0x656e6444617465, t_java_util_Date), (0x6e616d65, e_SeasonName)],
  [⟨0x536561736f6e446179547970655363686564756c6573, 0x43494d31342e4350534d2e45717569706d656e742e4c6f61644d6f64656c2e536561736f6e446179547970655363686564756c65, true, 0x536561736f6e⟩]⟩
/-- Class CIM14.CPSM.Equipment.LoadModel.SeasonDayTypeSchedule -/
def s_SeasonDayTypeSchedule : SClass := ⟨0x536561736f6e446179547970655363686564756c65, 0x43494d31342e4350534d2e45717569706d656e742e4c6f61644d6f64656c2e536561736f6e446179547970655363686564756c65, 0x43494d31342e4350534d2e45717569706d656e742e436f72652e526567756c6172496e74657276616c5363686564756c65,
  [],
  [⟨0x44617954797065, 0x43494d31342e4350534d2e45717569706d656e742e4c6f61644d6f64656c2e44617954797065, false, 0x536561736f6e446179547970655363686564756c6573⟩, ⟨0x536561736f6e, 0x43494d31342e4350534d2e45717569706d656e742e4c6f61644d6f64656c2e536561736f6e, false, 0x536561736f6e446179547970655363686564756c6573⟩]⟩
/-- Class CIM14.CPSM.Equipment.LoadModel.StationSupply -/
def s_StationSupply : SClass := ⟨0x53746174696f6e537570706c79, 0x43494d31342e4350534d2e45717569706d656e742e4c6f61644d6f64656c2e53746174696f6e537570706c79, 0x43494d31342e4350534d2e45717569706d656e742e57697265732e456e65726779436f6e73756d6572,
  [],
  []⟩
/-- Class CIM14.CPSM.Equipment.LoadModel.SubLoadArea -/
def s_SubLoadArea : SClass := ⟨0x5375624c6f616441726561, 0x43494d31342e4350534d2e45717569706d656e742e4c6f61644d6f64656c2e5375624c6f616441726561, 0x43494d31342e4350534d2e45717569706d656e742e4c6f61644d6f64656c2e456e6572677941726561,
  [],
  [⟨0x4c6f616447726f757073, 0x43494d31342e4350534d2e45717569706d656e742e4c6f61644d6f64656c2e4c6f616447726f7570, true, 0x5375624c6f616441726561⟩, ⟨0x4c6f616441726561, 0x43494d31342e4350534d2e45717569706d656e742e4c6f61644d6f64656c2e4c6f616441726561, false, 0x5375624c6f61644172656173⟩]⟩
/-- Class CIM14.CPSM.Equipment.Meas.Accumulator -/
def s_Accumulator : SClass := ⟨0x416363756d756c61746f72, 0x43494d31342e4350534d2e45717569706d656e742e4d6561732e416363756d756c61746f72, 0x43494d31342e4350534d2e45717569706d656e742e4d6561732e4d6561737572656d656e74,
  [],
  [⟨0x416363756d756c61746f7256616c756573, 0x43494d31342e4350534d2e45717569706d656e742e4d6561732e416363756d756c61746f7256616c7565, true, 0x416363756d756c61746f72⟩]⟩
/-- Class CIM14.CPSM.Equipment.Meas.AccumulatorValue -/
def s_AccumulatorValue : SClass := ⟨0x416363756d756c61746f7256616c7565, 0x43494d31342e4350534d2e45717569706d656e742e4d6561732e416363756d756c61746f7256616c7565, 0x43494d31342e4350534d2e45717569706d656e742e4d6561732e4d6561737572656d656e7456616c7565,
  [],
  [⟨0x416363756d756c61746f72, 0x43494d31342e4350534d2e45717569706d656e742e4d6561732e416363756d756c61746f72, false, 0x416363756d756c61746f7256616c756573⟩]⟩
/-- Class CIM14.CPSM.Equipment.Meas.Analog -/
def s_Analog : SClass := ⟨0x416e616c6f67, 0x43494d31342e4350534d2e45717569706d656e742e4d6561732e416e616c6f67, 0x43494d31342e4350534d2e45717569706d656e742e4d6561732e4d6561737572656d656e74,
  [(0x706f736974697665466c6f77496e, t_EBoolean)],
  [⟨0x416e616c6f6756616c756573, 0x43494d31342e4350534d2e45717569706d656e742e4d6561732e416e616c6f6756616c7565, true, 0x416e616c6f67⟩]⟩
/-- Class CIM14.CPSM.Equipment.Meas.AnalogValue -/
def s_AnalogValue : SClass := ⟨0x416e616c6f6756616c7565, 0x43494d31342e4350534d2e45717569706d656e742e4d6561732e416e616c6f6756616c7565, 0x43494d31342e4350534d2e45717569706d656e742e4d6561732e4d6561737572656d656e7456616c7565,
  [],
  [⟨0x416e616c6f67, 0x43494d31342e4350534d2e45717569706d656e742e4d6561732e416e616c6f67, false, 0x416e616c6f6756616c756573⟩]⟩
/-- Class CIM14.CPSM.Equipment.Meas.Discrete -/
def s_Discrete : SClass := ⟨0x4469736372657465, 0x43494d31342e4350534d2e45717569706d656e742e4d6561732e4469736372657465, 0x43494d31342e4350534d2e45717569706d656e742e4d6561732e4d6561737572656d656e74,
  [],
  [⟨0x446973637265746556616c756573, 0x43494d31342e4350534d2e45717569706d656e742e4d6561732e446973637265746556616c7565, true, 0x4469736372657465⟩]⟩
/-- Class CIM14.CPSM.Equipment.Meas.DiscreteValue -/
def s_DiscreteValue : SClass := ⟨0x446973637265746556616c7565, 0x43494d31342e4350534d2e45717569706d656e742e4d6561732e446973637265746556616c7565, 0x43494d31342e4350534d2e45717569706d656e742e4d6561732e4d6561737572656d656e7456616c7565,
  [],
  [⟨0x4469736372657465, 0x43494d31342e4350534d2e45717569706d656e742e4d6561732e4469736372657465, false, 0x446973637265746556616c756573⟩]⟩
/-- Class CIM14.CPSM.Equipment.Meas.Measurement -/
def s_Measurement : SClass := ⟨0x4d6561737572656d656e74, 0x43494d31342e4350534d2e45717569706d656e742e4d6561732e4d6561737572656d656e74, 0x43494d31342e4350534d2e45717569706d656e742e436f72652e4964656e7469666965644f626a656374,
  [(0x6d6561737572656d656e7454797065, t_EString)],
  [⟨0x556e6974, 0x43494d31342e4350534d2e45717569706d656e742e436f72652e556e6974, false, 0x4d6561737572656d656e7473⟩, ⟨0x5465726d696e616c, 0x43494d31342e4350534d2e45717569706d656e742e436f72652e5465726d696e616c, false, 0x4d6561737572656d656e7473⟩, ⟨0x506f77657253797374656d5265736f75726365, 0x43494d31342e4350534d2e45717569706d656e742e436f72652e506f77657253797374656d5265736f75726365, false, 0x4d6561737572656d656e7473⟩]⟩
/-- Class CIM14.CPSM.Equipment.Meas.MeasurementValue -/
def s_MeasurementValue : SClass := ⟨0x4d6561737572656d656e7456616c7565, 0x43494d31342e4350534d2e45717569706d656e742e4d6561732e4d6561737572656d656e7456616c7565, 0x43494d31342e4350534d2e45717569706d656e742e436f72652e4964656e7469666965644f626a656374,
  [],
  [⟨0x4d6561737572656d656e7456616c7565536f75726365, 0x43494d31342e4350534d2e45717569706d656e742e4d6561732e4d6561737572656d656e7456616c7565536f75726365, false, 0x4d6561737572656d656e7456616c756573⟩]⟩
/-- Class CIM14.CPSM.Equipment.Meas.MeasurementValueSource -/
def s_MeasurementValueSource : SClass := ⟨0x4d6561737572656d656e7456616c7565536f75726365, 0x43494d31342e4350534d2e45717569706d656e742e4d6561732e4d6561737572656d656e7456616c7565536f75726365, 0x43494d31342e4350534d2e45717569706d656e742e436f72652e4964656e7469666965644f626a656374,
  [],
  [⟨0x4d6561737572656d656e7456616c756573, 0x43494d31342e4350534d2e45717569706d656e742e4d6561732e4d6561737572656d656e7456616c7565, true, 0x4d6561737572656d656e7456616c7565536f75726365⟩]⟩
/-- Class CIM14.CPSM.Equipment.OperationalLimits.ActivePowerLimit -/
def s_ActivePowerLimit : SClass := ⟨0x416374697665506f7765724c696d6974, 0x43494d31342e4350534d2e45717569706d656e742e4f7065726174696f6e616c4c696d6974732e416374697665506f7765724c696d6974, 0x43494d31342e4350534d2e45717569706d656e742e4f7065726174696f6e616c4c696d6974732e4f7065726174696f6e616c4c696d6974,
  [(0x76616c7565, t_float)],
  []⟩
/-- Class CIM14.CPSM.Equipment.OperationalLimits.ApparentPowerLimit -/
def s_ApparentPowerLimit : SClass := ⟨0x4170706172656e74506f7765724c696d6974, 0x43494d31342e4350534d2e45717569706d656e742e4f7065726174696f6e616c4c696d6974732e4170706172656e74506f7765724c696d6974, 0x43494d31342e4350534d2e45717569706d656e742e4f7065726174696f6e616c4c696d6974732e4f7065726174696f6e616c4c696d6974,
  [(0x76616c7565, t_float)],
  []⟩
/-- Class CIM14.CPSM.Equipment.OperationalLimits.CurrentLimit -/
def s_CurrentLimit : SClass := ⟨0x43757272656e744c696d6974, 0x43494d31342e4350534d2e45717569706d656e742e4f7065726174696f6e616c4c696d6974732e43757272656e744c696d6974, 0x43494d31342e4350534d2e45717569706d656e742e4f7065726174696f6e616c4c696d6974732e4f7065726174696f6e616c4c696d6974,
  [(0x76616c7565, t_float)],
  []⟩
/-- Class CIM14.CPSM.Equipment.OperationalLimits.OperationalLimit -/
def s_OperationalLimit : SClass := ⟨0x4f7065726174696f6e616c4c696d6974, 0x43494d31342e4350534d2e45717569706d656e742e4f7065726174696f6e616c4c696d6974732e4f7065726174696f6e616c4c696d6974, 0x43494d31342e4350534d2e45717569706d656e742e436f72652e4964656e7469666965644f626a656374,
  [(0x74797065, t_EString)],
  [⟨0x4f7065726174696f6e616c4c696d6974536574, 0x43494d31342e4350534d2e45717569706d656e742e4f7065726174696f6e616c4c696d6974732e4f7065726174696f6e616c4c696d6974536574, false, 0x4f7065726174696f6e616c4c696d697456616c7565⟩]⟩
/-- Class CIM14.CPSM.Equipment.OperationalLimits.OperationalLimitSet -/
def s_OperationalLimitSet : SClass := ⟨0x4f7065726174696f6e616c4c696d6974536574, 0x43494d31342e4350534d2e45717569706d656e742e4f7065726174696f6e616c4c696d6974732e4f7065726174696f6e616c4c696d6974536574, 0x43494d31342e4350534d2e45717569706d656e742e436f72652e4964656e7469666965644f626a656374,
  [],
  [⟨0x5465726d696e616c, 0x43494d31342e4350534d2e45717569706d656e742e436f72652e5465726d696e616c, false, 0x4f7065726174696f6e616c4c696d6974536574⟩, ⟨0x45717569706d656e74, 0x43494d31342e4350534d2e45717569706d656e742e436f72652e45717569706d656e74, false, 0x4f7065726174696f6e616c4c696d6974536574⟩, ⟨0x4f7065726174696f6e616c4c696d697456616c7565, 0x43494d31342e4350534d2e45717569706d656e742e4f7065726174696f6e616c4c696d6974732e4f7065726174696f6e616c4c696d6974, true, 0x4f7065726174696f6e616c4c696d6974536574⟩]⟩
/-- Class CIM14.CPSM.Equipment.OperationalLimits.OperationalLimitType -/
def s_OperationalLimitType : SClass := ⟨0x4f7065726174696f6e616c4c696d697454797065, 0x43494d31342e4350534d2e45717569706d656e742e4f7065726174696f6e616c4c696d6974732e4f7065726174696f6e616c4c696d697454797065, 0x43494d31342e4350534d2e45717569706d656e742e436f72652e4964656e7469666965644f626a656374,
  [(0x646972656374696f6e, e_OperationalLimitDirectionKind), (0x61636365707461626c654475726174696f6e, t_float)],
  []⟩
/-- Class CIM14.CPSM.Equipment.OperationalLimits.VoltageLimit -/
def s_VoltageLimit : SClass := ⟨0x566f6c746167654c696d6974, 0x43494d31342e4350534d2e45717569706d656e742e4f7065726174696f6e616c4c696d6974732e566f6c746167654c696d6974, 0x43494d31342e4350534d2e45717569706d656e742e4f7065726174696f6e616c4c696d6974732e4f7065726174696f6e616c4c696d6974,
  [(0x76616c7565, t_float)],
  []⟩
/-- Class CIM14.CPSM.Equipment.Wires.ACLineSegment -/
def s_ACLineSegment : SClass := ⟨0x41434c696e655365676d656e74, 0x43494d31342e4350534d2e45717569706d656e742e57697265732e41434c696e655365676d656e74, 0x43494d31342e4350534d2e45717569706d656e742e57697265732e436f6e647563746f72,
  [(0x67306368, t_float), (0x72, t_float), (0x7830, t_float), (0x626368, t_float), (0x78, t_float), (0x62306368, t_float), (0x676368, t_float), (0x7230, t_float)],
  []⟩
/-- Class CIM14.CPSM.Equipment.Wires.Breaker -/
def s_Breaker : SClass := ⟨0x427265616b6572, 0x43494d31342e4350534d2e45717569706d656e742e57697265732e427265616b6572, 0x43494d31342e4350534d2e45717569706d656e742e57697265732e537769746368,
  [(0x726174656443757272656e74, t_float)],
  []⟩
/-- Class CIM14.CPSM.Equipment.Wires.BusbarSection -/
def s_BusbarSection : SClass := ⟨0x42757362617253656374696f6e, 0x43494d31342e4350534d2e45717569706d656e742e57697265732e42757362617253656374696f6e, 0x43494d31342e4350534d2e45717569706d656e742e436f72652e436f6e64756374696e6745717569706d656e74,
  [],
  []⟩
/-- Class CIM14.CPSM.Equipment.Wires.Conductor -/
def s_Conductor : SClass := ⟨0x436f6e647563746f72, 0x43494d31342e4350534d2e45717569706d656e742e57697265732e436f6e647563746f72, 0x43494d31342e4350534d2e45717569706d656e742e436f72652e436f6e64756374696e6745717569706d656e74,
  [(0x6c656e677468, t_float)],
  []⟩
/-- Class CIM14.CPSM.Equipment.Wires.Disconnector -/
def s_Disconnector : SClass := ⟨0x446973636f6e6e6563746f72, 0x43494d31342e4350534d2e45717569706d656e742e57697265732e446973636f6e6e6563746f72, 0x43494d31342e4350534d2e45717569706d656e742e57697265732e537769746368,
  [],
  []⟩
/-- Class CIM14.CPSM.Equipment.Wires.EnergyConsumer -/
def s_EnergyConsumer : SClass := ⟨0x456e65726779436f6e73756d6572, 0x43494d31342e4350534d2e45717569706d656e742e57697265732e456e65726779436f6e73756d6572, 0x43494d31342e4350534d2e45717569706d656e742e436f72652e436f6e64756374696e6745717569706d656e74,
  [(0x706669786564, t_float), (0x706669786564506374, t_float), (0x716669786564506374, t_float), (0x716669786564, t_float)],
  [⟨0x4c6f6164526573706f6e7365, 0x43494d31342e4350534d2e45717569706d656e742e4c6f61644d6f64656c2e4c6f6164526573706f6e73654368617261637465726973746963, false, 0x456e65726779436f6e73756d6572⟩]⟩
/-- Class CIM14.CPSM.Equipment.Wires.ImpedanceVariationCurve -/
def s_ImpedanceVariationCurve : SClass := ⟨0x496d706564616e6365566172696174696f6e4375727665, 0x43494d31342e4350534d2e45717569706d656e742e57697265732e496d706564616e6365566172696174696f6e4375727665, 0x43494d31342e4350534d2e45717569706d656e742e436f72652e4375727665,
  [],
  [⟨0x5461704368616e676572, 0x43494d31342e4350534d2e45717569706d656e742e57697265732e5461704368616e676572, false, 0x496d706564616e6365566172696174696f6e4375727665⟩]⟩
/-- Class CIM14.CPSM.Equipment.Wires.Line -/
def s_Line : SClass := ⟨0x4c696e65, 0x43494d31342e4350534d2e45717569706d656e742e57697265732e4c696e65, 0x43494d31342e4350534d2e45717569706d656e742e436f72652e45717569706d656e74436f6e7461696e6572,
  [],
  [⟨0x526567696f6e, 0x43494d31342e4350534d2e45717569706d656e742e436f72652e53756247656f67726170686963616c526567696f6e, false, 0x4c696e6573⟩]⟩
/-- Class CIM14.CPSM.Equipment.Wires.LoadBreakSwitch -/
def s_LoadBreakSwitch : SClass := ⟨0x4c6f6164427265616b537769746368, 0x43494d31342e4350534d2e45717569706d656e742e57697265732e4c6f6164427265616b537769746368, 0x43494d31342e4350534d2e45717569706d656e742e57697265732e537769746368,
  [(0x726174656443757272656e74, t_float)],
  []⟩
/-- Class CIM14.CPSM.Equipment.Wires.MutualCoupling -/
def s_MutualCoupling : SClass := ⟨0x4d757475616c436f75706c696e67, 0x43494d31342e4350534d2e45717569706d656e742e57697265732e4d757475616c436f75706c696e67, 0x43494d31342e4350534d2e45717569706d656e742e436f72652e4964656e7469666965644f626a656374,
  [(0x67306368, t_float), (0x7230, t_float), (0x7830, t_float), (0x64697374616e63653131, t_float), (0x64697374616e63653132, t_float), (0x64697374616e63653232, t_float), (0x64697374616e63653231, t_float), (0x62306368, t_float)],
  [⟨0x5365636f6e645f5465726d696e616c, 0x43494d31342e4350534d2e45717569706d656e742e436f72652e5465726d696e616c, false, 0x4861735365636f6e645f4d757475616c436f75706c696e67⟩, ⟨0x46697273745f5465726d696e616c, 0x43494d31342e4350534d2e45717569706d656e742e436f72652e5465726d696e616c, false, 0x48617346697273745f4d757475616c436f75706c696e67⟩]⟩
/-- Class CIM14.CPSM.Equipment.Wires.PhaseTapChanger -/
def s_PhaseTapChanger : SClass := ⟨0x50686173655461704368616e676572, 0x43494d31342e4350534d2e45717569706d656e742e57697265732e50686173655461704368616e676572, 0x43494d31342e4350534d2e45717569706d656e742e57697265732e5461704368616e676572,
  [(0x6e6f6d696e616c566f6c746167654f75744f665068617365, t_float), (0x77696e64696e67436f6e6e656374696f6e416e676c65, t_float), (0x70686173655461704368616e67657254797065, e_PhaseTapChangerKind), (0x78537465704d696e, t_float), (0x78537465704d6178, t_float), (0x7374657050686173655368696674496e6372656d656e74, t_float), (0x766f6c7461676553746570496e6372656d656e744f75744f665068617365, t_float)],
  [⟨0x5472616e73666f726d657257696e64696e67, 0x43494d31342e4350534d2e45717569706d656e742e57697265732e5472616e73666f726d657257696e64696e67, false, 0x50686173655461704368616e676572⟩, ⟨0x5068617365566172696174696f6e4375727665, 0x43494d31342e4350534d2e45717569706d656e742e57697265732e5068617365566172696174696f6e4375727665, false, 0x50686173655461704368616e676572⟩]⟩
/-- Class CIM14.CPSM.Equipment.Wires.PhaseVariationCurve -/
def s_PhaseVariationCurve : SClass := ⟨0x5068617365566172696174696f6e4375727665, 0x43494d31342e4350534d2e45717569706d656e742e57697265732e5068617365566172696174696f6e4375727665, 0x43494d31342e4350534d2e45717569706d656e742e436f72652e4375727665,
  [],
  [⟨0x50686173655461704368616e676572, 0x43494d31342e4350534d2e45717569706d656e742e57697265732e50686173655461704368616e676572, false, 0x5068617365566172696174696f6e4375727665⟩]⟩
/-- Class CIM14.CPSM.Equipment.Wires.PowerTransformer -/
def s_PowerTransformer : SClass := ⟨0x506f7765725472616e73666f726d6572, 0x43494d31342e4350534d2e45717569706d656e742e57697265732e506f7765725472616e73666f726d6572, 0x43494d31342e4350534d2e45717569706d656e742e436f72652e45717569706d656e74,
  [],
  [⟨0x5472616e73666f726d657257696e64696e6773, 0x43494d31342e4350534d2e45717569706d656e742e57697265732e5472616e73666f726d657257696e64696e67, true, 0x506f7765725472616e73666f726d6572⟩]⟩
/-- Class CIM14.CPSM.Equipment.Wires.RatioTapChanger -/
def s_RatioTapChanger : SClass := ⟨0x526174696f5461704368616e676572, 0x43494d31342e4350534d2e45717569706d656e742e57697265732e526174696f5461704368616e676572, 0x43494d31342e4350534d2e45717569706d656e742e57697265732e5461704368616e676572,
  [(0x7463756c436f6e74726f6c4d6f6465, e_TransformerControlMode)],
  [⟨0x526174696f566172696174696f6e4375727665, 0x43494d31342e4350534d2e45717569706d656e742e57697265732e526174696f566172696174696f6e4375727665, false, 0x526174696f5461704368616e676572⟩, ⟨0x5472616e73666f726d657257696e64696e67, 0x43494d31342e4350534d2e45717569706d656e742e57697265732e5472616e73666f726d657257696e64696e67, false, 0x526174696f5461704368616e676572⟩]⟩
/-- Class CIM14.CPSM.Equipment.Wires.RatioVariationCurve -/
def s_RatioVariationCurve : SClass := ⟨0x526174696f566172696174696f6e4375727665, 0x43494d31342e4350534d2e45717569706d656e742e57697265732e526174696f566172696174696f6e4375727665, 0x43494d31342e4350534d2e45717569706d656e742e436f72652e4375727665,
  [],
  [⟨0x526174696f5461704368616e676572, 0x43494d31342e4350534d2e45717569706d656e742e57697265732e526174696f5461704368616e676572, false, 0x526174696f566172696174696f6e4375727665⟩]⟩
/-- Class CIM14.CPSM.Equipment.Wires.ReactiveCapabilityCurve -/
def s_ReactiveCapabilityCurve : SClass := ⟨0x52656163746976654361706162696c6974794375727665, 0x43494d31342e4350534d2e45717569706d656e742e57697265732e52656163746976654361706162696c6974794375727665, 0x43494d31342e4350534d2e45717569706d656e742e436f72652e4375727665,
  [],
  [⟨0x496e697469616c6c7955736564427953796e6368726f6e6f75734d616368696e6573, 0x43494d31342e4350534d2e45717569706d656e742e57697265732e53796e6368726f6e6f75734d616368696e65, true, 0x496e697469616c52656163746976654361706162696c6974794375727665⟩]⟩
/-- Class CIM14.CPSM.Equipment.Wires.RegulatingCondEq -/
def s_RegulatingCondEq : SClass := ⟨0x526567756c6174696e67436f6e644571, 0x43494d31342e4350534d2e45717569706d656e742e57697265732e526567756c6174696e67436f6e644571, 0x43494d31342e4350534d2e45717569706d656e742e436f72652e436f6e64756374696e6745717569706d656e74,
  [],
  [⟨0x526567756c6174696e67436f6e74726f6c, 0x43494d31342e4350534d2e45717569706d656e742e57697265732e526567756c6174696e67436f6e74726f6c, false, 0x526567756c6174696e67436f6e644571⟩]⟩
/-- Class CIM14.CPSM.Equipment.Wires.RegulatingControl -/
def s_RegulatingControl : SClass := ⟨0x526567756c6174696e67436f6e74726f6c, 0x43494d31342e4350534d2e45717569706d656e742e57697265732e526567756c6174696e67436f6e74726f6c, 0x43494d31342e4350534d2e45717569706d656e742e436f72652e506f77657253797374656d5265736f75726365,
  [(0x74617267657452616e6765, t_EFloat), (0x6d6f6465, e_RegulatingControlModeKind), (0x6469736372657465, t_EBoolean), (0x74617267657456616c7565, t_EFloat)],
  [⟨0x526567756c6174696f6e5363686564756c65, 0x43494d31342e4350534d2e45717569706d656e742e57697265732e526567756c6174696f6e5363686564756c65, true, 0x526567756c6174696e67436f6e74726f6c⟩, ⟨0x5465726d696e616c, 0x43494d31342e4350534d2e45717569706d656e742e436f72652e5465726d696e616c, false, 0x526567756c6174696e67436f6e74726f6c⟩, ⟨0x526567756c6174696e67436f6e644571, 0x43494d31342e4350534d2e45717569706d656e742e57697265732e526567756c6174696e67436f6e644571, true, 0x526567756c6174696e67436f6e74726f6c⟩, ⟨0x5461704368616e676572, 0x43494d31342e4350534d2e45717569706d656e742e57697265732e5461704368616e676572, true, 0x526567756c6174696e67436f6e74726f6c⟩]⟩
/-- Class CIM14.CPSM.Equipment.Wires.RegulationSchedule -/
def s_RegulationSchedule : SClass := ⟨0x526567756c6174696f6e5363686564756c65, 0x43494d31342e4350534d2e45717569706d656e742e57697265732e526567756c6174696f6e5363686564756c65, 0x43494d31342e4350534d2e45717569706d656e742e4c6f61644d6f64656c2e536561736f6e446179547970655363686564756c65,
  [],
  [⟨0x526567756c6174696e67436f6e74726f6c, 0x43494d31342e4350534d2e45717569706d656e742e57697265732e526567756c6174696e67436f6e74726f6c, false, 0x526567756c6174696f6e5363686564756c65⟩]⟩
/-- Class CIM14.CPSM.Equipment.Wires.SeriesCompensator -/
def s_SeriesCompensator : SClass := ⟨0x536572696573436f6d70656e7361746f72, 0x43494d31342e4350534d2e45717569706d656e742e57697265732e536572696573436f6d70656e7361746f72, 0x43494d31342e4350534d2e45717569706d656e742e436f72652e436f6e64756374696e6745717569706d656e74,
  [(0x72, t_float), (0x78, t_float)],
  []⟩
/-- Class CIM14.CPSM.Equipment.Wires.ShuntCompensator -/
def s_ShuntCompensator : SClass := ⟨0x5368756e74436f6d70656e7361746f72, 0x43494d31342e4350534d2e45717569706d656e742e57697265732e5368756e74436f6d70656e7361746f72, 0x43494d31342e4350534d2e45717569706d656e742e57697265732e526567756c6174696e67436f6e644571,
  [(0x673050657253656374696f6e, t_float), (0x6250657253656374696f6e, t_float), (0x6e6f6d55, t_float), (0x6750657253656374696f6e, t_float), (0x6e6f726d616c53656374696f6e73, t_EInt), (0x623050657253656374696f6e, t_float), (0x6d6178696d756d53656374696f6e73, t_EInt)],
  []⟩
/-- Class CIM14.CPSM.Equipment.Wires.StaticVarCompensator -/
def s_StaticVarCompensator : SClass := ⟨0x537461746963566172436f6d70656e7361746f72, 0x43494d31342e4350534d2e45717569706d656e742e57697265732e537461746963566172436f6d70656e7361746f72, 0x43494d31342e4350534d2e45717569706d656e742e57697265732e526567756c6174696e67436f6e644571,
  [(0x766f6c74616765536574506f696e74, t_float), (0x63617061636974697665526174696e67, t_float), (0x736c6f7065, t_float), (0x696e64756374697665526174696e67, t_float), (0x735643436f6e74726f6c4d6f6465, e_SVCControlMode)],
  []⟩
/-- Class CIM14.CPSM.Equipment.Wires.Switch -/
def s_Switch : SClass := ⟨0x537769746368, 0x43494d31342e4350534d2e45717569706d656e742e57697265732e537769746368, 0x43494d31342e4350534d2e45717569706d656e742e436f72652e436f6e64756374696e6745717569706d656e74,
  [(0x6e6f726d616c4f70656e, t_EBoolean)],
  [⟨0x5377697463685363686564756c6573, 0x43494d31342e4350534d2e45717569706d656e742e57697265732e5377697463685363686564756c65, true, 0x537769746368⟩]⟩
/-- Class CIM14.CPSM.Equipment.Wires.SwitchSchedule -/
def s_SwitchSchedule : SClass := ⟨0x5377697463685363686564756c65, 0x43494d31342e4350534d2e45717569706d656e742e57697265732e5377697463685363686564756c65, 0x43494d31342e4350534d2e45717569706d656e742e4c6f61644d6f64656c2e536561736f6e446179547970655363686564756c65,
  [],
  [⟨0x537769746368, 0x43494d31342e4350534d2e45717569706d656e742e57697265732e537769746368, false, 0x5377697463685363686564756c6573⟩]⟩
/-- Class CIM14.CPSM.Equipment.Wires.SynchronousMachine -/
def s_SynchronousMachine : SClass := ⟨0x53796e6368726f6e6f75734d616368696e65, 0x43494d31342e4350534d2e45717569706d656e742e57697265732e53796e6368726f6e6f75734d616368696e65, 0x43494d31342e4350534d2e45717569706d656e742e57697265732e526567756c6174696e67436f6e644571,
  [(0x7830, t_float), (0x7150657263656e74, t_float), (0x7832, t_float), (0x72, t_float), (0x6f7065726174696e674d6f6465, e_SynchronousMachineOperatingMode), (0x7230, t_float), (0x74797065, e_SynchronousMachineType), (0x7232, t_float), (0x6d617851, t_float), (0x78, t_float), (0x726174656453, t_float), (0x6d696e51, t_float)],
  [⟨0x496e697469616c52656163746976654361706162696c6974794375727665, 0x43494d31342e4350534d2e45717569706d656e742e57697265732e52656163746976654361706162696c6974794375727665, false, 0x496e697469616c6c7955736564427953796e6368726f6e6f75734d616368696e6573⟩, ⟨0x487964726f50756d70, 0x43494d31342e4350534d2e45717569706d656e742e47656e65726174696f6e2e50726f64756374696f6e2e487964726f50756d70, false, 0x53796e6368726f6e6f75734d616368696e65⟩, ⟨0x47656e65726174696e67556e6974, 0x43494d31342e4350534d2e45717569706d656e742e47656e65726174696f6e2e50726f64756374696f6e2e47656e65726174696e67556e6974, false, 0x53796e6368726f6e6f75734d616368696e6573⟩]⟩
/-- Class CIM14.CPSM.Equipment.Wires.TapChanger -/
def s_TapChanger : SClass := ⟨0x5461704368616e676572, 0x43494d31342e4350534d2e45717569706d656e742e57697265732e5461704368616e676572, 0x43494d31342e4350534d2e45717569706d656e742e436f72652e506f77657253797374656d5265736f75726365,
  [(0x73746570566f6c74616765496e6372656d656e74, t_float), (0x6e65757472616c53746570, t_EInt), (0x6e6f726d616c53746570, t_EInt), (0x6c7463466c6167, t_EBoolean), (0x6e65757472616c55, t_float), (0x6c6f7753746570, t_EInt), (0x726567756c6174696f6e537461747573, t_EBoolean), (0x6869676853746570, t_EInt)],
  [⟨0x5461705363686564756c6573, 0x43494d31342e4350534d2e45717569706d656e742e57697265732e5461705363686564756c65, true, 0x5461704368616e676572⟩, ⟨0x496d706564616e6365566172696174696f6e4375727665, 0x43494d31342e4350534d2e45717569706d656e742e57697265732e496d706564616e6365566172696174696f6e4375727665, false, 0x5461704368616e676572⟩, ⟨0x526567756c6174696e67436f6e74726f6c, 0x43494d31342e4350534d2e45717569706d656e742e57697265732e526567756c6174696e67436f6e74726f6c, false, 0x5461704368616e676572⟩]⟩
/-- Class CIM14.CPSM.Equipment.Wires.TapSchedule -/
def s_TapSchedule : SClass := ⟨0x5461705363686564756c65, 0x43494d31342e4350534d2e45717569706d656e742e57697265732e5461705363686564756c65, 0x43494d31342e4350534d2e45717569706d656e742e4c6f61644d6f64656c2e536561736f6e446179547970655363686564756c65,
  [],
  [⟨0x5461704368616e676572, 0x43494d31342e4350534d2e45717569706d656e742e57697265732e5461704368616e676572, false, 0x5461705363686564756c6573⟩]⟩
/-- Class CIM14.CPSM.Equipment.Wires.TransformerWinding -/
def s_TransformerWinding : SClass := ⟨0x5472616e73666f726d657257696e64696e67, 0x43494d31342e4350534d2e45717569706d656e742e57697265732e5472616e73666f726d657257696e64696e67, 0x43494d31342e4350534d2e45717569706d656e742e436f72652e436f6e64756374696e6745717569706d656e74,
  [(0x78, t_float), (0x7830, t_float), (0x6230, t_float), (0x6730, t_float), (0x7267726f756e64, t_float), (0x62, t_float), (0x636f6e6e656374696f6e54797065, e_WindingConnection), (0x726174656453, t_float), (0x72, t_float), (0x7230, t_float), (0x726174656455, t_float), (0x7867726f756e64, t_float), (0x77696e64696e6754797065, e_WindingType)],
  [⟨0x526174696f5461704368616e676572, 0x43494d31342e4350534d2e45717569706d656e742e57697265732e526174696f5461704368616e676572, false, 0x5472616e73666f726d657257696e64696e67⟩, ⟨0x50686173655461704368616e676572, 0x43494d31342e4350534d2e45717569706d656e742e57697265732e50686173655461704368616e676572, false, 0x5472616e73666f726d657257696e64696e67⟩, ⟨0x506f7765725472616e73666f726d6572, 0x43494d31342e4350534d2e45717569706d656e742e57697265732e506f7765725472616e73666f726d6572, false, 0x5472616e73666f726d657257696e64696e6773⟩]⟩

def schema : Schema := [
  s_ControlArea,
  s_ControlAreaGeneratingUnit,
  s_TieFlow,
  s_BaseVoltage,
  s_BasicIntervalSchedule,
  s_Bay,
  s_ConductingEquipment,
  s_ConnectivityNode,
  s_ConnectivityNodeContainer,
  s_Curve,
  s_CurveData,
  s_Equipment,
  s_EquipmentContainer,
  s_GeographicalRegion,
  s_IdentifiedObject,
  s_PowerSystemResource,
  s_RegularIntervalSchedule,
  s_RegularTimePoint,
  s_SubGeographicalRegion,
  s_Substation,
  s_Terminal,
  s_Unit,
  s_VoltageLevel,
  s_Element,
  s_EquivalentBranch,
  s_EquivalentEquipment,
  s_EquivalentInjection,
  s_EquivalentNetwork,
  s_EquivalentShunt,
  s_FossilFuel,
  s_GeneratingUnit,
  s_GrossToNetActivePowerCurve,
  s_HydroGeneratingUnit,
  s_HydroPump,
  s_NuclearGeneratingUnit,
  s_ThermalGeneratingUnit,
  s_WindGeneratingUnit,
  s_IEC61970CIMVersion,
  s_ConformLoad,
  s_ConformLoadGroup,
  s_ConformLoadSchedule,
  s_DayType,
  s_EnergyArea,
  s_LoadArea,
  s_LoadGroup,
  s_LoadResponseCharacteristic,
  s_NonConformLoad,
  s_NonConformLoadGroup,
  s_NonConformLoadSchedule,
  s_Season,
  s_SeasonDayTypeSchedule,
  s_StationSupply,
  s_SubLoadArea,
  s_Accumulator,
  s_AccumulatorValue,
  s_Analog,
  s_AnalogValue,
  s_Discrete,
  s_DiscreteValue,
  s_Measurement,
  s_MeasurementValue,
  s_MeasurementValueSource,
  s_ActivePowerLimit,
  s_ApparentPowerLimit,
  s_CurrentLimit,
  s_OperationalLimit,
  s_OperationalLimitSet,
  s_OperationalLimitType,
  s_VoltageLimit,
  s_ACLineSegment,
  s_Breaker,
  s_BusbarSection,
  s_Conductor,
  s_Disconnector,
  s_EnergyConsumer,
  s_ImpedanceVariationCurve,
  s_Line,
  s_LoadBreakSwitch,
  s_MutualCoupling,
  s_PhaseTapChanger,
  s_PhaseVariationCurve,
  s_PowerTransformer,
  s_RatioTapChanger,
  s_RatioVariationCurve,
  s_ReactiveCapabilityCurve,
  s_RegulatingCondEq,
  s_RegulatingControl,
  s_RegulationSchedule,
  s_SeriesCompensator,
  s_ShuntCompensator,
  s_StaticVarCompensator,
  s_Switch,
  s_SwitchSchedule,
  s_SynchronousMachine,
  s_TapChanger,
  s_TapSchedule,
  s_TransformerWinding]

end Verif.Gen.Model_CIM14_CPSM_Equipment
