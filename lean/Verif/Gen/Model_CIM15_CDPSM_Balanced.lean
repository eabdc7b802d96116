import Verif.Spec.Schema
/-! Generated by tools/ecore.py from /repo/Model/CIM15/CDPSM/Balanced.ecore: do not edit. -/
namespace Verif.Gen.Model_CIM15_CDPSM_Balanced
open Spec
set_option maxRecDepth 10000

/-- Enumeration CIM15.CDPSM.Balanced.IEC61970.Core.PhaseCode -/
def e_PhaseCode : SType := .enum 0x5068617365436f6465 [0x7331324e, 0x424e, 0x4243, 0x41424e, 0x73324e, 0x4e, 0x41434e, 0x42434e, 0x4142434e, 0x4143, 0x73314e, 0x414e, 0x42, 0x4142, 0x43, 0x41, 0x434e, 0x414243]
/-- Enumeration CIM15.CDPSM.Balanced.IEC61970.Generation.Production.GeneratorControlSource -/
def e_GeneratorControlSource : SType := .enum 0x47656e657261746f72436f6e74726f6c536f75726365 [0x706c616e74436f6e74726f6c, 0x6f6666414743, 0x756e617661696c61626c65, 0x6f6e414743]
/-- Enumeration CIM15.CDPSM.Balanced.IEC61970.Wires.PhaseTapChangerKind -/
def e_PhaseTapChangerKind : SType := .enum 0x50686173655461704368616e6765724b696e64 [0x756e6b6e6f776e, 0x6173796d6d6574726963616c, 0x73796d6d6574726963616c]
/-- Enumeration CIM15.CDPSM.Balanced.IEC61970.Wires.SynchronousMachineOperatingMode -/
def e_SynchronousMachineOperatingMode : SType := .enum 0x53796e6368726f6e6f75734d616368696e654f7065726174696e674d6f6465 [0x636f6e64656e736572, 0x67656e657261746f72]
/-- Enumeration CIM15.CDPSM.Balanced.IEC61970.Wires.SynchronousMachineType -/
def e_SynchronousMachineType : SType := .enum 0x53796e6368726f6e6f75734d616368696e6554797065 [0x636f6e64656e736572, 0x67656e657261746f725f6f725f636f6e64656e736572, 0x67656e657261746f72]
/-- Enumeration CIM15.CDPSM.Balanced.IEC61970.Wires.TapChangerKind -/
def e_TapChangerKind : SType := .enum 0x5461704368616e6765724b696e64 [0x766f6c74616765416e645068617365436f6e74726f6c, 0x7068617365436f6e74726f6c, 0x6669786564, 0x766f6c74616765436f6e74726f6c]
/-- Enumeration CIM15.CDPSM.Balanced.IEC61970.Wires.TransformerControlMode -/
def e_TransformerControlMode : SType := .enum 0x5472616e73666f726d6572436f6e74726f6c4d6f6465 [0x7265616374697665, 0x766f6c74]
/-- Enumeration CIM15.CDPSM.Balanced.IEC61970.Wires.WindingConnection -/
def e_WindingConnection : SType := .enum 0x57696e64696e67436f6e6e656374696f6e [0x5a, 0x41, 0x596e, 0x59, 0x5a6e, 0x44, 0x49]
/-- Enumeration CIM15.CDPSM.Balanced.IEC61970.Wires.WindingType -/
def e_WindingType : SType := .enum 0x57696e64696e6754797065 [0x7465727469617279, 0x7072696d617279, 0x7365636f6e64617279, 0x7175617465726e617279]
/-- Data type with values of EBoolean -/
def t_EBoolean : SType := .prim 0x45426f6f6c65616e
/-- Data type with values of EFloat -/
def t_EFloat : SType := .prim 0x45466c6f6174
/-- Data type with values of EInt -/
def t_EInt : SType := .prim 0x45496e74
/-- Data type with values of EString -/
def t_EString : SType := .prim 0x45537472696e67
/-- Data type with values of float -/
def t_float : SType := .prim 0x666c6f6174

/-- Class CIM15.CDPSM.Balanced.Element -/
def s_Element : SClass := ⟨0x456c656d656e74, 0x43494d31352e434450534d2e42616c616e6365642e456c656d656e74, 0,
  [(0x55554944, t_EString)],
  []⟩
/-- Class CIM15.CDPSM.Balanced.IEC61970.Core.IdentifiedObject -/
def s_IdentifiedObject : SClass := ⟨0x4964656e7469666965644f626a656374, 0x43494d31352e434450534d2e42616c616e6365642e49454336313937302e436f72652e4964656e7469666965644f626a656374, 0x43494d31352e434450534d2e42616c616e6365642e456c656d656e74,
  [(0x6e616d65, t_EString), (0x616c6961734e616d65, t_EString)],
  [⟨0x4e616d6573, 0x43494d31352e434450534d2e42616c616e6365642e49454336313937302e436f72652e4e616d65, true, 0x4964656e7469666965644f626a656374⟩]⟩
/-- Class CIM15.CDPSM.Balanced.IEC61970.Core.Name -/
def s_Name : SClass := ⟨0x4e616d65, 0x43494d31352e434450534d2e42616c616e6365642e49454336313937302e436f72652e4e616d65, 0x43494d31352e434450534d2e42616c616e6365642e456c656d656e74,
  [(0x6e616d65, t_EString)],
  [⟨0x4964656e7469666965644f626a656374, 0x43494d31352e434450534d2e42616c616e6365642e49454336313937302e436f72652e4964656e7469666965644f626a656374, false, 0x4e616d6573⟩, ⟨0x4e616d6554797065, 0x43494d31352e434450534d2e42616c616e6365642e49454336313937302e436f72652e4e616d6554797065, false, 0x4e616d6573⟩]⟩
/-- Class CIM15.CDPSM.Balanced.IEC61970.Core.NameType -/
def s_NameType : SClass := ⟨0x4e616d6554797065, 0x43494d31352e434450534d2e42616c616e6365642e49454336313937302e436f72652e4e616d6554797065, 0x43494d31352e434450534d2e42616c616e6365642e456c656d656e74,
  [],
  [⟨0x4e616d6573, 0x43494d31352e434450534d2e42616c616e6365642e49454336313937302e436f72652e4e616d65, true, 0x4e616d6554797065⟩]⟩
/-- Class CIM15.CDPSM.Balanced.IEC61970.Generation.Production.GeneratingUnit -/
def s_GeneratingUnit : SClass := ⟨0x47656e65726174696e67556e6974, 0x43494d31352e434450534d2e42616c616e6365642e49454336313937302e47656e65726174696f6e2e50726f64756374696f6e2e47656e65726174696e67556e6974, 0x43494d31352e434450534d2e42616c616e6365642e49454336313937302e436f72652e4964656e7469666965644f626a656374,
  [(0x6261736550, t_float), (0x67656e436f6e74726f6c536f75726365, e_GeneratorControlSource), (0x72617465644e65744d617850, t_float), (0x696e697469616c50, t_float)],
  [⟨0x53796e6368726f6e6f75734d616368696e6573, 0x43494d31352e434450534d2e42616c616e6365642e49454336313937302e57697265732e53796e6368726f6e6f75734d616368696e65, true, 0x47656e65726174696e67556e6974⟩]⟩
/-- Class CIM15.CDPSM.Balanced.IEC61970.LoadModel.LoadResponseCharacteristic -/
def s_LoadResponseCharacteristic : SClass := ⟨0x4c6f6164526573706f6e73654368617261637465726973746963, 0x43494d31352e434450534d2e42616c616e6365642e49454336313937302e4c6f61644d6f64656c2e4c6f6164526573706f6e73654368617261637465726973746963, 0x43494d31352e434450534d2e42616c616e6365642e49454336313937302e436f72652e4964656e7469666965644f626a656374,
  [(0x704672657175656e63794578706f6e656e74, t_EFloat), (0x70436f6e7374616e74506f776572, t_EFloat), (0x70566f6c746167654578706f6e656e74, t_EFloat), (0x6578706f6e656e744d6f64656c, t_EBoolean), (0x714672657175656e63794578706f6e656e74, t_EFloat), (0x71436f6e7374616e74496d706564616e6365, t_EFloat), (0x71436f6e7374616e74506f776572, t_EFloat), (0x70436f6e7374616e7443757272656e74, t_EFloat), (0x71566f6c746167654578706f6e656e74, t_EFloat), (0x70436f6e7374616e74496d706564616e6365, t_EFloat), (0x71436f6e7374616e7443757272656e74, t_EFloat)],
  [⟨0x456e65726779436f6e73756d6572, 0x43494d31352e434450534d2e42616c616e6365642e49454336313937302e57697265732e456e65726779436f6e73756d6572, true, 0x4c6f6164526573706f6e7365⟩]⟩
/-- Class CIM15.CDPSM.Balanced.IEC61970.Wires.ACLineSegment -/
def s_ACLineSegment : SClass := ⟨0x41434c696e655365676d656e74, 0x43494d31352e434450534d2e42616c616e6365642e49454336313937302e57697265732e41434c696e655365676d656e74, 0x43494d31352e434450534d2e42616c616e6365642e49454336313937302e436f72652e4964656e7469666965644f626a656374,
  [(0x7830, t_float), (0x626368, t_float), (0x62306368, t_float), (0x72, t_float), (0x7230, t_float), (0x78, t_float)],
  []⟩
/-- Class CIM15.CDPSM.Balanced.IEC61970.Wires.DCLineSegment -/
def s_DCLineSegment : SClass := ⟨0x44434c696e655365676d656e74, 0x43494d31352e434450534d2e42616c616e6365642e49454336313937302e57697265732e44434c696e655365676d656e74, 0x43494d31352e434450534d2e42616c616e6365642e49454336313937302e436f72652e4964656e7469666965644f626a656374,
  [],
  []⟩
/-- Class CIM15.CDPSM.Balanced.IEC61970.Wires.EnergyConsumer -/
def s_EnergyConsumer : SClass := ⟨0x456e65726779436f6e73756d6572, 0x43494d31352e434450534d2e42616c616e6365642e49454336313937302e57697265732e456e65726779436f6e73756d6572, 0x43494d31352e434450534d2e42616c616e6365642e49454336313937302e436f72652e4964656e7469666965644f626a656374,
  [(0x637573746f6d6572436f756e74, t_EInt), (0x706669786564506374, t_float), (0x716669786564506374, t_float), (0x716669786564, t_float), (0x706669786564, t_float)],
  [⟨0x4c6f6164526573706f6e7365, 0x43494d31352e434450534d2e42616c616e6365642e49454336313937302e4c6f61644d6f64656c2e4c6f6164526573706f6e73654368617261637465726973746963, false, 0x456e65726779436f6e73756d6572⟩]⟩
/-- Class CIM15.CDPSM.Balanced.IEC61970.Wires.EnergySource -/
def s_EnergySource : SClass := ⟨0x456e65726779536f75726365, 0x43494d31352e434450534d2e42616c616e6365642e49454336313937302e57697265732e456e65726779536f75726365, 0x43494d31352e434450534d2e42616c616e6365642e49454336313937302e436f72652e4964656e7469666965644f626a656374,
  [(0x766f6c746167654d61676e6974756465, t_float), (0x78, t_float), (0x72, t_float), (0x6e6f6d696e616c566f6c74616765, t_float), (0x766f6c74616765416e676c65, t_float)],
  []⟩
/-- Class CIM15.CDPSM.Balanced.IEC61970.Wires.PhaseTapChanger -/
def s_PhaseTapChanger : SClass := ⟨0x50686173655461704368616e676572, 0x43494d31352e434450534d2e42616c616e6365642e49454336313937302e57697265732e50686173655461704368616e676572, 0x43494d31352e434450534d2e42616c616e6365642e49454336313937302e57697265732e5461704368616e676572,
  [],
  []⟩
/-- Class CIM15.CDPSM.Balanced.IEC61970.Wires.PhaseTapChangerAsymetrical -/
def s_PhaseTapChangerAsymetrical : SClass := ⟨0x50686173655461704368616e6765724173796d6574726963616c, 0x43494d31352e434450534d2e42616c616e6365642e49454336313937302e57697265732e50686173655461704368616e6765724173796d6574726963616c, 0x43494d31352e434450534d2e42616c616e6365642e49454336313937302e57697265732e50686173655461704368616e6765724e6f6e4c696e656172,
  [(0x77696e64696e67436f6e6e656374696f6e416e676c65, t_float)],
  []⟩
/-- Class CIM15.CDPSM.Balanced.IEC61970.Wires.PhaseTapChangerLinear -/
def s_PhaseTapChangerLinear : SClass := ⟨0x50686173655461704368616e6765724c696e656172, 0x43494d31352e434450534d2e42616c616e6365642e49454336313937302e57697265732e50686173655461704368616e6765724c696e656172, 0x43494d31352e434450534d2e42616c616e6365642e49454336313937302e57697265732e50686173655461704368616e676572,
  [(0x7374657050686173655368696674496e6372656d656e74, t_float)],
  []⟩
/-- Class CIM15.CDPSM.Balanced.IEC61970.Wires.PhaseTapChangerNonLinear -/
def s_PhaseTapChangerNonLinear : SClass := ⟨0x50686173655461704368616e6765724e6f6e4c696e656172, 0x43494d31352e434450534d2e42616c616e6365642e49454336313937302e57697265732e50686173655461704368616e6765724e6f6e4c696e656172, 0x43494d31352e434450534d2e42616c616e6365642e49454336313937302e57697265732e50686173655461704368616e676572,
  [(0x766f6c7461676553746570496e6372656d656e74, t_float)],
  []⟩
/-- Class CIM15.CDPSM.Balanced.IEC61970.Wires.PhaseTapChangerSymetrical -/
def s_PhaseTapChangerSymetrical : SClass := ⟨0x50686173655461704368616e67657253796d6574726963616c, 0x43494d31352e434450534d2e42616c616e6365642e49454336313937302e57697265732e50686173655461704368616e67657253796d6574726963616c, 0x43494d31352e434450534d2e42616c616e6365642e49454336313937302e57697265732e50686173655461704368616e6765724e6f6e4c696e656172,
  [],
  []⟩
/-- Class CIM15.CDPSM.Balanced.IEC61970.Wires.PowerTransformer -/
def s_PowerTransformer : SClass := ⟨0x506f7765725472616e73666f726d6572, 0x43494d31352e434450534d2e42616c616e6365642e49454336313937302e57697265732e506f7765725472616e73666f726d6572, 0x43494d31352e434450534d2e42616c616e6365642e49454336313937302e436f72652e4964656e7469666965644f626a656374,
  [],
  []⟩
/-- Class CIM15.CDPSM.Balanced.IEC61970.Wires.PowerTransformerEnd -/
def s_PowerTransformerEnd : SClass := ⟨0x506f7765725472616e73666f726d6572456e64, 0x43494d31352e434450534d2e42616c616e6365642e49454336313937302e57697265732e506f7765725472616e73666f726d6572456e64, 0x43494d31352e434450534d2e42616c616e6365642e49454336313937302e57697265732e5472616e73666f726d6572456e64,
  [(0x6730, t_float), (0x726174656453, t_float), (0x6230, t_float), (0x7230, t_float), (0x636f6e6e656374696f6e4b696e64, e_WindingConnection), (0x62, t_float), (0x72, t_float), (0x726174656455, t_float), (0x7830, t_float), (0x78, t_float), (0x67, t_float)],
  []⟩
/-- Class CIM15.CDPSM.Balanced.IEC61970.Wires.ProtectedSwitch -/
def s_ProtectedSwitch : SClass := ⟨0x50726f746563746564537769746368, 0x43494d31352e434450534d2e42616c616e6365642e49454336313937302e57697265732e50726f746563746564537769746368, 0x43494d31352e434450534d2e42616c616e6365642e49454336313937302e436f72652e4964656e7469666965644f626a656374,
  [(0x627265616b696e674361706163697479, t_float)],
  []⟩
/-- Class CIM15.CDPSM.Balanced.IEC61970.Wires.RatioTapChanger -/
def s_RatioTapChanger : SClass := ⟨0x526174696f5461704368616e676572, 0x43494d31352e434450534d2e42616c616e6365642e49454336313937302e57697265732e526174696f5461704368616e676572, 0x43494d31352e434450534d2e42616c616e6365642e49454336313937302e57697265732e5461704368616e676572,
  [(0x73746570566f6c74616765496e6372656d656e74, t_float), (0x7463756c436f6e74726f6c4d6f6465, e_TransformerControlMode)],
  []⟩
/-- Class CIM15.CDPSM.Balanced.IEC61970.Wires.SeriesCompensator -/
def s_SeriesCompensator : SClass := ⟨0x536572696573436f6d70656e7361746f72, 0x43494d31352e434450534d2e42616c616e6365642e49454336313937302e57697265732e536572696573436f6d70656e7361746f72, 0x43494d31352e434450534d2e42616c616e6365642e49454336313937302e436f72652e4964656e7469666965644f626a656374,
  [(0x78, t_float), (0x72, t_float)],
  []⟩
/-- Class CIM15.CDPSM.Balanced.IEC61970.Wires.ShuntCompensator -/
def s_ShuntCompensator : SClass := ⟨0x5368756e74436f6d70656e7361746f72, 0x43494d31352e434450534d2e42616c616e6365642e49454336313937302e57697265732e5368756e74436f6d70656e7361746f72, 0x43494d31352e434450534d2e42616c616e6365642e49454336313937302e436f72652e4964656e7469666965644f626a656374,
  [(0x6e6f6d51, t_float), (0x6d617855, t_float), (0x673050657253656374696f6e, t_float), (0x6750657253656374696f6e, t_float), (0x6d696e55, t_float), (0x6250657253656374696f6e, t_float), (0x726561637469766550657253656374696f6e, t_float), (0x766f6c7461676553656e7369746976697479, t_float), (0x6e6f6d55, t_float), (0x6e6f726d616c53656374696f6e73, t_EInt), (0x623050657253656374696f6e, t_float), (0x6d6178696d756d53656374696f6e73, t_EInt)],
  []⟩
/-- Class CIM15.CDPSM.Balanced.IEC61970.Wires.SynchronousMachine -/
def s_SynchronousMachine : SClass := ⟨0x53796e6368726f6e6f75734d616368696e65, 0x43494d31352e434450534d2e42616c616e6365642e49454336313937302e57697265732e53796e6368726f6e6f75734d616368696e65, 0x43494d31352e434450534d2e42616c616e6365642e49454336313937302e436f72652e4964656e7469666965644f626a656374,
  [(0x6f7065726174696e674d6f6465, e_SynchronousMachineOperatingMode), (0x6d617851, t_float), (0x6261736551, t_float), (0x6d696e51, t_float), (0x74797065, e_SynchronousMachineType)],
  [⟨0x47656e65726174696e67556e6974, 0x43494d31352e434450534d2e42616c616e6365642e49454336313937302e47656e65726174696f6e2e50726f64756374696f6e2e47656e65726174696e67556e6974, false, 0x53796e6368726f6e6f75734d616368696e6573⟩]⟩
/-- Class CIM15.CDPSM.Balanced.IEC61970.Wires.TapChanger -/
def s_TapChanger : SClass := ⟨0x5461704368616e676572, 0x43494d31352e434450534d2e42616c616e6365642e49454336313937302e57697265732e5461704368616e676572, 0x43494d31352e434450534d2e42616c616e6365642e49454336313937302e436f72652e4964656e7469666965644f626a656374,
  [(0x6e65757472616c55, t_float), (0x6c6f7753746570, t_EInt), (0x6e6f726d616c53746570, t_EInt), (0x6e65757472616c53746570, t_EInt), (0x6869676853746570, t_EInt)],
  []⟩
/-- Class CIM15.CDPSM.Balanced.IEC61970.Wires.TransformerCoreAdmittance -/
def s_TransformerCoreAdmittance : SClass := ⟨0x5472616e73666f726d6572436f726541646d697474616e6365, 0x43494d31352e434450534d2e42616c616e6365642e49454336313937302e57697265732e5472616e73666f726d6572436f726541646d697474616e6365, 0x43494d31352e434450534d2e42616c616e6365642e49454336313937302e436f72652e4964656e7469666965644f626a656374,
  [(0x6730, t_float), (0x67, t_float), (0x62, t_float), (0x6230, t_float)],
  [⟨0x5472616e73666f726d6572456e64, 0x43494d31352e434450534d2e42616c616e6365642e49454336313937302e57697265732e5472616e73666f726d6572456e64, true, 0x436f726541646d697474616e6365⟩]⟩
/-- Class CIM15.CDPSM.Balanced.IEC61970.Wires.TransformerEnd -/
def s_TransformerEnd : SClass := ⟨0x5472616e73666f726d6572456e64, 0x43494d31352e434450534d2e42616c616e6365642e49454336313937302e57697265732e5472616e73666f726d6572456e64, 0x43494d31352e434450534d2e42616c616e6365642e49454336313937302e436f72652e4964656e7469666965644f626a656374,
  [],
  [⟨0x46726f6d4d657368496d706564616e6365, 0x43494d31352e434450534d2e42616c616e6365642e49454336313937302e57697265732e5472616e73666f726d65724d657368496d706564616e6365, true, 0x46726f6d5472616e73666f726d6572456e64⟩, ⟨0x546f4d657368496d706564616e6365, 0x43494d31352e434450534d2e42616c616e6365642e49454336313937302e57697265732e5472616e73666f726d65724d657368496d706564616e6365, true, 0x546f5472616e73666f726d6572456e64⟩, ⟨0x436f726541646d697474616e6365, 0x43494d31352e434450534d2e42616c616e6365642e49454336313937302e57697265732e5472616e73666f726d6572436f726541646d697474616e6365, false, 0x5472616e73666f726d6572456e64⟩, ⟨0x53746172496d706564616e6365, 0x43494d31352e434450534d2e42616c616e6365642e49454336313937302e57697265732e5472616e73666f726d657253746172496d706564616e6365, false, 0x5472616e73666f726d6572456e64⟩]⟩
/-- Class CIM15.CDPSM.Balanced.IEC61970.Wires.TransformerMeshImpedance -/
def s_TransformerMeshImpedance : SClass := ⟨0x5472616e73666f726d65724d657368496d706564616e6365, 0x43494d31352e434450534d2e42616c616e6365642e49454336313937302e57697265732e5472616e73666f726d65724d657368496d706564616e6365, 0x43494d31352e434450534d2e42616c616e6365642e49454336313937302e436f72652e4964656e7469666965644f626a656374,
  [(0x72, t_float), (0x78, t_float), (0x7830, t_float), (0x7230, t_float)],
  [⟨0x46726f6d5472616e73666f726d6572456e64, 0x43494d31352e434450534d2e42616c616e6365642e49454336313937302e57697265732e5472616e73666f726d6572456e64, false, 0x46726f6d4d657368496d706564616e6365⟩, ⟨0x546f5472616e73666f726d6572456e64, 0x43494d31352e434450534d2e42616c616e6365642e49454336313937302e57697265732e5472616e73666f726d6572456e64, true, 0x546f4d657368496d706564616e6365⟩]⟩
/-- Class CIM15.CDPSM.Balanced.IEC61970.Wires.TransformerStarImpedance -/
def s_TransformerStarImpedance : SClass := ⟨0x5472616e73666f726d657253746172496d706564616e6365, 0x43494d31352e434450534d2e42616c616e6365642e49454336313937302e57697265732e5472616e73666f726d657253746172496d706564616e6365, 0x43494d31352e434450534d2e42616c616e6365642e49454336313937302e436f72652e4964656e7469666965644f626a656374,
  [(0x7830, t_float), (0x78, t_float), (0x7230, t_float), (0x72, t_float)],
  [⟨0x5472616e73666f726d6572456e64, 0x43494d31352e434450534d2e42616c616e6365642e49454336313937302e57697265732e5472616e73666f726d6572456e64, true, 0x53746172496d706564616e6365⟩]⟩
/-- Class CIM15.CDPSM.Balanced.IEC61970.Wires.TransformerTankEnd -/
def s_TransformerTankEnd : SClass := ⟨0x5472616e73666f726d657254616e6b456e64, 0x43494d31352e434450534d2e42616c616e6365642e49454336313937302e57697265732e5472616e73666f726d657254616e6b456e64, 0x43494d31352e434450534d2e42616c616e6365642e49454336313937302e57697265732e5472616e73666f726d6572456e64,
  [],
  []⟩

def schema : Schema := [
  s_Element,
  s_IdentifiedObject,
  s_Name,
  s_NameType,
  s_GeneratingUnit,
  s_LoadResponseCharacteristic,
  s_ACLineSegment,
  s_DCLineSegment,
  s_EnergyConsumer,
  s_EnergySource,
  s_PhaseTapChanger,
  s_PhaseTapChangerAsymetrical,
  s_PhaseTapChangerLinear,
  s_PhaseTapChangerNonLinear,
  s_PhaseTapChangerSymetrical,
  s_PowerTransformer,
  s_PowerTransformerEnd,
  s_ProtectedSwitch,
  s_RatioTapChanger,
  s_SeriesCompensator,
  s_ShuntCompensator,
  s_SynchronousMachine,
  s_TapChanger,
  s_TransformerCoreAdmittance,
  s_TransformerEnd,
  s_TransformerMeshImpedance,
  s_TransformerStarImpedance,
  s_TransformerTankEnd]

end Verif.Gen.Model_CIM15_CDPSM_Balanced
