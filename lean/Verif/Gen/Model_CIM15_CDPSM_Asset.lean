import Verif.Spec.Schema
/-! Generated by tools/ecore.py from /repo/Model/CIM15/CDPSM/Asset.ecore: do not edit. -/
namespace Verif.Gen.Model_CIM15_CDPSM_Asset
open Spec
set_option maxRecDepth 10000

/-- Enumeration CIM15.CDPSM.Asset.IEC61968.AssetModels.CableConstructionKind -/
def e_CableConstructionKind : SType := .enum 0x4361626c65436f6e737472756374696f6e4b696e64 [0x736563746f72, 0x6f74686572, 0x736f6c6964, 0x636f6d706163746564, 0x737472616e646564, 0x7365676d656e74616c, 0x636f6d70726573736564]
/-- Enumeration CIM15.CDPSM.Asset.IEC61968.AssetModels.CableOuterJacketKind -/
def e_CableOuterJacketKind : SType := .enum 0x4361626c654f757465724a61636b65744b696e64 [0x707663, 0x6c696e6561724c6f7744656e73697479506f6c79657468796c656e65, 0x6e6f6e65, 0x696e73756c6174696e67, 0x6f74686572, 0x706f6c79657468796c656e65, 0x73656d69636f6e64756374696e67]
/-- Enumeration CIM15.CDPSM.Asset.IEC61968.AssetModels.CableShieldMaterialKind -/
def e_CableShieldMaterialKind : SType := .enum 0x4361626c65536869656c644d6174657269616c4b696e64 [0x6c656164, 0x616c756d696e756d, 0x6f74686572, 0x636f70706572, 0x737465656c]
/-- Enumeration CIM15.CDPSM.Asset.IEC61968.AssetModels.ConductorInsulationKind -/
def e_ConductorInsulationKind : SType := .enum 0x436f6e647563746f72496e73756c6174696f6e4b696e64 [0x74726565526574617264616e7443726f73736c696e6b6564506f6c79657468796c656e65, 0x627574796c, 0x686967685072657373757265466c75696446696c6c6564, 0x6f74686572, 0x7661726e697368656443616d62726963436c6f7468, 0x73696c69636f6e527562626572, 0x62656c74656450696c63, 0x63726f73736c696e6b6564506f6c79657468796c656e65, 0x6f696c5061706572, 0x6c6f7743617061636974616e6365527562626572, 0x6173626573746f73416e645661726e697368656443616d62726963, 0x74726565526573697374616e74486967684d6f6c6563756c6172576569676874506f6c79657468796c656e65, 0x756e62656c74656450696c63, 0x6f7a6f6e65526573697374616e74527562626572, 0x657468796c656e6550726f70796c656e65527562626572, 0x686967684d6f6c6563756c6172576569676874506f6c79657468796c656e65, 0x7661726e6973686564446163726f6e476c617373, 0x727562626572]
/-- Enumeration CIM15.CDPSM.Asset.IEC61968.AssetModels.ConductorMaterialKind -/
def e_ConductorMaterialKind : SType := .enum 0x436f6e647563746f724d6174657269616c4b696e64 [0x616c756d696e756d, 0x636f70706572, 0x6f74686572, 0x737465656c, 0x61637372]
/-- Enumeration CIM15.CDPSM.Asset.IEC61968.AssetModels.ConductorUsageKind -/
def e_ConductorUsageKind : SType := .enum 0x436f6e647563746f7255736167654b696e64 [0x7365636f6e64617279, 0x6f74686572, 0x646973747269627574696f6e, 0x7472616e736d697373696f6e]
/-- Enumeration CIM15.CDPSM.Asset.IEC61970.Wires.WindingConnection -/
def e_WindingConnection : SType := .enum 0x57696e64696e67436f6e6e656374696f6e [0x5a, 0x41, 0x596e, 0x59, 0x5a6e, 0x44, 0x49]
/-- Data type with values of EBoolean -/
def t_EBoolean : SType := .prim 0x45426f6f6c65616e
/-- Data type with values of EFloat -/
def t_EFloat : SType := .prim 0x45466c6f6174
/-- Data type with values of EInt -/
def t_EInt : SType := .prim 0x45496e74
/-- Data type with values of EString -/
def t_EString : SType := .prim 0x45537472696e67
/-- Data type with values of float -/
def t_float : SType := .prim 0x666c6f6174

/-- Class CIM15.CDPSM.Asset.Element -/
def s_Element : SClass := ⟨0x456c656d656e74, 0x43494d31352e434450534d2e41737365742e456c656d656e74, 0,
  [(0x55554944, t_EString)],
  []⟩
/-- Class CIM15.CDPSM.Asset.IEC61968.AssetModels.CableInfo -/
def s_CableInfo : SClass := ⟨0x4361626c65496e666f, 0x43494d31352e434450534d2e41737365742e49454336313936382e41737365744d6f64656c732e4361626c65496e666f, 0x43494d31352e434450534d2e41737365742e49454336313936382e41737365744d6f64656c732e436f6e647563746f72496e666f,
  [(0x6469616d657465724f7665724a61636b6574, t_float), (0x636f6e737472756374696f6e4b696e64, e_CableConstructionKind), (0x736869656c644d6174657269616c, e_CableShieldMaterialKind), (0x6f757465724a61636b65744b696e64, e_CableOuterJacketKind), (0x6973537472616e6446696c6c, t_EBoolean), (0x6469616d657465724f766572496e73756c6174696f6e, t_float), (0x6469616d657465724f76657253637265656e, t_float), (0x73686561746841734e65757472616c, t_EBoolean), (0x6e6f6d696e616c54656d7065726174757265, t_float), (0x6469616d657465724f766572436f7265, t_float)],
  []⟩
/-- Class CIM15.CDPSM.Asset.IEC61968.AssetModels.ConcentricNeutralCableInfo -/
def s_ConcentricNeutralCableInfo : SClass := ⟨0x436f6e63656e747269634e65757472616c4361626c65496e666f, 0x43494d31352e434450534d2e41737365742e49454336313936382e41737365744d6f64656c732e436f6e63656e747269634e65757472616c4361626c65496e666f, 0x43494d31352e434450534d2e41737365742e49454336313936382e41737365744d6f64656c732e4361626c65496e666f,
  [(0x6469616d657465724f7665724e65757472616c, t_float), (0x6e65757472616c537472616e64436f756e74, t_EInt)],
  []⟩
/-- Class CIM15.CDPSM.Asset.IEC61968.AssetModels.ConductorInfo -/
def s_ConductorInfo : SClass := ⟨0x436f6e647563746f72496e666f, 0x43494d31352e434450534d2e41737365742e49454336313936382e41737365744d6f64656c732e436f6e647563746f72496e666f, 0x43494d31352e434450534d2e41737365742e49454336313936382e4173736574732e4173736574496e666f,
  [(0x7573616765, e_ConductorUsageKind), (0x696e73756c6174696f6e546869636b6e657373, t_float), (0x696e73756c61746564, t_EBoolean), (0x696e73756c6174696f6e4d6174657269616c, e_ConductorInsulationKind), (0x7068617365436f756e74, t_EInt)],
  [⟨0x57697265417272616e67656d656e7473, 0x43494d31352e434450534d2e41737365742e49454336313936382e41737365744d6f64656c732e57697265417272616e67656d656e74, true, 0x436f6e647563746f72496e666f⟩, ⟨0x4c696e655365676d656e7473, 0x43494d31352e434450534d2e41737365742e49454336313937302e57697265732e41434c696e655365676d656e74, true, 0x436f6e647563746f72496e666f⟩]⟩
/-- Class CIM15.CDPSM.Asset.IEC61968.AssetModels.EndDeviceInfo -/
def s_EndDeviceInfo : SClass := ⟨0x456e64446576696365496e666f, 0x43494d31352e434450534d2e41737365742e49454336313936382e41737365744d6f64656c732e456e64446576696365496e666f, 0x43494d31352e434450534d2e41737365742e49454336313936382e4173736574732e4173736574496e666f,
  [(0x726174656443757272656e74, t_float), (0x7261746564566f6c74616765, t_float), (0x7068617365436f756e74, t_EInt)],
  []⟩
/-- Class CIM15.CDPSM.Asset.IEC61968.AssetModels.OverheadConductorInfo -/
def s_OverheadConductorInfo : SClass := ⟨0x4f76657268656164436f6e647563746f72496e666f, 0x43494d31352e434450534d2e41737365742e49454336313936382e41737365744d6f64656c732e4f76657268656164436f6e647563746f72496e666f, 0x43494d31352e434450534d2e41737365742e49454336313936382e41737365744d6f64656c732e436f6e647563746f72496e666f,
  [(0x6e65757472616c496e73756c6174696f6e546869636b6e657373, t_float), (0x7068617365436f6e647563746f7253706163696e67, t_float), (0x7068617365436f6e647563746f72436f756e74, t_EInt)],
  []⟩
/-- Class CIM15.CDPSM.Asset.IEC61968.AssetModels.PowerTransformerInfo -/
def s_PowerTransformerInfo : SClass := ⟨0x506f7765725472616e73666f726d6572496e666f, 0x43494d31352e434450534d2e41737365742e49454336313936382e41737365744d6f64656c732e506f7765725472616e73666f726d6572496e666f, 0x43494d31352e434450534d2e41737365742e49454336313936382e4173736574732e4173736574496e666f,
  [],
  [⟨0x5472616e73666f726d657254616e6b496e666f, 0x43494d31352e434450534d2e41737365742e49454336313936382e41737365744d6f64656c732e5472616e73666f726d657254616e6b496e666f, true, 0x506f7765725472616e73666f726d6572496e666f⟩]⟩
/-- Class CIM15.CDPSM.Asset.IEC61968.AssetModels.TapChangerInfo -/
def s_TapChangerInfo : SClass := ⟨0x5461704368616e676572496e666f, 0x43494d31352e434450534d2e41737365742e49454336313936382e41737365744d6f64656c732e5461704368616e676572496e666f, 0x43494d31352e434450534d2e41737365742e49454336313936382e4173736574732e4173736574496e666f,
  [(0x6c6f7753746570, t_EInt), (0x6672657175656e6379, t_float), (0x7074526174696f, t_EFloat), (0x72617465644170706172656e74506f776572, t_float), (0x73746570566f6c74616765496e6372656d656e74, t_float), (0x6374526174696f, t_EFloat), (0x7261746564566f6c74616765, t_float), (0x6e65757472616c53746570, t_EInt), (0x726174656443757272656e74, t_float), (0x6374526174696e67, t_float), (0x6869676853746570, t_EInt), (0x737465705068617365496e6372656d656e74, t_float), (0x6e65757472616c55, t_float), (0x69735463756c, t_EBoolean)],
  []⟩
/-- Class CIM15.CDPSM.Asset.IEC61968.AssetModels.TapeShieldCableInfo -/
def s_TapeShieldCableInfo : SClass := ⟨0x54617065536869656c644361626c65496e666f, 0x43494d31352e434450534d2e41737365742e49454336313936382e41737365744d6f64656c732e54617065536869656c644361626c65496e666f, 0x43494d31352e434450534d2e41737365742e49454336313936382e41737365744d6f64656c732e4361626c65496e666f,
  [(0x746170654c6170, t_float), (0x74617065546869636b6e657373, t_float)],
  []⟩
/-- Class CIM15.CDPSM.Asset.IEC61968.AssetModels.TransformerEndInfo -/
def s_TransformerEndInfo : SClass := ⟨0x5472616e73666f726d6572456e64496e666f, 0x43494d31352e434450534d2e41737365742e49454336313936382e41737365744d6f64656c732e5472616e73666f726d6572456e64496e666f, 0x43494d31352e434450534d2e41737365742e49454336313936382e4173736574732e4173736574496e666f,
  [(0x726174656455, t_float), (0x656e644e756d626572, t_EInt), (0x7068617365416e676c65436c6f636b, t_EInt), (0x656d657267656e637953, t_float), (0x726174656453, t_float), (0x73686f72745465726d53, t_float), (0x72, t_float), (0x696e73756c6174696f6e55, t_float), (0x636f6e6e656374696f6e4b696e64, e_WindingConnection)],
  [⟨0x5472616e73666f726d657254616e6b496e666f, 0x43494d31352e434450534d2e41737365742e49454336313936382e41737365744d6f64656c732e5472616e73666f726d657254616e6b496e666f, false, 0x5472616e73666f726d6572456e64496e666f73⟩, ⟨0x5472616e73666f726d6572456e64, 0x43494d31352e434450534d2e41737365742e49454336313937302e57697265732e5472616e73666f726d6572456e64, true, 0x5472616e73666f726d6572456e64496e666f⟩]⟩
/-- Class CIM15.CDPSM.Asset.IEC61968.AssetModels.TransformerTankInfo -/
def s_TransformerTankInfo : SClass := ⟨0x5472616e73666f726d657254616e6b496e666f, 0x43494d31352e434450534d2e41737365742e49454336313936382e41737365744d6f64656c732e5472616e73666f726d657254616e6b496e666f, 0x43494d31352e434450534d2e41737365742e49454336313936382e4173736574732e4173736574496e666f,
  [],
  [⟨0x506f7765725472616e73666f726d6572496e666f, 0x43494d31352e434450534d2e41737365742e49454336313936382e41737365744d6f64656c732e506f7765725472616e73666f726d6572496e666f, false, 0x5472616e73666f726d657254616e6b496e666f⟩, ⟨0x5472616e73666f726d6572456e64496e666f73, 0x43494d31352e434450534d2e41737365742e49454336313936382e41737365744d6f64656c732e5472616e73666f726d6572456e64496e666f, true, 0x5472616e73666f726d657254616e6b496e666f⟩, ⟨0x5472616e73666f726d657254616e6b73, 0x43494d31352e434450534d2e41737365742e49454336313937302e57697265732e5472616e73666f726d657254616e6b, true, 0x5472616e73666f726d657254616e6b496e666f⟩]⟩
/-- Class CIM15.CDPSM.Asset.IEC61968.AssetModels.WireArrangement -/
def s_WireArrangement : SClass := ⟨0x57697265417272616e67656d656e74, 0x43494d31352e434450534d2e41737365742e49454336313936382e41737365744d6f64656c732e57697265417272616e67656d656e74, 0x43494d31352e434450534d2e41737365742e49454336313937302e436f72652e4964656e7469666965644f626a656374,
  [(0x6d6f756e74696e67506f696e7459, t_float), (0x706f736974696f6e, t_EInt), (0x6d6f756e74696e67506f696e7458, t_float)],
  [⟨0x5769726554797065, 0x43494d31352e434450534d2e41737365742e49454336313936382e41737365744d6f64656c732e5769726554797065, false, 0x57697265417272616e67656d656e7473⟩, ⟨0x436f6e647563746f72496e666f, 0x43494d31352e434450534d2e41737365742e49454336313936382e41737365744d6f64656c732e436f6e647563746f72496e666f, false, 0x57697265417272616e67656d656e7473⟩]⟩
/-- Class CIM15.CDPSM.Asset.IEC61968.AssetModels.WireType -/
def s_WireType : SClass := ⟨0x5769726554797065, 0x43494d31352e434450534d2e41737365742e49454336313936382e41737365744d6f64656c732e5769726554797065, 0x43494d31352e434450534d2e41737365742e49454336313937302e436f72652e4964656e7469666965644f626a656374,
  [(0x7244433230, t_float), (0x636f7265526164697573, t_float), (0x7241433735, t_float), (0x6d6174657269616c, e_ConductorMaterialKind), (0x726174656443757272656e74, t_float), (0x737472616e64436f756e74, t_EInt), (0x7241433235, t_float), (0x7241433530, t_float), (0x726164697573, t_float), (0x676d72, t_float), (0x636f7265537472616e64436f756e74, t_EInt), (0x73697a654465736372697074696f6e, t_EString)],
  [⟨0x57697265417272616e67656d656e7473, 0x43494d31352e434450534d2e41737365742e49454336313936382e41737365744d6f64656c732e57697265417272616e67656d656e74, true, 0x5769726554797065⟩]⟩
/-- Class CIM15.CDPSM.Asset.IEC61968.Assets.AssetInfo -/
def s_AssetInfo : SClass := ⟨0x4173736574496e666f, 0x43494d31352e434450534d2e41737365742e49454336313936382e4173736574732e4173736574496e666f, 0x43494d31352e434450534d2e41737365742e49454336313937302e436f72652e4964656e7469666965644f626a656374,
  [],
  []⟩
/-- Class CIM15.CDPSM.Asset.IEC61970.Core.IdentifiedObject -/
def s_IdentifiedObject : SClass := ⟨0x4964656e7469666965644f626a656374, 0x43494d31352e434450534d2e41737365742e49454336313937302e436f72652e4964656e7469666965644f626a656374, 0x43494d31352e434450534d2e41737365742e456c656d656e74,
  [(0x6e616d65, t_EString), (0x616c6961734e616d65, t_EString)],
  [⟨0x4e616d6573, 0x43494d31352e434450534d2e41737365742e49454336313937302e436f72652e4e616d65, true, 0x4964656e7469666965644f626a656374⟩]⟩
/-- Class CIM15.CDPSM.Asset.IEC61970.Core.Name -/
def s_Name : SClass := ⟨0x4e616d65, 0x43494d31352e434450534d2e41737365742e49454336313937302e436f72652e4e616d65, 0x43494d31352e434450534d2e41737365742e456c656d656e74,
  [(0x6e616d65, t_EString)],
  [⟨0x4964656e7469666965644f626a656374, 0x43494d31352e434450534d2e41737365742e49454336313937302e436f72652e4964656e7469666965644f626a656374, false, 0x4e616d6573⟩, ⟨0x4e616d6554797065, 0x43494d31352e434450534d2e41737365742e49454336313937302e436f72652e4e616d6554797065, false, 0x4e616d6573⟩]⟩
/-- Class CIM15.CDPSM.Asset.IEC61970.Core.NameType -/
def s_NameType : SClass := ⟨0x4e616d6554797065, 0x43494d31352e434450534d2e41737365742e49454336313937302e436f72652e4e616d6554797065, 0x43494d31352e434450534d2e41737365742e456c656d656e74,
  [],
  [⟨0x4e616d6573, 0x43494d31352e434450534d2e41737365742e49454336313937302e436f72652e4e616d65, true, 0x4e616d6554797065⟩]⟩
/-- Class CIM15.CDPSM.Asset.IEC61970.Wires.ACLineSegment -/
def s_ACLineSegment : SClass := ⟨0x41434c696e655365676d656e74, 0x43494d31352e434450534d2e41737365742e49454336313937302e57697265732e41434c696e655365676d656e74, 0x43494d31352e434450534d2e41737365742e49454336313937302e436f72652e4964656e7469666965644f626a656374,
  [],
  [⟨0x53657175656e6365496d706564616e6365, 0x43494d31352e434450534d2e41737365742e49454336313937302e57697265732e5065724c656e67746853657175656e6365496d706564616e6365, false, 0x4c696e655365676d656e7473⟩, ⟨0x436f6e647563746f72496e666f, 0x43494d31352e434450534d2e41737365742e49454336313936382e41737365744d6f64656c732e436f6e647563746f72496e666f, false, 0x4c696e655365676d656e7473⟩, ⟨0x5068617365496d706564616e6365, 0x43494d31352e434450534d2e41737365742e49454336313937302e57697265732e5065724c656e6774685068617365496d706564616e6365, false, 0x4c696e655365676d656e7473⟩]⟩
/-- Class CIM15.CDPSM.Asset.IEC61970.Wires.PerLengthPhaseImpedance -/
def s_PerLengthPhaseImpedance : SClass := ⟨0x5065724c656e6774685068617365496d706564616e6365, 0x43494d31352e434450534d2e41737365742e49454336313937302e57697265732e5065724c656e6774685068617365496d706564616e6365, 0x43494d31352e434450534d2e41737365742e49454336313937302e436f72652e4964656e7469666965644f626a656374,
  [],
  [⟨0x4c696e655365676d656e7473, 0x43494d31352e434450534d2e41737365742e49454336313937302e57697265732e41434c696e655365676d656e74, true, 0x5068617365496d706564616e6365⟩]⟩
/-- Class CIM15.CDPSM.Asset.IEC61970.Wires.PerLengthSequenceImpedance -/
def s_PerLengthSequenceImpedance : SClass := ⟨0x5065724c656e67746853657175656e6365496d706564616e6365, 0x43494d31352e434450534d2e41737365742e49454336313937302e57697265732e5065724c656e67746853657175656e6365496d706564616e6365, 0x43494d31352e434450534d2e41737365742e49454336313937302e436f72652e4964656e7469666965644f626a656374,
  [],
  [⟨0x4c696e655365676d656e7473, 0x43494d31352e434450534d2e41737365742e49454336313937302e57697265732e41434c696e655365676d656e74, true, 0x53657175656e6365496d706564616e6365⟩]⟩
/-- Class CIM15.CDPSM.Asset.IEC61970.Wires.TransformerCoreAdmittance -/
def s_TransformerCoreAdmittance : SClass := ⟨0x5472616e73666f726d6572436f726541646d697474616e6365, 0x43494d31352e434450534d2e41737365742e49454336313937302e57697265732e5472616e73666f726d6572436f726541646d697474616e6365, 0x43494d31352e434450534d2e41737365742e49454336313937302e436f72652e4964656e7469666965644f626a656374,
  [],
  [⟨0x5472616e73666f726d6572456e64, 0x43494d31352e434450534d2e41737365742e49454336313937302e57697265732e5472616e73666f726d6572456e64, true, 0x436f726541646d697474616e6365⟩]⟩
/-- Class CIM15.CDPSM.Asset.IEC61970.Wires.TransformerEnd -/
def s_TransformerEnd : SClass := ⟨0x5472616e73666f726d6572456e64, 0x43494d31352e434450534d2e41737365742e49454336313937302e57697265732e5472616e73666f726d6572456e64, 0x43494d31352e434450534d2e41737365742e49454336313937302e436f72652e4964656e7469666965644f626a656374,
  [],
  [⟨0x436f726541646d697474616e6365, 0x43494d31352e434450534d2e41737365742e49454336313937302e57697265732e5472616e73666f726d6572436f726541646d697474616e6365, false, 0x5472616e73666f726d6572456e64⟩, ⟨0x5472616e73666f726d6572456e64496e666f, 0x43494d31352e434450534d2e41737365742e49454336313936382e41737365744d6f64656c732e5472616e73666f726d6572456e64496e666f, false, 0x5472616e73666f726d6572456e64⟩, ⟨0x53746172496d706564616e6365, 0x43494d31352e434450534d2e41737365742e49454336313937302e57697265732e5472616e73666f726d657253746172496d706564616e6365, false, 0x5472616e73666f726d6572456e64⟩]⟩
/-- Class CIM15.CDPSM.Asset.IEC61970.Wires.TransformerStarImpedance -/
def s_TransformerStarImpedance : SClass := ⟨0x5472616e73666f726d657253746172496d706564616e6365, 0x43494d31352e434450534d2e41737365742e49454336313937302e57697265732e5472616e73666f726d657253746172496d706564616e6365, 0x43494d31352e434450534d2e41737365742e49454336313937302e436f72652e4964656e7469666965644f626a656374,
  [],
  [⟨0x5472616e73666f726d6572456e64, 0x43494d31352e434450534d2e41737365742e49454336313937302e57697265732e5472616e73666f726d6572456e64, true, 0x53746172496d706564616e6365⟩]⟩
/-- Class CIM15.CDPSM.Asset.IEC61970.Wires.TransformerTank -/
def s_TransformerTank : SClass := ⟨0x5472616e73666f726d657254616e6b, 0x43494d31352e434450534d2e41737365742e49454336313937302e57697265732e5472616e73666f726d657254616e6b, 0x43494d31352e434450534d2e41737365742e49454336313937302e436f72652e4964656e7469666965644f626a656374,
  [],
  [⟨0x5472616e73666f726d657254616e6b496e666f, 0x43494d31352e434450534d2e41737365742e49454336313936382e41737365744d6f64656c732e5472616e73666f726d657254616e6b496e666f, false, 0x5472616e73666f726d657254616e6b73⟩]⟩
/-- Class CIM15.CDPSM.Asset.IEC61970.Wires.TransformerTankEnd -/
def s_TransformerTankEnd : SClass := ⟨0x5472616e73666f726d657254616e6b456e64, 0x43494d31352e434450534d2e41737365742e49454336313937302e57697265732e5472616e73666f726d657254616e6b456e64, 0x43494d31352e434450534d2e41737365742e49454336313937302e57697265732e5472616e73666f726d6572456e64,
  [],
  []⟩

def schema : Schema := [
  s_Element,
  s_CableInfo,
  s_ConcentricNeutralCableInfo,
  s_ConductorInfo,
  s_EndDeviceInfo,
  s_OverheadConductorInfo,
  s_PowerTransformerInfo,
  s_TapChangerInfo,
  s_TapeShieldCableInfo,
  s_TransformerEndInfo,
  s_TransformerTankInfo,
  s_WireArrangement,
  s_WireType,
  s_AssetInfo,
  s_IdentifiedObject,
  s_Name,
  s_NameType,
  s_ACLineSegment,
  s_PerLengthPhaseImpedance,
  s_PerLengthSequenceImpedance,
  s_TransformerCoreAdmittance,
  s_TransformerEnd,
  s_TransformerStarImpedance,
  s_TransformerTank,
  s_TransformerTankEnd]

end Verif.Gen.Model_CIM15_CDPSM_Asset
