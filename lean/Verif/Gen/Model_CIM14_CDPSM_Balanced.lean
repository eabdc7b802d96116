import Verif.Spec.Schema
/-! Generated by tools/ecore.py from /repo/Model/CIM14/CDPSM/Balanced.ecore: do not edit. -/
namespace Verif.Gen.Model_CIM14_CDPSM_Balanced
open Spec
set_option maxRecDepth 10000

/-- Enumeration CIM14.CDPSM.Balanced.IEC61968.AssetModels.CableConstructionKind -/
def e_CableConstructionKind : SType := .enum 0x4361626c65436f6e737472756374696f6e4b696e64 [0x736f6c6964, 0x737472616e646564, 0x6f74686572, 0x7365676d656e74616c, 0x636f6d706163746564, 0x736563746f72, 0x636f6d70726573736564]
/-- Enumeration CIM14.CDPSM.Balanced.IEC61968.AssetModels.CableOuterJacketKind -/
def e_CableOuterJacketKind : SType := .enum 0x4361626c654f757465724a61636b65744b696e64 [0x696e73756c6174696e67, 0x6f74686572, 0x73656d69636f6e64756374696e67, 0x706f6c79657468796c656e65, 0x6e6f6e65, 0x6c696e6561724c6f7744656e73697479506f6c79657468796c656e65, 0x707663]
/-- Enumeration CIM14.CDPSM.Balanced.IEC61968.AssetModels.CableShieldMaterialKind -/
def e_CableShieldMaterialKind : SType := .enum 0x4361626c65536869656c644d6174657269616c4b696e64 [0x6f74686572, 0x6c656164, 0x737465656c, 0x616c756d696e756d, 0x636f70706572]
/-- Enumeration CIM14.CDPSM.Balanced.IEC61968.AssetModels.ConductorInsulationKind -/
def e_ConductorInsulationKind : SType := .enum 0x436f6e647563746f72496e73756c6174696f6e4b696e64 [0x63726f73736c696e6b6564506f6c79657468796c656e65, 0x627574796c, 0x74726565526574617264616e7443726f73736c696e6b6564506f6c79657468796c656e65, 0x6173626573746f73416e645661726e697368656443616d62726963, 0x686967685072657373757265466c75696446696c6c6564, 0x657468796c656e6550726f70796c656e65527562626572, 0x6f7a6f6e65526573697374616e74527562626572, 0x6f696c5061706572, 0x7661726e6973686564446163726f6e476c617373, 0x686967684d6f6c6563756c6172576569676874506f6c79657468796c656e65, 0x6f74686572, 0x7661726e697368656443616d62726963436c6f7468, 0x74726565526573697374616e74486967684d6f6c6563756c6172576569676874506f6c79657468796c656e65, 0x756e62656c74656450696c63, 0x62656c74656450696c63, 0x727562626572, 0x6c6f7743617061636974616e6365527562626572, 0x73696c69636f6e527562626572]
/-- Enumeration CIM14.CDPSM.Balanced.IEC61968.AssetModels.ConductorMaterialKind -/
def e_ConductorMaterialKind : SType := .enum 0x436f6e647563746f724d6174657269616c4b696e64 [0x737465656c, 0x6f74686572, 0x616c756d696e756d, 0x636f70706572, 0x61637372]
/-- Enumeration CIM14.CDPSM.Balanced.IEC61968.AssetModels.ConductorUsageKind -/
def e_ConductorUsageKind : SType := .enum 0x436f6e647563746f7255736167654b696e64 [0x7365636f6e64617279, 0x6f74686572, 0x646973747269627574696f6e, 0x7472616e736d697373696f6e]
/-- Enumeration CIM14.CDPSM.Balanced.IEC61970.Core.PhaseCode -/
def e_PhaseCode : SType := .enum 0x5068617365436f6465 [0x414243, 0x73706c69745365636f6e64617279324e, 0x41424e, 0x434e, 0x41434e, 0x4243, 0x414e, 0x424e, 0x4142, 0x73706c69745365636f6e64617279314e, 0x4e, 0x43, 0x4143, 0x4142434e, 0x73706c69745365636f6e6461727931324e, 0x41, 0x42, 0x42434e]
/-- Enumeration CIM14.CDPSM.Balanced.IEC61970.Generation.Production.GeneratorControlSource -/
def e_GeneratorControlSource : SType := .enum 0x47656e657261746f72436f6e74726f6c536f75726365 [0x6f6e414743, 0x756e617661696c61626c65, 0x706c616e74436f6e74726f6c, 0x6f6666414743]
/-- Enumeration CIM14.CDPSM.Balanced.IEC61970.Wires.SynchronousMachineOperatingMode -/
def e_SynchronousMachineOperatingMode : SType := .enum 0x53796e6368726f6e6f75734d616368696e654f7065726174696e674d6f6465 [0x636f6e64656e736572, 0x67656e657261746f72]
/-- Enumeration CIM14.CDPSM.Balanced.IEC61970.Wires.SynchronousMachineType -/
def e_SynchronousMachineType : SType := .enum 0x53796e6368726f6e6f75734d616368696e6554797065 [0x636f6e64656e736572, 0x67656e657261746f725f6f725f636f6e64656e736572, 0x67656e657261746f72]
/-- Enumeration CIM14.CDPSM.Balanced.IEC61970.Wires.TransformerControlMode -/
def e_TransformerControlMode : SType := .enum 0x5472616e73666f726d6572436f6e74726f6c4d6f6465 [0x7265616374697665, 0x766f6c74]
/-- Enumeration CIM14.CDPSM.Balanced.IEC61970.Wires.WindingConnection -/
def e_WindingConnection : SType := .enum 0x57696e64696e67436f6e6e656374696f6e [0x49, 0x5a, 0x596e, 0x59, 0x41, 0x44, 0x5a6e]
/-- Data type with values of EBoolean -/
def t_EBoolean : SType := .prim 0x45426f6f6c65616e
/-- Data type with values of EFloat -/
def t_EFloat : SType := .prim 0x45466c6f6174
/-- Data type with values of EInt -/
def t_EInt : SType := .prim 0x45496e74
/-- Data type with values of EString -/
def t_EString : SType := .prim 0x45537472696e67
/-- Data type with values of float -/
def t_float : SType := .prim 0x666c6f6174
/-- Data type with values of java.util.Date -/
def t_java_util_Date : SType := .prim 0x6a6176612e7574696c2e44617465

/-- Class CIM14.CDPSM.Balanced.Element -/
def s_Element : SClass := ⟨0x456c656d656e74, 0x43494d31342e434450534d2e42616c616e6365642e456c656d656e74, 0,
  [(0x55554944, t_EString)],
  []⟩
/-- Class CIM14.CDPSM.Balanced.IEC61968.AssetModels.CableInfo -/
def s_CableInfo : SClass := ⟨0x4361626c65496e666f, 0x43494d31342e434450534d2e42616c616e6365642e49454336313936382e41737365744d6f64656c732e4361626c65496e666f, 0x43494d31342e434450534d2e42616c616e6365642e49454336313936382e41737365744d6f64656c732e436f6e647563746f72496e666f,
  [(0x6e6f6d696e616c54656d7065726174757265, t_float), (0x6469616d657465724f76657253637265656e, t_float), (0x73686561746841734e65757472616c, t_EBoolean), (0x6469616d657465724f7665724a61636b6574, t_float), (0x6469616d657465724f766572436f7265, t_float), (0x636f6e737472756374696f6e4b696e64, e_CableConstructionKind), (0x6f757465724a61636b65744b696e64, e_CableOuterJacketKind), (0x6973537472616e6446696c6c, t_EBoolean), (0x736869656c644d6174657269616c, e_CableShieldMaterialKind), (0x6469616d657465724f766572496e73756c6174696f6e, t_float)],
  []⟩
/-- Class CIM14.CDPSM.Balanced.IEC61968.AssetModels.ConcentricNeutralCableInfo -/
def s_ConcentricNeutralCableInfo : SClass := ⟨0x436f6e63656e747269634e65757472616c4361626c65496e666f, 0x43494d31342e434450534d2e42616c616e6365642e49454336313936382e41737365744d6f64656c732e436f6e63656e747269634e65757472616c4361626c65496e666f, 0x43494d31342e434450534d2e42616c616e6365642e49454336313936382e41737365744d6f64656c732e4361626c65496e666f,
  [(0x6e65757472616c537472616e64436f756e74, t_EInt), (0x6469616d657465724f7665724e65757472616c, t_float)],
  [⟨0x5769726554797065, 0x43494d31342e434450534d2e42616c616e6365642e49454336313936382e41737365744d6f64656c732e5769726554797065, false, 0x436f6e63656e747269634e65757472616c4361626c65496e666f73⟩]⟩
/-- Class CIM14.CDPSM.Balanced.IEC61968.AssetModels.ConductorInfo -/
def s_ConductorInfo : SClass := ⟨0x436f6e647563746f72496e666f, 0x43494d31342e434450534d2e42616c616e6365642e49454336313936382e41737365744d6f64656c732e436f6e647563746f72496e666f, 0x43494d31342e434450534d2e42616c616e6365642e49454336313937302e436f72652e4964656e7469666965644f626a656374,
  [(0x7068617365436f756e74, t_EInt), (0x696e73756c6174696f6e4d6174657269616c, e_ConductorInsulationKind), (0x696e73756c6174696f6e546869636b6e657373, t_float), (0x696e73756c61746564, t_EBoolean), (0x7573616765, e_ConductorUsageKind)],
  [⟨0x57697265417272616e67656d656e7473, 0x43494d31342e434450534d2e42616c616e6365642e49454336313936382e41737365744d6f64656c732e57697265417272616e67656d656e74, true, 0x436f6e647563746f72496e666f⟩, ⟨0x436f6e647563746f725365676d656e7473, 0x43494d31342e434450534d2e42616c616e6365642e49454336313936382e57697265734578742e446973747269627574696f6e4c696e655365676d656e74, true, 0x436f6e647563746f72496e666f⟩]⟩
/-- Class CIM14.CDPSM.Balanced.IEC61968.AssetModels.DistributionWindingTest -/
def s_DistributionWindingTest : SClass := ⟨0x446973747269627574696f6e57696e64696e6754657374, 0x43494d31342e434450534d2e42616c616e6365642e49454336313936382e41737365744d6f64656c732e446973747269627574696f6e57696e64696e6754657374, 0x43494d31342e434450534d2e42616c616e6365642e49454336313937302e436f72652e4964656e7469666965644f626a656374,
  [(0x66726f6d54617053746570, t_EInt)],
  [⟨0x46726f6d57696e64696e67, 0x43494d31342e434450534d2e42616c616e6365642e49454336313936382e41737365744d6f64656c732e57696e64696e67496e666f, false, 0x57696e64696e675465737473⟩]⟩
/-- Class CIM14.CDPSM.Balanced.IEC61968.AssetModels.OpenCircuitTest -/
def s_OpenCircuitTest : SClass := ⟨0x4f70656e4369726375697454657374, 0x43494d31342e434450534d2e42616c616e6365642e49454336313936382e41737365744d6f64656c732e4f70656e4369726375697454657374, 0x43494d31342e434450534d2e42616c616e6365642e49454336313936382e41737365744d6f64656c732e446973747269627574696f6e57696e64696e6754657374,
  [(0x6e6f4c6f61644c6f73735a65726f, t_float), (0x6e6f4c6f61644c6f7373, t_float), (0x6578636974696e6743757272656e74, t_float), (0x6578636974696e6743757272656e745a65726f, t_float)],
  [⟨0x4d6561737572656457696e64696e675370656373, 0x43494d31342e434450534d2e42616c616e6365642e49454336313936382e41737365744d6f64656c732e546f57696e64696e6753706563, true, 0x4f70656e436972637569745465737473⟩]⟩
/-- Class CIM14.CDPSM.Balanced.IEC61968.AssetModels.OverheadConductorInfo -/
def s_OverheadConductorInfo : SClass := ⟨0x4f76657268656164436f6e647563746f72496e666f, 0x43494d31342e434450534d2e42616c616e6365642e49454336313936382e41737365744d6f64656c732e4f76657268656164436f6e647563746f72496e666f, 0x43494d31342e434450534d2e42616c616e6365642e49454336313936382e41737365744d6f64656c732e436f6e647563746f72496e666f,
  [(0x6e65757472616c496e73756c6174696f6e546869636b6e657373, t_float), (0x7068617365436f6e647563746f72436f756e74, t_EInt), (0x7068617365436f6e647563746f7253706163696e67, t_float)],
  []⟩
/-- Class CIM14.CDPSM.Balanced.IEC61968.AssetModels.ShortCircuitTest -/
def s_ShortCircuitTest : SClass := ⟨0x53686f72744369726375697454657374, 0x43494d31342e434450534d2e42616c616e6365642e49454336313936382e41737365744d6f64656c732e53686f72744369726375697454657374, 0x43494d31342e434450534d2e42616c616e6365642e49454336313936382e41737365744d6f64656c732e446973747269627574696f6e57696e64696e6754657374,
  [(0x6c6f61644c6f73735a65726f, t_float), (0x6c65616b616765496d706564616e63655a65726f, t_float), (0x6c65616b616765496d706564616e6365, t_float), (0x6c6f61644c6f7373, t_float)],
  [⟨0x53686f7274656457696e64696e675370656373, 0x43494d31342e434450534d2e42616c616e6365642e49454336313936382e41737365744d6f64656c732e546f57696e64696e6753706563, true, 0x53686f7274436972637569745465737473⟩]⟩
/-- Class CIM14.CDPSM.Balanced.IEC61968.AssetModels.TapeShieldCableInfo -/
def s_TapeShieldCableInfo : SClass := ⟨0x54617065536869656c644361626c65496e666f, 0x43494d31342e434450534d2e42616c616e6365642e49454336313936382e41737365744d6f64656c732e54617065536869656c644361626c65496e666f, 0x43494d31342e434450534d2e42616c616e6365642e49454336313936382e41737365744d6f64656c732e4361626c65496e666f,
  [(0x74617065546869636b6e657373, t_float), (0x746170654c6170, t_float)],
  []⟩
/-- Class CIM14.CDPSM.Balanced.IEC61968.AssetModels.ToWindingSpec -/
def s_ToWindingSpec : SClass := ⟨0x546f57696e64696e6753706563, 0x43494d31342e434450534d2e42616c616e6365642e49454336313936382e41737365744d6f64656c732e546f57696e64696e6753706563, 0x43494d31342e434450534d2e42616c616e6365642e49454336313937302e436f72652e4964656e7469666965644f626a656374,
  [(0x746f54617053746570, t_EInt), (0x766f6c74616765, t_float), (0x70686173655368696674, t_float)],
  [⟨0x4f70656e436972637569745465737473, 0x43494d31342e434450534d2e42616c616e6365642e49454336313936382e41737365744d6f64656c732e4f70656e4369726375697454657374, true, 0x4d6561737572656457696e64696e675370656373⟩, ⟨0x53686f7274436972637569745465737473, 0x43494d31342e434450534d2e42616c616e6365642e49454336313936382e41737365744d6f64656c732e53686f72744369726375697454657374, true, 0x53686f7274656457696e64696e675370656373⟩, ⟨0x546f57696e64696e67, 0x43494d31342e434450534d2e42616c616e6365642e49454336313936382e41737365744d6f64656c732e57696e64696e67496e666f, false, 0x546f57696e64696e675370656373⟩]⟩
/-- Class CIM14.CDPSM.Balanced.IEC61968.AssetModels.TransformerInfo -/
def s_TransformerInfo : SClass := ⟨0x5472616e73666f726d6572496e666f, 0x43494d31342e434450534d2e42616c616e6365642e49454336313936382e41737365744d6f64656c732e5472616e73666f726d6572496e666f, 0x43494d31342e434450534d2e42616c616e6365642e49454336313937302e436f72652e4964656e7469666965644f626a656374,
  [],
  [⟨0x5472616e73666f726d657273, 0x43494d31342e434450534d2e42616c616e6365642e49454336313936382e57697265734578742e446973747269627574696f6e5472616e73666f726d6572, true, 0x5472616e73666f726d6572496e666f⟩, ⟨0x57696e64696e67496e666f73, 0x43494d31342e434450534d2e42616c616e6365642e49454336313936382e41737365744d6f64656c732e57696e64696e67496e666f, true, 0x5472616e73666f726d6572496e666f⟩]⟩
/-- Class CIM14.CDPSM.Balanced.IEC61968.AssetModels.WindingInfo -/
def s_WindingInfo : SClass := ⟨0x57696e64696e67496e666f, 0x43494d31342e434450534d2e42616c616e6365642e49454336313936382e41737365744d6f64656c732e57696e64696e67496e666f, 0x43494d31342e434450534d2e42616c616e6365642e49454336313937302e436f72652e4964656e7469666965644f626a656374,
  [(0x73657175656e63654e756d626572, t_EInt), (0x726174656453, t_float), (0x726174656455, t_float), (0x636f6e6e656374696f6e4b696e64, e_WindingConnection), (0x656d657267656e637953, t_float), (0x72, t_float), (0x7068617365416e676c65, t_EInt), (0x696e73756c6174696f6e55, t_float), (0x73686f72745465726d53, t_float)],
  [⟨0x57696e64696e675465737473, 0x43494d31342e434450534d2e42616c616e6365642e49454336313936382e41737365744d6f64656c732e446973747269627574696f6e57696e64696e6754657374, true, 0x46726f6d57696e64696e67⟩, ⟨0x546f57696e64696e675370656373, 0x43494d31342e434450534d2e42616c616e6365642e49454336313936382e41737365744d6f64656c732e546f57696e64696e6753706563, true, 0x546f57696e64696e67⟩, ⟨0x5472616e73666f726d6572496e666f, 0x43494d31342e434450534d2e42616c616e6365642e49454336313936382e41737365744d6f64656c732e5472616e73666f726d6572496e666f, false, 0x57696e64696e67496e666f73⟩, ⟨0x57696e64696e6773, 0x43494d31342e434450534d2e42616c616e6365642e49454336313936382e57697265734578742e446973747269627574696f6e5472616e73666f726d657257696e64696e67, true, 0x57696e64696e67496e666f⟩]⟩
/-- Class CIM14.CDPSM.Balanced.IEC61968.AssetModels.WireArrangement -/
def s_WireArrangement : SClass := ⟨0x57697265417272616e67656d656e74, 0x43494d31342e434450534d2e42616c616e6365642e49454336313936382e41737365744d6f64656c732e57697265417272616e67656d656e74, 0x43494d31342e434450534d2e42616c616e6365642e49454336313937302e436f72652e4964656e7469666965644f626a656374,
  [(0x6d6f756e74696e67506f696e7458, t_float), (0x6d6f756e74696e67506f696e7459, t_float), (0x706f736974696f6e, t_EInt)],
  [⟨0x436f6e647563746f72496e666f, 0x43494d31342e434450534d2e42616c616e6365642e49454336313936382e41737365744d6f64656c732e436f6e647563746f72496e666f, false, 0x57697265417272616e67656d656e7473⟩, ⟨0x5769726554797065, 0x43494d31342e434450534d2e42616c616e6365642e49454336313936382e41737365744d6f64656c732e5769726554797065, false, 0x57697265417272616e67656d656e7473⟩]⟩
/-- Class CIM14.CDPSM.Balanced.IEC61968.AssetModels.WireType -/
def s_WireType : SClass := ⟨0x5769726554797065, 0x43494d31342e434450534d2e42616c616e6365642e49454336313936382e41737365744d6f64656c732e5769726554797065, 0x43494d31342e434450534d2e42616c616e6365642e49454336313937302e436f72652e4964656e7469666965644f626a656374,
  [(0x7241433735, t_float), (0x636f7265526164697573, t_float), (0x636f7265537472616e64436f756e74, t_EInt), (0x7241433235, t_float), (0x726164697573, t_float), (0x676d72, t_float), (0x7244433230, t_float), (0x7241433530, t_float), (0x6d6174657269616c, e_ConductorMaterialKind), (0x73697a654465736372697074696f6e, t_EString), (0x737472616e64436f756e74, t_EInt), (0x726174656443757272656e74, t_float)],
  [⟨0x436f6e63656e747269634e65757472616c4361626c65496e666f73, 0x43494d31342e434450534d2e42616c616e6365642e49454336313936382e41737365744d6f64656c732e436f6e63656e747269634e65757472616c4361626c65496e666f, true, 0x5769726554797065⟩, ⟨0x57697265417272616e67656d656e7473, 0x43494d31342e434450534d2e42616c616e6365642e49454336313936382e41737365744d6f64656c732e57697265417272616e67656d656e74, true, 0x5769726554797065⟩]⟩
/-- Class CIM14.CDPSM.Balanced.IEC61968.Common.GeoLocation -/
def s_GeoLocation : SClass := ⟨0x47656f4c6f636174696f6e, 0x43494d31342e434450534d2e42616c616e6365642e49454336313936382e436f6d6d6f6e2e47656f4c6f636174696f6e, 0x43494d31342e434450534d2e42616c616e6365642e49454336313936382e436f6d6d6f6e2e4c6f636174696f6e,
  [],
  [⟨0x506f77657253797374656d5265736f7572636573, 0x43494d31342e434450534d2e42616c616e6365642e49454336313937302e436f72652e506f77657253797374656d5265736f75726365, true, 0x47656f4c6f636174696f6e⟩]⟩
/-- Class CIM14.CDPSM.Balanced.IEC61968.Common.Location -/
def s_Location : SClass := ⟨0x4c6f636174696f6e, 0x43494d31342e434450534d2e42616c616e6365642e49454336313936382e436f6d6d6f6e2e4c6f636174696f6e, 0x43494d31342e434450534d2e42616c616e6365642e49454336313937302e436f72652e4964656e7469666965644f626a656374,
  [],
  [⟨0x506f736974696f6e506f696e7473, 0x43494d31342e434450534d2e42616c616e6365642e49454336313936382e436f6d6d6f6e2e506f736974696f6e506f696e74, true, 0x4c6f636174696f6e⟩]⟩
/-- Class CIM14.CDPSM.Balanced.IEC61968.Common.PositionPoint -/
def s_PositionPoint : SClass := ⟨0x506f736974696f6e506f696e74, 0x43494d31342e434450534d2e42616c616e6365642e49454336313936382e436f6d6d6f6e2e506f736974696f6e506f696e74, 0x43494d31342e434450534d2e42616c616e6365642e456c656d656e74,
  [(0x78506f736974696f6e, t_EString), (0x73657175656e63654e756d626572, t_EInt), (0x79506f736974696f6e, t_EString)],
  [⟨0x4c6f636174696f6e, 0x43494d31342e434450534d2e42616c616e6365642e49454336313936382e436f6d6d6f6e2e4c6f636174696f6e, false, 0x506f736974696f6e506f696e7473⟩]⟩
/-- Class CIM14.CDPSM.Balanced.IEC61968.WiresExt.DistributionLineSegment -/
def s_DistributionLineSegment : SClass := ⟨0x446973747269627574696f6e4c696e655365676d656e74, 0x43494d31342e434450534d2e42616c616e6365642e49454336313936382e57697265734578742e446973747269627574696f6e4c696e655365676d656e74, 0x43494d31342e434450534d2e42616c616e6365642e49454336313937302e57697265732e41434c696e655365676d656e74,
  [],
  [⟨0x436f6e647563746f72496e666f, 0x43494d31342e434450534d2e42616c616e6365642e49454336313936382e41737365744d6f64656c732e436f6e647563746f72496e666f, false, 0x436f6e647563746f725365676d656e7473⟩, ⟨0x53657175656e6365496d706564616e6365, 0x43494d31342e434450534d2e42616c616e6365642e49454336313936382e57697265734578742e5065724c656e67746853657175656e6365496d706564616e6365, false, 0x436f6e647563746f725365676d656e7473⟩, ⟨0x5068617365496d706564616e6365, 0x43494d31342e434450534d2e42616c616e6365642e49454336313936382e57697265734578742e5065724c656e6774685068617365496d706564616e6365, false, 0x436f6e647563746f725365676d656e7473⟩]⟩
/-- Class CIM14.CDPSM.Balanced.IEC61968.WiresExt.DistributionTapChanger -/
def s_DistributionTapChanger : SClass := ⟨0x446973747269627574696f6e5461704368616e676572, 0x43494d31342e434450534d2e42616c616e6365642e49454336313936382e57697265734578742e446973747269627574696f6e5461704368616e676572, 0x43494d31342e434450534d2e42616c616e6365642e49454336313937302e57697265732e526174696f5461704368616e676572,
  [(0x6c696e6544726f7052, t_float), (0x6d6f6e69746f7265645068617365, e_PhaseCode), (0x6c696e6544726f70436f6d70656e736174696f6e, t_EBoolean), (0x7074526174696f, t_EFloat), (0x6374526174696f, t_EFloat), (0x726576657273654c696e6544726f7052, t_float), (0x6c696d6974566f6c74616765, t_float), (0x726576657273654c696e6544726f7058, t_float), (0x62616e64566f6c74616765, t_float), (0x746172676574566f6c74616765, t_float), (0x6c696e6544726f7058, t_float)],
  []⟩
/-- Class CIM14.CDPSM.Balanced.IEC61968.WiresExt.DistributionTransformer -/
def s_DistributionTransformer : SClass := ⟨0x446973747269627574696f6e5472616e73666f726d6572, 0x43494d31342e434450534d2e42616c616e6365642e49454336313936382e57697265734578742e446973747269627574696f6e5472616e73666f726d6572, 0x43494d31342e434450534d2e42616c616e6365642e49454336313937302e436f72652e45717569706d656e74,
  [],
  [⟨0x5472616e73666f726d6572496e666f, 0x43494d31342e434450534d2e42616c616e6365642e49454336313936382e41737365744d6f64656c732e5472616e73666f726d6572496e666f, false, 0x5472616e73666f726d657273⟩, ⟨0x57696e64696e6773, 0x43494d31342e434450534d2e42616c616e6365642e49454336313936382e57697265734578742e446973747269627574696f6e5472616e73666f726d657257696e64696e67, true, 0x5472616e73666f726d6572⟩, ⟨0x5472616e73666f726d657242616e6b, 0x43494d31342e434450534d2e42616c616e6365642e49454336313936382e57697265734578742e5472616e73666f726d657242616e6b, false, 0x5472616e73666f726d657273⟩]⟩
/-- Class CIM14.CDPSM.Balanced.IEC61968.WiresExt.DistributionTransformerWinding -/
def s_DistributionTransformerWinding : SClass := ⟨0x446973747269627574696f6e5472616e73666f726d657257696e64696e67, 0x43494d31342e434450534d2e42616c616e6365642e49454336313936382e57697265734578742e446973747269627574696f6e5472616e73666f726d657257696e64696e67, 0x43494d31342e434450534d2e42616c616e6365642e49454336313937302e436f72652e436f6e64756374696e6745717569706d656e74,
  [(0x7267726f756e64, t_float), (0x7867726f756e64, t_float), (0x67726f756e646564, t_EBoolean)],
  [⟨0x57696e64696e67496e666f, 0x43494d31342e434450534d2e42616c616e6365642e49454336313936382e41737365744d6f64656c732e57696e64696e67496e666f, false, 0x57696e64696e6773⟩, ⟨0x5472616e73666f726d6572, 0x43494d31342e434450534d2e42616c616e6365642e49454336313936382e57697265734578742e446973747269627574696f6e5472616e73666f726d6572, false, 0x57696e64696e6773⟩, ⟨0x526174696f5461704368616e676572, 0x43494d31342e434450534d2e42616c616e6365642e49454336313937302e57697265732e526174696f5461704368616e676572, false, 0x57696e64696e67⟩, ⟨0x5069496d706564616e6365, 0x43494d31342e434450534d2e42616c616e6365642e49454336313936382e57697265734578742e57696e64696e675069496d706564616e6365, false, 0x57696e64696e6773⟩]⟩
/-- Class CIM14.CDPSM.Balanced.IEC61968.WiresExt.PerLengthPhaseImpedance -/
def s_PerLengthPhaseImpedance : SClass := ⟨0x5065724c656e6774685068617365496d706564616e6365, 0x43494d31342e434450534d2e42616c616e6365642e49454336313936382e57697265734578742e5065724c656e6774685068617365496d706564616e6365, 0x43494d31342e434450534d2e42616c616e6365642e49454336313937302e436f72652e4964656e7469666965644f626a656374,
  [(0x636f6e647563746f72436f756e74, t_EInt)],
  [⟨0x5068617365496d706564616e636544617461, 0x43494d31342e434450534d2e42616c616e6365642e49454336313936382e57697265734578742e5068617365496d706564616e636544617461, true, 0x5068617365496d706564616e6365⟩, ⟨0x436f6e647563746f725365676d656e7473, 0x43494d31342e434450534d2e42616c616e6365642e49454336313936382e57697265734578742e446973747269627574696f6e4c696e655365676d656e74, true, 0x5068617365496d706564616e6365⟩]⟩
/-- Class CIM14.CDPSM.Balanced.IEC61968.WiresExt.PerLengthSequenceImpedance -/
def s_PerLengthSequenceImpedance : SClass := ⟨0x5065724c656e67746853657175656e6365496d706564616e6365, 0x43494d31342e434450534d2e42616c616e6365642e49454336313936382e57697265734578742e5065724c656e67746853657175656e6365496d706564616e6365, 0x43494d31342e434450534d2e42616c616e6365642e49454336313937302e436f72652e4964656e7469666965644f626a656374,
  [(0x78, t_float), (0x676368, t_float), (0x7230, t_float), (0x7830, t_float), (0x67306368, t_float), (0x62306368, t_float), (0x72, t_float), (0x626368, t_float)],
  [⟨0x436f6e647563746f725365676d656e7473, 0x43494d31342e434450534d2e42616c616e6365642e49454336313936382e57697265734578742e446973747269627574696f6e4c696e655365676d656e74, true, 0x53657175656e6365496d706564616e6365⟩]⟩
/-- Class CIM14.CDPSM.Balanced.IEC61968.WiresExt.PhaseImpedanceData -/
def s_PhaseImpedanceData : SClass := ⟨0x5068617365496d706564616e636544617461, 0x43494d31342e434450534d2e42616c616e6365642e49454336313936382e57697265734578742e5068617365496d706564616e636544617461, 0x43494d31342e434450534d2e42616c616e6365642e456c656d656e74,
  [(0x78, t_float), (0x73657175656e63654e756d626572, t_EInt), (0x62, t_float), (0x72, t_float)],
  [⟨0x5068617365496d706564616e6365, 0x43494d31342e434450534d2e42616c616e6365642e49454336313936382e57697265734578742e5065724c656e6774685068617365496d706564616e6365, false, 0x5068617365496d706564616e636544617461⟩]⟩
/-- Class CIM14.CDPSM.Balanced.IEC61968.WiresExt.TransformerBank -/
def s_TransformerBank : SClass := ⟨0x5472616e73666f726d657242616e6b, 0x43494d31342e434450534d2e42616c616e6365642e49454336313936382e57697265734578742e5472616e73666f726d657242616e6b, 0x43494d31342e434450534d2e42616c616e6365642e49454336313937302e436f72652e45717569706d656e74,
  [(0x766563746f7247726f7570, t_EString)],
  [⟨0x5472616e73666f726d657273, 0x43494d31342e434450534d2e42616c616e6365642e49454336313936382e57697265734578742e446973747269627574696f6e5472616e73666f726d6572, true, 0x5472616e73666f726d657242616e6b⟩]⟩
/-- Class CIM14.CDPSM.Balanced.IEC61968.WiresExt.WindingPiImpedance -/
def s_WindingPiImpedance : SClass := ⟨0x57696e64696e675069496d706564616e6365, 0x43494d31342e434450534d2e42616c616e6365642e49454336313936382e57697265734578742e57696e64696e675069496d706564616e6365, 0x43494d31342e434450534d2e42616c616e6365642e49454336313937302e436f72652e4964656e7469666965644f626a656374,
  [(0x78, t_float), (0x67, t_float), (0x7230, t_float), (0x72, t_float), (0x62, t_float), (0x6730, t_float), (0x7830, t_float), (0x6230, t_float)],
  [⟨0x57696e64696e6773, 0x43494d31342e434450534d2e42616c616e6365642e49454336313936382e57697265734578742e446973747269627574696f6e5472616e73666f726d657257696e64696e67, true, 0x5069496d706564616e6365⟩]⟩
/-- Class CIM14.CDPSM.Balanced.IEC61970.Core.BaseVoltage -/
def s_BaseVoltage : SClass := ⟨0x42617365566f6c74616765, 0x43494d31342e434450534d2e42616c616e6365642e49454336313937302e436f72652e42617365566f6c74616765, 0x43494d31342e434450534d2e42616c616e6365642e49454336313937302e436f72652e4964656e7469666965644f626a656374,
  [(0x6e6f6d696e616c566f6c74616765, t_float)],
  [⟨0x436f6e64756374696e6745717569706d656e74, 0x43494d31342e434450534d2e42616c616e6365642e49454336313937302e436f72652e436f6e64756374696e6745717569706d656e74, true, 0x42617365566f6c74616765⟩, ⟨0x566f6c746167654c6576656c, 0x43494d31342e434450534d2e42616c616e6365642e49454336313937302e436f72652e566f6c746167654c6576656c, true, 0x42617365566f6c74616765⟩]⟩
/-- Class CIM14.CDPSM.Balanced.IEC61970.Core.Bay -/
def s_Bay : SClass := ⟨0x426179, 0x43494d31342e434450534d2e42616c616e6365642e49454336313937302e436f72652e426179, 0x43494d31342e434450534d2e42616c616e6365642e49454336313937302e436f72652e45717569706d656e74436f6e7461696e6572,
  [],
  [⟨0x566f6c746167654c6576656c, 0x43494d31342e434450534d2e42616c616e6365642e49454336313937302e436f72652e566f6c746167654c6576656c, false, 0x42617973⟩]⟩
/-- Class CIM14.CDPSM.Balanced.IEC61970.Core.ConductingEquipment -/
def s_ConductingEquipment : SClass := ⟨0x436f6e64756374696e6745717569706d656e74, 0x43494d31342e434450534d2e42616c616e6365642e49454336313937302e436f72652e436f6e64756374696e6745717569706d656e74, 0x43494d31342e434450534d2e42616c616e6365642e49454336313937302e436f72652e45717569706d656e74,
  [(0x706861736573, e_PhaseCode)],
  [⟨0x5465726d696e616c73, 0x43494d31342e434450534d2e42616c616e6365642e49454336313937302e436f72652e5465726d696e616c, true, 0x436f6e64756374696e6745717569706d656e74⟩, ⟨0x42617365566f6c74616765, 0x43494d31342e434450534d2e42616c616e6365642e49454336313937302e436f72652e42617365566f6c74616765, false, 0x436f6e64756374696e6745717569706d656e74⟩]⟩
/-- Class CIM14.CDPSM.Balanced.IEC61970.Core.ConnectivityNodeContainer -/
def s_ConnectivityNodeContainer : SClass := ⟨0x436f6e6e65637469766974794e6f6465436f6e7461696e6572, 0x43494d31342e434450534d2e42616c616e6365642e49454336313937302e436f72652e436f6e6e65637469766974794e6f6465436f6e7461696e6572, 0x43494d31342e434450534d2e42616c616e6365642e49454336313937302e436f72652e506f77657253797374656d5265736f75726365,
  [],
  [⟨0x436f6e6e65637469766974794e6f646573, 0x43494d31342e434450534d2e42616c616e6365642e49454336313937302e546f706f6c6f67792e436f6e6e65637469766974794e6f6465, true, 0x436f6e6e65637469766974794e6f6465436f6e7461696e6572⟩]⟩
/-- Class CIM14.CDPSM.Balanced.IEC61970.Core.Equipment -/
def s_Equipment : SClass := ⟨0x45717569706d656e74, 0x43494d31342e434450534d2e42616c616e6365642e49454336313937302e436f72652e45717569706d656e74, 0x43494d31342e434450534d2e42616c616e6365642e49454336313937302e436f72652e506f77657253797374656d5265736f75726365,
  [(0x6e6f726d61496c79496e53657276696365, t_EBoolean)],
  [⟨0x45717569706d656e74436f6e7461696e6572, 0x43494d31342e434450534d2e42616c616e6365642e49454336313937302e436f72652e45717569706d656e74436f6e7461696e6572, false, 0x45717569706d656e7473⟩]⟩
/-- Class CIM14.CDPSM.Balanced.IEC61970.Core.EquipmentContainer -/
def s_EquipmentContainer : SClass := ⟨0x45717569706d656e74436f6e7461696e6572, 0x43494d31342e434450534d2e42616c616e6365642e49454336313937302e436f72652e45717569706d656e74436f6e7461696e6572, 0x43494d31342e434450534d2e42616c616e6365642e49454336313937302e436f72652e436f6e6e65637469766974794e6f6465436f6e7461696e6572,
  [],
  [⟨0x45717569706d656e7473, 0x43494d31342e434450534d2e42616c616e6365642e49454336313937302e436f72652e45717569706d656e74, true, 0x45717569706d656e74436f6e7461696e6572⟩]⟩
/-- Class CIM14.CDPSM.Balanced.IEC61970.Core.GeographicalRegion -/
def s_GeographicalRegion : SClass := ⟨0x47656f67726170686963616c526567696f6e, 0x43494d31342e434450534d2e42616c616e6365642e49454336313937302e436f72652e47656f67726170686963616c526567696f6e, 0x43494d31342e434450534d2e42616c616e6365642e49454336313937302e436f72652e4964656e7469666965644f626a656374,
  [],
  [⟨0x526567696f6e73, 0x43494d31342e434450534d2e42616c616e6365642e49454336313937302e436f72652e53756247656f67726170686963616c526567696f6e, true, 0x526567696f6e⟩]⟩
/-- Class CIM14.CDPSM.Balanced.IEC61970.Core.IdentifiedObject -/
def s_IdentifiedObject : SClass := ⟨0x4964656e7469666965644f626a656374, 0x43494d31342e434450534d2e42616c616e6365642e49454336313937302e436f72652e4964656e7469666965644f626a656374, 0x43494d31342e434450534d2e42616c616e6365642e456c656d656e74,
  [(0x6d524944, t_EString), (0x6465736372697074696f6e, t_EString), (0x6e616d65, t_EString), (0x6c6f63616c4e616d65, t_EString), (0x616c6961734e616d65, t_EString)],
  []⟩
/-- Class CIM14.CDPSM.Balanced.IEC61970.Core.PSRType -/
def s_PSRType : SClass := ⟨0x50535254797065, 0x43494d31342e434450534d2e42616c616e6365642e49454336313937302e436f72652e50535254797065, 0x43494d31342e434450534d2e42616c616e6365642e49454336313937302e436f72652e4964656e7469666965644f626a656374,
  [],
  [⟨0x506f77657253797374656d5265736f7572636573, 0x43494d31342e434450534d2e42616c616e6365642e49454336313937302e436f72652e506f77657253797374656d5265736f75726365, true, 0x50535254797065⟩]⟩
/-- Class CIM14.CDPSM.Balanced.IEC61970.Core.PowerSystemResource -/
def s_PowerSystemResource : SClass := ⟨0x506f77657253797374656d5265736f75726365, 0x43494d31342e434450534d2e42616c616e6365642e49454336313937302e436f72652e506f77657253797374656d5265736f75726365, 0x43494d31342e434450534d2e42616c616e6365642e49454336313937302e436f72652e4964656e7469666965644f626a656374,
  [],
  [⟨0x47656f4c6f636174696f6e, 0x43494d31342e434450534d2e42616c616e6365642e49454336313936382e436f6d6d6f6e2e47656f4c6f636174696f6e, false, 0x506f77657253797374656d5265736f7572636573⟩, ⟨0x50535254797065, 0x43494d31342e434450534d2e42616c616e6365642e49454336313937302e436f72652e50535254797065, false, 0x506f77657253797374656d5265736f7572636573⟩]⟩
/-- Class CIM14.CDPSM.Balanced.IEC61970.Core.SubGeographicalRegion -/
def s_SubGeographicalRegion : SClass := ⟨0x53756247656f67726170686963616c526567696f6e, 0x43494d31342e434450534d2e42616c616e6365642e49454336313937302e436f72652e53756247656f67726170686963616c526567696f6e, 0x43494d31342e434450534d2e42616c616e6365642e49454336313937302e436f72652e4964656e7469666965644f626a656374,
  [],
  [⟨0x526567696f6e, 0x43494d31342e434450534d2e42616c616e6365642e49454336313937302e436f72652e47656f67726170686963616c526567696f6e, false, 0x526567696f6e73⟩, ⟨0x4c696e6573, 0x43494d31342e434450534d2e42616c616e6365642e49454336313937302e57697265732e4c696e65, true, 0x526567696f6e⟩, ⟨0x53756273746174696f6e73, 0x43494d31342e434450534d2e42616c616e6365642e49454336313937302e436f72652e53756273746174696f6e, true, 0x526567696f6e⟩]⟩
/-- Class CIM14.CDPSM.Balanced.IEC61970.Core.Substation -/
def s_Substation : SClass := ⟨0x53756273746174696f6e, 0x43494d31342e434450534d2e42616c616e6365642e49454336313937302e436f72652e53756273746174696f6e, 0x43494d31342e434450534d2e42616c616e6365642e49454336313937302e436f72652e45717569706d656e74436f6e7461696e6572,
  [],
  [⟨0x526567696f6e, 0x43494d31342e434450534d2e42616c616e6365642e49454336313937302e436f72652e53756247656f67726170686963616c526567696f6e, false, 0x53756273746174696f6e73⟩, ⟨0x566f6c746167654c6576656c73, 0x43494d31342e434450534d2e42616c616e6365642e49454336313937302e436f72652e566f6c746167654c6576656c, true, 0x53756273746174696f6e⟩]⟩
/-- Class CIM14.CDPSM.Balanced.IEC61970.Core.Terminal -/
def s_Terminal : SClass := ⟨0x5465726d696e616c, 0x43494d31342e434450534d2e42616c616e6365642e49454336313937302e436f72652e5465726d696e616c, 0x43494d31342e434450534d2e42616c616e6365642e49454336313937302e436f72652e4964656e7469666965644f626a656374,
  [(0x73657175656e63654e756d626572, t_EInt), (0x636f6e6e6563746564, t_EBoolean)],
  [⟨0x436f6e64756374696e6745717569706d656e74, 0x43494d31342e434450534d2e42616c616e6365642e49454336313937302e436f72652e436f6e64756374696e6745717569706d656e74, false, 0x5465726d696e616c73⟩, ⟨0x436f6e6e65637469766974794e6f6465, 0x43494d31342e434450534d2e42616c616e6365642e49454336313937302e546f706f6c6f67792e436f6e6e65637469766974794e6f6465, false, 0x5465726d696e616c73⟩]⟩
/-- Class CIM14.CDPSM.Balanced.IEC61970.Core.VoltageLevel -/
def s_VoltageLevel : SClass := ⟨0x566f6c746167654c6576656c, 0x43494d31342e434450534d2e42616c616e6365642e49454336313937302e436f72652e566f6c746167654c6576656c, 0x43494d31342e434450534d2e42616c616e6365642e49454336313937302e436f72652e45717569706d656e74436f6e7461696e6572,
  [(0x6c6f77566f6c746167654c696d6974, t_float), (0x68696768566f6c746167654c696d6974, t_float)],
  [⟨0x42617365566f6c74616765, 0x43494d31342e434450534d2e42616c616e6365642e49454336313937302e436f72652e42617365566f6c74616765, false, 0x566f6c746167654c6576656c⟩, ⟨0x42617973, 0x43494d31342e434450534d2e42616c616e6365642e49454336313937302e436f72652e426179, true, 0x566f6c746167654c6576656c⟩, ⟨0x53756273746174696f6e, 0x43494d31342e434450534d2e42616c616e6365642e49454336313937302e436f72652e53756273746174696f6e, false, 0x566f6c746167654c6576656c73⟩]⟩
/-- Class CIM14.CDPSM.Balanced.IEC61970.Generation.Production.GeneratingUnit -/
def s_GeneratingUnit : SClass := ⟨0x47656e65726174696e67556e6974, 0x43494d31342e434450534d2e42616c616e6365642e49454336313937302e47656e65726174696f6e2e50726f64756374696f6e2e47656e65726174696e67556e6974, 0x43494d31342e434450534d2e42616c616e6365642e49454336313937302e436f72652e45717569706d656e74,
  [(0x72617465644e65744d617850, t_float), (0x67656e436f6e74726f6c536f75726365, e_GeneratorControlSource), (0x696e697469616c50, t_float)],
  [⟨0x53796e6368726f6e6f75734d616368696e6573, 0x43494d31342e434450534d2e42616c616e6365642e49454336313937302e57697265732e53796e6368726f6e6f75734d616368696e65, true, 0x47656e65726174696e67556e6974⟩]⟩
/-- Class CIM14.CDPSM.Balanced.IEC61970.IEC61970CIMVersion -/
def s_IEC61970CIMVersion : SClass := ⟨0x494543363139373043494d56657273696f6e, 0x43494d31342e434450534d2e42616c616e6365642e49454336313937302e494543363139373043494d56657273696f6e, 0x43494d31342e434450534d2e42616c616e6365642e456c656d656e74,
  [(0x64617465, t_java_util_Date), (0x76657273696f6e, t_EString)],
  []⟩
/-- Class CIM14.CDPSM.Balanced.IEC61970.LoadModel.LoadResponseCharacteristic -/
def s_LoadResponseCharacteristic : SClass := ⟨0x4c6f6164526573706f6e73654368617261637465726973746963, 0x43494d31342e434450534d2e42616c616e6365642e49454336313937302e4c6f61644d6f64656c2e4c6f6164526573706f6e73654368617261637465726973746963, 0x43494d31342e434450534d2e42616c616e6365642e49454336313937302e436f72652e4964656e7469666965644f626a656374,
  [(0x70566f6c746167654578706f6e656e74, t_EFloat), (0x71436f6e7374616e7443757272656e74, t_EFloat), (0x704672657175656e63794578706f6e656e74, t_EFloat), (0x6578706f6e656e744d6f64656c, t_EBoolean), (0x71436f6e7374616e74496d706564616e6365, t_EFloat), (0x70436f6e7374616e7443757272656e74, t_EFloat), (0x714672657175656e63794578706f6e656e74, t_EFloat), (0x70436f6e7374616e74506f776572, t_EFloat), (0x71566f6c746167654578706f6e656e74, t_EFloat), (0x71436f6e7374616e74506f776572, t_EFloat), (0x70436f6e7374616e74496d706564616e6365, t_EFloat)],
  [⟨0x456e65726779436f6e73756d6572, 0x43494d31342e434450534d2e42616c616e6365642e49454336313937302e57697265732e456e65726779436f6e73756d6572, true, 0x4c6f6164526573706f6e7365⟩]⟩
/-- Class CIM14.CDPSM.Balanced.IEC61970.StateVariables.SvTapStep -/
def s_SvTapStep : SClass := ⟨0x537654617053746570, 0x43494d31342e434450534d2e42616c616e6365642e49454336313937302e53746174655661726961626c65732e537654617053746570, 0x43494d31342e434450534d2e42616c616e6365642e456c656d656e74,
  [(0x636f6e74696e756f7573506f736974696f6e, t_EFloat), (0x706f736974696f6e, t_EInt)],
  [⟨0x5461704368616e676572, 0x43494d31342e434450534d2e42616c616e6365642e49454336313937302e57697265732e5461704368616e676572, false, 0x537654617053746570⟩]⟩
/-- Class CIM14.CDPSM.Balanced.IEC61970.Topology.ConnectivityNode -/
def s_ConnectivityNode : SClass := ⟨0x436f6e6e65637469766974794e6f6465, 0x43494d31342e434450534d2e42616c616e6365642e49454336313937302e546f706f6c6f67792e436f6e6e65637469766974794e6f6465, 0x43494d31342e434450534d2e42616c616e6365642e49454336313937302e436f72652e4964656e7469666965644f626a656374,
  [],
  [⟨0x5465726d696e616c73, 0x43494d31342e434450534d2e42616c616e6365642e49454336313937302e436f72652e5465726d696e616c, true, 0x436f6e6e65637469766974794e6f6465⟩, ⟨0x436f6e6e65637469766974794e6f6465436f6e7461696e6572, 0x43494d31342e434450534d2e42616c616e6365642e49454336313937302e436f72652e436f6e6e65637469766974794e6f6465436f6e7461696e6572, false, 0x436f6e6e65637469766974794e6f646573⟩]⟩
/-- Class CIM14.CDPSM.Balanced.IEC61970.Wires.ACLineSegment -/
def s_ACLineSegment : SClass := ⟨0x41434c696e655365676d656e74, 0x43494d31342e434450534d2e42616c616e6365642e49454336313937302e57697265732e41434c696e655365676d656e74, 0x43494d31342e434450534d2e42616c616e6365642e49454336313937302e57697265732e436f6e647563746f72,
  [(0x72, t_float), (0x7830, t_float), (0x626368, t_float), (0x78, t_float), (0x62306368, t_float), (0x7230, t_float)],
  []⟩
/-- Class CIM14.CDPSM.Balanced.IEC61970.Wires.Breaker -/
def s_Breaker : SClass := ⟨0x427265616b6572, 0x43494d31342e434450534d2e42616c616e6365642e49454336313937302e57697265732e427265616b6572, 0x43494d31342e434450534d2e42616c616e6365642e49454336313937302e57697265732e537769746368,
  [(0x726174656443757272656e74, t_float)],
  []⟩
/-- Class CIM14.CDPSM.Balanced.IEC61970.Wires.BusbarSection -/
def s_BusbarSection : SClass := ⟨0x42757362617253656374696f6e, 0x43494d31342e434450534d2e42616c616e6365642e49454336313937302e57697265732e42757362617253656374696f6e, 0x43494d31342e434450534d2e42616c616e6365642e49454336313937302e436f72652e436f6e64756374696e6745717569706d656e74,
  [],
  []⟩
/-- Class CIM14.CDPSM.Balanced.IEC61970.Wires.Conductor -/
def s_Conductor : SClass := ⟨0x436f6e647563746f72, 0x43494d31342e434450534d2e42616c616e6365642e49454336313937302e57697265732e436f6e647563746f72, 0x43494d31342e434450534d2e42616c616e6365642e49454336313937302e436f72652e436f6e64756374696e6745717569706d656e74,
  [(0x6c656e677468, t_float)],
  []⟩
/-- Class CIM14.CDPSM.Balanced.IEC61970.Wires.Disconnector -/
def s_Disconnector : SClass := ⟨0x446973636f6e6e6563746f72, 0x43494d31342e434450534d2e42616c616e6365642e49454336313937302e57697265732e446973636f6e6e6563746f72, 0x43494d31342e434450534d2e42616c616e6365642e49454336313937302e57697265732e537769746368,
  [],
  []⟩
/-- Class CIM14.CDPSM.Balanced.IEC61970.Wires.EnergyConsumer -/
def s_EnergyConsumer : SClass := ⟨0x456e65726779436f6e73756d6572, 0x43494d31342e434450534d2e42616c616e6365642e49454336313937302e57697265732e456e65726779436f6e73756d6572, 0x43494d31342e434450534d2e42616c616e6365642e49454336313937302e436f72652e436f6e64756374696e6745717569706d656e74,
  [(0x706669786564, t_float), (0x706669786564506374, t_float), (0x716669786564506374, t_float), (0x716669786564, t_float), (0x637573746f6d6572436f756e74, t_EInt)],
  [⟨0x4c6f6164526573706f6e7365, 0x43494d31342e434450534d2e42616c616e6365642e49454336313937302e4c6f61644d6f64656c2e4c6f6164526573706f6e73654368617261637465726973746963, false, 0x456e65726779436f6e73756d6572⟩]⟩
/-- Class CIM14.CDPSM.Balanced.IEC61970.Wires.EnergySource -/
def s_EnergySource : SClass := ⟨0x456e65726779536f75726365, 0x43494d31342e434450534d2e42616c616e6365642e49454336313937302e57697265732e456e65726779536f75726365, 0x43494d31342e434450534d2e42616c616e6365642e49454336313937302e436f72652e436f6e64756374696e6745717569706d656e74,
  [(0x78, t_float), (0x766f6c746167654d61676e6974756465, t_float), (0x766f6c74616765416e676c65, t_float), (0x6e6f6d696e616c566f6c74616765, t_float)],
  []⟩
/-- Class CIM14.CDPSM.Balanced.IEC61970.Wires.Fuse -/
def s_Fuse : SClass := ⟨0x46757365, 0x43494d31342e434450534d2e42616c616e6365642e49454336313937302e57697265732e46757365, 0x43494d31342e434450534d2e42616c616e6365642e49454336313937302e57697265732e537769746368,
  [(0x726174696e6743757272656e74, t_float)],
  []⟩
/-- Class CIM14.CDPSM.Balanced.IEC61970.Wires.Junction -/
def s_Junction : SClass := ⟨0x4a756e6374696f6e, 0x43494d31342e434450534d2e42616c616e6365642e49454336313937302e57697265732e4a756e6374696f6e, 0x43494d31342e434450534d2e42616c616e6365642e49454336313937302e436f72652e436f6e64756374696e6745717569706d656e74,
  [],
  []⟩
/-- Class CIM14.CDPSM.Balanced.IEC61970.Wires.Line -/
def s_Line : SClass := ⟨0x4c696e65, 0x43494d31342e434450534d2e42616c616e6365642e49454336313937302e57697265732e4c696e65, 0x43494d31342e434450534d2e42616c616e6365642e49454336313937302e436f72652e45717569706d656e74436f6e7461696e6572,
  [],
  [⟨0x526567696f6e, 0x43494d31342e434450534d2e42616c616e6365642e49454336313937302e436f72652e53756247656f67726170686963616c526567696f6e, false, 0x4c696e6573⟩]⟩
/-- Class CIM14.CDPSM.Balanced.IEC61970.Wires.LoadBreakSwitch -/
def s_LoadBreakSwitch : SClass := ⟨0x4c6f6164427265616b537769746368, 0x43494d31342e434450534d2e42616c616e6365642e49454336313937302e57697265732e4c6f6164427265616b537769746368, 0x43494d31342e434450534d2e42616c616e6365642e49454336313937302e57697265732e537769746368,
  [(0x726174656443757272656e74, t_float)],
  []⟩
/-- Class CIM14.CDPSM.Balanced.IEC61970.Wires.RatioTapChanger -/
def s_RatioTapChanger : SClass := ⟨0x526174696f5461704368616e676572, 0x43494d31342e434450534d2e42616c616e6365642e49454336313937302e57697265732e526174696f5461704368616e676572, 0x43494d31342e434450534d2e42616c616e6365642e49454336313937302e57697265732e5461704368616e676572,
  [(0x7463756c436f6e74726f6c4d6f6465, e_TransformerControlMode)],
  [⟨0x57696e64696e67, 0x43494d31342e434450534d2e42616c616e6365642e49454336313936382e57697265734578742e446973747269627574696f6e5472616e73666f726d657257696e64696e67, false, 0x526174696f5461704368616e676572⟩]⟩
/-- Class CIM14.CDPSM.Balanced.IEC61970.Wires.ShuntCompensator -/
def s_ShuntCompensator : SClass := ⟨0x5368756e74436f6d70656e7361746f72, 0x43494d31342e434450534d2e42616c616e6365642e49454336313937302e57697265732e5368756e74436f6d70656e7361746f72, 0x43494d31342e434450534d2e42616c616e6365642e49454336313937302e436f72652e436f6e64756374696e6745717569706d656e74,
  [(0x6e6f6d51, t_float), (0x6e6f6d55, t_float), (0x6e6f726d616c53656374696f6e73, t_EInt), (0x6d6178696d756d53656374696f6e73, t_EInt), (0x726561637469766550657253656374696f6e, t_float)],
  []⟩
/-- Class CIM14.CDPSM.Balanced.IEC61970.Wires.Switch -/
def s_Switch : SClass := ⟨0x537769746368, 0x43494d31342e434450534d2e42616c616e6365642e49454336313937302e57697265732e537769746368, 0x43494d31342e434450534d2e42616c616e6365642e49454336313937302e436f72652e436f6e64756374696e6745717569706d656e74,
  [(0x6e6f726d616c4f70656e, t_EBoolean)],
  []⟩
/-- Class CIM14.CDPSM.Balanced.IEC61970.Wires.SynchronousMachine -/
def s_SynchronousMachine : SClass := ⟨0x53796e6368726f6e6f75734d616368696e65, 0x43494d31342e434450534d2e42616c616e6365642e49454336313937302e57697265732e53796e6368726f6e6f75734d616368696e65, 0x43494d31342e434450534d2e42616c616e6365642e49454336313937302e436f72652e436f6e64756374696e6745717569706d656e74,
  [(0x6261736551, t_float), (0x6f7065726174696e674d6f6465, e_SynchronousMachineOperatingMode), (0x74797065, e_SynchronousMachineType), (0x6d617851, t_float), (0x6d696e51, t_float)],
  [⟨0x47656e65726174696e67556e6974, 0x43494d31342e434450534d2e42616c616e6365642e49454336313937302e47656e65726174696f6e2e50726f64756374696f6e2e47656e65726174696e67556e6974, false, 0x53796e6368726f6e6f75734d616368696e6573⟩]⟩
/-- Class CIM14.CDPSM.Balanced.IEC61970.Wires.TapChanger -/
def s_TapChanger : SClass := ⟨0x5461704368616e676572, 0x43494d31342e434450534d2e42616c616e6365642e49454336313937302e57697265732e5461704368616e676572, 0x43494d31342e434450534d2e42616c616e6365642e49454336313937302e436f72652e506f77657253797374656d5265736f75726365,
  [(0x73746570566f6c74616765496e6372656d656e74, t_float), (0x73756273657175656e7444656c6179, t_float), (0x6e65757472616c53746570, t_EInt), (0x6e6f726d616c53746570, t_EInt), (0x6c7463466c6167, t_EBoolean), (0x6e65757472616c55, t_float), (0x6c6f7753746570, t_EInt), (0x696e697469616c44656c6179, t_float), (0x726567756c6174696f6e537461747573, t_EBoolean), (0x6869676853746570, t_EInt)],
  [⟨0x537654617053746570, 0x43494d31342e434450534d2e42616c616e6365642e49454336313937302e53746174655661726961626c65732e537654617053746570, false, 0x5461704368616e676572⟩]⟩

def schema : Schema := [
  s_Element,
  s_CableInfo,
  s_ConcentricNeutralCableInfo,
  s_ConductorInfo,
  s_DistributionWindingTest,
  s_OpenCircuitTest,
  s_OverheadConductorInfo,
  s_ShortCircuitTest,
  s_TapeShieldCableInfo,
  s_ToWindingSpec,
  s_TransformerInfo,
  s_WindingInfo,
  s_WireArrangement,
  s_WireType,
  s_GeoLocation,
  s_Location,
  s_PositionPoint,
  s_DistributionLineSegment,
  s_DistributionTapChanger,
  s_DistributionTransformer,
  s_DistributionTransformerWinding,
  s_PerLengthPhaseImpedance,
  s_PerLengthSequenceImpedance,
  s_PhaseImpedanceData,
  s_TransformerBank,
  s_WindingPiImpedance,
  s_BaseVoltage,
  s_Bay,
  s_ConductingEquipment,
  s_ConnectivityNodeContainer,
  s_Equipment,
  s_EquipmentContainer,
  s_GeographicalRegion,
  s_IdentifiedObject,
  s_PSRType,
  s_PowerSystemResource,
  s_SubGeographicalRegion,
  s_Substation,
  s_Terminal,
  s_VoltageLevel,
  s_GeneratingUnit,
  s_IEC61970CIMVersion,
  s_LoadResponseCharacteristic,
  s_SvTapStep,
  s_ConnectivityNode,
  s_ACLineSegment,
  s_Breaker,
  s_BusbarSection,
  s_Conductor,
  s_Disconnector,
  s_EnergyConsumer,
  s_EnergySource,
  s_Fuse,
  s_Junction,
  s_Line,
  s_LoadBreakSwitch,
  s_RatioTapChanger,
  s_ShuntCompensator,
  s_Switch,
  s_SynchronousMachine,
  s_TapChanger]

end Verif.Gen.Model_CIM14_CDPSM_Balanced
