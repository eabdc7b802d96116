import Verif.Gen.Types
/-! Generated by tools/gen.py from /repo/CIM14/CDPSM/Unbalanced: do not edit. -/
namespace Verif.Gen.CIM14_CDPSM_Unbalanced
set_option maxRecDepth 10000

/-- CIM14/CDPSM/Unbalanced/Element.py:22 -/
def d_Element : RClass := ⟨0x456c656d656e74, 0x43494d31342e434450534d2e556e62616c616e6365642e456c656d656e74, 0,
  [(0x55554944, .str 0)],
  [0x55554944],
  [(0x55554944, .str 0)],
  [(0x55554944, 0x737472)],
  [],
  [],
  []⟩
def m_Element : List RClass := d_Element :: []

/-- CIM14/CDPSM/Unbalanced/IEC61968/Common/PositionPoint.py:23 -/
def d_PositionPoint : RClass := ⟨0x506f736974696f6e506f696e74, 0x43494d31342e434450534d2e556e62616c616e6365642e49454336313936382e436f6d6d6f6e2e506f736974696f6e506f696e74, 0x43494d31342e434450534d2e556e62616c616e6365642e456c656d656e74,
  [(0x73657175656e63654e756d626572, .int 0), (0x78506f736974696f6e, .str 0), (0x79506f736974696f6e, .str 0)],
  [0x73657175656e63654e756d626572, 0x78506f736974696f6e, 0x79506f736974696f6e],
  [(0x73657175656e63654e756d626572, .int 0), (0x78506f736974696f6e, .str 0), (0x79506f736974696f6e, .str 0)],
  [(0x73657175656e63654e756d626572, 0x696e74), (0x78506f736974696f6e, 0x737472), (0x79506f736974696f6e, 0x737472)],
  [],
  [⟨0x4c6f636174696f6e, .one2many, 0x506f736974696f6e506f696e7473, 0, false⟩],
  []⟩
def m_PositionPoint : List RClass := d_PositionPoint :: m_Element

/-- CIM14/CDPSM/Unbalanced/IEC61968/WiresExt/PhaseImpedanceData.py:23 -/
def d_PhaseImpedanceData : RClass := ⟨0x5068617365496d706564616e636544617461, 0x43494d31342e434450534d2e556e62616c616e6365642e49454336313936382e57697265734578742e5068617365496d706564616e636544617461, 0x43494d31342e434450534d2e556e62616c616e6365642e456c656d656e74,
  [(0x78, .flt 0x0), (0x73657175656e63654e756d626572, .int 0), (0x62, .flt 0x0), (0x72, .flt 0x0)],
  [0x78, 0x73657175656e63654e756d626572, 0x62, 0x72],
  [(0x78, .flt 0x0), (0x73657175656e63654e756d626572, .int 0), (0x62, .flt 0x0), (0x72, .flt 0x0)],
  [(0x78, 0x666c6f6174), (0x73657175656e63654e756d626572, 0x696e74), (0x62, 0x666c6f6174), (0x72, 0x666c6f6174)],
  [],
  [⟨0x5068617365496d706564616e6365, .one2many, 0x5068617365496d706564616e636544617461, 0, false⟩],
  []⟩
def m_PhaseImpedanceData : List RClass := d_PhaseImpedanceData :: m_Element

/-- CIM14/CDPSM/Unbalanced/IEC61970/Core/IdentifiedObject.py:23 -/
def d_IdentifiedObject : RClass := ⟨0x4964656e7469666965644f626a656374, 0x43494d31342e434450534d2e556e62616c616e6365642e49454336313937302e436f72652e4964656e7469666965644f626a656374, 0x43494d31342e434450534d2e556e62616c616e6365642e456c656d656e74,
  [(0x6d524944, .str 0), (0x6465736372697074696f6e, .str 0), (0x6e616d65, .str 0), (0x6c6f63616c4e616d65, .str 0), (0x616c6961734e616d65, .str 0)],
  [0x6d524944, 0x6465736372697074696f6e, 0x6e616d65, 0x6c6f63616c4e616d65, 0x616c6961734e616d65],
  [(0x6d524944, .str 0), (0x6465736372697074696f6e, .str 0), (0x6e616d65, .str 0), (0x6c6f63616c4e616d65, .str 0), (0x616c6961734e616d65, .str 0)],
  [(0x6d524944, 0x737472), (0x6465736372697074696f6e, 0x737472), (0x6e616d65, 0x737472), (0x6c6f63616c4e616d65, 0x737472), (0x616c6961734e616d65, 0x737472)],
  [],
  [],
  []⟩
def m_IdentifiedObject : List RClass := d_IdentifiedObject :: m_Element

/-- CIM14/CDPSM/Unbalanced/IEC61970/IEC61970CIMVersion.py:23 -/
def d_IEC61970CIMVersion : RClass := ⟨0x494543363139373043494d56657273696f6e, 0x43494d31342e434450534d2e556e62616c616e6365642e49454336313937302e494543363139373043494d56657273696f6e, 0x43494d31342e434450534d2e556e62616c616e6365642e456c656d656e74,
  [(0x64617465, .str 0), (0x76657273696f6e, .str 0)],
  [0x64617465, 0x76657273696f6e],
  [(0x64617465, .str 0), (0x76657273696f6e, .str 0)],
  [(0x64617465, 0x737472), (0x76657273696f6e, 0x737472)],
  [],
  [],
  []⟩
def m_IEC61970CIMVersion : List RClass := d_IEC61970CIMVersion :: m_Element

/-- CIM14/CDPSM/Unbalanced/IEC61970/StateVariables/SvTapStep.py:23 -/
def d_SvTapStep : RClass := ⟨0x537654617053746570, 0x43494d31342e434450534d2e556e62616c616e6365642e49454336313937302e53746174655661726961626c65732e537654617053746570, 0x43494d31342e434450534d2e556e62616c616e6365642e456c656d656e74,
  [(0x636f6e74696e756f7573506f736974696f6e, .flt 0x0), (0x706f736974696f6e, .int 0)],
  [0x636f6e74696e756f7573506f736974696f6e, 0x706f736974696f6e],
  [(0x636f6e74696e756f7573506f736974696f6e, .flt 0x0), (0x706f736974696f6e, .int 0)],
  [(0x636f6e74696e756f7573506f736974696f6e, 0x666c6f6174), (0x706f736974696f6e, 0x696e74)],
  [],
  [⟨0x5461704368616e676572, .one2one, 0x537654617053746570, 0, false⟩],
  []⟩
def m_SvTapStep : List RClass := d_SvTapStep :: m_Element

/-- CIM14/CDPSM/Unbalanced/IEC61968/AssetModels/ConductorInfo.py:23 -/
def d_ConductorInfo : RClass := ⟨0x436f6e647563746f72496e666f, 0x43494d31342e434450534d2e556e62616c616e6365642e49454336313936382e41737365744d6f64656c732e436f6e647563746f72496e666f, 0x43494d31342e434450534d2e556e62616c616e6365642e49454336313937302e436f72652e4964656e7469666965644f626a656374,
  [(0x7068617365436f756e74, .int 0), (0x696e73756c6174696f6e4d6174657269616c, .str 0x63726f73736c696e6b6564506f6c79657468796c656e65), (0x696e73756c6174696f6e546869636b6e657373, .flt 0x0), (0x696e73756c61746564, .bool false), (0x7573616765, .str 0x7365636f6e64617279)],
  [0x7068617365436f756e74, 0x696e73756c6174696f6e4d6174657269616c, 0x696e73756c6174696f6e546869636b6e657373, 0x696e73756c61746564, 0x7573616765],
  [(0x7068617365436f756e74, .int 0), (0x696e73756c6174696f6e4d6174657269616c, .str 0x63726f73736c696e6b6564506f6c79657468796c656e65), (0x696e73756c6174696f6e546869636b6e657373, .flt 0x0), (0x696e73756c61746564, .bool false), (0x7573616765, .str 0x7365636f6e64617279)],
  [(0x7068617365436f756e74, 0x696e74), (0x696e73756c6174696f6e4d6174657269616c, 0x737472), (0x696e73756c6174696f6e546869636b6e657373, 0x666c6f6174), (0x696e73756c61746564, 0x626f6f6c), (0x7573616765, 0x737472)],
  [(0x696e73756c6174696f6e4d6174657269616c, 0x436f6e647563746f72496e73756c6174696f6e4b696e64), (0x7573616765, 0x436f6e647563746f7255736167654b696e64)],
  [⟨0x57697265417272616e67656d656e7473, .many2one, 0x436f6e647563746f72496e666f, 0, false⟩, ⟨0x436f6e647563746f725365676d656e7473, .many2one, 0x436f6e647563746f72496e666f, 0, false⟩],
  [0x57697265417272616e67656d656e7473, 0x436f6e647563746f725365676d656e7473]⟩
def m_ConductorInfo : List RClass := d_ConductorInfo :: m_IdentifiedObject

/-- CIM14/CDPSM/Unbalanced/IEC61968/AssetModels/DistributionWindingTest.py:23 -/
def d_DistributionWindingTest : RClass := ⟨0x446973747269627574696f6e57696e64696e6754657374, 0x43494d31342e434450534d2e556e62616c616e6365642e49454336313936382e41737365744d6f64656c732e446973747269627574696f6e57696e64696e6754657374, 0x43494d31342e434450534d2e556e62616c616e6365642e49454336313937302e436f72652e4964656e7469666965644f626a656374,
  [(0x66726f6d54617053746570, .int 0)],
  [0x66726f6d54617053746570],
  [(0x66726f6d54617053746570, .int 0)],
  [(0x66726f6d54617053746570, 0x696e74)],
  [],
  [⟨0x46726f6d57696e64696e67, .one2many, 0x57696e64696e675465737473, 0, false⟩],
  []⟩
def m_DistributionWindingTest : List RClass := d_DistributionWindingTest :: m_IdentifiedObject

/-- CIM14/CDPSM/Unbalanced/IEC61968/AssetModels/ToWindingSpec.py:23 -/
def d_ToWindingSpec : RClass := ⟨0x546f57696e64696e6753706563, 0x43494d31342e434450534d2e556e62616c616e6365642e49454336313936382e41737365744d6f64656c732e546f57696e64696e6753706563, 0x43494d31342e434450534d2e556e62616c616e6365642e49454336313937302e436f72652e4964656e7469666965644f626a656374,
  [(0x746f54617053746570, .int 0), (0x766f6c74616765, .flt 0x0), (0x70686173655368696674, .flt 0x0)],
  [0x746f54617053746570, 0x766f6c74616765, 0x70686173655368696674],
  [(0x746f54617053746570, .int 0), (0x766f6c74616765, .flt 0x0), (0x70686173655368696674, .flt 0x0)],
  [(0x746f54617053746570, 0x696e74), (0x766f6c74616765, 0x666c6f6174), (0x70686173655368696674, 0x666c6f6174)],
  [],
  [⟨0x4f70656e436972637569745465737473, .many2many, 0x4d6561737572656457696e64696e675370656373, 0, false⟩, ⟨0x53686f7274436972637569745465737473, .many2many, 0x53686f7274656457696e64696e675370656373, 0, false⟩, ⟨0x546f57696e64696e67, .one2many, 0x546f57696e64696e675370656373, 0, false⟩],
  [0x4f70656e436972637569745465737473, 0x53686f7274436972637569745465737473]⟩
def m_ToWindingSpec : List RClass := d_ToWindingSpec :: m_IdentifiedObject

/-- CIM14/CDPSM/Unbalanced/IEC61968/AssetModels/TransformerInfo.py:23 -/
def d_TransformerInfo : RClass := ⟨0x5472616e73666f726d6572496e666f, 0x43494d31342e434450534d2e556e62616c616e6365642e49454336313936382e41737365744d6f64656c732e5472616e73666f726d6572496e666f, 0x43494d31342e434450534d2e556e62616c616e6365642e49454336313937302e436f72652e4964656e7469666965644f626a656374,
  [],
  [],
  [],
  [],
  [],
  [⟨0x5472616e73666f726d657273, .many2one, 0x5472616e73666f726d6572496e666f, 0, false⟩, ⟨0x57696e64696e67496e666f73, .many2one, 0x5472616e73666f726d6572496e666f, 0, false⟩],
  [0x5472616e73666f726d657273, 0x57696e64696e67496e666f73]⟩
def m_TransformerInfo : List RClass := d_TransformerInfo :: m_IdentifiedObject

/-- CIM14/CDPSM/Unbalanced/IEC61968/AssetModels/WindingInfo.py:23 -/
def d_WindingInfo : RClass := ⟨0x57696e64696e67496e666f, 0x43494d31342e434450534d2e556e62616c616e6365642e49454336313936382e41737365744d6f64656c732e57696e64696e67496e666f, 0x43494d31342e434450534d2e556e62616c616e6365642e49454336313937302e436f72652e4964656e7469666965644f626a656374,
  [(0x73657175656e63654e756d626572, .int 0), (0x726174656453, .flt 0x0), (0x726174656455, .flt 0x0), (0x636f6e6e656374696f6e4b696e64, .str 0x49), (0x656d657267656e637953, .flt 0x0), (0x72, .flt 0x0), (0x7068617365416e676c65, .int 0), (0x696e73756c6174696f6e55, .flt 0x0), (0x73686f72745465726d53, .flt 0x0)],
  [0x73657175656e63654e756d626572, 0x726174656453, 0x726174656455, 0x636f6e6e656374696f6e4b696e64, 0x656d657267656e637953, 0x72, 0x7068617365416e676c65, 0x696e73756c6174696f6e55, 0x73686f72745465726d53],
  [(0x73657175656e63654e756d626572, .int 0), (0x726174656453, .flt 0x0), (0x726174656455, .flt 0x0), (0x636f6e6e656374696f6e4b696e64, .str 0x49), (0x656d657267656e637953, .flt 0x0), (0x72, .flt 0x0), (0x7068617365416e676c65, .int 0), (0x696e73756c6174696f6e55, .flt 0x0), (0x73686f72745465726d53, .flt 0x0)],
  [(0x73657175656e63654e756d626572, 0x696e74), (0x726174656453, 0x666c6f6174), (0x726174656455, 0x666c6f6174), (0x636f6e6e656374696f6e4b696e64, 0x737472), (0x656d657267656e637953, 0x666c6f6174), (0x72, 0x666c6f6174), (0x7068617365416e676c65, 0x696e74), (0x696e73756c6174696f6e55, 0x666c6f6174), (0x73686f72745465726d53, 0x666c6f6174)],
  [(0x636f6e6e656374696f6e4b696e64, 0x57696e64696e67436f6e6e656374696f6e)],
  [⟨0x57696e64696e675465737473, .many2one, 0x46726f6d57696e64696e67, 0, false⟩, ⟨0x546f57696e64696e675370656373, .many2one, 0x546f57696e64696e67, 0, false⟩, ⟨0x5472616e73666f726d6572496e666f, .one2many, 0x57696e64696e67496e666f73, 0, false⟩, ⟨0x57696e64696e6773, .many2one, 0x57696e64696e67496e666f, 0, false⟩],
  [0x57696e64696e675465737473, 0x546f57696e64696e675370656373, 0x57696e64696e6773]⟩
def m_WindingInfo : List RClass := d_WindingInfo :: m_IdentifiedObject

/-- CIM14/CDPSM/Unbalanced/IEC61968/AssetModels/WireArrangement.py:23 -/
def d_WireArrangement : RClass := ⟨0x57697265417272616e67656d656e74, 0x43494d31342e434450534d2e556e62616c616e6365642e49454336313936382e41737365744d6f64656c732e57697265417272616e67656d656e74, 0x43494d31342e434450534d2e556e62616c616e6365642e49454336313937302e436f72652e4964656e7469666965644f626a656374,
  [(0x6d6f756e74696e67506f696e7458, .flt 0x0), (0x6d6f756e74696e67506f696e7459, .flt 0x0), (0x706f736974696f6e, .int 0)],
  [0x6d6f756e74696e67506f696e7458, 0x6d6f756e74696e67506f696e7459, 0x706f736974696f6e],
  [(0x6d6f756e74696e67506f696e7458, .flt 0x0), (0x6d6f756e74696e67506f696e7459, .flt 0x0), (0x706f736974696f6e, .int 0)],
  [(0x6d6f756e74696e67506f696e7458, 0x666c6f6174), (0x6d6f756e74696e67506f696e7459, 0x666c6f6174), (0x706f736974696f6e, 0x696e74)],
  [],
  [⟨0x436f6e647563746f72496e666f, .one2many, 0x57697265417272616e67656d656e7473, 0, false⟩, ⟨0x5769726554797065, .one2many, 0x57697265417272616e67656d656e7473, 0, false⟩],
  []⟩
def m_WireArrangement : List RClass := d_WireArrangement :: m_IdentifiedObject

/-- CIM14/CDPSM/Unbalanced/IEC61968/AssetModels/WireType.py:23 -/
def d_WireType : RClass := ⟨0x5769726554797065, 0x43494d31342e434450534d2e556e62616c616e6365642e49454336313936382e41737365744d6f64656c732e5769726554797065, 0x43494d31342e434450534d2e556e62616c616e6365642e49454336313937302e436f72652e4964656e7469666965644f626a656374,
  [(0x7241433735, .flt 0x0), (0x636f7265526164697573, .flt 0x0), (0x636f7265537472616e64436f756e74, .int 0), (0x7241433235, .flt 0x0), (0x726164697573, .flt 0x0), (0x676d72, .flt 0x0), (0x7244433230, .flt 0x0), (0x7241433530, .flt 0x0), (0x6d6174657269616c, .str 0x737465656c), (0x73697a654465736372697074696f6e, .str 0), (0x737472616e64436f756e74, .int 0), (0x726174656443757272656e74, .flt 0x0)],
  [0x7241433735, 0x636f7265526164697573, 0x636f7265537472616e64436f756e74, 0x7241433235, 0x726164697573, 0x676d72, 0x7244433230, 0x7241433530, 0x6d6174657269616c, 0x73697a654465736372697074696f6e, 0x737472616e64436f756e74, 0x726174656443757272656e74],
  [(0x7241433735, .flt 0x0), (0x636f7265526164697573, .flt 0x0), (0x636f7265537472616e64436f756e74, .int 0), (0x7241433235, .flt 0x0), (0x726164697573, .flt 0x0), (0x676d72, .flt 0x0), (0x7244433230, .flt 0x0), (0x7241433530, .flt 0x0), (0x6d6174657269616c, .str 0x737465656c), (0x73697a654465736372697074696f6e, .str 0), (0x737472616e64436f756e74, .int 0), (0x726174656443757272656e74, .flt 0x0)],
  [(0x7241433735, 0x666c6f6174), (0x636f7265526164697573, 0x666c6f6174), (0x636f7265537472616e64436f756e74, 0x696e74), (0x7241433235, 0x666c6f6174), (0x726164697573, 0x666c6f6174), (0x676d72, 0x666c6f6174), (0x7244433230, 0x666c6f6174), (0x7241433530, 0x666c6f6174), (0x6d6174657269616c, 0x737472), (0x73697a654465736372697074696f6e, 0x737472), (0x737472616e64436f756e74, 0x696e74), (0x726174656443757272656e74, 0x666c6f6174)],
  [(0x6d6174657269616c, 0x436f6e647563746f724d6174657269616c4b696e64)],
  [⟨0x436f6e63656e747269634e65757472616c4361626c65496e666f73, .many2one, 0x5769726554797065, 0, false⟩, ⟨0x57697265417272616e67656d656e7473, .many2one, 0x5769726554797065, 0, false⟩],
  [0x436f6e63656e747269634e65757472616c4361626c65496e666f73, 0x57697265417272616e67656d656e7473]⟩
def m_WireType : List RClass := d_WireType :: m_IdentifiedObject

/-- CIM14/CDPSM/Unbalanced/IEC61968/Common/Location.py:23 -/
def d_Location : RClass := ⟨0x4c6f636174696f6e, 0x43494d31342e434450534d2e556e62616c616e6365642e49454336313936382e436f6d6d6f6e2e4c6f636174696f6e, 0x43494d31342e434450534d2e556e62616c616e6365642e49454336313937302e436f72652e4964656e7469666965644f626a656374,
  [],
  [],
  [],
  [],
  [],
  [⟨0x506f736974696f6e506f696e7473, .many2one, 0x4c6f636174696f6e, 0, false⟩],
  [0x506f736974696f6e506f696e7473]⟩
def m_Location : List RClass := d_Location :: m_IdentifiedObject

/-- CIM14/CDPSM/Unbalanced/IEC61968/WiresExt/PerLengthPhaseImpedance.py:23 -/
def d_PerLengthPhaseImpedance : RClass := ⟨0x5065724c656e6774685068617365496d706564616e6365, 0x43494d31342e434450534d2e556e62616c616e6365642e49454336313936382e57697265734578742e5065724c656e6774685068617365496d706564616e6365, 0x43494d31342e434450534d2e556e62616c616e6365642e49454336313937302e436f72652e4964656e7469666965644f626a656374,
  [(0x636f6e647563746f72436f756e74, .int 0)],
  [0x636f6e647563746f72436f756e74],
  [(0x636f6e647563746f72436f756e74, .int 0)],
  [(0x636f6e647563746f72436f756e74, 0x696e74)],
  [],
  [⟨0x5068617365496d706564616e636544617461, .many2one, 0x5068617365496d706564616e6365, 0, false⟩, ⟨0x436f6e647563746f725365676d656e7473, .many2one, 0x5068617365496d706564616e6365, 0, false⟩],
  [0x5068617365496d706564616e636544617461, 0x436f6e647563746f725365676d656e7473]⟩
def m_PerLengthPhaseImpedance : List RClass := d_PerLengthPhaseImpedance :: m_IdentifiedObject

/-- CIM14/CDPSM/Unbalanced/IEC61968/WiresExt/PerLengthSequenceImpedance.py:23 -/
def d_PerLengthSequenceImpedance : RClass := ⟨0x5065724c656e67746853657175656e6365496d706564616e6365, 0x43494d31342e434450534d2e556e62616c616e6365642e49454336313936382e57697265734578742e5065724c656e67746853657175656e6365496d706564616e6365, 0x43494d31342e434450534d2e556e62616c616e6365642e49454336313937302e436f72652e4964656e7469666965644f626a656374,
  [(0x78, .flt 0x0), (0x7230, .flt 0x0), (0x7830, .flt 0x0), (0x62306368, .flt 0x0), (0x72, .flt 0x0), (0x626368, .flt 0x0)],
  [0x78, 0x7230, 0x7830, 0x62306368, 0x72, 0x626368],
  [(0x78, .flt 0x0), (0x7230, .flt 0x0), (0x7830, .flt 0x0), (0x62306368, .flt 0x0), (0x72, .flt 0x0), (0x626368, .flt 0x0)],
  [(0x78, 0x666c6f6174), (0x7230, 0x666c6f6174), (0x7830, 0x666c6f6174), (0x62306368, 0x666c6f6174), (0x72, 0x666c6f6174), (0x626368, 0x666c6f6174)],
  [],
  [⟨0x436f6e647563746f725365676d656e7473, .many2one, 0x53657175656e6365496d706564616e6365, 0, false⟩],
  [0x436f6e647563746f725365676d656e7473]⟩
def m_PerLengthSequenceImpedance : List RClass := d_PerLengthSequenceImpedance :: m_IdentifiedObject

/-- CIM14/CDPSM/Unbalanced/IEC61968/WiresExt/WindingPiImpedance.py:23 -/
def d_WindingPiImpedance : RClass := ⟨0x57696e64696e675069496d706564616e6365, 0x43494d31342e434450534d2e556e62616c616e6365642e49454336313936382e57697265734578742e57696e64696e675069496d706564616e6365, 0x43494d31342e434450534d2e556e62616c616e6365642e49454336313937302e436f72652e4964656e7469666965644f626a656374,
  [(0x78, .flt 0x0), (0x67, .flt 0x0), (0x7230, .flt 0x0), (0x72, .flt 0x0), (0x62, .flt 0x0), (0x6730, .flt 0x0), (0x7830, .flt 0x0), (0x6230, .flt 0x0)],
  [0x78, 0x67, 0x7230, 0x72, 0x62, 0x6730, 0x7830, 0x6230],
  [(0x78, .flt 0x0), (0x67, .flt 0x0), (0x7230, .flt 0x0), (0x72, .flt 0x0), (0x62, .flt 0x0), (0x6730, .flt 0x0), (0x7830, .flt 0x0), (0x6230, .flt 0x0)],
  [(0x78, 0x666c6f6174), (0x67, 0x666c6f6174), (0x7230, 0x666c6f6174), (0x72, 0x666c6f6174), (0x62, 0x666c6f6174), (0x6730, 0x666c6f6174), (0x7830, 0x666c6f6174), (0x6230, 0x666c6f6174)],
  [],
  [⟨0x57696e64696e6773, .many2one, 0x5069496d706564616e6365, 0, false⟩],
  [0x57696e64696e6773]⟩
def m_WindingPiImpedance : List RClass := d_WindingPiImpedance :: m_IdentifiedObject

/-- CIM14/CDPSM/Unbalanced/IEC61970/Core/BaseVoltage.py:23 -/
def d_BaseVoltage : RClass := ⟨0x42617365566f6c74616765, 0x43494d31342e434450534d2e556e62616c616e6365642e49454336313937302e436f72652e42617365566f6c74616765, 0x43494d31342e434450534d2e556e62616c616e6365642e49454336313937302e436f72652e4964656e7469666965644f626a656374,
  [(0x6e6f6d696e616c566f6c74616765, .flt 0x0)],
  [0x6e6f6d696e616c566f6c74616765],
  [(0x6e6f6d696e616c566f6c74616765, .flt 0x0)],
  [(0x6e6f6d696e616c566f6c74616765, 0x666c6f6174)],
  [],
  [⟨0x436f6e64756374696e6745717569706d656e74, .many2one, 0x42617365566f6c74616765, 0, false⟩, ⟨0x566f6c746167654c6576656c, .many2one, 0x42617365566f6c74616765, 0, false⟩],
  [0x436f6e64756374696e6745717569706d656e74, 0x566f6c746167654c6576656c]⟩
def m_BaseVoltage : List RClass := d_BaseVoltage :: m_IdentifiedObject

/-- CIM14/CDPSM/Unbalanced/IEC61970/Core/GeographicalRegion.py:23 -/
def d_GeographicalRegion : RClass := ⟨0x47656f67726170686963616c526567696f6e, 0x43494d31342e434450534d2e556e62616c616e6365642e49454336313937302e436f72652e47656f67726170686963616c526567696f6e, 0x43494d31342e434450534d2e556e62616c616e6365642e49454336313937302e436f72652e4964656e7469666965644f626a656374,
  [],
  [],
  [],
  [],
  [],
  [⟨0x526567696f6e73, .many2one, 0x526567696f6e, 0, false⟩],
  [0x526567696f6e73]⟩
def m_GeographicalRegion : List RClass := d_GeographicalRegion :: m_IdentifiedObject

/-- CIM14/CDPSM/Unbalanced/IEC61970/Core/PSRType.py:23 -/
def d_PSRType : RClass := ⟨0x50535254797065, 0x43494d31342e434450534d2e556e62616c616e6365642e49454336313937302e436f72652e50535254797065, 0x43494d31342e434450534d2e556e62616c616e6365642e49454336313937302e436f72652e4964656e7469666965644f626a656374,
  [],
  [],
  [],
  [],
  [],
  [⟨0x506f77657253797374656d5265736f7572636573, .many2one, 0x50535254797065, 0, false⟩],
  [0x506f77657253797374656d5265736f7572636573]⟩
def m_PSRType : List RClass := d_PSRType :: m_IdentifiedObject

/-- CIM14/CDPSM/Unbalanced/IEC61970/Core/PowerSystemResource.py:23 -/
def d_PowerSystemResource : RClass := ⟨0x506f77657253797374656d5265736f75726365, 0x43494d31342e434450534d2e556e62616c616e6365642e49454336313937302e436f72652e506f77657253797374656d5265736f75726365, 0x43494d31342e434450534d2e556e62616c616e6365642e49454336313937302e436f72652e4964656e7469666965644f626a656374,
  [],
  [],
  [],
  [],
  [],
  [⟨0x47656f4c6f636174696f6e, .one2many, 0x506f77657253797374656d5265736f7572636573, 0, false⟩, ⟨0x50535254797065, .one2many, 0x506f77657253797374656d5265736f7572636573, 0, false⟩],
  []⟩
def m_PowerSystemResource : List RClass := d_PowerSystemResource :: m_IdentifiedObject

/-- CIM14/CDPSM/Unbalanced/IEC61970/Core/SubGeographicalRegion.py:23 -/
def d_SubGeographicalRegion : RClass := ⟨0x53756247656f67726170686963616c526567696f6e, 0x43494d31342e434450534d2e556e62616c616e6365642e49454336313937302e436f72652e53756247656f67726170686963616c526567696f6e, 0x43494d31342e434450534d2e556e62616c616e6365642e49454336313937302e436f72652e4964656e7469666965644f626a656374,
  [],
  [],
  [],
  [],
  [],
  [⟨0x526567696f6e, .one2many, 0x526567696f6e73, 0, false⟩, ⟨0x4c696e6573, .many2one, 0x526567696f6e, 0, false⟩, ⟨0x53756273746174696f6e73, .many2one, 0x526567696f6e, 0, false⟩],
  [0x4c696e6573, 0x53756273746174696f6e73]⟩
def m_SubGeographicalRegion : List RClass := d_SubGeographicalRegion :: m_IdentifiedObject

/-- CIM14/CDPSM/Unbalanced/IEC61970/Core/Terminal.py:23 -/
def d_Terminal : RClass := ⟨0x5465726d696e616c, 0x43494d31342e434450534d2e556e62616c616e6365642e49454336313937302e436f72652e5465726d696e616c, 0x43494d31342e434450534d2e556e62616c616e6365642e49454336313937302e436f72652e4964656e7469666965644f626a656374,
  [(0x73657175656e63654e756d626572, .int 0), (0x636f6e6e6563746564, .bool false)],
  [0x73657175656e63654e756d626572, 0x636f6e6e6563746564],
  [(0x73657175656e63654e756d626572, .int 0), (0x636f6e6e6563746564, .bool false)],
  [(0x73657175656e63654e756d626572, 0x696e74), (0x636f6e6e6563746564, 0x626f6f6c)],
  [],
  [⟨0x436f6e64756374696e6745717569706d656e74, .one2many, 0x5465726d696e616c73, 0, false⟩, ⟨0x436f6e6e65637469766974794e6f6465, .one2many, 0x5465726d696e616c73, 0, false⟩],
  []⟩
def m_Terminal : List RClass := d_Terminal :: m_IdentifiedObject

/-- CIM14/CDPSM/Unbalanced/IEC61970/LoadModel/LoadResponseCharacteristic.py:23 -/
def d_LoadResponseCharacteristic : RClass := ⟨0x4c6f6164526573706f6e73654368617261637465726973746963, 0x43494d31342e434450534d2e556e62616c616e6365642e49454336313937302e4c6f61644d6f64656c2e4c6f6164526573706f6e73654368617261637465726973746963, 0x43494d31342e434450534d2e556e62616c616e6365642e49454336313937302e436f72652e4964656e7469666965644f626a656374,
  [(0x70566f6c746167654578706f6e656e74, .flt 0x0), (0x71436f6e7374616e7443757272656e74, .flt 0x0), (0x704672657175656e63794578706f6e656e74, .flt 0x0), (0x6578706f6e656e744d6f64656c, .bool false), (0x71436f6e7374616e74496d706564616e6365, .flt 0x0), (0x70436f6e7374616e7443757272656e74, .flt 0x0), (0x714672657175656e63794578706f6e656e74, .flt 0x0), (0x70436f6e7374616e74506f776572, .flt 0x0), (0x71566f6c746167654578706f6e656e74, .flt 0x0), (0x71436f6e7374616e74506f776572, .flt 0x0), (0x70436f6e7374616e74496d706564616e6365, .flt 0x0)],
  [0x70566f6c746167654578706f6e656e74, 0x71436f6e7374616e7443757272656e74, 0x704672657175656e63794578706f6e656e74, 0x6578706f6e656e744d6f64656c, 0x71436f6e7374616e74496d706564616e6365, 0x70436f6e7374616e7443757272656e74, 0x714672657175656e63794578706f6e656e74, 0x70436f6e7374616e74506f776572, 0x71566f6c746167654578706f6e656e74, 0x71436f6e7374616e74506f776572, 0x70436f6e7374616e74496d706564616e6365],
  [(0x70566f6c746167654578706f6e656e74, .flt 0x0), (0x71436f6e7374616e7443757272656e74, .flt 0x0), (0x704672657175656e63794578706f6e656e74, .flt 0x0), (0x6578706f6e656e744d6f64656c, .bool false), (0x71436f6e7374616e74496d706564616e6365, .flt 0x0), (0x70436f6e7374616e7443757272656e74, .flt 0x0), (0x714672657175656e63794578706f6e656e74, .flt 0x0), (0x70436f6e7374616e74506f776572, .flt 0x0), (0x71566f6c746167654578706f6e656e74, .flt 0x0), (0x71436f6e7374616e74506f776572, .flt 0x0), (0x70436f6e7374616e74496d706564616e6365, .flt 0x0)],
  [(0x70566f6c746167654578706f6e656e74, 0x666c6f6174), (0x71436f6e7374616e7443757272656e74, 0x666c6f6174), (0x704672657175656e63794578706f6e656e74, 0x666c6f6174), (0x6578706f6e656e744d6f64656c, 0x626f6f6c), (0x71436f6e7374616e74496d706564616e6365, 0x666c6f6174), (0x70436f6e7374616e7443757272656e74, 0x666c6f6174), (0x714672657175656e63794578706f6e656e74, 0x666c6f6174), (0x70436f6e7374616e74506f776572, 0x666c6f6174), (0x71566f6c746167654578706f6e656e74, 0x666c6f6174), (0x71436f6e7374616e74506f776572, 0x666c6f6174), (0x70436f6e7374616e74496d706564616e6365, 0x666c6f6174)],
  [],
  [⟨0x456e65726779436f6e73756d6572, .many2one, 0x4c6f6164526573706f6e7365, 0, false⟩],
  [0x456e65726779436f6e73756d6572]⟩
def m_LoadResponseCharacteristic : List RClass := d_LoadResponseCharacteristic :: m_IdentifiedObject

/-- CIM14/CDPSM/Unbalanced/IEC61970/Topology/ConnectivityNode.py:23 -/
def d_ConnectivityNode : RClass := ⟨0x436f6e6e65637469766974794e6f6465, 0x43494d31342e434450534d2e556e62616c616e6365642e49454336313937302e546f706f6c6f67792e436f6e6e65637469766974794e6f6465, 0x43494d31342e434450534d2e556e62616c616e6365642e49454336313937302e436f72652e4964656e7469666965644f626a656374,
  [],
  [],
  [],
  [],
  [],
  [⟨0x5465726d696e616c73, .many2one, 0x436f6e6e65637469766974794e6f6465, 0, false⟩, ⟨0x436f6e6e65637469766974794e6f6465436f6e7461696e6572, .one2many, 0x436f6e6e65637469766974794e6f646573, 0, false⟩],
  [0x5465726d696e616c73]⟩
def m_ConnectivityNode : List RClass := d_ConnectivityNode :: m_IdentifiedObject

/-- CIM14/CDPSM/Unbalanced/IEC61968/AssetModels/CableInfo.py:23 -/
def d_CableInfo : RClass := ⟨0x4361626c65496e666f, 0x43494d31342e434450534d2e556e62616c616e6365642e49454336313936382e41737365744d6f64656c732e4361626c65496e666f, 0x43494d31342e434450534d2e556e62616c616e6365642e49454336313936382e41737365744d6f64656c732e436f6e647563746f72496e666f,
  [(0x6e6f6d696e616c54656d7065726174757265, .flt 0x0), (0x6469616d657465724f76657253637265656e, .flt 0x0), (0x73686561746841734e65757472616c, .bool false), (0x6469616d657465724f7665724a61636b6574, .flt 0x0), (0x6469616d657465724f766572436f7265, .flt 0x0), (0x636f6e737472756374696f6e4b696e64, .str 0x736f6c6964), (0x6f757465724a61636b65744b696e64, .str 0x696e73756c6174696e67), (0x6973537472616e6446696c6c, .bool false), (0x736869656c644d6174657269616c, .str 0x6f74686572), (0x6469616d657465724f766572496e73756c6174696f6e, .flt 0x0)],
  [0x6e6f6d696e616c54656d7065726174757265, 0x6469616d657465724f76657253637265656e, 0x73686561746841734e65757472616c, 0x6469616d657465724f7665724a61636b6574, 0x6469616d657465724f766572436f7265, 0x636f6e737472756374696f6e4b696e64, 0x6f757465724a61636b65744b696e64, 0x6973537472616e6446696c6c, 0x736869656c644d6174657269616c, 0x6469616d657465724f766572496e73756c6174696f6e],
  [(0x6e6f6d696e616c54656d7065726174757265, .flt 0x0), (0x6469616d657465724f76657253637265656e, .flt 0x0), (0x73686561746841734e65757472616c, .bool false), (0x6469616d657465724f7665724a61636b6574, .flt 0x0), (0x6469616d657465724f766572436f7265, .flt 0x0), (0x636f6e737472756374696f6e4b696e64, .str 0x736f6c6964), (0x6f757465724a61636b65744b696e64, .str 0x696e73756c6174696e67), (0x6973537472616e6446696c6c, .bool false), (0x736869656c644d6174657269616c, .str 0x6f74686572), (0x6469616d657465724f766572496e73756c6174696f6e, .flt 0x0)],
  [(0x6e6f6d696e616c54656d7065726174757265, 0x666c6f6174), (0x6469616d657465724f76657253637265656e, 0x666c6f6174), (0x73686561746841734e65757472616c, 0x626f6f6c), (0x6469616d657465724f7665724a61636b6574, 0x666c6f6174), (0x6469616d657465724f766572436f7265, 0x666c6f6174), (0x636f6e737472756374696f6e4b696e64, 0x737472), (0x6f757465724a61636b65744b696e64, 0x737472), (0x6973537472616e6446696c6c, 0x626f6f6c), (0x736869656c644d6174657269616c, 0x737472), (0x6469616d657465724f766572496e73756c6174696f6e, 0x666c6f6174)],
  [(0x636f6e737472756374696f6e4b696e64, 0x4361626c65436f6e737472756374696f6e4b696e64), (0x6f757465724a61636b65744b696e64, 0x4361626c654f757465724a61636b65744b696e64), (0x736869656c644d6174657269616c, 0x4361626c65536869656c644d6174657269616c4b696e64)],
  [],
  []⟩
def m_CableInfo : List RClass := d_CableInfo :: m_ConductorInfo

/-- CIM14/CDPSM/Unbalanced/IEC61968/AssetModels/OpenCircuitTest.py:23 -/
def d_OpenCircuitTest : RClass := ⟨0x4f70656e4369726375697454657374, 0x43494d31342e434450534d2e556e62616c616e6365642e49454336313936382e41737365744d6f64656c732e4f70656e4369726375697454657374, 0x43494d31342e434450534d2e556e62616c616e6365642e49454336313936382e41737365744d6f64656c732e446973747269627574696f6e57696e64696e6754657374,
  [(0x6e6f4c6f61644c6f73735a65726f, .flt 0x0), (0x6e6f4c6f61644c6f7373, .flt 0x0), (0x6578636974696e6743757272656e74, .flt 0x0), (0x6578636974696e6743757272656e745a65726f, .flt 0x0)],
  [0x6e6f4c6f61644c6f73735a65726f, 0x6e6f4c6f61644c6f7373, 0x6578636974696e6743757272656e74, 0x6578636974696e6743757272656e745a65726f],
  [(0x6e6f4c6f61644c6f73735a65726f, .flt 0x0), (0x6e6f4c6f61644c6f7373, .flt 0x0), (0x6578636974696e6743757272656e74, .flt 0x0), (0x6578636974696e6743757272656e745a65726f, .flt 0x0)],
  [(0x6e6f4c6f61644c6f73735a65726f, 0x666c6f6174), (0x6e6f4c6f61644c6f7373, 0x666c6f6174), (0x6578636974696e6743757272656e74, 0x666c6f6174), (0x6578636974696e6743757272656e745a65726f, 0x666c6f6174)],
  [],
  [⟨0x4d6561737572656457696e64696e675370656373, .many2many, 0x4f70656e436972637569745465737473, 0, false⟩],
  [0x4d6561737572656457696e64696e675370656373]⟩
def m_OpenCircuitTest : List RClass := d_OpenCircuitTest :: m_DistributionWindingTest

/-- CIM14/CDPSM/Unbalanced/IEC61968/AssetModels/OverheadConductorInfo.py:23 -/
def d_OverheadConductorInfo : RClass := ⟨0x4f76657268656164436f6e647563746f72496e666f, 0x43494d31342e434450534d2e556e62616c616e6365642e49454336313936382e41737365744d6f64656c732e4f76657268656164436f6e647563746f72496e666f, 0x43494d31342e434450534d2e556e62616c616e6365642e49454336313936382e41737365744d6f64656c732e436f6e647563746f72496e666f,
  [(0x6e65757472616c496e73756c6174696f6e546869636b6e657373, .flt 0x0), (0x7068617365436f6e647563746f72436f756e74, .int 0), (0x7068617365436f6e647563746f7253706163696e67, .flt 0x0)],
  [0x6e65757472616c496e73756c6174696f6e546869636b6e657373, 0x7068617365436f6e647563746f72436f756e74, 0x7068617365436f6e647563746f7253706163696e67],
  [(0x6e65757472616c496e73756c6174696f6e546869636b6e657373, .flt 0x0), (0x7068617365436f6e647563746f72436f756e74, .int 0), (0x7068617365436f6e647563746f7253706163696e67, .flt 0x0)],
  [(0x6e65757472616c496e73756c6174696f6e546869636b6e657373, 0x666c6f6174), (0x7068617365436f6e647563746f72436f756e74, 0x696e74), (0x7068617365436f6e647563746f7253706163696e67, 0x666c6f6174)],
  [],
  [],
  []⟩
def m_OverheadConductorInfo : List RClass := d_OverheadConductorInfo :: m_ConductorInfo

/-- CIM14/CDPSM/Unbalanced/IEC61968/AssetModels/ShortCircuitTest.py:23 -/
def d_ShortCircuitTest : RClass := ⟨0x53686f72744369726375697454657374, 0x43494d31342e434450534d2e556e62616c616e6365642e49454336313936382e41737365744d6f64656c732e53686f72744369726375697454657374, 0x43494d31342e434450534d2e556e62616c616e6365642e49454336313936382e41737365744d6f64656c732e446973747269627574696f6e57696e64696e6754657374,
  [(0x6c6f61644c6f73735a65726f, .flt 0x0), (0x6c65616b616765496d706564616e63655a65726f, .flt 0x0), (0x6c65616b616765496d706564616e6365, .flt 0x0), (0x6c6f61644c6f7373, .flt 0x0)],
  [0x6c6f61644c6f73735a65726f, 0x6c65616b616765496d706564616e63655a65726f, 0x6c65616b616765496d706564616e6365, 0x6c6f61644c6f7373],
  [(0x6c6f61644c6f73735a65726f, .flt 0x0), (0x6c65616b616765496d706564616e63655a65726f, .flt 0x0), (0x6c65616b616765496d706564616e6365, .flt 0x0), (0x6c6f61644c6f7373, .flt 0x0)],
  [(0x6c6f61644c6f73735a65726f, 0x666c6f6174), (0x6c65616b616765496d706564616e63655a65726f, 0x666c6f6174), (0x6c65616b616765496d706564616e6365, 0x666c6f6174), (0x6c6f61644c6f7373, 0x666c6f6174)],
  [],
  [⟨0x53686f7274656457696e64696e675370656373, .many2many, 0x53686f7274436972637569745465737473, 0, false⟩],
  [0x53686f7274656457696e64696e675370656373]⟩
def m_ShortCircuitTest : List RClass := d_ShortCircuitTest :: m_DistributionWindingTest

/-- CIM14/CDPSM/Unbalanced/IEC61968/Common/GeoLocation.py:23 -/
def d_GeoLocation : RClass := ⟨0x47656f4c6f636174696f6e, 0x43494d31342e434450534d2e556e62616c616e6365642e49454336313936382e436f6d6d6f6e2e47656f4c6f636174696f6e, 0x43494d31342e434450534d2e556e62616c616e6365642e49454336313936382e436f6d6d6f6e2e4c6f636174696f6e,
  [],
  [],
  [],
  [],
  [],
  [⟨0x506f77657253797374656d5265736f7572636573, .many2one, 0x47656f4c6f636174696f6e, 0, false⟩],
  [0x506f77657253797374656d5265736f7572636573]⟩
def m_GeoLocation : List RClass := d_GeoLocation :: m_Location

/-- CIM14/CDPSM/Unbalanced/IEC61970/Core/ConnectivityNodeContainer.py:23 -/
def d_ConnectivityNodeContainer : RClass := ⟨0x436f6e6e65637469766974794e6f6465436f6e7461696e6572, 0x43494d31342e434450534d2e556e62616c616e6365642e49454336313937302e436f72652e436f6e6e65637469766974794e6f6465436f6e7461696e6572, 0x43494d31342e434450534d2e556e62616c616e6365642e49454336313937302e436f72652e506f77657253797374656d5265736f75726365,
  [],
  [],
  [],
  [],
  [],
  [⟨0x436f6e6e65637469766974794e6f646573, .many2one, 0x436f6e6e65637469766974794e6f6465436f6e7461696e6572, 0, false⟩],
  [0x436f6e6e65637469766974794e6f646573]⟩
def m_ConnectivityNodeContainer : List RClass := d_ConnectivityNodeContainer :: m_PowerSystemResource

/-- CIM14/CDPSM/Unbalanced/IEC61970/Core/Equipment.py:23 -/
def d_Equipment : RClass := ⟨0x45717569706d656e74, 0x43494d31342e434450534d2e556e62616c616e6365642e49454336313937302e436f72652e45717569706d656e74, 0x43494d31342e434450534d2e556e62616c616e6365642e49454336313937302e436f72652e506f77657253797374656d5265736f75726365,
  [(0x6e6f726d61496c79496e53657276696365, .bool false)],
  [0x6e6f726d61496c79496e53657276696365],
  [(0x6e6f726d61496c79496e53657276696365, .bool false)],
  [(0x6e6f726d61496c79496e53657276696365, 0x626f6f6c)],
  [],
  [⟨0x45717569706d656e74436f6e7461696e6572, .one2many, 0x45717569706d656e7473, 0, false⟩],
  []⟩
def m_Equipment : List RClass := d_Equipment :: m_PowerSystemResource

/-- CIM14/CDPSM/Unbalanced/IEC61970/Wires/TapChanger.py:23 -/
def d_TapChanger : RClass := ⟨0x5461704368616e676572, 0x43494d31342e434450534d2e556e62616c616e6365642e49454336313937302e57697265732e5461704368616e676572, 0x43494d31342e434450534d2e556e62616c616e6365642e49454336313937302e436f72652e506f77657253797374656d5265736f75726365,
  [(0x73746570566f6c74616765496e6372656d656e74, .flt 0x0), (0x73756273657175656e7444656c6179, .flt 0x0), (0x6e65757472616c53746570, .int 0), (0x6e6f726d616c53746570, .int 0), (0x6c7463466c6167, .bool false), (0x6e65757472616c55, .flt 0x0), (0x6c6f7753746570, .int 0), (0x696e697469616c44656c6179, .flt 0x0), (0x726567756c6174696f6e537461747573, .bool false), (0x6869676853746570, .int 0)],
  [0x73746570566f6c74616765496e6372656d656e74, 0x73756273657175656e7444656c6179, 0x6e65757472616c53746570, 0x6e6f726d616c53746570, 0x6c7463466c6167, 0x6e65757472616c55, 0x6c6f7753746570, 0x696e697469616c44656c6179, 0x726567756c6174696f6e537461747573, 0x6869676853746570],
  [(0x73746570566f6c74616765496e6372656d656e74, .flt 0x0), (0x73756273657175656e7444656c6179, .flt 0x0), (0x6e65757472616c53746570, .int 0), (0x6e6f726d616c53746570, .int 0), (0x6c7463466c6167, .bool false), (0x6e65757472616c55, .flt 0x0), (0x6c6f7753746570, .int 0), (0x696e697469616c44656c6179, .flt 0x0), (0x726567756c6174696f6e537461747573, .bool false), (0x6869676853746570, .int 0)],
  [(0x73746570566f6c74616765496e6372656d656e74, 0x666c6f6174), (0x73756273657175656e7444656c6179, 0x666c6f6174), (0x6e65757472616c53746570, 0x696e74), (0x6e6f726d616c53746570, 0x696e74), (0x6c7463466c6167, 0x626f6f6c), (0x6e65757472616c55, 0x666c6f6174), (0x6c6f7753746570, 0x696e74), (0x696e697469616c44656c6179, 0x666c6f6174), (0x726567756c6174696f6e537461747573, 0x626f6f6c), (0x6869676853746570, 0x696e74)],
  [],
  [⟨0x537654617053746570, .one2one, 0x5461704368616e676572, 0, false⟩],
  []⟩
def m_TapChanger : List RClass := d_TapChanger :: m_PowerSystemResource

/-- CIM14/CDPSM/Unbalanced/IEC61968/AssetModels/ConcentricNeutralCableInfo.py:23 -/
def d_ConcentricNeutralCableInfo : RClass := ⟨0x436f6e63656e747269634e65757472616c4361626c65496e666f, 0x43494d31342e434450534d2e556e62616c616e6365642e49454336313936382e41737365744d6f64656c732e436f6e63656e747269634e65757472616c4361626c65496e666f, 0x43494d31342e434450534d2e556e62616c616e6365642e49454336313936382e41737365744d6f64656c732e4361626c65496e666f,
  [(0x6e65757472616c537472616e64436f756e74, .int 0), (0x6469616d657465724f7665724e65757472616c, .flt 0x0)],
  [0x6e65757472616c537472616e64436f756e74, 0x6469616d657465724f7665724e65757472616c],
  [(0x6e65757472616c537472616e64436f756e74, .int 0), (0x6469616d657465724f7665724e65757472616c, .flt 0x0)],
  [(0x6e65757472616c537472616e64436f756e74, 0x696e74), (0x6469616d657465724f7665724e65757472616c, 0x666c6f6174)],
  [],
  [⟨0x5769726554797065, .one2many, 0x436f6e63656e747269634e65757472616c4361626c65496e666f73, 0, false⟩],
  []⟩
def m_ConcentricNeutralCableInfo : List RClass := d_ConcentricNeutralCableInfo :: m_CableInfo

/-- CIM14/CDPSM/Unbalanced/IEC61968/AssetModels/TapeShieldCableInfo.py:23 -/
def d_TapeShieldCableInfo : RClass := ⟨0x54617065536869656c644361626c65496e666f, 0x43494d31342e434450534d2e556e62616c616e6365642e49454336313936382e41737365744d6f64656c732e54617065536869656c644361626c65496e666f, 0x43494d31342e434450534d2e556e62616c616e6365642e49454336313936382e41737365744d6f64656c732e4361626c65496e666f,
  [(0x74617065546869636b6e657373, .flt 0x0), (0x746170654c6170, .flt 0x0)],
  [0x74617065546869636b6e657373, 0x746170654c6170],
  [(0x74617065546869636b6e657373, .flt 0x0), (0x746170654c6170, .flt 0x0)],
  [(0x74617065546869636b6e657373, 0x666c6f6174), (0x746170654c6170, 0x666c6f6174)],
  [],
  [],
  []⟩
def m_TapeShieldCableInfo : List RClass := d_TapeShieldCableInfo :: m_CableInfo

/-- CIM14/CDPSM/Unbalanced/IEC61968/WiresExt/DistributionTransformer.py:23 -/
def d_DistributionTransformer : RClass := ⟨0x446973747269627574696f6e5472616e73666f726d6572, 0x43494d31342e434450534d2e556e62616c616e6365642e49454336313936382e57697265734578742e446973747269627574696f6e5472616e73666f726d6572, 0x43494d31342e434450534d2e556e62616c616e6365642e49454336313937302e436f72652e45717569706d656e74,
  [],
  [],
  [],
  [],
  [],
  [⟨0x5472616e73666f726d6572496e666f, .one2many, 0x5472616e73666f726d657273, 0, false⟩, ⟨0x57696e64696e6773, .many2one, 0x5472616e73666f726d6572, 0, false⟩, ⟨0x5472616e73666f726d657242616e6b, .one2many, 0x5472616e73666f726d657273, 0, false⟩],
  [0x57696e64696e6773]⟩
def m_DistributionTransformer : List RClass := d_DistributionTransformer :: m_Equipment

/-- CIM14/CDPSM/Unbalanced/IEC61968/WiresExt/TransformerBank.py:23 -/
def d_TransformerBank : RClass := ⟨0x5472616e73666f726d657242616e6b, 0x43494d31342e434450534d2e556e62616c616e6365642e49454336313936382e57697265734578742e5472616e73666f726d657242616e6b, 0x43494d31342e434450534d2e556e62616c616e6365642e49454336313937302e436f72652e45717569706d656e74,
  [(0x766563746f7247726f7570, .str 0)],
  [0x766563746f7247726f7570],
  [(0x766563746f7247726f7570, .str 0)],
  [(0x766563746f7247726f7570, 0x737472)],
  [],
  [⟨0x5472616e73666f726d657273, .many2one, 0x5472616e73666f726d657242616e6b, 0, false⟩],
  [0x5472616e73666f726d657273]⟩
def m_TransformerBank : List RClass := d_TransformerBank :: m_Equipment

/-- CIM14/CDPSM/Unbalanced/IEC61970/Core/ConductingEquipment.py:23 -/
def d_ConductingEquipment : RClass := ⟨0x436f6e64756374696e6745717569706d656e74, 0x43494d31342e434450534d2e556e62616c616e6365642e49454336313937302e436f72652e436f6e64756374696e6745717569706d656e74, 0x43494d31342e434450534d2e556e62616c616e6365642e49454336313937302e436f72652e45717569706d656e74,
  [(0x706861736573, .str 0x414243)],
  [0x706861736573],
  [(0x706861736573, .str 0x414243)],
  [(0x706861736573, 0x737472)],
  [(0x706861736573, 0x5068617365436f6465)],
  [⟨0x5465726d696e616c73, .many2one, 0x436f6e64756374696e6745717569706d656e74, 0, false⟩, ⟨0x42617365566f6c74616765, .one2many, 0x436f6e64756374696e6745717569706d656e74, 0, false⟩],
  [0x5465726d696e616c73]⟩
def m_ConductingEquipment : List RClass := d_ConductingEquipment :: m_Equipment

/-- CIM14/CDPSM/Unbalanced/IEC61970/Core/EquipmentContainer.py:23 -/
def d_EquipmentContainer : RClass := ⟨0x45717569706d656e74436f6e7461696e6572, 0x43494d31342e434450534d2e556e62616c616e6365642e49454336313937302e436f72652e45717569706d656e74436f6e7461696e6572, 0x43494d31342e434450534d2e556e62616c616e6365642e49454336313937302e436f72652e436f6e6e65637469766974794e6f6465436f6e7461696e6572,
  [],
  [],
  [],
  [],
  [],
  [⟨0x45717569706d656e7473, .many2one, 0x45717569706d656e74436f6e7461696e6572, 0, false⟩],
  [0x45717569706d656e7473]⟩
def m_EquipmentContainer : List RClass := d_EquipmentContainer :: m_ConnectivityNodeContainer

/-- CIM14/CDPSM/Unbalanced/IEC61970/Generation/Production/GeneratingUnit.py:23 -/
def d_GeneratingUnit : RClass := ⟨0x47656e65726174696e67556e6974, 0x43494d31342e434450534d2e556e62616c616e6365642e49454336313937302e47656e65726174696f6e2e50726f64756374696f6e2e47656e65726174696e67556e6974, 0x43494d31342e434450534d2e556e62616c616e6365642e49454336313937302e436f72652e45717569706d656e74,
  [(0x72617465644e65744d617850, .flt 0x0), (0x67656e436f6e74726f6c536f75726365, .str 0x6f6e414743), (0x696e697469616c50, .flt 0x0)],
  [0x72617465644e65744d617850, 0x67656e436f6e74726f6c536f75726365, 0x696e697469616c50],
  [(0x72617465644e65744d617850, .flt 0x0), (0x67656e436f6e74726f6c536f75726365, .str 0x6f6e414743), (0x696e697469616c50, .flt 0x0)],
  [(0x72617465644e65744d617850, 0x666c6f6174), (0x67656e436f6e74726f6c536f75726365, 0x737472), (0x696e697469616c50, 0x666c6f6174)],
  [(0x67656e436f6e74726f6c536f75726365, 0x47656e657261746f72436f6e74726f6c536f75726365)],
  [⟨0x53796e6368726f6e6f75734d616368696e6573, .many2one, 0x47656e65726174696e67556e6974, 0, false⟩],
  [0x53796e6368726f6e6f75734d616368696e6573]⟩
def m_GeneratingUnit : List RClass := d_GeneratingUnit :: m_Equipment

/-- CIM14/CDPSM/Unbalanced/IEC61970/Wires/RatioTapChanger.py:23 -/
def d_RatioTapChanger : RClass := ⟨0x526174696f5461704368616e676572, 0x43494d31342e434450534d2e556e62616c616e6365642e49454336313937302e57697265732e526174696f5461704368616e676572, 0x43494d31342e434450534d2e556e62616c616e6365642e49454336313937302e57697265732e5461704368616e676572,
  [(0x7463756c436f6e74726f6c4d6f6465, .str 0x7265616374697665)],
  [0x7463756c436f6e74726f6c4d6f6465],
  [(0x7463756c436f6e74726f6c4d6f6465, .str 0x7265616374697665)],
  [(0x7463756c436f6e74726f6c4d6f6465, 0x737472)],
  [(0x7463756c436f6e74726f6c4d6f6465, 0x5472616e73666f726d6572436f6e74726f6c4d6f6465)],
  [⟨0x57696e64696e67, .one2one, 0x526174696f5461704368616e676572, 0, false⟩],
  []⟩
def m_RatioTapChanger : List RClass := d_RatioTapChanger :: m_TapChanger

/-- CIM14/CDPSM/Unbalanced/IEC61968/WiresExt/DistributionTapChanger.py:23 -/
def d_DistributionTapChanger : RClass := ⟨0x446973747269627574696f6e5461704368616e676572, 0x43494d31342e434450534d2e556e62616c616e6365642e49454336313936382e57697265734578742e446973747269627574696f6e5461704368616e676572, 0x43494d31342e434450534d2e556e62616c616e6365642e49454336313937302e57697265732e526174696f5461704368616e676572,
  [(0x6c696e6544726f7052, .flt 0x0), (0x6d6f6e69746f7265645068617365, .str 0x414243), (0x6c696e6544726f70436f6d70656e736174696f6e, .bool false), (0x7074526174696f, .flt 0x0), (0x6374526174696f, .flt 0x0), (0x726576657273654c696e6544726f7052, .flt 0x0), (0x6c696d6974566f6c74616765, .flt 0x0), (0x726576657273654c696e6544726f7058, .flt 0x0), (0x62616e64566f6c74616765, .flt 0x0), (0x746172676574566f6c74616765, .flt 0x0), (0x6c696e6544726f7058, .flt 0x0)],
  [0x6c696e6544726f7052, 0x6d6f6e69746f7265645068617365, 0x6c696e6544726f70436f6d70656e736174696f6e, 0x7074526174696f, 0x6374526174696f, 0x726576657273654c696e6544726f7052, 0x6c696d6974566f6c74616765, 0x726576657273654c696e6544726f7058, 0x62616e64566f6c74616765, 0x746172676574566f6c74616765, 0x6c696e6544726f7058],
  [(0x6c696e6544726f7052, .flt 0x0), (0x6d6f6e69746f7265645068617365, .str 0x414243), (0x6c696e6544726f70436f6d70656e736174696f6e, .bool false), (0x7074526174696f, .flt 0x0), (0x6374526174696f, .flt 0x0), (0x726576657273654c696e6544726f7052, .flt 0x0), (0x6c696d6974566f6c74616765, .flt 0x0), (0x726576657273654c696e6544726f7058, .flt 0x0), (0x62616e64566f6c74616765, .flt 0x0), (0x746172676574566f6c74616765, .flt 0x0), (0x6c696e6544726f7058, .flt 0x0)],
  [(0x6c696e6544726f7052, 0x666c6f6174), (0x6d6f6e69746f7265645068617365, 0x737472), (0x6c696e6544726f70436f6d70656e736174696f6e, 0x626f6f6c), (0x7074526174696f, 0x666c6f6174), (0x6374526174696f, 0x666c6f6174), (0x726576657273654c696e6544726f7052, 0x666c6f6174), (0x6c696d6974566f6c74616765, 0x666c6f6174), (0x726576657273654c696e6544726f7058, 0x666c6f6174), (0x62616e64566f6c74616765, 0x666c6f6174), (0x746172676574566f6c74616765, 0x666c6f6174), (0x6c696e6544726f7058, 0x666c6f6174)],
  [(0x6d6f6e69746f7265645068617365, 0x5068617365436f6465)],
  [],
  []⟩
def m_DistributionTapChanger : List RClass := d_DistributionTapChanger :: m_RatioTapChanger

/-- CIM14/CDPSM/Unbalanced/IEC61968/WiresExt/DistributionTransformerWinding.py:23 -/
def d_DistributionTransformerWinding : RClass := ⟨0x446973747269627574696f6e5472616e73666f726d657257696e64696e67, 0x43494d31342e434450534d2e556e62616c616e6365642e49454336313936382e57697265734578742e446973747269627574696f6e5472616e73666f726d657257696e64696e67, 0x43494d31342e434450534d2e556e62616c616e6365642e49454336313937302e436f72652e436f6e64756374696e6745717569706d656e74,
  [(0x7267726f756e64, .flt 0x0), (0x7867726f756e64, .flt 0x0), (0x67726f756e646564, .bool false)],
  [0x7267726f756e64, 0x7867726f756e64, 0x67726f756e646564],
  [(0x7267726f756e64, .flt 0x0), (0x7867726f756e64, .flt 0x0), (0x67726f756e646564, .bool false)],
  [(0x7267726f756e64, 0x666c6f6174), (0x7867726f756e64, 0x666c6f6174), (0x67726f756e646564, 0x626f6f6c)],
  [],
  [⟨0x57696e64696e67496e666f, .one2many, 0x57696e64696e6773, 0, false⟩, ⟨0x5472616e73666f726d6572, .one2many, 0x57696e64696e6773, 0, false⟩, ⟨0x526174696f5461704368616e676572, .one2one, 0x57696e64696e67, 0, false⟩, ⟨0x5069496d706564616e6365, .one2many, 0x57696e64696e6773, 0, false⟩],
  []⟩
def m_DistributionTransformerWinding : List RClass := d_DistributionTransformerWinding :: m_ConductingEquipment

/-- CIM14/CDPSM/Unbalanced/IEC61970/Core/Bay.py:23 -/
def d_Bay : RClass := ⟨0x426179, 0x43494d31342e434450534d2e556e62616c616e6365642e49454336313937302e436f72652e426179, 0x43494d31342e434450534d2e556e62616c616e6365642e49454336313937302e436f72652e45717569706d656e74436f6e7461696e6572,
  [],
  [],
  [],
  [],
  [],
  [⟨0x566f6c746167654c6576656c, .one2many, 0x42617973, 0, false⟩],
  []⟩
def m_Bay : List RClass := d_Bay :: m_EquipmentContainer

/-- CIM14/CDPSM/Unbalanced/IEC61970/Core/Substation.py:23 -/
def d_Substation : RClass := ⟨0x53756273746174696f6e, 0x43494d31342e434450534d2e556e62616c616e6365642e49454336313937302e436f72652e53756273746174696f6e, 0x43494d31342e434450534d2e556e62616c616e6365642e49454336313937302e436f72652e45717569706d656e74436f6e7461696e6572,
  [],
  [],
  [],
  [],
  [],
  [⟨0x526567696f6e, .one2many, 0x53756273746174696f6e73, 0, false⟩, ⟨0x566f6c746167654c6576656c73, .many2one, 0x53756273746174696f6e, 0, false⟩],
  [0x566f6c746167654c6576656c73]⟩
def m_Substation : List RClass := d_Substation :: m_EquipmentContainer

/-- CIM14/CDPSM/Unbalanced/IEC61970/Core/VoltageLevel.py:23 -/
def d_VoltageLevel : RClass := ⟨0x566f6c746167654c6576656c, 0x43494d31342e434450534d2e556e62616c616e6365642e49454336313937302e436f72652e566f6c746167654c6576656c, 0x43494d31342e434450534d2e556e62616c616e6365642e49454336313937302e436f72652e45717569706d656e74436f6e7461696e6572,
  [(0x6c6f77566f6c746167654c696d6974, .flt 0x0), (0x68696768566f6c746167654c696d6974, .flt 0x0)],
  [0x6c6f77566f6c746167654c696d6974, 0x68696768566f6c746167654c696d6974],
  [(0x6c6f77566f6c746167654c696d6974, .flt 0x0), (0x68696768566f6c746167654c696d6974, .flt 0x0)],
  [(0x6c6f77566f6c746167654c696d6974, 0x666c6f6174), (0x68696768566f6c746167654c696d6974, 0x666c6f6174)],
  [],
  [⟨0x42617365566f6c74616765, .one2many, 0x566f6c746167654c6576656c, 0, false⟩, ⟨0x42617973, .many2one, 0x566f6c746167654c6576656c, 0, false⟩, ⟨0x53756273746174696f6e, .one2many, 0x566f6c746167654c6576656c73, 0, false⟩],
  [0x42617973]⟩
def m_VoltageLevel : List RClass := d_VoltageLevel :: m_EquipmentContainer

/-- CIM14/CDPSM/Unbalanced/IEC61970/Wires/BusbarSection.py:23 -/
def d_BusbarSection : RClass := ⟨0x42757362617253656374696f6e, 0x43494d31342e434450534d2e556e62616c616e6365642e49454336313937302e57697265732e42757362617253656374696f6e, 0x43494d31342e434450534d2e556e62616c616e6365642e49454336313937302e436f72652e436f6e64756374696e6745717569706d656e74,
  [],
  [],
  [],
  [],
  [],
  [],
  []⟩
def m_BusbarSection : List RClass := d_BusbarSection :: m_ConductingEquipment

/-- CIM14/CDPSM/Unbalanced/IEC61970/Wires/Conductor.py:23 -/
def d_Conductor : RClass := ⟨0x436f6e647563746f72, 0x43494d31342e434450534d2e556e62616c616e6365642e49454336313937302e57697265732e436f6e647563746f72, 0x43494d31342e434450534d2e556e62616c616e6365642e49454336313937302e436f72652e436f6e64756374696e6745717569706d656e74,
  [(0x6c656e677468, .flt 0x0)],
  [0x6c656e677468],
  [(0x6c656e677468, .flt 0x0)],
  [(0x6c656e677468, 0x666c6f6174)],
  [],
  [],
  []⟩
def m_Conductor : List RClass := d_Conductor :: m_ConductingEquipment

/-- CIM14/CDPSM/Unbalanced/IEC61970/Wires/EnergyConsumer.py:23 -/
def d_EnergyConsumer : RClass := ⟨0x456e65726779436f6e73756d6572, 0x43494d31342e434450534d2e556e62616c616e6365642e49454336313937302e57697265732e456e65726779436f6e73756d6572, 0x43494d31342e434450534d2e556e62616c616e6365642e49454336313937302e436f72652e436f6e64756374696e6745717569706d656e74,
  [(0x706669786564, .flt 0x0), (0x706669786564506374, .flt 0x0), (0x716669786564506374, .flt 0x0), (0x716669786564, .flt 0x0), (0x637573746f6d6572436f756e74, .int 0)],
  [0x706669786564, 0x706669786564506374, 0x716669786564506374, 0x716669786564, 0x637573746f6d6572436f756e74],
  [(0x706669786564, .flt 0x0), (0x706669786564506374, .flt 0x0), (0x716669786564506374, .flt 0x0), (0x716669786564, .flt 0x0), (0x637573746f6d6572436f756e74, .int 0)],
  [(0x706669786564, 0x666c6f6174), (0x706669786564506374, 0x666c6f6174), (0x716669786564506374, 0x666c6f6174), (0x716669786564, 0x666c6f6174), (0x637573746f6d6572436f756e74, 0x696e74)],
  [],
  [⟨0x4c6f6164526573706f6e7365, .one2many, 0x456e65726779436f6e73756d6572, 0, false⟩],
  []⟩
def m_EnergyConsumer : List RClass := d_EnergyConsumer :: m_ConductingEquipment

/-- CIM14/CDPSM/Unbalanced/IEC61970/Wires/EnergySource.py:23 -/
def d_EnergySource : RClass := ⟨0x456e65726779536f75726365, 0x43494d31342e434450534d2e556e62616c616e6365642e49454336313937302e57697265732e456e65726779536f75726365, 0x43494d31342e434450534d2e556e62616c616e6365642e49454336313937302e436f72652e436f6e64756374696e6745717569706d656e74,
  [(0x78, .flt 0x0), (0x766f6c746167654d61676e6974756465, .flt 0x0), (0x766f6c74616765416e676c65, .flt 0x0), (0x6e6f6d696e616c566f6c74616765, .flt 0x0)],
  [0x78, 0x766f6c746167654d61676e6974756465, 0x766f6c74616765416e676c65, 0x6e6f6d696e616c566f6c74616765],
  [(0x78, .flt 0x0), (0x766f6c746167654d61676e6974756465, .flt 0x0), (0x766f6c74616765416e676c65, .flt 0x0), (0x6e6f6d696e616c566f6c74616765, .flt 0x0)],
  [(0x78, 0x666c6f6174), (0x766f6c746167654d61676e6974756465, 0x666c6f6174), (0x766f6c74616765416e676c65, 0x666c6f6174), (0x6e6f6d696e616c566f6c74616765, 0x666c6f6174)],
  [],
  [],
  []⟩
def m_EnergySource : List RClass := d_EnergySource :: m_ConductingEquipment

/-- CIM14/CDPSM/Unbalanced/IEC61970/Wires/Junction.py:23 -/
def d_Junction : RClass := ⟨0x4a756e6374696f6e, 0x43494d31342e434450534d2e556e62616c616e6365642e49454336313937302e57697265732e4a756e6374696f6e, 0x43494d31342e434450534d2e556e62616c616e6365642e49454336313937302e436f72652e436f6e64756374696e6745717569706d656e74,
  [],
  [],
  [],
  [],
  [],
  [],
  []⟩
def m_Junction : List RClass := d_Junction :: m_ConductingEquipment

/-- CIM14/CDPSM/Unbalanced/IEC61970/Wires/Line.py:23 -/
def d_Line : RClass := ⟨0x4c696e65, 0x43494d31342e434450534d2e556e62616c616e6365642e49454336313937302e57697265732e4c696e65, 0x43494d31342e434450534d2e556e62616c616e6365642e49454336313937302e436f72652e45717569706d656e74436f6e7461696e6572,
  [],
  [],
  [],
  [],
  [],
  [⟨0x526567696f6e, .one2many, 0x4c696e6573, 0, false⟩],
  []⟩
def m_Line : List RClass := d_Line :: m_EquipmentContainer

/-- CIM14/CDPSM/Unbalanced/IEC61970/Wires/ShuntCompensator.py:23 -/
def d_ShuntCompensator : RClass := ⟨0x5368756e74436f6d70656e7361746f72, 0x43494d31342e434450534d2e556e62616c616e6365642e49454336313937302e57697265732e5368756e74436f6d70656e7361746f72, 0x43494d31342e434450534d2e556e62616c616e6365642e49454336313937302e436f72652e436f6e64756374696e6745717569706d656e74,
  [(0x6e6f6d51, .flt 0x0), (0x6e6f6d55, .flt 0x0), (0x6e6f726d616c53656374696f6e73, .int 0), (0x6d6178696d756d53656374696f6e73, .int 0), (0x726561637469766550657253656374696f6e, .flt 0x0)],
  [0x6e6f6d51, 0x6e6f6d55, 0x6e6f726d616c53656374696f6e73, 0x6d6178696d756d53656374696f6e73, 0x726561637469766550657253656374696f6e],
  [(0x6e6f6d51, .flt 0x0), (0x6e6f6d55, .flt 0x0), (0x6e6f726d616c53656374696f6e73, .int 0), (0x6d6178696d756d53656374696f6e73, .int 0), (0x726561637469766550657253656374696f6e, .flt 0x0)],
  [(0x6e6f6d51, 0x666c6f6174), (0x6e6f6d55, 0x666c6f6174), (0x6e6f726d616c53656374696f6e73, 0x696e74), (0x6d6178696d756d53656374696f6e73, 0x696e74), (0x726561637469766550657253656374696f6e, 0x666c6f6174)],
  [],
  [],
  []⟩
def m_ShuntCompensator : List RClass := d_ShuntCompensator :: m_ConductingEquipment

/-- CIM14/CDPSM/Unbalanced/IEC61970/Wires/Switch.py:23 -/
def d_Switch : RClass := ⟨0x537769746368, 0x43494d31342e434450534d2e556e62616c616e6365642e49454336313937302e57697265732e537769746368, 0x43494d31342e434450534d2e556e62616c616e6365642e49454336313937302e436f72652e436f6e64756374696e6745717569706d656e74,
  [(0x6e6f726d616c4f70656e, .bool false)],
  [0x6e6f726d616c4f70656e],
  [(0x6e6f726d616c4f70656e, .bool false)],
  [(0x6e6f726d616c4f70656e, 0x626f6f6c)],
  [],
  [],
  []⟩
def m_Switch : List RClass := d_Switch :: m_ConductingEquipment

/-- CIM14/CDPSM/Unbalanced/IEC61970/Wires/SynchronousMachine.py:23 -/
def d_SynchronousMachine : RClass := ⟨0x53796e6368726f6e6f75734d616368696e65, 0x43494d31342e434450534d2e556e62616c616e6365642e49454336313937302e57697265732e53796e6368726f6e6f75734d616368696e65, 0x43494d31342e434450534d2e556e62616c616e6365642e49454336313937302e436f72652e436f6e64756374696e6745717569706d656e74,
  [(0x6261736551, .flt 0x0), (0x6f7065726174696e674d6f6465, .str 0x636f6e64656e736572), (0x74797065, .str 0x636f6e64656e736572), (0x6d617851, .flt 0x0), (0x6d696e51, .flt 0x0)],
  [0x6261736551, 0x6f7065726174696e674d6f6465, 0x74797065, 0x6d617851, 0x6d696e51],
  [(0x6261736551, .flt 0x0), (0x6f7065726174696e674d6f6465, .str 0x636f6e64656e736572), (0x74797065, .str 0x636f6e64656e736572), (0x6d617851, .flt 0x0), (0x6d696e51, .flt 0x0)],
  [(0x6261736551, 0x666c6f6174), (0x6f7065726174696e674d6f6465, 0x737472), (0x74797065, 0x737472), (0x6d617851, 0x666c6f6174), (0x6d696e51, 0x666c6f6174)],
  [(0x6f7065726174696e674d6f6465, 0x53796e6368726f6e6f75734d616368696e654f7065726174696e674d6f6465), (0x74797065, 0x53796e6368726f6e6f75734d616368696e6554797065)],
  [⟨0x47656e65726174696e67556e6974, .one2many, 0x53796e6368726f6e6f75734d616368696e6573, 0, false⟩],
  []⟩
def m_SynchronousMachine : List RClass := d_SynchronousMachine :: m_ConductingEquipment

/-- CIM14/CDPSM/Unbalanced/IEC61970/Wires/ACLineSegment.py:23 -/
def d_ACLineSegment : RClass := ⟨0x41434c696e655365676d656e74, 0x43494d31342e434450534d2e556e62616c616e6365642e49454336313937302e57697265732e41434c696e655365676d656e74, 0x43494d31342e434450534d2e556e62616c616e6365642e49454336313937302e57697265732e436f6e647563746f72,
  [(0x72, .flt 0x0), (0x7830, .flt 0x0), (0x626368, .flt 0x0), (0x78, .flt 0x0), (0x62306368, .flt 0x0), (0x7230, .flt 0x0)],
  [0x72, 0x7830, 0x626368, 0x78, 0x62306368, 0x7230],
  [(0x72, .flt 0x0), (0x7830, .flt 0x0), (0x626368, .flt 0x0), (0x78, .flt 0x0), (0x62306368, .flt 0x0), (0x7230, .flt 0x0)],
  [(0x72, 0x666c6f6174), (0x7830, 0x666c6f6174), (0x626368, 0x666c6f6174), (0x78, 0x666c6f6174), (0x62306368, 0x666c6f6174), (0x7230, 0x666c6f6174)],
  [],
  [],
  []⟩
def m_ACLineSegment : List RClass := d_ACLineSegment :: m_Conductor

/-- CIM14/CDPSM/Unbalanced/IEC61970/Wires/Breaker.py:23 -/
def d_Breaker : RClass := ⟨0x427265616b6572, 0x43494d31342e434450534d2e556e62616c616e6365642e49454336313937302e57697265732e427265616b6572, 0x43494d31342e434450534d2e556e62616c616e6365642e49454336313937302e57697265732e537769746368,
  [(0x726174656443757272656e74, .flt 0x0)],
  [0x726174656443757272656e74],
  [(0x726174656443757272656e74, .flt 0x0)],
  [(0x726174656443757272656e74, 0x666c6f6174)],
  [],
  [],
  []⟩
def m_Breaker : List RClass := d_Breaker :: m_Switch

/-- CIM14/CDPSM/Unbalanced/IEC61970/Wires/Disconnector.py:23 -/
def d_Disconnector : RClass := ⟨0x446973636f6e6e6563746f72, 0x43494d31342e434450534d2e556e62616c616e6365642e49454336313937302e57697265732e446973636f6e6e6563746f72, 0x43494d31342e434450534d2e556e62616c616e6365642e49454336313937302e57697265732e537769746368,
  [],
  [],
  [],
  [],
  [],
  [],
  []⟩
def m_Disconnector : List RClass := d_Disconnector :: m_Switch

/-- CIM14/CDPSM/Unbalanced/IEC61970/Wires/Fuse.py:23 -/
def d_Fuse : RClass := ⟨0x46757365, 0x43494d31342e434450534d2e556e62616c616e6365642e49454336313937302e57697265732e46757365, 0x43494d31342e434450534d2e556e62616c616e6365642e49454336313937302e57697265732e537769746368,
  [(0x726174696e6743757272656e74, .flt 0x0)],
  [0x726174696e6743757272656e74],
  [(0x726174696e6743757272656e74, .flt 0x0)],
  [(0x726174696e6743757272656e74, 0x666c6f6174)],
  [],
  [],
  []⟩
def m_Fuse : List RClass := d_Fuse :: m_Switch

/-- CIM14/CDPSM/Unbalanced/IEC61970/Wires/LoadBreakSwitch.py:23 -/
def d_LoadBreakSwitch : RClass := ⟨0x4c6f6164427265616b537769746368, 0x43494d31342e434450534d2e556e62616c616e6365642e49454336313937302e57697265732e4c6f6164427265616b537769746368, 0x43494d31342e434450534d2e556e62616c616e6365642e49454336313937302e57697265732e537769746368,
  [(0x726174656443757272656e74, .flt 0x0)],
  [0x726174656443757272656e74],
  [(0x726174656443757272656e74, .flt 0x0)],
  [(0x726174656443757272656e74, 0x666c6f6174)],
  [],
  [],
  []⟩
def m_LoadBreakSwitch : List RClass := d_LoadBreakSwitch :: m_Switch

/-- CIM14/CDPSM/Unbalanced/IEC61968/WiresExt/DistributionLineSegment.py:23 -/
def d_DistributionLineSegment : RClass := ⟨0x446973747269627574696f6e4c696e655365676d656e74, 0x43494d31342e434450534d2e556e62616c616e6365642e49454336313936382e57697265734578742e446973747269627574696f6e4c696e655365676d656e74, 0x43494d31342e434450534d2e556e62616c616e6365642e49454336313937302e57697265732e41434c696e655365676d656e74,
  [],
  [],
  [],
  [],
  [],
  [⟨0x436f6e647563746f72496e666f, .one2many, 0x436f6e647563746f725365676d656e7473, 0, false⟩, ⟨0x53657175656e6365496d706564616e6365, .one2many, 0x436f6e647563746f725365676d656e7473, 0, false⟩, ⟨0x5068617365496d706564616e6365, .one2many, 0x436f6e647563746f725365676d656e7473, 0, false⟩],
  []⟩
def m_DistributionLineSegment : List RClass := d_DistributionLineSegment :: m_ACLineSegment

def classes : List (List RClass) := [
  m_Element,
  m_CableInfo,
  m_ConcentricNeutralCableInfo,
  m_ConductorInfo,
  m_DistributionWindingTest,
  m_OpenCircuitTest,
  m_OverheadConductorInfo,
  m_ShortCircuitTest,
  m_TapeShieldCableInfo,
  m_ToWindingSpec,
  m_TransformerInfo,
  m_WindingInfo,
  m_WireArrangement,
  m_WireType,
  m_GeoLocation,
  m_Location,
  m_PositionPoint,
  m_DistributionLineSegment,
  m_DistributionTapChanger,
  m_DistributionTransformer,
  m_DistributionTransformerWinding,
  m_PerLengthPhaseImpedance,
  m_PerLengthSequenceImpedance,
  m_PhaseImpedanceData,
  m_TransformerBank,
  m_WindingPiImpedance,
  m_BaseVoltage,
  m_Bay,
  m_ConductingEquipment,
  m_ConnectivityNodeContainer,
  m_Equipment,
  m_EquipmentContainer,
  m_GeographicalRegion,
  m_IdentifiedObject,
  m_PSRType,
  m_PowerSystemResource,
  m_SubGeographicalRegion,
  m_Substation,
  m_Terminal,
  m_VoltageLevel,
  m_GeneratingUnit,
  m_IEC61970CIMVersion,
  m_LoadResponseCharacteristic,
  m_SvTapStep,
  m_ConnectivityNode,
  m_ACLineSegment,
  m_Breaker,
  m_BusbarSection,
  m_Conductor,
  m_Disconnector,
  m_EnergyConsumer,
  m_EnergySource,
  m_Fuse,
  m_Junction,
  m_Line,
  m_LoadBreakSwitch,
  m_RatioTapChanger,
  m_ShuntCompensator,
  m_Switch,
  m_SynchronousMachine,
  m_TapChanger]

/-- `packageMap` of CIM14/CDPSM/Unbalanced/__init__.py -/
def pmap : List (Nat × Nat) := [
  (0x456c656d656e74, 0x43494d31342e434450534d2e556e62616c616e636564),
  (0x446973747269627574696f6e5472616e73666f726d657257696e64696e67, 0x43494d31342e434450534d2e556e62616c616e6365642e49454336313936382e5769726573457874),
  (0x446973747269627574696f6e4c696e655365676d656e74, 0x43494d31342e434450534d2e556e62616c616e6365642e49454336313936382e5769726573457874),
  (0x57696e64696e675069496d706564616e6365, 0x43494d31342e434450534d2e556e62616c616e6365642e49454336313936382e5769726573457874),
  (0x446973747269627574696f6e5461704368616e676572, 0x43494d31342e434450534d2e556e62616c616e6365642e49454336313936382e5769726573457874),
  (0x5065724c656e67746853657175656e6365496d706564616e6365, 0x43494d31342e434450534d2e556e62616c616e6365642e49454336313936382e5769726573457874),
  (0x5472616e73666f726d657242616e6b, 0x43494d31342e434450534d2e556e62616c616e6365642e49454336313936382e5769726573457874),
  (0x5065724c656e6774685068617365496d706564616e6365, 0x43494d31342e434450534d2e556e62616c616e6365642e49454336313936382e5769726573457874),
  (0x446973747269627574696f6e5472616e73666f726d6572, 0x43494d31342e434450534d2e556e62616c616e6365642e49454336313936382e5769726573457874),
  (0x5068617365496d706564616e636544617461, 0x43494d31342e434450534d2e556e62616c616e6365642e49454336313936382e5769726573457874),
  (0x5472616e73666f726d6572496e666f, 0x43494d31342e434450534d2e556e62616c616e6365642e49454336313936382e41737365744d6f64656c73),
  (0x546f57696e64696e6753706563, 0x43494d31342e434450534d2e556e62616c616e6365642e49454336313936382e41737365744d6f64656c73),
  (0x57697265417272616e67656d656e74, 0x43494d31342e434450534d2e556e62616c616e6365642e49454336313936382e41737365744d6f64656c73),
  (0x4361626c65496e666f, 0x43494d31342e434450534d2e556e62616c616e6365642e49454336313936382e41737365744d6f64656c73),
  (0x4f70656e4369726375697454657374, 0x43494d31342e434450534d2e556e62616c616e6365642e49454336313936382e41737365744d6f64656c73),
  (0x436f6e63656e747269634e65757472616c4361626c65496e666f, 0x43494d31342e434450534d2e556e62616c616e6365642e49454336313936382e41737365744d6f64656c73),
  (0x436f6e647563746f72496e666f, 0x43494d31342e434450534d2e556e62616c616e6365642e49454336313936382e41737365744d6f64656c73),
  (0x446973747269627574696f6e57696e64696e6754657374, 0x43494d31342e434450534d2e556e62616c616e6365642e49454336313936382e41737365744d6f64656c73),
  (0x5769726554797065, 0x43494d31342e434450534d2e556e62616c616e6365642e49454336313936382e41737365744d6f64656c73),
  (0x57696e64696e67496e666f, 0x43494d31342e434450534d2e556e62616c616e6365642e49454336313936382e41737365744d6f64656c73),
  (0x4f76657268656164436f6e647563746f72496e666f, 0x43494d31342e434450534d2e556e62616c616e6365642e49454336313936382e41737365744d6f64656c73),
  (0x54617065536869656c644361626c65496e666f, 0x43494d31342e434450534d2e556e62616c616e6365642e49454336313936382e41737365744d6f64656c73),
  (0x53686f72744369726375697454657374, 0x43494d31342e434450534d2e556e62616c616e6365642e49454336313936382e41737365744d6f64656c73),
  (0x47656f4c6f636174696f6e, 0x43494d31342e434450534d2e556e62616c616e6365642e49454336313936382e436f6d6d6f6e),
  (0x4c6f636174696f6e, 0x43494d31342e434450534d2e556e62616c616e6365642e49454336313936382e436f6d6d6f6e),
  (0x506f736974696f6e506f696e74, 0x43494d31342e434450534d2e556e62616c616e6365642e49454336313936382e436f6d6d6f6e),
  (0x494543363139373043494d56657273696f6e, 0x43494d31342e434450534d2e556e62616c616e6365642e4945433631393730),
  (0x42757362617253656374696f6e, 0x43494d31342e434450534d2e556e62616c616e6365642e49454336313937302e5769726573),
  (0x4c6f6164427265616b537769746368, 0x43494d31342e434450534d2e556e62616c616e6365642e49454336313937302e5769726573),
  (0x5461704368616e676572, 0x43494d31342e434450534d2e556e62616c616e6365642e49454336313937302e5769726573),
  (0x46757365, 0x43494d31342e434450534d2e556e62616c616e6365642e49454336313937302e5769726573),
  (0x4a756e6374696f6e, 0x43494d31342e434450534d2e556e62616c616e6365642e49454336313937302e5769726573),
  (0x41434c696e655365676d656e74, 0x43494d31342e434450534d2e556e62616c616e6365642e49454336313937302e5769726573),
  (0x446973636f6e6e6563746f72, 0x43494d31342e434450534d2e556e62616c616e6365642e49454336313937302e5769726573),
  (0x456e65726779536f75726365, 0x43494d31342e434450534d2e556e62616c616e6365642e49454336313937302e5769726573),
  (0x53796e6368726f6e6f75734d616368696e65, 0x43494d31342e434450534d2e556e62616c616e6365642e49454336313937302e5769726573),
  (0x526174696f5461704368616e676572, 0x43494d31342e434450534d2e556e62616c616e6365642e49454336313937302e5769726573),
  (0x456e65726779436f6e73756d6572, 0x43494d31342e434450534d2e556e62616c616e6365642e49454336313937302e5769726573),
  (0x537769746368, 0x43494d31342e434450534d2e556e62616c616e6365642e49454336313937302e5769726573),
  (0x4c696e65, 0x43494d31342e434450534d2e556e62616c616e6365642e49454336313937302e5769726573),
  (0x5368756e74436f6d70656e7361746f72, 0x43494d31342e434450534d2e556e62616c616e6365642e49454336313937302e5769726573),
  (0x427265616b6572, 0x43494d31342e434450534d2e556e62616c616e6365642e49454336313937302e5769726573),
  (0x436f6e647563746f72, 0x43494d31342e434450534d2e556e62616c616e6365642e49454336313937302e5769726573),
  (0x436f6e6e65637469766974794e6f6465436f6e7461696e6572, 0x43494d31342e434450534d2e556e62616c616e6365642e49454336313937302e436f7265),
  (0x566f6c746167654c6576656c, 0x43494d31342e434450534d2e556e62616c616e6365642e49454336313937302e436f7265),
  (0x426179, 0x43494d31342e434450534d2e556e62616c616e6365642e49454336313937302e436f7265),
  (0x45717569706d656e74, 0x43494d31342e434450534d2e556e62616c616e6365642e49454336313937302e436f7265),
  (0x42617365566f6c74616765, 0x43494d31342e434450534d2e556e62616c616e6365642e49454336313937302e436f7265),
  (0x50535254797065, 0x43494d31342e434450534d2e556e62616c616e6365642e49454336313937302e436f7265),
  (0x45717569706d656e74436f6e7461696e6572, 0x43494d31342e434450534d2e556e62616c616e6365642e49454336313937302e436f7265),
  (0x4964656e7469666965644f626a656374, 0x43494d31342e434450534d2e556e62616c616e6365642e49454336313937302e436f7265),
  (0x53756273746174696f6e, 0x43494d31342e434450534d2e556e62616c616e6365642e49454336313937302e436f7265),
  (0x436f6e64756374696e6745717569706d656e74, 0x43494d31342e434450534d2e556e62616c616e6365642e49454336313937302e436f7265),
  (0x53756247656f67726170686963616c526567696f6e, 0x43494d31342e434450534d2e556e62616c616e6365642e49454336313937302e436f7265),
  (0x5465726d696e616c, 0x43494d31342e434450534d2e556e62616c616e6365642e49454336313937302e436f7265),
  (0x47656f67726170686963616c526567696f6e, 0x43494d31342e434450534d2e556e62616c616e6365642e49454336313937302e436f7265),
  (0x506f77657253797374656d5265736f75726365, 0x43494d31342e434450534d2e556e62616c616e6365642e49454336313937302e436f7265),
  (0x47656e65726174696e67556e6974, 0x43494d31342e434450534d2e556e62616c616e6365642e49454336313937302e47656e65726174696f6e2e50726f64756374696f6e),
  (0x4c6f6164526573706f6e73654368617261637465726973746963, 0x43494d31342e434450534d2e556e62616c616e6365642e49454336313937302e4c6f61644d6f64656c),
  (0x537654617053746570, 0x43494d31342e434450534d2e556e62616c616e6365642e49454336313937302e53746174655661726961626c6573),
  (0x436f6e6e65637469766974794e6f6465, 0x43494d31342e434450534d2e556e62616c616e6365642e49454336313937302e546f706f6c6f6779)]

/-- Names bound by `from m import C` in the `__init__.py` files of the packages occurring in `pmap`: (package, C, m). -/
def exports : List (Nat × Nat × Nat) := [
  (0x43494d31342e434450534d2e556e62616c616e636564, 0x456c656d656e74, 0x43494d31342e434450534d2e556e62616c616e6365642e456c656d656e74),
  (0x43494d31342e434450534d2e556e62616c616e6365642e49454336313936382e41737365744d6f64656c73, 0x5472616e73666f726d6572496e666f, 0x43494d31342e434450534d2e556e62616c616e6365642e49454336313936382e41737365744d6f64656c732e5472616e73666f726d6572496e666f),
  (0x43494d31342e434450534d2e556e62616c616e6365642e49454336313936382e41737365744d6f64656c73, 0x546f57696e64696e6753706563, 0x43494d31342e434450534d2e556e62616c616e6365642e49454336313936382e41737365744d6f64656c732e546f57696e64696e6753706563),
  (0x43494d31342e434450534d2e556e62616c616e6365642e49454336313936382e41737365744d6f64656c73, 0x57697265417272616e67656d656e74, 0x43494d31342e434450534d2e556e62616c616e6365642e49454336313936382e41737365744d6f64656c732e57697265417272616e67656d656e74),
  (0x43494d31342e434450534d2e556e62616c616e6365642e49454336313936382e41737365744d6f64656c73, 0x4361626c65496e666f, 0x43494d31342e434450534d2e556e62616c616e6365642e49454336313936382e41737365744d6f64656c732e4361626c65496e666f),
  (0x43494d31342e434450534d2e556e62616c616e6365642e49454336313936382e41737365744d6f64656c73, 0x4f70656e4369726375697454657374, 0x43494d31342e434450534d2e556e62616c616e6365642e49454336313936382e41737365744d6f64656c732e4f70656e4369726375697454657374),
  (0x43494d31342e434450534d2e556e62616c616e6365642e49454336313936382e41737365744d6f64656c73, 0x436f6e63656e747269634e65757472616c4361626c65496e666f, 0x43494d31342e434450534d2e556e62616c616e6365642e49454336313936382e41737365744d6f64656c732e436f6e63656e747269634e65757472616c4361626c65496e666f),
  (0x43494d31342e434450534d2e556e62616c616e6365642e49454336313936382e41737365744d6f64656c73, 0x436f6e647563746f72496e666f, 0x43494d31342e434450534d2e556e62616c616e6365642e49454336313936382e41737365744d6f64656c732e436f6e647563746f72496e666f),
  (0x43494d31342e434450534d2e556e62616c616e6365642e49454336313936382e41737365744d6f64656c73, 0x446973747269627574696f6e57696e64696e6754657374, 0x43494d31342e434450534d2e556e62616c616e6365642e49454336313936382e41737365744d6f64656c732e446973747269627574696f6e57696e64696e6754657374),
  (0x43494d31342e434450534d2e556e62616c616e6365642e49454336313936382e41737365744d6f64656c73, 0x5769726554797065, 0x43494d31342e434450534d2e556e62616c616e6365642e49454336313936382e41737365744d6f64656c732e5769726554797065),
  (0x43494d31342e434450534d2e556e62616c616e6365642e49454336313936382e41737365744d6f64656c73, 0x57696e64696e67496e666f, 0x43494d31342e434450534d2e556e62616c616e6365642e49454336313936382e41737365744d6f64656c732e57696e64696e67496e666f),
  (0x43494d31342e434450534d2e556e62616c616e6365642e49454336313936382e41737365744d6f64656c73, 0x4f76657268656164436f6e647563746f72496e666f, 0x43494d31342e434450534d2e556e62616c616e6365642e49454336313936382e41737365744d6f64656c732e4f76657268656164436f6e647563746f72496e666f),
  (0x43494d31342e434450534d2e556e62616c616e6365642e49454336313936382e41737365744d6f64656c73, 0x54617065536869656c644361626c65496e666f, 0x43494d31342e434450534d2e556e62616c616e6365642e49454336313936382e41737365744d6f64656c732e54617065536869656c644361626c65496e666f),
  (0x43494d31342e434450534d2e556e62616c616e6365642e49454336313936382e41737365744d6f64656c73, 0x53686f72744369726375697454657374, 0x43494d31342e434450534d2e556e62616c616e6365642e49454336313936382e41737365744d6f64656c732e53686f72744369726375697454657374),
  (0x43494d31342e434450534d2e556e62616c616e6365642e49454336313936382e436f6d6d6f6e, 0x47656f4c6f636174696f6e, 0x43494d31342e434450534d2e556e62616c616e6365642e49454336313936382e436f6d6d6f6e2e47656f4c6f636174696f6e),
  (0x43494d31342e434450534d2e556e62616c616e6365642e49454336313936382e436f6d6d6f6e, 0x4c6f636174696f6e, 0x43494d31342e434450534d2e556e62616c616e6365642e49454336313936382e436f6d6d6f6e2e4c6f636174696f6e),
  (0x43494d31342e434450534d2e556e62616c616e6365642e49454336313936382e436f6d6d6f6e, 0x506f736974696f6e506f696e74, 0x43494d31342e434450534d2e556e62616c616e6365642e49454336313936382e436f6d6d6f6e2e506f736974696f6e506f696e74),
  (0x43494d31342e434450534d2e556e62616c616e6365642e49454336313936382e5769726573457874, 0x446973747269627574696f6e5472616e73666f726d657257696e64696e67, 0x43494d31342e434450534d2e556e62616c616e6365642e49454336313936382e57697265734578742e446973747269627574696f6e5472616e73666f726d657257696e64696e67),
  (0x43494d31342e434450534d2e556e62616c616e6365642e49454336313936382e5769726573457874, 0x446973747269627574696f6e4c696e655365676d656e74, 0x43494d31342e434450534d2e556e62616c616e6365642e49454336313936382e57697265734578742e446973747269627574696f6e4c696e655365676d656e74),
  (0x43494d31342e434450534d2e556e62616c616e6365642e49454336313936382e5769726573457874, 0x57696e64696e675069496d706564616e6365, 0x43494d31342e434450534d2e556e62616c616e6365642e49454336313936382e57697265734578742e57696e64696e675069496d706564616e6365),
  (0x43494d31342e434450534d2e556e62616c616e6365642e49454336313936382e5769726573457874, 0x446973747269627574696f6e5461704368616e676572, 0x43494d31342e434450534d2e556e62616c616e6365642e49454336313936382e57697265734578742e446973747269627574696f6e5461704368616e676572),
  (0x43494d31342e434450534d2e556e62616c616e6365642e49454336313936382e5769726573457874, 0x5065724c656e67746853657175656e6365496d706564616e6365, 0x43494d31342e434450534d2e556e62616c616e6365642e49454336313936382e57697265734578742e5065724c656e67746853657175656e6365496d706564616e6365),
  (0x43494d31342e434450534d2e556e62616c616e6365642e49454336313936382e5769726573457874, 0x5472616e73666f726d657242616e6b, 0x43494d31342e434450534d2e556e62616c616e6365642e49454336313936382e57697265734578742e5472616e73666f726d657242616e6b),
  (0x43494d31342e434450534d2e556e62616c616e6365642e49454336313936382e5769726573457874, 0x5065724c656e6774685068617365496d706564616e6365, 0x43494d31342e434450534d2e556e62616c616e6365642e49454336313936382e57697265734578742e5065724c656e6774685068617365496d706564616e6365),
  (0x43494d31342e434450534d2e556e62616c616e6365642e49454336313936382e5769726573457874, 0x446973747269627574696f6e5472616e73666f726d6572, 0x43494d31342e434450534d2e556e62616c616e6365642e49454336313936382e57697265734578742e446973747269627574696f6e5472616e73666f726d6572),
  (0x43494d31342e434450534d2e556e62616c616e6365642e49454336313936382e5769726573457874, 0x5068617365496d706564616e636544617461, 0x43494d31342e434450534d2e556e62616c616e6365642e49454336313936382e57697265734578742e5068617365496d706564616e636544617461),
  (0x43494d31342e434450534d2e556e62616c616e6365642e4945433631393730, 0x494543363139373043494d56657273696f6e, 0x43494d31342e434450534d2e556e62616c616e6365642e49454336313937302e494543363139373043494d56657273696f6e),
  (0x43494d31342e434450534d2e556e62616c616e6365642e49454336313937302e436f7265, 0x436f6e6e65637469766974794e6f6465436f6e7461696e6572, 0x43494d31342e434450534d2e556e62616c616e6365642e49454336313937302e436f72652e436f6e6e65637469766974794e6f6465436f6e7461696e6572),
  (0x43494d31342e434450534d2e556e62616c616e6365642e49454336313937302e436f7265, 0x566f6c746167654c6576656c, 0x43494d31342e434450534d2e556e62616c616e6365642e49454336313937302e436f72652e566f6c746167654c6576656c),
  (0x43494d31342e434450534d2e556e62616c616e6365642e49454336313937302e436f7265, 0x426179, 0x43494d31342e434450534d2e556e62616c616e6365642e49454336313937302e436f72652e426179),
  (0x43494d31342e434450534d2e556e62616c616e6365642e49454336313937302e436f7265, 0x45717569706d656e74, 0x43494d31342e434450534d2e556e62616c616e6365642e49454336313937302e436f72652e45717569706d656e74),
  (0x43494d31342e434450534d2e556e62616c616e6365642e49454336313937302e436f7265, 0x42617365566f6c74616765, 0x43494d31342e434450534d2e556e62616c616e6365642e49454336313937302e436f72652e42617365566f6c74616765),
  (0x43494d31342e434450534d2e556e62616c616e6365642e49454336313937302e436f7265, 0x50535254797065, 0x43494d31342e434450534d2e556e62616c616e6365642e49454336313937302e436f72652e50535254797065),
  (0x43494d31342e434450534d2e556e62616c616e6365642e49454336313937302e436f7265, 0x45717569706d656e74436f6e7461696e6572, 0x43494d31342e434450534d2e556e62616c616e6365642e49454336313937302e436f72652e45717569706d656e74436f6e7461696e6572),
  (0x43494d31342e434450534d2e556e62616c616e6365642e49454336313937302e436f7265, 0x4964656e7469666965644f626a656374, 0x43494d31342e434450534d2e556e62616c616e6365642e49454336313937302e436f72652e4964656e7469666965644f626a656374),
  (0x43494d31342e434450534d2e556e62616c616e6365642e49454336313937302e436f7265, 0x53756273746174696f6e, 0x43494d31342e434450534d2e556e62616c616e6365642e49454336313937302e436f72652e53756273746174696f6e),
  (0x43494d31342e434450534d2e556e62616c616e6365642e49454336313937302e436f7265, 0x436f6e64756374696e6745717569706d656e74, 0x43494d31342e434450534d2e556e62616c616e6365642e49454336313937302e436f72652e436f6e64756374696e6745717569706d656e74),
  (0x43494d31342e434450534d2e556e62616c616e6365642e49454336313937302e436f7265, 0x53756247656f67726170686963616c526567696f6e, 0x43494d31342e434450534d2e556e62616c616e6365642e49454336313937302e436f72652e53756247656f67726170686963616c526567696f6e),
  (0x43494d31342e434450534d2e556e62616c616e6365642e49454336313937302e436f7265, 0x5465726d696e616c, 0x43494d31342e434450534d2e556e62616c616e6365642e49454336313937302e436f72652e5465726d696e616c),
  (0x43494d31342e434450534d2e556e62616c616e6365642e49454336313937302e436f7265, 0x47656f67726170686963616c526567696f6e, 0x43494d31342e434450534d2e556e62616c616e6365642e49454336313937302e436f72652e47656f67726170686963616c526567696f6e),
  (0x43494d31342e434450534d2e556e62616c616e6365642e49454336313937302e436f7265, 0x506f77657253797374656d5265736f75726365, 0x43494d31342e434450534d2e556e62616c616e6365642e49454336313937302e436f72652e506f77657253797374656d5265736f75726365),
  (0x43494d31342e434450534d2e556e62616c616e6365642e49454336313937302e47656e65726174696f6e2e50726f64756374696f6e, 0x47656e65726174696e67556e6974, 0x43494d31342e434450534d2e556e62616c616e6365642e49454336313937302e47656e65726174696f6e2e50726f64756374696f6e2e47656e65726174696e67556e6974),
  (0x43494d31342e434450534d2e556e62616c616e6365642e49454336313937302e4c6f61644d6f64656c, 0x4c6f6164526573706f6e73654368617261637465726973746963, 0x43494d31342e434450534d2e556e62616c616e6365642e49454336313937302e4c6f61644d6f64656c2e4c6f6164526573706f6e73654368617261637465726973746963),
  (0x43494d31342e434450534d2e556e62616c616e6365642e49454336313937302e53746174655661726961626c6573, 0x537654617053746570, 0x43494d31342e434450534d2e556e62616c616e6365642e49454336313937302e53746174655661726961626c65732e537654617053746570),
  (0x43494d31342e434450534d2e556e62616c616e6365642e49454336313937302e546f706f6c6f6779, 0x436f6e6e65637469766974794e6f6465, 0x43494d31342e434450534d2e556e62616c616e6365642e49454336313937302e546f706f6c6f67792e436f6e6e65637469766974794e6f6465),
  (0x43494d31342e434450534d2e556e62616c616e6365642e49454336313937302e5769726573, 0x42757362617253656374696f6e, 0x43494d31342e434450534d2e556e62616c616e6365642e49454336313937302e57697265732e42757362617253656374696f6e),
  (0x43494d31342e434450534d2e556e62616c616e6365642e49454336313937302e5769726573, 0x4c6f6164427265616b537769746368, 0x43494d31342e434450534d2e556e62616c616e6365642e49454336313937302e57697265732e4c6f6164427265616b537769746368),
  (0x43494d31342e434450534d2e556e62616c616e6365642e49454336313937302e5769726573, 0x5461704368616e676572, 0x43494d31342e434450534d2e556e62616c616e6365642e49454336313937302e57697265732e5461704368616e676572),
  (0x43494d31342e434450534d2e556e62616c616e6365642e49454336313937302e5769726573, 0x46757365, 0x43494d31342e434450534d2e556e62616c616e6365642e49454336313937302e57697265732e46757365),
  (0x43494d31342e434450534d2e556e62616c616e6365642e49454336313937302e5769726573, 0x4a756e6374696f6e, 0x43494d31342e434450534d2e556e62616c616e6365642e49454336313937302e57697265732e4a756e6374696f6e),
  (0x43494d31342e434450534d2e556e62616c616e6365642e49454336313937302e5769726573, 0x41434c696e655365676d656e74, 0x43494d31342e434450534d2e556e62616c616e6365642e49454336313937302e57697265732e41434c696e655365676d656e74),
  (0x43494d31342e434450534d2e556e62616c616e6365642e49454336313937302e5769726573, 0x446973636f6e6e6563746f72, 0x43494d31342e434450534d2e556e62616c616e6365642e49454336313937302e57697265732e446973636f6e6e6563746f72),
  (0x43494d31342e434450534d2e556e62616c616e6365642e49454336313937302e5769726573, 0x456e65726779536f75726365, 0x43494d31342e434450534d2e556e62616c616e6365642e49454336313937302e57697265732e456e65726779536f75726365),
  (0x43494d31342e434450534d2e556e62616c616e6365642e49454336313937302e5769726573, 0x53796e6368726f6e6f75734d616368696e65, 0x43494d31342e434450534d2e556e62616c616e6365642e49454336313937302e57697265732e53796e6368726f6e6f75734d616368696e65),
  (0x43494d31342e434450534d2e556e62616c616e6365642e49454336313937302e5769726573, 0x526174696f5461704368616e676572, 0x43494d31342e434450534d2e556e62616c616e6365642e49454336313937302e57697265732e526174696f5461704368616e676572),
  (0x43494d31342e434450534d2e556e62616c616e6365642e49454336313937302e5769726573, 0x456e65726779436f6e73756d6572, 0x43494d31342e434450534d2e556e62616c616e6365642e49454336313937302e57697265732e456e65726779436f6e73756d6572),
  (0x43494d31342e434450534d2e556e62616c616e6365642e49454336313937302e5769726573, 0x537769746368, 0x43494d31342e434450534d2e556e62616c616e6365642e49454336313937302e57697265732e537769746368),
  (0x43494d31342e434450534d2e556e62616c616e6365642e49454336313937302e5769726573, 0x4c696e65, 0x43494d31342e434450534d2e556e62616c616e6365642e49454336313937302e57697265732e4c696e65),
  (0x43494d31342e434450534d2e556e62616c616e6365642e49454336313937302e5769726573, 0x5368756e74436f6d70656e7361746f72, 0x43494d31342e434450534d2e556e62616c616e6365642e49454336313937302e57697265732e5368756e74436f6d70656e7361746f72),
  (0x43494d31342e434450534d2e556e62616c616e6365642e49454336313937302e5769726573, 0x427265616b6572, 0x43494d31342e434450534d2e556e62616c616e6365642e49454336313937302e57697265732e427265616b6572),
  (0x43494d31342e434450534d2e556e62616c616e6365642e49454336313937302e5769726573, 0x436f6e647563746f72, 0x43494d31342e434450534d2e556e62616c616e6365642e49454336313937302e57697265732e436f6e647563746f72)]

def pkg : RPkg := ⟨0x43494d31342e434450534d2e556e62616c616e636564, classes, pmap, exports⟩

end Verif.Gen.CIM14_CDPSM_Unbalanced
