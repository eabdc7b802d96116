import Verif.Gen.Types
/-! Generated by tools/gen.py from /repo/CIM15/CDPSM/Asset: do not edit. -/
namespace Verif.Gen.CIM15_CDPSM_Asset
set_option maxRecDepth 10000

/-- CIM15/CDPSM/Asset/Element.py:22 -/
def d_Element : RClass := ⟨0x456c656d656e74, 0x43494d31352e434450534d2e41737365742e456c656d656e74, 0,
  [(0x55554944, .str 0)],
  [0x55554944],
  [(0x55554944, .str 0)],
  [(0x55554944, 0x737472)],
  [],
  [],
  []⟩
def m_Element : List RClass := d_Element :: []

/-- CIM15/CDPSM/Asset/IEC61970/Core/IdentifiedObject.py:23 -/
def d_IdentifiedObject : RClass := ⟨0x4964656e7469666965644f626a656374, 0x43494d31352e434450534d2e41737365742e49454336313937302e436f72652e4964656e7469666965644f626a656374, 0x43494d31352e434450534d2e41737365742e456c656d656e74,
  [(0x6e616d65, .str 0), (0x616c6961734e616d65, .str 0)],
  [0x6e616d65, 0x616c6961734e616d65],
  [(0x6e616d65, .str 0), (0x616c6961734e616d65, .str 0)],
  [(0x6e616d65, 0x737472), (0x616c6961734e616d65, 0x737472)],
  [],
  [⟨0x4e616d6573, .many2one, 0x4964656e7469666965644f626a656374, 0, false⟩],
  [0x4e616d6573]⟩
def m_IdentifiedObject : List RClass := d_IdentifiedObject :: m_Element

/-- CIM15/CDPSM/Asset/IEC61970/Core/Name.py:23 -/
def d_Name : RClass := ⟨0x4e616d65, 0x43494d31352e434450534d2e41737365742e49454336313937302e436f72652e4e616d65, 0x43494d31352e434450534d2e41737365742e456c656d656e74,
  [(0x6e616d65, .str 0)],
  [0x6e616d65],
  [(0x6e616d65, .str 0)],
  [(0x6e616d65, 0x737472)],
  [],
  [⟨0x4964656e7469666965644f626a656374, .one2many, 0x4e616d6573, 0, false⟩, ⟨0x4e616d6554797065, .one2many, 0x4e616d6573, 0, false⟩],
  []⟩
def m_Name : List RClass := d_Name :: m_Element

/-- CIM15/CDPSM/Asset/IEC61970/Core/NameType.py:23 -/
def d_NameType : RClass := ⟨0x4e616d6554797065, 0x43494d31352e434450534d2e41737365742e49454336313937302e436f72652e4e616d6554797065, 0x43494d31352e434450534d2e41737365742e456c656d656e74,
  [],
  [],
  [],
  [],
  [],
  [⟨0x4e616d6573, .many2one, 0x4e616d6554797065, 0, false⟩],
  [0x4e616d6573]⟩
def m_NameType : List RClass := d_NameType :: m_Element

/-- CIM15/CDPSM/Asset/IEC61968/AssetModels/WireArrangement.py:23 -/
def d_WireArrangement : RClass := ⟨0x57697265417272616e67656d656e74, 0x43494d31352e434450534d2e41737365742e49454336313936382e41737365744d6f64656c732e57697265417272616e67656d656e74, 0x43494d31352e434450534d2e41737365742e49454336313937302e436f72652e4964656e7469666965644f626a656374,
  [(0x6d6f756e74696e67506f696e7459, .flt 0x0), (0x706f736974696f6e, .int 0), (0x6d6f756e74696e67506f696e7458, .flt 0x0)],
  [0x6d6f756e74696e67506f696e7459, 0x706f736974696f6e, 0x6d6f756e74696e67506f696e7458],
  [(0x6d6f756e74696e67506f696e7459, .flt 0x0), (0x706f736974696f6e, .int 0), (0x6d6f756e74696e67506f696e7458, .flt 0x0)],
  [(0x6d6f756e74696e67506f696e7459, 0x666c6f6174), (0x706f736974696f6e, 0x696e74), (0x6d6f756e74696e67506f696e7458, 0x666c6f6174)],
  [],
  [⟨0x5769726554797065, .one2many, 0x57697265417272616e67656d656e7473, 0, false⟩, ⟨0x436f6e647563746f72496e666f, .one2many, 0x57697265417272616e67656d656e7473, 0, false⟩],
  []⟩
def m_WireArrangement : List RClass := d_WireArrangement :: m_IdentifiedObject

/-- CIM15/CDPSM/Asset/IEC61968/AssetModels/WireType.py:23 -/
def d_WireType : RClass := ⟨0x5769726554797065, 0x43494d31352e434450534d2e41737365742e49454336313936382e41737365744d6f64656c732e5769726554797065, 0x43494d31352e434450534d2e41737365742e49454336313937302e436f72652e4964656e7469666965644f626a656374,
  [(0x7244433230, .flt 0x0), (0x636f7265526164697573, .flt 0x0), (0x7241433735, .flt 0x0), (0x6d6174657269616c, .str 0x616c756d696e756d), (0x726174656443757272656e74, .flt 0x0), (0x737472616e64436f756e74, .int 0), (0x7241433235, .flt 0x0), (0x7241433530, .flt 0x0), (0x726164697573, .flt 0x0), (0x676d72, .flt 0x0), (0x636f7265537472616e64436f756e74, .int 0), (0x73697a654465736372697074696f6e, .str 0)],
  [0x7244433230, 0x636f7265526164697573, 0x7241433735, 0x6d6174657269616c, 0x726174656443757272656e74, 0x737472616e64436f756e74, 0x7241433235, 0x7241433530, 0x726164697573, 0x676d72, 0x636f7265537472616e64436f756e74, 0x73697a654465736372697074696f6e],
  [(0x7244433230, .flt 0x0), (0x636f7265526164697573, .flt 0x0), (0x7241433735, .flt 0x0), (0x6d6174657269616c, .str 0x616c756d696e756d), (0x726174656443757272656e74, .flt 0x0), (0x737472616e64436f756e74, .int 0), (0x7241433235, .flt 0x0), (0x7241433530, .flt 0x0), (0x726164697573, .flt 0x0), (0x676d72, .flt 0x0), (0x636f7265537472616e64436f756e74, .int 0), (0x73697a654465736372697074696f6e, .str 0)],
  [(0x7244433230, 0x666c6f6174), (0x636f7265526164697573, 0x666c6f6174), (0x7241433735, 0x666c6f6174), (0x6d6174657269616c, 0x737472), (0x726174656443757272656e74, 0x666c6f6174), (0x737472616e64436f756e74, 0x696e74), (0x7241433235, 0x666c6f6174), (0x7241433530, 0x666c6f6174), (0x726164697573, 0x666c6f6174), (0x676d72, 0x666c6f6174), (0x636f7265537472616e64436f756e74, 0x696e74), (0x73697a654465736372697074696f6e, 0x737472)],
  [(0x6d6174657269616c, 0x436f6e647563746f724d6174657269616c4b696e64)],
  [⟨0x57697265417272616e67656d656e7473, .many2one, 0x5769726554797065, 0, false⟩],
  [0x57697265417272616e67656d656e7473]⟩
def m_WireType : List RClass := d_WireType :: m_IdentifiedObject

/-- CIM15/CDPSM/Asset/IEC61968/Assets/AssetInfo.py:23 -/
def d_AssetInfo : RClass := ⟨0x4173736574496e666f, 0x43494d31352e434450534d2e41737365742e49454336313936382e4173736574732e4173736574496e666f, 0x43494d31352e434450534d2e41737365742e49454336313937302e436f72652e4964656e7469666965644f626a656374,
  [],
  [],
  [],
  [],
  [],
  [],
  []⟩
def m_AssetInfo : List RClass := d_AssetInfo :: m_IdentifiedObject

/-- CIM15/CDPSM/Asset/IEC61970/Wires/ACLineSegment.py:23 -/
def d_ACLineSegment : RClass := ⟨0x41434c696e655365676d656e74, 0x43494d31352e434450534d2e41737365742e49454336313937302e57697265732e41434c696e655365676d656e74, 0x43494d31352e434450534d2e41737365742e49454336313937302e436f72652e4964656e7469666965644f626a656374,
  [],
  [],
  [],
  [],
  [],
  [⟨0x53657175656e6365496d706564616e6365, .one2many, 0x4c696e655365676d656e7473, 0, false⟩, ⟨0x436f6e647563746f72496e666f, .one2many, 0x4c696e655365676d656e7473, 0, false⟩, ⟨0x5068617365496d706564616e6365, .one2many, 0x4c696e655365676d656e7473, 0, false⟩],
  []⟩
def m_ACLineSegment : List RClass := d_ACLineSegment :: m_IdentifiedObject

/-- CIM15/CDPSM/Asset/IEC61970/Wires/PerLengthPhaseImpedance.py:23 -/
def d_PerLengthPhaseImpedance : RClass := ⟨0x5065724c656e6774685068617365496d706564616e6365, 0x43494d31352e434450534d2e41737365742e49454336313937302e57697265732e5065724c656e6774685068617365496d706564616e6365, 0x43494d31352e434450534d2e41737365742e49454336313937302e436f72652e4964656e7469666965644f626a656374,
  [],
  [],
  [],
  [],
  [],
  [⟨0x4c696e655365676d656e7473, .many2one, 0x5068617365496d706564616e6365, 0, false⟩],
  [0x4c696e655365676d656e7473]⟩
def m_PerLengthPhaseImpedance : List RClass := d_PerLengthPhaseImpedance :: m_IdentifiedObject

/-- CIM15/CDPSM/Asset/IEC61970/Wires/PerLengthSequenceImpedance.py:23 -/
def d_PerLengthSequenceImpedance : RClass := ⟨0x5065724c656e67746853657175656e6365496d706564616e6365, 0x43494d31352e434450534d2e41737365742e49454336313937302e57697265732e5065724c656e67746853657175656e6365496d706564616e6365, 0x43494d31352e434450534d2e41737365742e49454336313937302e436f72652e4964656e7469666965644f626a656374,
  [],
  [],
  [],
  [],
  [],
  [⟨0x4c696e655365676d656e7473, .many2one, 0x53657175656e6365496d706564616e6365, 0, false⟩],
  [0x4c696e655365676d656e7473]⟩
def m_PerLengthSequenceImpedance : List RClass := d_PerLengthSequenceImpedance :: m_IdentifiedObject

/-- CIM15/CDPSM/Asset/IEC61970/Wires/TransformerCoreAdmittance.py:23 -/
def d_TransformerCoreAdmittance : RClass := ⟨0x5472616e73666f726d6572436f726541646d697474616e6365, 0x43494d31352e434450534d2e41737365742e49454336313937302e57697265732e5472616e73666f726d6572436f726541646d697474616e6365, 0x43494d31352e434450534d2e41737365742e49454336313937302e436f72652e4964656e7469666965644f626a656374,
  [],
  [],
  [],
  [],
  [],
  [⟨0x5472616e73666f726d6572456e64, .many2one, 0x436f726541646d697474616e6365, 0, false⟩],
  [0x5472616e73666f726d6572456e64]⟩
def m_TransformerCoreAdmittance : List RClass := d_TransformerCoreAdmittance :: m_IdentifiedObject

/-- CIM15/CDPSM/Asset/IEC61970/Wires/TransformerEnd.py:23 -/
def d_TransformerEnd : RClass := ⟨0x5472616e73666f726d6572456e64, 0x43494d31352e434450534d2e41737365742e49454336313937302e57697265732e5472616e73666f726d6572456e64, 0x43494d31352e434450534d2e41737365742e49454336313937302e436f72652e4964656e7469666965644f626a656374,
  [],
  [],
  [],
  [],
  [],
  [⟨0x436f726541646d697474616e6365, .one2many, 0x5472616e73666f726d6572456e64, 0, false⟩, ⟨0x5472616e73666f726d6572456e64496e666f, .one2many, 0x5472616e73666f726d6572456e64, 0, false⟩, ⟨0x53746172496d706564616e6365, .one2many, 0x5472616e73666f726d6572456e64, 0, false⟩],
  []⟩
def m_TransformerEnd : List RClass := d_TransformerEnd :: m_IdentifiedObject

/-- CIM15/CDPSM/Asset/IEC61970/Wires/TransformerStarImpedance.py:23 -/
def d_TransformerStarImpedance : RClass := ⟨0x5472616e73666f726d657253746172496d706564616e6365, 0x43494d31352e434450534d2e41737365742e49454336313937302e57697265732e5472616e73666f726d657253746172496d706564616e6365, 0x43494d31352e434450534d2e41737365742e49454336313937302e436f72652e4964656e7469666965644f626a656374,
  [],
  [],
  [],
  [],
  [],
  [⟨0x5472616e73666f726d6572456e64, .many2one, 0x53746172496d706564616e6365, 0, false⟩],
  [0x5472616e73666f726d6572456e64]⟩
def m_TransformerStarImpedance : List RClass := d_TransformerStarImpedance :: m_IdentifiedObject

/-- CIM15/CDPSM/Asset/IEC61970/Wires/TransformerTank.py:23 -/
def d_TransformerTank : RClass := ⟨0x5472616e73666f726d657254616e6b, 0x43494d31352e434450534d2e41737365742e49454336313937302e57697265732e5472616e73666f726d657254616e6b, 0x43494d31352e434450534d2e41737365742e49454336313937302e436f72652e4964656e7469666965644f626a656374,
  [],
  [],
  [],
  [],
  [],
  [⟨0x5472616e73666f726d657254616e6b496e666f, .one2many, 0x5472616e73666f726d657254616e6b73, 0, false⟩],
  []⟩
def m_TransformerTank : List RClass := d_TransformerTank :: m_IdentifiedObject

/-- CIM15/CDPSM/Asset/IEC61968/AssetModels/ConductorInfo.py:23 -/
def d_ConductorInfo : RClass := ⟨0x436f6e647563746f72496e666f, 0x43494d31352e434450534d2e41737365742e49454336313936382e41737365744d6f64656c732e436f6e647563746f72496e666f, 0x43494d31352e434450534d2e41737365742e49454336313936382e4173736574732e4173736574496e666f,
  [(0x7573616765, .str 0x7365636f6e64617279), (0x696e73756c6174696f6e546869636b6e657373, .flt 0x0), (0x696e73756c61746564, .bool false), (0x696e73756c6174696f6e4d6174657269616c, .str 0x74726565526574617264616e7443726f73736c696e6b6564506f6c79657468796c656e65), (0x7068617365436f756e74, .int 0)],
  [0x7573616765, 0x696e73756c6174696f6e546869636b6e657373, 0x696e73756c61746564, 0x696e73756c6174696f6e4d6174657269616c, 0x7068617365436f756e74],
  [(0x7573616765, .str 0x7365636f6e64617279), (0x696e73756c6174696f6e546869636b6e657373, .flt 0x0), (0x696e73756c61746564, .bool false), (0x696e73756c6174696f6e4d6174657269616c, .str 0x74726565526574617264616e7443726f73736c696e6b6564506f6c79657468796c656e65), (0x7068617365436f756e74, .int 0)],
  [(0x7573616765, 0x737472), (0x696e73756c6174696f6e546869636b6e657373, 0x666c6f6174), (0x696e73756c61746564, 0x626f6f6c), (0x696e73756c6174696f6e4d6174657269616c, 0x737472), (0x7068617365436f756e74, 0x696e74)],
  [(0x7573616765, 0x436f6e647563746f7255736167654b696e64), (0x696e73756c6174696f6e4d6174657269616c, 0x436f6e647563746f72496e73756c6174696f6e4b696e64)],
  [⟨0x57697265417272616e67656d656e7473, .many2one, 0x436f6e647563746f72496e666f, 0, false⟩, ⟨0x4c696e655365676d656e7473, .many2one, 0x436f6e647563746f72496e666f, 0, false⟩],
  [0x57697265417272616e67656d656e7473, 0x4c696e655365676d656e7473]⟩
def m_ConductorInfo : List RClass := d_ConductorInfo :: m_AssetInfo

/-- CIM15/CDPSM/Asset/IEC61968/AssetModels/EndDeviceInfo.py:23 -/
def d_EndDeviceInfo : RClass := ⟨0x456e64446576696365496e666f, 0x43494d31352e434450534d2e41737365742e49454336313936382e41737365744d6f64656c732e456e64446576696365496e666f, 0x43494d31352e434450534d2e41737365742e49454336313936382e4173736574732e4173736574496e666f,
  [(0x726174656443757272656e74, .flt 0x0), (0x7261746564566f6c74616765, .flt 0x0), (0x7068617365436f756e74, .int 0)],
  [0x726174656443757272656e74, 0x7261746564566f6c74616765, 0x7068617365436f756e74],
  [(0x726174656443757272656e74, .flt 0x0), (0x7261746564566f6c74616765, .flt 0x0), (0x7068617365436f756e74, .int 0)],
  [(0x726174656443757272656e74, 0x666c6f6174), (0x7261746564566f6c74616765, 0x666c6f6174), (0x7068617365436f756e74, 0x696e74)],
  [],
  [],
  []⟩
def m_EndDeviceInfo : List RClass := d_EndDeviceInfo :: m_AssetInfo

/-- CIM15/CDPSM/Asset/IEC61968/AssetModels/PowerTransformerInfo.py:23 -/
def d_PowerTransformerInfo : RClass := ⟨0x506f7765725472616e73666f726d6572496e666f, 0x43494d31352e434450534d2e41737365742e49454336313936382e41737365744d6f64656c732e506f7765725472616e73666f726d6572496e666f, 0x43494d31352e434450534d2e41737365742e49454336313936382e4173736574732e4173736574496e666f,
  [],
  [],
  [],
  [],
  [],
  [⟨0x5472616e73666f726d657254616e6b496e666f, .many2one, 0x506f7765725472616e73666f726d6572496e666f, 0, false⟩],
  [0x5472616e73666f726d657254616e6b496e666f]⟩
def m_PowerTransformerInfo : List RClass := d_PowerTransformerInfo :: m_AssetInfo

/-- CIM15/CDPSM/Asset/IEC61968/AssetModels/TapChangerInfo.py:23 -/
def d_TapChangerInfo : RClass := ⟨0x5461704368616e676572496e666f, 0x43494d31352e434450534d2e41737365742e49454336313936382e41737365744d6f64656c732e5461704368616e676572496e666f, 0x43494d31352e434450534d2e41737365742e49454336313936382e4173736574732e4173736574496e666f,
  [(0x6c6f7753746570, .int 0), (0x6672657175656e6379, .flt 0x0), (0x7074526174696f, .flt 0x0), (0x72617465644170706172656e74506f776572, .flt 0x0), (0x73746570566f6c74616765496e6372656d656e74, .flt 0x0), (0x6374526174696f, .flt 0x0), (0x7261746564566f6c74616765, .flt 0x0), (0x6e65757472616c53746570, .int 0), (0x726174656443757272656e74, .flt 0x0), (0x6374526174696e67, .flt 0x0), (0x6869676853746570, .int 0), (0x737465705068617365496e6372656d656e74, .flt 0x0), (0x6e65757472616c55, .flt 0x0), (0x69735463756c, .bool false)],
  [0x6c6f7753746570, 0x6672657175656e6379, 0x7074526174696f, 0x72617465644170706172656e74506f776572, 0x73746570566f6c74616765496e6372656d656e74, 0x6374526174696f, 0x7261746564566f6c74616765, 0x6e65757472616c53746570, 0x726174656443757272656e74, 0x6374526174696e67, 0x6869676853746570, 0x737465705068617365496e6372656d656e74, 0x6e65757472616c55, 0x69735463756c],
  [(0x6c6f7753746570, .int 0), (0x6672657175656e6379, .flt 0x0), (0x7074526174696f, .flt 0x0), (0x72617465644170706172656e74506f776572, .flt 0x0), (0x73746570566f6c74616765496e6372656d656e74, .flt 0x0), (0x6374526174696f, .flt 0x0), (0x7261746564566f6c74616765, .flt 0x0), (0x6e65757472616c53746570, .int 0), (0x726174656443757272656e74, .flt 0x0), (0x6374526174696e67, .flt 0x0), (0x6869676853746570, .int 0), (0x737465705068617365496e6372656d656e74, .flt 0x0), (0x6e65757472616c55, .flt 0x0), (0x69735463756c, .bool false)],
  [(0x6c6f7753746570, 0x696e74), (0x6672657175656e6379, 0x666c6f6174), (0x7074526174696f, 0x666c6f6174), (0x72617465644170706172656e74506f776572, 0x666c6f6174), (0x73746570566f6c74616765496e6372656d656e74, 0x666c6f6174), (0x6374526174696f, 0x666c6f6174), (0x7261746564566f6c74616765, 0x666c6f6174), (0x6e65757472616c53746570, 0x696e74), (0x726174656443757272656e74, 0x666c6f6174), (0x6374526174696e67, 0x666c6f6174), (0x6869676853746570, 0x696e74), (0x737465705068617365496e6372656d656e74, 0x666c6f6174), (0x6e65757472616c55, 0x666c6f6174), (0x69735463756c, 0x626f6f6c)],
  [],
  [],
  []⟩
def m_TapChangerInfo : List RClass := d_TapChangerInfo :: m_AssetInfo

/-- CIM15/CDPSM/Asset/IEC61968/AssetModels/TransformerEndInfo.py:23 -/
def d_TransformerEndInfo : RClass := ⟨0x5472616e73666f726d6572456e64496e666f, 0x43494d31352e434450534d2e41737365742e49454336313936382e41737365744d6f64656c732e5472616e73666f726d6572456e64496e666f, 0x43494d31352e434450534d2e41737365742e49454336313936382e4173736574732e4173736574496e666f,
  [(0x726174656455, .flt 0x0), (0x656e644e756d626572, .int 0), (0x7068617365416e676c65436c6f636b, .int 0), (0x656d657267656e637953, .flt 0x0), (0x726174656453, .flt 0x0), (0x73686f72745465726d53, .flt 0x0), (0x72, .flt 0x0), (0x696e73756c6174696f6e55, .flt 0x0), (0x636f6e6e656374696f6e4b696e64, .str 0x5a)],
  [0x726174656455, 0x656e644e756d626572, 0x7068617365416e676c65436c6f636b, 0x656d657267656e637953, 0x726174656453, 0x73686f72745465726d53, 0x72, 0x696e73756c6174696f6e55, 0x636f6e6e656374696f6e4b696e64],
  [(0x726174656455, .flt 0x0), (0x656e644e756d626572, .int 0), (0x7068617365416e676c65436c6f636b, .int 0), (0x656d657267656e637953, .flt 0x0), (0x726174656453, .flt 0x0), (0x73686f72745465726d53, .flt 0x0), (0x72, .flt 0x0), (0x696e73756c6174696f6e55, .flt 0x0), (0x636f6e6e656374696f6e4b696e64, .str 0x5a)],
  [(0x726174656455, 0x666c6f6174), (0x656e644e756d626572, 0x696e74), (0x7068617365416e676c65436c6f636b, 0x696e74), (0x656d657267656e637953, 0x666c6f6174), (0x726174656453, 0x666c6f6174), (0x73686f72745465726d53, 0x666c6f6174), (0x72, 0x666c6f6174), (0x696e73756c6174696f6e55, 0x666c6f6174), (0x636f6e6e656374696f6e4b696e64, 0x737472)],
  [(0x636f6e6e656374696f6e4b696e64, 0x57696e64696e67436f6e6e656374696f6e)],
  [⟨0x5472616e73666f726d657254616e6b496e666f, .one2many, 0x5472616e73666f726d6572456e64496e666f73, 0, false⟩, ⟨0x5472616e73666f726d6572456e64, .many2one, 0x5472616e73666f726d6572456e64496e666f, 0, false⟩],
  [0x5472616e73666f726d6572456e64]⟩
def m_TransformerEndInfo : List RClass := d_TransformerEndInfo :: m_AssetInfo

/-- CIM15/CDPSM/Asset/IEC61968/AssetModels/TransformerTankInfo.py:23 -/
def d_TransformerTankInfo : RClass := ⟨0x5472616e73666f726d657254616e6b496e666f, 0x43494d31352e434450534d2e41737365742e49454336313936382e41737365744d6f64656c732e5472616e73666f726d657254616e6b496e666f, 0x43494d31352e434450534d2e41737365742e49454336313936382e4173736574732e4173736574496e666f,
  [],
  [],
  [],
  [],
  [],
  [⟨0x506f7765725472616e73666f726d6572496e666f, .one2many, 0x5472616e73666f726d657254616e6b496e666f, 0, false⟩, ⟨0x5472616e73666f726d6572456e64496e666f73, .many2one, 0x5472616e73666f726d657254616e6b496e666f, 0, false⟩, ⟨0x5472616e73666f726d657254616e6b73, .many2one, 0x5472616e73666f726d657254616e6b496e666f, 0, false⟩],
  [0x5472616e73666f726d6572456e64496e666f73, 0x5472616e73666f726d657254616e6b73]⟩
def m_TransformerTankInfo : List RClass := d_TransformerTankInfo :: m_AssetInfo

/-- CIM15/CDPSM/Asset/IEC61970/Wires/TransformerTankEnd.py:23 -/
def d_TransformerTankEnd : RClass := ⟨0x5472616e73666f726d657254616e6b456e64, 0x43494d31352e434450534d2e41737365742e49454336313937302e57697265732e5472616e73666f726d657254616e6b456e64, 0x43494d31352e434450534d2e41737365742e49454336313937302e57697265732e5472616e73666f726d6572456e64,
  [],
  [],
  [],
  [],
  [],
  [],
  []⟩
def m_TransformerTankEnd : List RClass := d_TransformerTankEnd :: m_TransformerEnd

/-- CIM15/CDPSM/Asset/IEC61968/AssetModels/CableInfo.py:23 -/
def d_CableInfo : RClass := ⟨0x4361626c65496e666f, 0x43494d31352e434450534d2e41737365742e49454336313936382e41737365744d6f64656c732e4361626c65496e666f, 0x43494d31352e434450534d2e41737365742e49454336313936382e41737365744d6f64656c732e436f6e647563746f72496e666f,
  [(0x6469616d657465724f7665724a61636b6574, .flt 0x0), (0x636f6e737472756374696f6e4b696e64, .str 0x736563746f72), (0x736869656c644d6174657269616c, .str 0x6c656164), (0x6f757465724a61636b65744b696e64, .str 0x707663), (0x6973537472616e6446696c6c, .bool false), (0x6469616d657465724f766572496e73756c6174696f6e, .flt 0x0), (0x6469616d657465724f76657253637265656e, .flt 0x0), (0x73686561746841734e65757472616c, .bool false), (0x6e6f6d696e616c54656d7065726174757265, .flt 0x0), (0x6469616d657465724f766572436f7265, .flt 0x0)],
  [0x6469616d657465724f7665724a61636b6574, 0x636f6e737472756374696f6e4b696e64, 0x736869656c644d6174657269616c, 0x6f757465724a61636b65744b696e64, 0x6973537472616e6446696c6c, 0x6469616d657465724f766572496e73756c6174696f6e, 0x6469616d657465724f76657253637265656e, 0x73686561746841734e65757472616c, 0x6e6f6d696e616c54656d7065726174757265, 0x6469616d657465724f766572436f7265],
  [(0x6469616d657465724f7665724a61636b6574, .flt 0x0), (0x636f6e737472756374696f6e4b696e64, .str 0x736563746f72), (0x736869656c644d6174657269616c, .str 0x6c656164), (0x6f757465724a61636b65744b696e64, .str 0x707663), (0x6973537472616e6446696c6c, .bool false), (0x6469616d657465724f766572496e73756c6174696f6e, .flt 0x0), (0x6469616d657465724f76657253637265656e, .flt 0x0), (0x73686561746841734e65757472616c, .bool false), (0x6e6f6d696e616c54656d7065726174757265, .flt 0x0), (0x6469616d657465724f766572436f7265, .flt 0x0)],
  [(0x6469616d657465724f7665724a61636b6574, 0x666c6f6174), (0x636f6e737472756374696f6e4b696e64, 0x737472), (0x736869656c644d6174657269616c, 0x737472), (0x6f757465724a61636b65744b696e64, 0x737472), (0x6973537472616e6446696c6c, 0x626f6f6c), (0x6469616d657465724f766572496e73756c6174696f6e, 0x666c6f6174), (0x6469616d657465724f76657253637265656e, 0x666c6f6174), (0x73686561746841734e65757472616c, 0x626f6f6c), (0x6e6f6d696e616c54656d7065726174757265, 0x666c6f6174), (0x6469616d657465724f766572436f7265, 0x666c6f6174)],
  [(0x636f6e737472756374696f6e4b696e64, 0x4361626c65436f6e737472756374696f6e4b696e64), (0x736869656c644d6174657269616c, 0x4361626c65536869656c644d6174657269616c4b696e64), (0x6f757465724a61636b65744b696e64, 0x4361626c654f757465724a61636b65744b696e64)],
  [],
  []⟩
def m_CableInfo : List RClass := d_CableInfo :: m_ConductorInfo

/-- CIM15/CDPSM/Asset/IEC61968/AssetModels/OverheadConductorInfo.py:23 -/
def d_OverheadConductorInfo : RClass := ⟨0x4f76657268656164436f6e647563746f72496e666f, 0x43494d31352e434450534d2e41737365742e49454336313936382e41737365744d6f64656c732e4f76657268656164436f6e647563746f72496e666f, 0x43494d31352e434450534d2e41737365742e49454336313936382e41737365744d6f64656c732e436f6e647563746f72496e666f,
  [(0x6e65757472616c496e73756c6174696f6e546869636b6e657373, .flt 0x0), (0x7068617365436f6e647563746f7253706163696e67, .flt 0x0), (0x7068617365436f6e647563746f72436f756e74, .int 0)],
  [0x6e65757472616c496e73756c6174696f6e546869636b6e657373, 0x7068617365436f6e647563746f7253706163696e67, 0x7068617365436f6e647563746f72436f756e74],
  [(0x6e65757472616c496e73756c6174696f6e546869636b6e657373, .flt 0x0), (0x7068617365436f6e647563746f7253706163696e67, .flt 0x0), (0x7068617365436f6e647563746f72436f756e74, .int 0)],
  [(0x6e65757472616c496e73756c6174696f6e546869636b6e657373, 0x666c6f6174), (0x7068617365436f6e647563746f7253706163696e67, 0x666c6f6174), (0x7068617365436f6e647563746f72436f756e74, 0x696e74)],
  [],
  [],
  []⟩
def m_OverheadConductorInfo : List RClass := d_OverheadConductorInfo :: m_ConductorInfo

/-- CIM15/CDPSM/Asset/IEC61968/AssetModels/ConcentricNeutralCableInfo.py:23 -/
def d_ConcentricNeutralCableInfo : RClass := ⟨0x436f6e63656e747269634e65757472616c4361626c65496e666f, 0x43494d31352e434450534d2e41737365742e49454336313936382e41737365744d6f64656c732e436f6e63656e747269634e65757472616c4361626c65496e666f, 0x43494d31352e434450534d2e41737365742e49454336313936382e41737365744d6f64656c732e4361626c65496e666f,
  [(0x6469616d657465724f7665724e65757472616c, .flt 0x0), (0x6e65757472616c537472616e64436f756e74, .int 0)],
  [0x6469616d657465724f7665724e65757472616c, 0x6e65757472616c537472616e64436f756e74],
  [(0x6469616d657465724f7665724e65757472616c, .flt 0x0), (0x6e65757472616c537472616e64436f756e74, .int 0)],
  [(0x6469616d657465724f7665724e65757472616c, 0x666c6f6174), (0x6e65757472616c537472616e64436f756e74, 0x696e74)],
  [],
  [],
  []⟩
def m_ConcentricNeutralCableInfo : List RClass := d_ConcentricNeutralCableInfo :: m_CableInfo

/-- CIM15/CDPSM/Asset/IEC61968/AssetModels/TapeShieldCableInfo.py:23 -/
def d_TapeShieldCableInfo : RClass := ⟨0x54617065536869656c644361626c65496e666f, 0x43494d31352e434450534d2e41737365742e49454336313936382e41737365744d6f64656c732e54617065536869656c644361626c65496e666f, 0x43494d31352e434450534d2e41737365742e49454336313936382e41737365744d6f64656c732e4361626c65496e666f,
  [(0x746170654c6170, .flt 0x0), (0x74617065546869636b6e657373, .flt 0x0)],
  [0x746170654c6170, 0x74617065546869636b6e657373],
  [(0x746170654c6170, .flt 0x0), (0x74617065546869636b6e657373, .flt 0x0)],
  [(0x746170654c6170, 0x666c6f6174), (0x74617065546869636b6e657373, 0x666c6f6174)],
  [],
  [],
  []⟩
def m_TapeShieldCableInfo : List RClass := d_TapeShieldCableInfo :: m_CableInfo

def classes : List (List RClass) := [
  m_Element,
  m_CableInfo,
  m_ConcentricNeutralCableInfo,
  m_ConductorInfo,
  m_EndDeviceInfo,
  m_OverheadConductorInfo,
  m_PowerTransformerInfo,
  m_TapChangerInfo,
  m_TapeShieldCableInfo,
  m_TransformerEndInfo,
  m_TransformerTankInfo,
  m_WireArrangement,
  m_WireType,
  m_AssetInfo,
  m_IdentifiedObject,
  m_Name,
  m_NameType,
  m_ACLineSegment,
  m_PerLengthPhaseImpedance,
  m_PerLengthSequenceImpedance,
  m_TransformerCoreAdmittance,
  m_TransformerEnd,
  m_TransformerStarImpedance,
  m_TransformerTank,
  m_TransformerTankEnd]

/-- `packageMap` of CIM15/CDPSM/Asset/__init__.py -/
def pmap : List (Nat × Nat) := [
  (0x456c656d656e74, 0x43494d31352e434450534d2e4173736574),
  (0x5065724c656e67746853657175656e6365496d706564616e6365, 0x43494d31352e434450534d2e41737365742e49454336313937302e5769726573),
  (0x41434c696e655365676d656e74, 0x43494d31352e434450534d2e41737365742e49454336313937302e5769726573),
  (0x5472616e73666f726d6572436f726541646d697474616e6365, 0x43494d31352e434450534d2e41737365742e49454336313937302e5769726573),
  (0x5472616e73666f726d657254616e6b, 0x43494d31352e434450534d2e41737365742e49454336313937302e5769726573),
  (0x5472616e73666f726d657254616e6b456e64, 0x43494d31352e434450534d2e41737365742e49454336313937302e5769726573),
  (0x5472616e73666f726d657253746172496d706564616e6365, 0x43494d31352e434450534d2e41737365742e49454336313937302e5769726573),
  (0x5065724c656e6774685068617365496d706564616e6365, 0x43494d31352e434450534d2e41737365742e49454336313937302e5769726573),
  (0x5472616e73666f726d6572456e64, 0x43494d31352e434450534d2e41737365742e49454336313937302e5769726573),
  (0x4e616d6554797065, 0x43494d31352e434450534d2e41737365742e49454336313937302e436f7265),
  (0x4964656e7469666965644f626a656374, 0x43494d31352e434450534d2e41737365742e49454336313937302e436f7265),
  (0x4e616d65, 0x43494d31352e434450534d2e41737365742e49454336313937302e436f7265),
  (0x436f6e647563746f72496e666f, 0x43494d31352e434450534d2e41737365742e49454336313936382e41737365744d6f64656c73),
  (0x57697265417272616e67656d656e74, 0x43494d31352e434450534d2e41737365742e49454336313936382e41737365744d6f64656c73),
  (0x5769726554797065, 0x43494d31352e434450534d2e41737365742e49454336313936382e41737365744d6f64656c73),
  (0x456e64446576696365496e666f, 0x43494d31352e434450534d2e41737365742e49454336313936382e41737365744d6f64656c73),
  (0x4f76657268656164436f6e647563746f72496e666f, 0x43494d31352e434450534d2e41737365742e49454336313936382e41737365744d6f64656c73),
  (0x5461704368616e676572496e666f, 0x43494d31352e434450534d2e41737365742e49454336313936382e41737365744d6f64656c73),
  (0x5472616e73666f726d657254616e6b496e666f, 0x43494d31352e434450534d2e41737365742e49454336313936382e41737365744d6f64656c73),
  (0x4361626c65496e666f, 0x43494d31352e434450534d2e41737365742e49454336313936382e41737365744d6f64656c73),
  (0x436f6e63656e747269634e65757472616c4361626c65496e666f, 0x43494d31352e434450534d2e41737365742e49454336313936382e41737365744d6f64656c73),
  (0x54617065536869656c644361626c65496e666f, 0x43494d31352e434450534d2e41737365742e49454336313936382e41737365744d6f64656c73),
  (0x5472616e73666f726d6572456e64496e666f, 0x43494d31352e434450534d2e41737365742e49454336313936382e41737365744d6f64656c73),
  (0x506f7765725472616e73666f726d6572496e666f, 0x43494d31352e434450534d2e41737365742e49454336313936382e41737365744d6f64656c73),
  (0x4173736574496e666f, 0x43494d31352e434450534d2e41737365742e49454336313936382e417373657473)]

/-- Names bound by `from m import C` in the `__init__.py` files of the packages occurring in `pmap`: (package, C, m). -/
def exports : List (Nat × Nat × Nat) := [
  (0x43494d31352e434450534d2e4173736574, 0x456c656d656e74, 0x43494d31352e434450534d2e41737365742e456c656d656e74),
  (0x43494d31352e434450534d2e41737365742e49454336313936382e41737365744d6f64656c73, 0x436f6e647563746f72496e666f, 0x43494d31352e434450534d2e41737365742e49454336313936382e41737365744d6f64656c732e436f6e647563746f72496e666f),
  (0x43494d31352e434450534d2e41737365742e49454336313936382e41737365744d6f64656c73, 0x57697265417272616e67656d656e74, 0x43494d31352e434450534d2e41737365742e49454336313936382e41737365744d6f64656c732e57697265417272616e67656d656e74),
  (0x43494d31352e434450534d2e41737365742e49454336313936382e41737365744d6f64656c73, 0x5769726554797065, 0x43494d31352e434450534d2e41737365742e49454336313936382e41737365744d6f64656c732e5769726554797065),
  (0x43494d31352e434450534d2e41737365742e49454336313936382e41737365744d6f64656c73, 0x456e64446576696365496e666f, 0x43494d31352e434450534d2e41737365742e49454336313936382e41737365744d6f64656c732e456e64446576696365496e666f),
  (0x43494d31352e434450534d2e41737365742e49454336313936382e41737365744d6f64656c73, 0x4f76657268656164436f6e647563746f72496e666f, 0x43494d31352e434450534d2e41737365742e49454336313936382e41737365744d6f64656c732e4f76657268656164436f6e647563746f72496e666f),
  (0x43494d31352e434450534d2e41737365742e49454336313936382e41737365744d6f64656c73, 0x5461704368616e676572496e666f, 0x43494d31352e434450534d2e41737365742e49454336313936382e41737365744d6f64656c732e5461704368616e676572496e666f),
  (0x43494d31352e434450534d2e41737365742e49454336313936382e41737365744d6f64656c73, 0x5472616e73666f726d657254616e6b496e666f, 0x43494d31352e434450534d2e41737365742e49454336313936382e41737365744d6f64656c732e5472616e73666f726d657254616e6b496e666f),
  (0x43494d31352e434450534d2e41737365742e49454336313936382e41737365744d6f64656c73, 0x4361626c65496e666f, 0x43494d31352e434450534d2e41737365742e49454336313936382e41737365744d6f64656c732e4361626c65496e666f),
  (0x43494d31352e434450534d2e41737365742e49454336313936382e41737365744d6f64656c73, 0x436f6e63656e747269634e65757472616c4361626c65496e666f, 0x43494d31352e434450534d2e41737365742e49454336313936382e41737365744d6f64656c732e436f6e63656e747269634e65757472616c4361626c65496e666f),
  (0x43494d31352e434450534d2e41737365742e49454336313936382e41737365744d6f64656c73, 0x54617065536869656c644361626c65496e666f, 0x43494d31352e434450534d2e41737365742e49454336313936382e41737365744d6f64656c732e54617065536869656c644361626c65496e666f),
  (0x43494d31352e434450534d2e41737365742e49454336313936382e41737365744d6f64656c73, 0x5472616e73666f726d6572456e64496e666f, 0x43494d31352e434450534d2e41737365742e49454336313936382e41737365744d6f64656c732e5472616e73666f726d6572456e64496e666f),
  (0x43494d31352e434450534d2e41737365742e49454336313936382e41737365744d6f64656c73, 0x506f7765725472616e73666f726d6572496e666f, 0x43494d31352e434450534d2e41737365742e49454336313936382e41737365744d6f64656c732e506f7765725472616e73666f726d6572496e666f),
  (0x43494d31352e434450534d2e41737365742e49454336313936382e417373657473, 0x4173736574496e666f, 0x43494d31352e434450534d2e41737365742e49454336313936382e4173736574732e4173736574496e666f),
  (0x43494d31352e434450534d2e41737365742e49454336313937302e436f7265, 0x4e616d6554797065, 0x43494d31352e434450534d2e41737365742e49454336313937302e436f72652e4e616d6554797065),
  (0x43494d31352e434450534d2e41737365742e49454336313937302e436f7265, 0x4964656e7469666965644f626a656374, 0x43494d31352e434450534d2e41737365742e49454336313937302e436f72652e4964656e7469666965644f626a656374),
  (0x43494d31352e434450534d2e41737365742e49454336313937302e436f7265, 0x4e616d65, 0x43494d31352e434450534d2e41737365742e49454336313937302e436f72652e4e616d65),
  (0x43494d31352e434450534d2e41737365742e49454336313937302e5769726573, 0x5065724c656e67746853657175656e6365496d706564616e6365, 0x43494d31352e434450534d2e41737365742e49454336313937302e57697265732e5065724c656e67746853657175656e6365496d706564616e6365),
  (0x43494d31352e434450534d2e41737365742e49454336313937302e5769726573, 0x41434c696e655365676d656e74, 0x43494d31352e434450534d2e41737365742e49454336313937302e57697265732e41434c696e655365676d656e74),
  (0x43494d31352e434450534d2e41737365742e49454336313937302e5769726573, 0x5472616e73666f726d6572436f726541646d697474616e6365, 0x43494d31352e434450534d2e41737365742e49454336313937302e57697265732e5472616e73666f726d6572436f726541646d697474616e6365),
  (0x43494d31352e434450534d2e41737365742e49454336313937302e5769726573, 0x5472616e73666f726d657254616e6b, 0x43494d31352e434450534d2e41737365742e49454336313937302e57697265732e5472616e73666f726d657254616e6b),
  (0x43494d31352e434450534d2e41737365742e49454336313937302e5769726573, 0x5472616e73666f726d657254616e6b456e64, 0x43494d31352e434450534d2e41737365742e49454336313937302e57697265732e5472616e73666f726d657254616e6b456e64),
  (0x43494d31352e434450534d2e41737365742e49454336313937302e5769726573, 0x5472616e73666f726d657253746172496d706564616e6365, 0x43494d31352e434450534d2e41737365742e49454336313937302e57697265732e5472616e73666f726d657253746172496d706564616e6365),
  (0x43494d31352e434450534d2e41737365742e49454336313937302e5769726573, 0x5065724c656e6774685068617365496d706564616e6365, 0x43494d31352e434450534d2e41737365742e49454336313937302e57697265732e5065724c656e6774685068617365496d706564616e6365),
  (0x43494d31352e434450534d2e41737365742e49454336313937302e5769726573, 0x5472616e73666f726d6572456e64, 0x43494d31352e434450534d2e41737365742e49454336313937302e57697265732e5472616e73666f726d6572456e64)]

def pkg : RPkg := ⟨0x43494d31352e434450534d2e4173736574, classes, pmap, exports⟩

end Verif.Gen.CIM15_CDPSM_Asset
