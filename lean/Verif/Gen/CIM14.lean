import Verif.Gen.Types
/-! Generated by tools/gen.py from /repo/CIM14: do not edit. -/
namespace Verif.Gen.CIM14
set_option maxRecDepth 10000

/-- CIM14/Element.py:22 -/
def d_Element : RClass := ⟨0x456c656d656e74, 0x43494d31342e456c656d656e74, 0,
  [(0x55554944, .str 0)],
  [0x55554944],
  [(0x55554944, .str 0)],
  [(0x55554944, 0x737472)],
  [],
  [],
  []⟩
def m_Element : List RClass := d_Element :: []

/-- CIM14/CombinedVersion.py:23 -/
def d_CombinedVersion : RClass := ⟨0x436f6d62696e656456657273696f6e, 0x43494d31342e436f6d62696e656456657273696f6e, 0x43494d31342e456c656d656e74,
  [(0x76657273696f6e, .str 0), (0x64617465, .str 0)],
  [0x76657273696f6e, 0x64617465],
  [(0x76657273696f6e, .str 0), (0x64617465, .str 0)],
  [(0x76657273696f6e, 0x737472), (0x64617465, 0x737472)],
  [],
  [],
  []⟩
def m_CombinedVersion : List RClass := d_CombinedVersion :: m_Element

/-- CIM14/IEC61968/Assets/AcceptanceTest.py:23 -/
def d_AcceptanceTest : RClass := ⟨0x416363657074616e636554657374, 0x43494d31342e49454336313936382e4173736574732e416363657074616e636554657374, 0x43494d31342e456c656d656e74,
  [(0x73756363657373, .bool false), (0x74797065, .str 0), (0x6461746554696d65, .str 0)],
  [0x73756363657373, 0x74797065, 0x6461746554696d65],
  [(0x73756363657373, .bool false), (0x74797065, .str 0), (0x6461746554696d65, .str 0)],
  [(0x73756363657373, 0x626f6f6c), (0x74797065, 0x737472), (0x6461746554696d65, 0x737472)],
  [],
  [],
  []⟩
def m_AcceptanceTest : List RClass := d_AcceptanceTest :: m_Element

/-- CIM14/IEC61968/Common/CoordinateSystem.py:23 -/
def d_CoordinateSystem : RClass := ⟨0x436f6f7264696e61746553797374656d, 0x43494d31342e49454336313936382e436f6d6d6f6e2e436f6f7264696e61746553797374656d, 0x43494d31342e456c656d656e74,
  [(0x6e616d65, .str 0)],
  [0x6e616d65],
  [(0x6e616d65, .str 0)],
  [(0x6e616d65, 0x737472)],
  [],
  [⟨0x4c6f636174696f6e, .one2many, 0x436f6f7264696e61746553797374656d73, 0, false⟩, ⟨0x506f736974696f6e506f696e7473, .many2one, 0x436f6f7264696e61746553797374656d, 0, false⟩],
  [0x506f736974696f6e506f696e7473]⟩
def m_CoordinateSystem : List RClass := d_CoordinateSystem :: m_Element

/-- CIM14/IEC61968/Common/DateTimeInterval.py:23 -/
def d_DateTimeInterval : RClass := ⟨0x4461746554696d65496e74657276616c, 0x43494d31342e49454336313936382e436f6d6d6f6e2e4461746554696d65496e74657276616c, 0x43494d31342e456c656d656e74,
  [(0x656e64, .str 0), (0x7374617274, .str 0)],
  [0x656e64, 0x7374617274],
  [(0x656e64, .str 0), (0x7374617274, .str 0)],
  [(0x656e64, 0x737472), (0x7374617274, 0x737472)],
  [],
  [],
  []⟩
def m_DateTimeInterval : List RClass := d_DateTimeInterval :: m_Element

/-- CIM14/IEC61968/Common/ElectronicAddress.py:23 -/
def d_ElectronicAddress : RClass := ⟨0x456c656374726f6e696341646472657373, 0x43494d31342e49454336313936382e436f6d6d6f6e2e456c656374726f6e696341646472657373, 0x43494d31342e456c656d656e74,
  [(0x70617373776f7264, .str 0), (0x656d61696c, .str 0), (0x726164696f, .str 0), (0x757365724944, .str 0), (0x6c616e, .str 0), (0x776562, .str 0)],
  [0x70617373776f7264, 0x656d61696c, 0x726164696f, 0x757365724944, 0x6c616e, 0x776562],
  [(0x70617373776f7264, .str 0), (0x656d61696c, .str 0), (0x726164696f, .str 0), (0x757365724944, .str 0), (0x6c616e, .str 0), (0x776562, .str 0)],
  [(0x70617373776f7264, 0x737472), (0x656d61696c, 0x737472), (0x726164696f, 0x737472), (0x757365724944, 0x737472), (0x6c616e, 0x737472), (0x776562, 0x737472)],
  [],
  [⟨0x737461747573, .plainOne, 0, 0, false⟩],
  []⟩
def m_ElectronicAddress : List RClass := d_ElectronicAddress :: m_Element

/-- CIM14/IEC61968/Common/PositionPoint.py:23 -/
def d_PositionPoint : RClass := ⟨0x506f736974696f6e506f696e74, 0x43494d31342e49454336313936382e436f6d6d6f6e2e506f736974696f6e506f696e74, 0x43494d31342e456c656d656e74,
  [(0x78506f736974696f6e, .str 0), (0x7a506f736974696f6e, .str 0), (0x73657175656e63654e756d626572, .int 0), (0x79506f736974696f6e, .str 0)],
  [0x78506f736974696f6e, 0x7a506f736974696f6e, 0x73657175656e63654e756d626572, 0x79506f736974696f6e],
  [(0x78506f736974696f6e, .str 0), (0x7a506f736974696f6e, .str 0), (0x73657175656e63654e756d626572, .int 0), (0x79506f736974696f6e, .str 0)],
  [(0x78506f736974696f6e, 0x737472), (0x7a506f736974696f6e, 0x737472), (0x73657175656e63654e756d626572, 0x696e74), (0x79506f736974696f6e, 0x737472)],
  [],
  [⟨0x4c6f636174696f6e, .one2many, 0x506f736974696f6e506f696e7473, 0, false⟩, ⟨0x436f6f7264696e61746553797374656d, .one2many, 0x506f736974696f6e506f696e7473, 0, false⟩],
  []⟩
def m_PositionPoint : List RClass := d_PositionPoint :: m_Element

/-- CIM14/IEC61968/Common/PostalAddress.py:23 -/
def d_PostalAddress : RClass := ⟨0x506f7374616c41646472657373, 0x43494d31342e49454336313936382e436f6d6d6f6e2e506f7374616c41646472657373, 0x43494d31342e456c656d656e74,
  [(0x706f426f78, .str 0), (0x706f7374616c436f6465, .str 0)],
  [0x706f426f78, 0x706f7374616c436f6465],
  [(0x706f426f78, .str 0), (0x706f7374616c436f6465, .str 0)],
  [(0x706f426f78, 0x737472), (0x706f7374616c436f6465, 0x737472)],
  [],
  [⟨0x73747265657444657461696c, .plainOne, 0, 0, false⟩, ⟨0x746f776e44657461696c, .plainOne, 0, 0, false⟩],
  []⟩
def m_PostalAddress : List RClass := d_PostalAddress :: m_Element

/-- CIM14/IEC61968/Common/Status.py:23 -/
def d_Status : RClass := ⟨0x537461747573, 0x43494d31342e49454336313936382e436f6d6d6f6e2e537461747573, 0x43494d31342e456c656d656e74,
  [(0x726561736f6e, .str 0), (0x72656d61726b, .str 0), (0x76616c7565, .str 0), (0x6461746554696d65, .str 0)],
  [0x726561736f6e, 0x72656d61726b, 0x76616c7565, 0x6461746554696d65],
  [(0x726561736f6e, .str 0), (0x72656d61726b, .str 0), (0x76616c7565, .str 0), (0x6461746554696d65, .str 0)],
  [(0x726561736f6e, 0x737472), (0x72656d61726b, 0x737472), (0x76616c7565, 0x737472), (0x6461746554696d65, 0x737472)],
  [],
  [],
  []⟩
def m_Status : List RClass := d_Status :: m_Element

/-- CIM14/IEC61968/Common/StreetAddress.py:23 -/
def d_StreetAddress : RClass := ⟨0x53747265657441646472657373, 0x43494d31342e49454336313936382e436f6d6d6f6e2e53747265657441646472657373, 0x43494d31342e456c656d656e74,
  [],
  [],
  [],
  [],
  [],
  [⟨0x737461747573, .plainOne, 0, 0, false⟩, ⟨0x746f776e44657461696c, .plainOne, 0, 0, false⟩, ⟨0x73747265657444657461696c, .plainOne, 0, 0, false⟩],
  []⟩
def m_StreetAddress : List RClass := d_StreetAddress :: m_Element

/-- CIM14/IEC61968/Common/StreetDetail.py:23 -/
def d_StreetDetail : RClass := ⟨0x53747265657444657461696c, 0x43494d31342e49454336313936382e436f6d6d6f6e2e53747265657444657461696c, 0x43494d31342e456c656d656e74,
  [(0x6e756d626572, .str 0), (0x74797065, .str 0), (0x73756974654e756d626572, .str 0), (0x6164647265737347656e6572616c, .str 0), (0x6275696c64696e674e616d65, .str 0), (0x6e616d65, .str 0), (0x77697468696e546f776e4c696d697473, .bool false), (0x737566666978, .str 0), (0x636f6465, .str 0), (0x707265666978, .str 0)],
  [0x6e756d626572, 0x74797065, 0x73756974654e756d626572, 0x6164647265737347656e6572616c, 0x6275696c64696e674e616d65, 0x6e616d65, 0x77697468696e546f776e4c696d697473, 0x737566666978, 0x636f6465, 0x707265666978],
  [(0x6e756d626572, .str 0), (0x74797065, .str 0), (0x73756974654e756d626572, .str 0), (0x6164647265737347656e6572616c, .str 0), (0x6275696c64696e674e616d65, .str 0), (0x6e616d65, .str 0), (0x77697468696e546f776e4c696d697473, .bool false), (0x737566666978, .str 0), (0x636f6465, .str 0), (0x707265666978, .str 0)],
  [(0x6e756d626572, 0x737472), (0x74797065, 0x737472), (0x73756974654e756d626572, 0x737472), (0x6164647265737347656e6572616c, 0x737472), (0x6275696c64696e674e616d65, 0x737472), (0x6e616d65, 0x737472), (0x77697468696e546f776e4c696d697473, 0x626f6f6c), (0x737566666978, 0x737472), (0x636f6465, 0x737472), (0x707265666978, 0x737472)],
  [],
  [],
  []⟩
def m_StreetDetail : List RClass := d_StreetDetail :: m_Element

/-- CIM14/IEC61968/Common/TelephoneNumber.py:23 -/
def d_TelephoneNumber : RClass := ⟨0x54656c6570686f6e654e756d626572, 0x43494d31342e49454336313936382e436f6d6d6f6e2e54656c6570686f6e654e756d626572, 0x43494d31342e456c656d656e74,
  [(0x636f756e747279436f6465, .str 0), (0x63697479436f6465, .str 0), (0x61726561436f6465, .str 0), (0x6c6f63616c4e756d626572, .str 0), (0x657874656e73696f6e, .str 0)],
  [0x636f756e747279436f6465, 0x63697479436f6465, 0x61726561436f6465, 0x6c6f63616c4e756d626572, 0x657874656e73696f6e],
  [(0x636f756e747279436f6465, .str 0), (0x63697479436f6465, .str 0), (0x61726561436f6465, .str 0), (0x6c6f63616c4e756d626572, .str 0), (0x657874656e73696f6e, .str 0)],
  [(0x636f756e747279436f6465, 0x737472), (0x63697479436f6465, 0x737472), (0x61726561436f6465, 0x737472), (0x6c6f63616c4e756d626572, 0x737472), (0x657874656e73696f6e, 0x737472)],
  [],
  [],
  []⟩
def m_TelephoneNumber : List RClass := d_TelephoneNumber :: m_Element

/-- CIM14/IEC61968/Common/TownDetail.py:23 -/
def d_TownDetail : RClass := ⟨0x546f776e44657461696c, 0x43494d31342e49454336313936382e436f6d6d6f6e2e546f776e44657461696c, 0x43494d31342e456c656d656e74,
  [(0x636f6465, .str 0), (0x636f756e747279, .str 0), (0x73746174654f7250726f76696e6365, .str 0), (0x6e616d65, .str 0), (0x73656374696f6e, .str 0)],
  [0x636f6465, 0x636f756e747279, 0x73746174654f7250726f76696e6365, 0x6e616d65, 0x73656374696f6e],
  [(0x636f6465, .str 0), (0x636f756e747279, .str 0), (0x73746174654f7250726f76696e6365, .str 0), (0x6e616d65, .str 0), (0x73656374696f6e, .str 0)],
  [(0x636f6465, 0x737472), (0x636f756e747279, 0x737472), (0x73746174654f7250726f76696e6365, 0x737472), (0x6e616d65, 0x737472), (0x73656374696f6e, 0x737472)],
  [],
  [],
  []⟩
def m_TownDetail : List RClass := d_TownDetail :: m_Element

/-- CIM14/IEC61968/Common/UserAttribute.py:23 -/
def d_UserAttribute : RClass := ⟨0x55736572417474726962757465, 0x43494d31342e49454336313936382e436f6d6d6f6e2e55736572417474726962757465, 0x43494d31342e456c656d656e74,
  [(0x76616c7565, .str 0), (0x73657175656e63654e756d626572, .int 0), (0x6e616d65, .str 0)],
  [0x76616c7565, 0x73657175656e63654e756d626572, 0x6e616d65],
  [(0x76616c7565, .str 0), (0x73657175656e63654e756d626572, .int 0), (0x6e616d65, .str 0)],
  [(0x76616c7565, 0x737472), (0x73657175656e63654e756d626572, 0x696e74), (0x6e616d65, 0x737472)],
  [],
  [⟨0x50726f7065727479417373657473, .many2many, 0x50726f70657274696573, 0, false⟩, ⟨0x5472616e73616374696f6e, .one2many, 0x5573657241747472696275746573, 0, false⟩, ⟨0x526174696e67417373657473, .many2many, 0x526174696e6773, 0, false⟩],
  [0x50726f7065727479417373657473, 0x526174696e67417373657473]⟩
def m_UserAttribute : List RClass := d_UserAttribute :: m_Element

/-- CIM14/IEC61968/IEC61968CIMVersion.py:23 -/
def d_IEC61968CIMVersion : RClass := ⟨0x494543363139363843494d56657273696f6e, 0x43494d31342e49454336313936382e494543363139363843494d56657273696f6e, 0x43494d31342e456c656d656e74,
  [(0x64617465, .str 0), (0x76657273696f6e, .str 0)],
  [0x64617465, 0x76657273696f6e],
  [(0x64617465, .str 0), (0x76657273696f6e, .str 0)],
  [(0x64617465, 0x737472), (0x76657273696f6e, 0x737472)],
  [],
  [],
  []⟩
def m_IEC61968CIMVersion : List RClass := d_IEC61968CIMVersion :: m_Element

/-- CIM14/IEC61968/LoadControl/RemoteConnectDisconnectInfo.py:23 -/
def d_RemoteConnectDisconnectInfo : RClass := ⟨0x52656d6f7465436f6e6e656374446973636f6e6e656374496e666f, 0x43494d31342e49454336313936382e4c6f6164436f6e74726f6c2e52656d6f7465436f6e6e656374446973636f6e6e656374496e666f, 0x43494d31342e456c656d656e74,
  [(0x6e65656473506f7765724c696d6974436865636b, .bool false), (0x6973456e657267794c696d6974696e67, .bool false), (0x697341726d436f6e6e656374, .bool false), (0x656e6572677955736167655761726e696e67, .flt 0x0), (0x61726d656454696d656f7574, .flt 0x0), (0x656e65726779557361676553746172744461746554696d65, .str 0), (0x697341726d446973636f6e6e656374, .bool false), (0x6e65656473566f6c746167654c696d6974436865636b, .bool false), (0x706f7765724c696d6974, .flt 0x0), (0x75736550757368627574746f6e, .bool false), (0x637573746f6d6572566f6c746167654c696d6974, .flt 0x0), (0x656e657267794c696d6974, .flt 0x0)],
  [0x6e65656473506f7765724c696d6974436865636b, 0x6973456e657267794c696d6974696e67, 0x697341726d436f6e6e656374, 0x656e6572677955736167655761726e696e67, 0x61726d656454696d656f7574, 0x656e65726779557361676553746172744461746554696d65, 0x697341726d446973636f6e6e656374, 0x6e65656473566f6c746167654c696d6974436865636b, 0x706f7765724c696d6974, 0x75736550757368627574746f6e, 0x637573746f6d6572566f6c746167654c696d6974, 0x656e657267794c696d6974],
  [(0x6e65656473506f7765724c696d6974436865636b, .bool false), (0x6973456e657267794c696d6974696e67, .bool false), (0x697341726d436f6e6e656374, .bool false), (0x656e6572677955736167655761726e696e67, .flt 0x0), (0x61726d656454696d656f7574, .flt 0x0), (0x656e65726779557361676553746172744461746554696d65, .str 0), (0x697341726d446973636f6e6e656374, .bool false), (0x6e65656473566f6c746167654c696d6974436865636b, .bool false), (0x706f7765724c696d6974, .flt 0x0), (0x75736550757368627574746f6e, .bool false), (0x637573746f6d6572566f6c746167654c696d6974, .flt 0x0), (0x656e657267794c696d6974, .flt 0x0)],
  [(0x6e65656473506f7765724c696d6974436865636b, 0x626f6f6c), (0x6973456e657267794c696d6974696e67, 0x626f6f6c), (0x697341726d436f6e6e656374, 0x626f6f6c), (0x656e6572677955736167655761726e696e67, 0x666c6f6174), (0x61726d656454696d656f7574, 0x666c6f6174), (0x656e65726779557361676553746172744461746554696d65, 0x737472), (0x697341726d446973636f6e6e656374, 0x626f6f6c), (0x6e65656473566f6c746167654c696d6974436865636b, 0x626f6f6c), (0x706f7765724c696d6974, 0x666c6f6174), (0x75736550757368627574746f6e, 0x626f6f6c), (0x637573746f6d6572566f6c746167654c696d6974, 0x666c6f6174), (0x656e657267794c696d6974, 0x666c6f6174)],
  [],
  [],
  []⟩
def m_RemoteConnectDisconnectInfo : List RClass := d_RemoteConnectDisconnectInfo :: m_Element

/-- CIM14/IEC61968/Metering/DynamicDemand.py:23 -/
def d_DynamicDemand : RClass := ⟨0x44796e616d696344656d616e64, 0x43494d31342e49454336313936382e4d65746572696e672e44796e616d696344656d616e64, 0x43494d31342e456c656d656e74,
  [(0x6b696e64, .str 0x6c6f6761726974686d6963), (0x696e74657276616c, .flt 0x0), (0x737562496e74657276616c, .flt 0x0)],
  [0x6b696e64, 0x696e74657276616c, 0x737562496e74657276616c],
  [(0x6b696e64, .str 0x6c6f6761726974686d6963), (0x696e74657276616c, .flt 0x0), (0x737562496e74657276616c, .flt 0x0)],
  [(0x6b696e64, 0x737472), (0x696e74657276616c, 0x666c6f6174), (0x737562496e74657276616c, 0x666c6f6174)],
  [(0x6b696e64, 0x44656d616e644b696e64)],
  [],
  []⟩
def m_DynamicDemand : List RClass := d_DynamicDemand :: m_Element

/-- CIM14/IEC61968/Metering/IntervalBlock.py:23 -/
def d_IntervalBlock : RClass := ⟨0x496e74657276616c426c6f636b, 0x43494d31342e49454336313936382e4d65746572696e672e496e74657276616c426c6f636b, 0x43494d31342e456c656d656e74,
  [],
  [],
  [],
  [],
  [],
  [⟨0x4d6574657252656164696e67, .one2many, 0x496e74657276616c426c6f636b73, 0, false⟩, ⟨0x50656e64696e67, .one2many, 0x496e74657276616c426c6f636b73, 0, false⟩, ⟨0x52656164696e6754797065, .one2many, 0x496e74657276616c426c6f636b73, 0, false⟩, ⟨0x496e74657276616c52656164696e6773, .many2many, 0x496e74657276616c426c6f636b73, 0, false⟩],
  [0x496e74657276616c52656164696e6773]⟩
def m_IntervalBlock : List RClass := d_IntervalBlock :: m_Element

/-- CIM14/IEC61968/Metering/Pending.py:23 -/
def d_Pending : RClass := ⟨0x50656e64696e67, 0x43494d31342e49454336313936382e4d65746572696e672e50656e64696e67, 0x43494d31342e456c656d656e74,
  [(0x7363616c617244656e6f6d696e61746f72, .int 0), (0x7363616c6172466c6f6174, .flt 0x0), (0x7363616c61724e756d657261746f72, .int 0), (0x6d756c7469706c794265666f7265416464, .bool false), (0x6f6666736574, .int 0)],
  [0x7363616c617244656e6f6d696e61746f72, 0x7363616c6172466c6f6174, 0x7363616c61724e756d657261746f72, 0x6d756c7469706c794265666f7265416464, 0x6f6666736574],
  [(0x7363616c617244656e6f6d696e61746f72, .int 0), (0x7363616c6172466c6f6174, .flt 0x0), (0x7363616c61724e756d657261746f72, .int 0), (0x6d756c7469706c794265666f7265416464, .bool false), (0x6f6666736574, .int 0)],
  [(0x7363616c617244656e6f6d696e61746f72, 0x696e74), (0x7363616c6172466c6f6174, 0x666c6f6174), (0x7363616c61724e756d657261746f72, 0x696e74), (0x6d756c7469706c794265666f7265416464, 0x626f6f6c), (0x6f6666736574, 0x696e74)],
  [],
  [⟨0x496e74657276616c426c6f636b73, .many2one, 0x50656e64696e67, 0, false⟩, ⟨0x52656164696e6754797065, .one2one, 0x50656e64696e67, 0, false⟩],
  [0x496e74657276616c426c6f636b73]⟩
def m_Pending : List RClass := d_Pending :: m_Element

/-- CIM14/IEC61968/Metering/ReadingQuality.py:23 -/
def d_ReadingQuality : RClass := ⟨0x52656164696e675175616c697479, 0x43494d31342e49454336313936382e4d65746572696e672e52656164696e675175616c697479, 0x43494d31342e456c656d656e74,
  [(0x7175616c697479, .str 0)],
  [0x7175616c697479],
  [(0x7175616c697479, .str 0)],
  [(0x7175616c697479, 0x737472)],
  [],
  [⟨0x496e74657276616c52656164696e67, .one2many, 0x52656164696e675175616c6974696573, 0, false⟩, ⟨0x52656164696e67, .one2many, 0x52656164696e675175616c6974696573, 0, false⟩],
  []⟩
def m_ReadingQuality : List RClass := d_ReadingQuality :: m_Element

/-- CIM14/IEC61968/PaymentMetering/AccountMovement.py:23 -/
def d_AccountMovement : RClass := ⟨0x4163636f756e744d6f76656d656e74, 0x43494d31342e49454336313936382e5061796d656e744d65746572696e672e4163636f756e744d6f76656d656e74, 0x43494d31342e456c656d656e74,
  [(0x6461746554696d65, .str 0), (0x616d6f756e74, .flt 0x0), (0x726561736f6e, .str 0)],
  [0x6461746554696d65, 0x616d6f756e74, 0x726561736f6e],
  [(0x6461746554696d65, .str 0), (0x616d6f756e74, .flt 0x0), (0x726561736f6e, .str 0)],
  [(0x6461746554696d65, 0x737472), (0x616d6f756e74, 0x666c6f6174), (0x726561736f6e, 0x737472)],
  [],
  [],
  []⟩
def m_AccountMovement : List RClass := d_AccountMovement :: m_Element

/-- CIM14/IEC61968/PaymentMetering/AccountingUnit.py:23 -/
def d_AccountingUnit : RClass := ⟨0x4163636f756e74696e67556e6974, 0x43494d31342e49454336313936382e5061796d656e744d65746572696e672e4163636f756e74696e67556e6974, 0x43494d31342e456c656d656e74,
  [(0x6d756c7469706c696572, .str 0x6b), (0x6d6f6e6574617279556e6974, .str 0x434e59), (0x656e65726779556e6974, .flt 0x0), (0x76616c7565, .flt 0x0)],
  [0x6d756c7469706c696572, 0x6d6f6e6574617279556e6974, 0x656e65726779556e6974, 0x76616c7565],
  [(0x6d756c7469706c696572, .str 0x6b), (0x6d6f6e6574617279556e6974, .str 0x434e59), (0x656e65726779556e6974, .flt 0x0), (0x76616c7565, .flt 0x0)],
  [(0x6d756c7469706c696572, 0x737472), (0x6d6f6e6574617279556e6974, 0x737472), (0x656e65726779556e6974, 0x666c6f6174), (0x76616c7565, 0x666c6f6174)],
  [(0x6d756c7469706c696572, 0x556e69744d756c7469706c696572), (0x6d6f6e6574617279556e6974, 0x43757272656e6379)],
  [],
  []⟩
def m_AccountingUnit : List RClass := d_AccountingUnit :: m_Element

/-- CIM14/IEC61968/PaymentMetering/BankAccountDetail.py:23 -/
def d_BankAccountDetail : RClass := ⟨0x42616e6b4163636f756e7444657461696c, 0x43494d31342e49454336313936382e5061796d656e744d65746572696e672e42616e6b4163636f756e7444657461696c, 0x43494d31342e456c656d656e74,
  [(0x686f6c6465724e616d65, .str 0), (0x6163636f756e744e756d626572, .str 0), (0x62616e6b4e616d65, .str 0), (0x6272616e6368436f6465, .str 0), (0x686f6c6465724944, .str 0)],
  [0x686f6c6465724e616d65, 0x6163636f756e744e756d626572, 0x62616e6b4e616d65, 0x6272616e6368436f6465, 0x686f6c6465724944],
  [(0x686f6c6465724e616d65, .str 0), (0x6163636f756e744e756d626572, .str 0), (0x62616e6b4e616d65, .str 0), (0x6272616e6368436f6465, .str 0), (0x686f6c6465724944, .str 0)],
  [(0x686f6c6465724e616d65, 0x737472), (0x6163636f756e744e756d626572, 0x737472), (0x62616e6b4e616d65, 0x737472), (0x6272616e6368436f6465, 0x737472), (0x686f6c6465724944, 0x737472)],
  [],
  [],
  []⟩
def m_BankAccountDetail : List RClass := d_BankAccountDetail :: m_Element

/-- CIM14/IEC61968/PaymentMetering/Card.py:23 -/
def d_Card : RClass := ⟨0x43617264, 0x43494d31342e49454336313936382e5061796d656e744d65746572696e672e43617264, 0x43494d31342e456c656d656e74,
  [(0x70616e, .str 0), (0x65787069727944617465, .str 0), (0x63764e756d626572, .str 0), (0x6163636f756e74486f6c6465724e616d65, .str 0)],
  [0x70616e, 0x65787069727944617465, 0x63764e756d626572, 0x6163636f756e74486f6c6465724e616d65],
  [(0x70616e, .str 0), (0x65787069727944617465, .str 0), (0x63764e756d626572, .str 0), (0x6163636f756e74486f6c6465724e616d65, .str 0)],
  [(0x70616e, 0x737472), (0x65787069727944617465, 0x737472), (0x63764e756d626572, 0x737472), (0x6163636f756e74486f6c6465724e616d65, 0x737472)],
  [],
  [⟨0x54656e646572, .one2one, 0x43617264, 0, false⟩],
  []⟩
def m_Card : List RClass := d_Card :: m_Element

/-- CIM14/IEC61968/PaymentMetering/Cheque.py:23 -/
def d_Cheque : RClass := ⟨0x436865717565, 0x43494d31342e49454336313936382e5061796d656e744d65746572696e672e436865717565, 0x43494d31342e456c656d656e74,
  [(0x6b696e64, .str 0x6f74686572), (0x6d6963724e756d626572, .str 0), (0x64617465, .str 0), (0x6368657175654e756d626572, .str 0)],
  [0x6b696e64, 0x6d6963724e756d626572, 0x64617465, 0x6368657175654e756d626572],
  [(0x6b696e64, .str 0x6f74686572), (0x6d6963724e756d626572, .str 0), (0x64617465, .str 0), (0x6368657175654e756d626572, .str 0)],
  [(0x6b696e64, 0x737472), (0x6d6963724e756d626572, 0x737472), (0x64617465, 0x737472), (0x6368657175654e756d626572, 0x737472)],
  [(0x6b696e64, 0x4368657175654b696e64)],
  [⟨0x54656e646572, .one2one, 0x436865717565, 0, false⟩, ⟨0x62616e6b4163636f756e7444657461696c, .plainOne, 0, 0, false⟩],
  []⟩
def m_Cheque : List RClass := d_Cheque :: m_Element

/-- CIM14/IEC61968/PaymentMetering/ConsumptionTariffInterval.py:23 -/
def d_ConsumptionTariffInterval : RClass := ⟨0x436f6e73756d7074696f6e546172696666496e74657276616c, 0x43494d31342e49454336313936382e5061796d656e744d65746572696e672e436f6e73756d7074696f6e546172696666496e74657276616c, 0x43494d31342e456c656d656e74,
  [(0x73657175656e63654e756d626572, .int 0), (0x737461727456616c7565, .flt 0x0)],
  [0x73657175656e63654e756d626572, 0x737461727456616c7565],
  [(0x73657175656e63654e756d626572, .int 0), (0x737461727456616c7565, .flt 0x0)],
  [(0x73657175656e63654e756d626572, 0x696e74), (0x737461727456616c7565, 0x666c6f6174)],
  [],
  [⟨0x54617269666650726f66696c6573, .many2many, 0x436f6e73756d7074696f6e546172696666496e74657276616c73, 0, false⟩, ⟨0x43686172676573, .many2many, 0x436f6e73756d7074696f6e546172696666496e74657276616c73, 0, false⟩],
  [0x54617269666650726f66696c6573, 0x43686172676573]⟩
def m_ConsumptionTariffInterval : List RClass := d_ConsumptionTariffInterval :: m_Element

/-- CIM14/IEC61968/PaymentMetering/Due.py:23 -/
def d_Due : RClass := ⟨0x447565, 0x43494d31342e49454336313936382e5061796d656e744d65746572696e672e447565, 0x43494d31342e456c656d656e74,
  [(0x696e746572657374, .flt 0x0), (0x7072696e6369706c65, .flt 0x0), (0x61727265617273, .flt 0x0), (0x63757272656e74, .flt 0x0), (0x63686172676573, .flt 0x0)],
  [0x696e746572657374, 0x7072696e6369706c65, 0x61727265617273, 0x63757272656e74, 0x63686172676573],
  [(0x696e746572657374, .flt 0x0), (0x7072696e6369706c65, .flt 0x0), (0x61727265617273, .flt 0x0), (0x63757272656e74, .flt 0x0), (0x63686172676573, .flt 0x0)],
  [(0x696e746572657374, 0x666c6f6174), (0x7072696e6369706c65, 0x666c6f6174), (0x61727265617273, 0x666c6f6174), (0x63757272656e74, 0x666c6f6174), (0x63686172676573, 0x666c6f6174)],
  [],
  [],
  []⟩
def m_Due : List RClass := d_Due :: m_Element

/-- CIM14/IEC61968/PaymentMetering/LineDetail.py:23 -/
def d_LineDetail : RClass := ⟨0x4c696e6544657461696c, 0x43494d31342e49454336313936382e5061796d656e744d65746572696e672e4c696e6544657461696c, 0x43494d31342e456c656d656e74,
  [(0x6461746554696d65, .str 0), (0x726f756e64696e67, .flt 0x0), (0x6e6f7465, .str 0), (0x616d6f756e74, .flt 0x0)],
  [0x6461746554696d65, 0x726f756e64696e67, 0x6e6f7465, 0x616d6f756e74],
  [(0x6461746554696d65, .str 0), (0x726f756e64696e67, .flt 0x0), (0x6e6f7465, .str 0), (0x616d6f756e74, .flt 0x0)],
  [(0x6461746554696d65, 0x737472), (0x726f756e64696e67, 0x666c6f6174), (0x6e6f7465, 0x737472), (0x616d6f756e74, 0x666c6f6174)],
  [],
  [],
  []⟩
def m_LineDetail : List RClass := d_LineDetail :: m_Element

/-- CIM14/IEC61968/PaymentMetering/TimeTariffInterval.py:23 -/
def d_TimeTariffInterval : RClass := ⟨0x54696d65546172696666496e74657276616c, 0x43494d31342e49454336313936382e5061796d656e744d65746572696e672e54696d65546172696666496e74657276616c, 0x43494d31342e456c656d656e74,
  [(0x73657175656e63654e756d626572, .int 0), (0x73746172744461746554696d65, .str 0)],
  [0x73657175656e63654e756d626572, 0x73746172744461746554696d65],
  [(0x73657175656e63654e756d626572, .int 0), (0x73746172744461746554696d65, .str 0)],
  [(0x73657175656e63654e756d626572, 0x696e74), (0x73746172744461746554696d65, 0x737472)],
  [],
  [⟨0x54617269666650726f66696c6573, .many2many, 0x54696d65546172696666496e74657276616c73, 0, false⟩, ⟨0x43686172676573, .many2many, 0x54696d65546172696666496e74657276616c73, 0, false⟩],
  [0x54617269666650726f66696c6573, 0x43686172676573]⟩
def m_TimeTariffInterval : List RClass := d_TimeTariffInterval :: m_Element

/-- CIM14/IEC61968/WiresExt/PhaseImpedanceData.py:23 -/
def d_PhaseImpedanceData : RClass := ⟨0x5068617365496d706564616e636544617461, 0x43494d31342e49454336313936382e57697265734578742e5068617365496d706564616e636544617461, 0x43494d31342e456c656d656e74,
  [(0x72, .flt 0x0), (0x78, .flt 0x0), (0x73657175656e63654e756d626572, .int 0), (0x62, .flt 0x0)],
  [0x72, 0x78, 0x73657175656e63654e756d626572, 0x62],
  [(0x72, .flt 0x0), (0x78, .flt 0x0), (0x73657175656e63654e756d626572, .int 0), (0x62, .flt 0x0)],
  [(0x72, 0x666c6f6174), (0x78, 0x666c6f6174), (0x73657175656e63654e756d626572, 0x696e74), (0x62, 0x666c6f6174)],
  [],
  [⟨0x5068617365496d706564616e6365, .one2many, 0x5068617365496d706564616e636544617461, 0, false⟩],
  []⟩
def m_PhaseImpedanceData : List RClass := d_PhaseImpedanceData :: m_Element

/-- CIM14/IEC61970/ControlArea/AltGeneratingUnitMeas.py:23 -/
def d_AltGeneratingUnitMeas : RClass := ⟨0x416c7447656e65726174696e67556e69744d656173, 0x43494d31342e49454336313937302e436f6e74726f6c417265612e416c7447656e65726174696e67556e69744d656173, 0x43494d31342e456c656d656e74,
  [(0x7072696f72697479, .int 0)],
  [0x7072696f72697479],
  [(0x7072696f72697479, .int 0)],
  [(0x7072696f72697479, 0x696e74)],
  [],
  [⟨0x436f6e74726f6c4172656147656e65726174696e67556e6974, .one2many, 0x416c7447656e65726174696e67556e69744d656173, 0, false⟩, ⟨0x416e616c6f6756616c7565, .one2many, 0x416c7447656e65726174696e67556e6974, 0, false⟩],
  []⟩
def m_AltGeneratingUnitMeas : List RClass := d_AltGeneratingUnitMeas :: m_Element

/-- CIM14/IEC61970/ControlArea/AltTieMeas.py:23 -/
def d_AltTieMeas : RClass := ⟨0x416c745469654d656173, 0x43494d31342e49454336313937302e436f6e74726f6c417265612e416c745469654d656173, 0x43494d31342e456c656d656e74,
  [(0x7072696f72697479, .int 0)],
  [0x7072696f72697479],
  [(0x7072696f72697479, .int 0)],
  [(0x7072696f72697479, 0x696e74)],
  [],
  [⟨0x416e616c6f6756616c7565, .one2many, 0x416c745469654d656173, 0, false⟩, ⟨0x546965466c6f77, .one2many, 0x416c745469654d656173, 0, false⟩],
  []⟩
def m_AltTieMeas : List RClass := d_AltTieMeas :: m_Element

/-- CIM14/IEC61970/ControlArea/ControlAreaGeneratingUnit.py:23 -/
def d_ControlAreaGeneratingUnit : RClass := ⟨0x436f6e74726f6c4172656147656e65726174696e67556e6974, 0x43494d31342e49454336313937302e436f6e74726f6c417265612e436f6e74726f6c4172656147656e65726174696e67556e6974, 0x43494d31342e456c656d656e74,
  [],
  [],
  [],
  [],
  [],
  [⟨0x416c7447656e65726174696e67556e69744d656173, .many2one, 0x436f6e74726f6c4172656147656e65726174696e67556e6974, 0, false⟩, ⟨0x436f6e74726f6c41726561, .one2many, 0x436f6e74726f6c4172656147656e65726174696e67556e6974, 0, false⟩, ⟨0x47656e65726174696e67556e6974, .one2many, 0x436f6e74726f6c4172656147656e65726174696e67556e6974, 0, false⟩],
  [0x416c7447656e65726174696e67556e69744d656173]⟩
def m_ControlAreaGeneratingUnit : List RClass := d_ControlAreaGeneratingUnit :: m_Element

/-- CIM14/IEC61970/ControlArea/TieFlow.py:23 -/
def d_TieFlow : RClass := ⟨0x546965466c6f77, 0x43494d31342e49454336313937302e436f6e74726f6c417265612e546965466c6f77, 0x43494d31342e456c656d656e74,
  [(0x706f736974697665466c6f77496e, .bool false)],
  [0x706f736974697665466c6f77496e],
  [(0x706f736974697665466c6f77496e, .bool false)],
  [(0x706f736974697665466c6f77496e, 0x626f6f6c)],
  [],
  [⟨0x436f6e74726f6c41726561, .one2many, 0x546965466c6f77, 0, false⟩, ⟨0x416c745469654d656173, .many2one, 0x546965466c6f77, 0, false⟩, ⟨0x5465726d696e616c, .one2many, 0x546965466c6f77, 0, false⟩],
  [0x416c745469654d656173]⟩
def m_TieFlow : List RClass := d_TieFlow :: m_Element

/-- CIM14/IEC61970/Core/CurveData.py:23 -/
def d_CurveData : RClass := ⟨0x437572766544617461, 0x43494d31342e49454336313937302e436f72652e437572766544617461, 0x43494d31342e456c656d656e74,
  [(0x793376616c7565, .flt 0x0), (0x7876616c7565, .flt 0x0), (0x793276616c7565, .flt 0x0), (0x793176616c7565, .flt 0x0)],
  [0x793376616c7565, 0x7876616c7565, 0x793276616c7565, 0x793176616c7565],
  [(0x793376616c7565, .flt 0x0), (0x7876616c7565, .flt 0x0), (0x793276616c7565, .flt 0x0), (0x793176616c7565, .flt 0x0)],
  [(0x793376616c7565, 0x666c6f6174), (0x7876616c7565, 0x666c6f6174), (0x793276616c7565, 0x666c6f6174), (0x793176616c7565, 0x666c6f6174)],
  [],
  [⟨0x4375727665, .one2many, 0x43757276654461746173, 0, false⟩],
  []⟩
def m_CurveData : List RClass := d_CurveData :: m_Element

/-- CIM14/IEC61970/Core/IdentifiedObject.py:23 -/
def d_IdentifiedObject : RClass := ⟨0x4964656e7469666965644f626a656374, 0x43494d31342e49454336313937302e436f72652e4964656e7469666965644f626a656374, 0x43494d31342e456c656d656e74,
  [(0x706174684e616d65, .str 0), (0x616c6961734e616d65, .str 0), (0x6d524944, .str 0), (0x6e616d65, .str 0), (0x6465736372697074696f6e, .str 0), (0x6c6f63616c4e616d65, .str 0)],
  [0x706174684e616d65, 0x616c6961734e616d65, 0x6d524944, 0x6e616d65, 0x6465736372697074696f6e, 0x6c6f63616c4e616d65],
  [(0x706174684e616d65, .str 0), (0x616c6961734e616d65, .str 0), (0x6d524944, .str 0), (0x6e616d65, .str 0), (0x6465736372697074696f6e, .str 0), (0x6c6f63616c4e616d65, .str 0)],
  [(0x706174684e616d65, 0x737472), (0x616c6961734e616d65, 0x737472), (0x6d524944, 0x737472), (0x6e616d65, 0x737472), (0x6465736372697074696f6e, 0x737472), (0x6c6f63616c4e616d65, 0x737472)],
  [],
  [⟨0x4d6f64656c696e67417574686f72697479536574, .one2many, 0x4964656e7469666965644f626a65637473, 0, false⟩],
  []⟩
def m_IdentifiedObject : List RClass := d_IdentifiedObject :: m_Element

/-- CIM14/IEC61970/Core/IrregularTimePoint.py:23 -/
def d_IrregularTimePoint : RClass := ⟨0x4972726567756c617254696d65506f696e74, 0x43494d31342e49454336313937302e436f72652e4972726567756c617254696d65506f696e74, 0x43494d31342e456c656d656e74,
  [(0x74696d65, .flt 0x0), (0x76616c756532, .flt 0x0), (0x76616c756531, .flt 0x0)],
  [0x74696d65, 0x76616c756532, 0x76616c756531],
  [(0x74696d65, .flt 0x0), (0x76616c756532, .flt 0x0), (0x76616c756531, .flt 0x0)],
  [(0x74696d65, 0x666c6f6174), (0x76616c756532, 0x666c6f6174), (0x76616c756531, 0x666c6f6174)],
  [],
  [⟨0x496e74657276616c5363686564756c65, .one2many, 0x54696d65506f696e7473, 0, false⟩],
  []⟩
def m_IrregularTimePoint : List RClass := d_IrregularTimePoint :: m_Element

/-- CIM14/IEC61970/Core/OperatingShare.py:23 -/
def d_OperatingShare : RClass := ⟨0x4f7065726174696e675368617265, 0x43494d31342e49454336313937302e436f72652e4f7065726174696e675368617265, 0x43494d31342e456c656d656e74,
  [(0x70657263656e74616765, .flt 0x0)],
  [0x70657263656e74616765],
  [(0x70657263656e74616765, .flt 0x0)],
  [(0x70657263656e74616765, 0x666c6f6174)],
  [],
  [⟨0x506f77657253797374656d5265736f75726365, .one2many, 0x4f7065726174696e675368617265, 0, false⟩, ⟨0x4f7065726174696e675061727469636970616e74, .one2many, 0x4f7065726174696e675368617265, 0, false⟩],
  []⟩
def m_OperatingShare : List RClass := d_OperatingShare :: m_Element

/-- CIM14/IEC61970/Core/RegularTimePoint.py:23 -/
def d_RegularTimePoint : RClass := ⟨0x526567756c617254696d65506f696e74, 0x43494d31342e49454336313937302e436f72652e526567756c617254696d65506f696e74, 0x43494d31342e456c656d656e74,
  [(0x76616c756531, .flt 0x0), (0x73657175656e63654e756d626572, .int 0), (0x76616c756532, .flt 0x0)],
  [0x76616c756531, 0x73657175656e63654e756d626572, 0x76616c756532],
  [(0x76616c756531, .flt 0x0), (0x73657175656e63654e756d626572, .int 0), (0x76616c756532, .flt 0x0)],
  [(0x76616c756531, 0x666c6f6174), (0x73657175656e63654e756d626572, 0x696e74), (0x76616c756532, 0x666c6f6174)],
  [],
  [⟨0x496e74657276616c5363686564756c65, .one2many, 0x54696d65506f696e7473, 0, false⟩],
  []⟩
def m_RegularTimePoint : List RClass := d_RegularTimePoint :: m_Element

/-- CIM14/IEC61970/Dynamics/CompositeModel.py:23 -/
def d_CompositeModel : RClass := ⟨0x436f6d706f736974654d6f64656c, 0x43494d31342e49454336313937302e44796e616d6963732e436f6d706f736974654d6f64656c, 0x43494d31342e456c656d656e74,
  [],
  [],
  [],
  [],
  [],
  [⟨0x736c6f745265666572656e636530, .many2many, 0x636f6d706f736974654d6f64656c30, 0, false⟩],
  [0x736c6f745265666572656e636530]⟩
def m_CompositeModel : List RClass := d_CompositeModel :: m_Element

/-- CIM14/IEC61970/Dynamics/ExcitationSystemLimiter.py:23 -/
def d_ExcitationSystemLimiter : RClass := ⟨0x45786369746174696f6e53797374656d4c696d69746572, 0x43494d31342e49454336313937302e44796e616d6963732e45786369746174696f6e53797374656d4c696d69746572, 0x43494d31342e456c656d656e74,
  [],
  [],
  [],
  [],
  [],
  [],
  []⟩
def m_ExcitationSystemLimiter : List RClass := d_ExcitationSystemLimiter :: m_Element

/-- CIM14/IEC61970/Dynamics/ProtectiveDevice.py:23 -/
def d_ProtectiveDevice : RClass := ⟨0x50726f74656374697665446576696365, 0x43494d31342e49454336313937302e44796e616d6963732e50726f74656374697665446576696365, 0x43494d31342e456c656d656e74,
  [],
  [],
  [],
  [],
  [],
  [],
  []⟩
def m_ProtectiveDevice : List RClass := d_ProtectiveDevice :: m_Element

/-- CIM14/IEC61970/Dynamics/SourceModels.py:23 -/
def d_SourceModels : RClass := ⟨0x536f757263654d6f64656c73, 0x43494d31342e49454336313937302e44796e616d6963732e536f757263654d6f64656c73, 0x43494d31342e456c656d656e74,
  [],
  [],
  [],
  [],
  [],
  [],
  []⟩
def m_SourceModels : List RClass := d_SourceModels :: m_Element

/-- CIM14/IEC61970/Dynamics/StaticVarDevice.py:23 -/
def d_StaticVarDevice : RClass := ⟨0x537461746963566172446576696365, 0x43494d31342e49454336313937302e44796e616d6963732e537461746963566172446576696365, 0x43494d31342e456c656d656e74,
  [],
  [],
  [],
  [],
  [],
  [],
  []⟩
def m_StaticVarDevice : List RClass := d_StaticVarDevice :: m_Element

/-- CIM14/IEC61970/Dynamics/TurbineGovernors/Class1.py:23 -/
def d_Class1 : RClass := ⟨0x436c61737331, 0x43494d31342e49454336313937302e44796e616d6963732e54757262696e65476f7665726e6f72732e436c61737331, 0x43494d31342e456c656d656e74,
  [],
  [],
  [],
  [],
  [],
  [],
  []⟩
def m_Class1 : List RClass := d_Class1 :: m_Element

/-- CIM14/IEC61970/IEC61970CIMVersion.py:23 -/
def d_IEC61970CIMVersion : RClass := ⟨0x494543363139373043494d56657273696f6e, 0x43494d31342e49454336313937302e494543363139373043494d56657273696f6e, 0x43494d31342e456c656d656e74,
  [(0x76657273696f6e, .str 0), (0x64617465, .str 0)],
  [0x76657273696f6e, 0x64617465],
  [(0x76657273696f6e, .str 0), (0x64617465, .str 0)],
  [(0x76657273696f6e, 0x737472), (0x64617465, 0x737472)],
  [],
  [],
  []⟩
def m_IEC61970CIMVersion : List RClass := d_IEC61970CIMVersion :: m_Element

/-- CIM14/IEC61970/LoadModel/Season.py:23 -/
def d_Season : RClass := ⟨0x536561736f6e, 0x43494d31342e49454336313937302e4c6f61644d6f64656c2e536561736f6e, 0x43494d31342e456c656d656e74,
  [(0x6e616d65, .str 0x66616c6c), (0x737461727444617465, .str 0), (0x656e6444617465, .str 0)],
  [0x6e616d65, 0x737461727444617465, 0x656e6444617465],
  [(0x6e616d65, .str 0x66616c6c), (0x737461727444617465, .str 0), (0x656e6444617465, .str 0)],
  [(0x6e616d65, 0x737472), (0x737461727444617465, 0x737472), (0x656e6444617465, 0x737472)],
  [(0x6e616d65, 0x536561736f6e4e616d65)],
  [⟨0x536561736f6e446179547970655363686564756c6573, .many2one, 0x536561736f6e, 0, false⟩],
  [0x536561736f6e446179547970655363686564756c6573]⟩
def m_Season : List RClass := d_Season :: m_Element

/-- CIM14/IEC61970/Meas/Quality61850.py:23 -/
def d_Quality61850 : RClass := ⟨0x5175616c6974793631383530, 0x43494d31342e49454336313937302e4d6561732e5175616c6974793631383530, 0x43494d31342e456c656d656e74,
  [(0x76616c6964697479, .str 0x5155455354494f4e41424c45), (0x736f75726365, .str 0x5355425354495455544544), (0x6661696c757265, .bool false), (0x73757370656374, .bool false), (0x6f6c6444617461, .bool false), (0x6261645265666572656e6365, .bool false), (0x74657374, .bool false), (0x6f75744f6652616e6765, .bool false), (0x657374696d61746f725265706c61636564, .bool false), (0x6f7363696c6c61746f7279, .bool false), (0x6f70657261746f72426c6f636b6564, .bool false), (0x6f766572466c6f77, .bool false)],
  [0x76616c6964697479, 0x736f75726365, 0x6661696c757265, 0x73757370656374, 0x6f6c6444617461, 0x6261645265666572656e6365, 0x74657374, 0x6f75744f6652616e6765, 0x657374696d61746f725265706c61636564, 0x6f7363696c6c61746f7279, 0x6f70657261746f72426c6f636b6564, 0x6f766572466c6f77],
  [(0x76616c6964697479, .str 0x5155455354494f4e41424c45), (0x736f75726365, .str 0x5355425354495455544544), (0x6661696c757265, .bool false), (0x73757370656374, .bool false), (0x6f6c6444617461, .bool false), (0x6261645265666572656e6365, .bool false), (0x74657374, .bool false), (0x6f75744f6652616e6765, .bool false), (0x657374696d61746f725265706c61636564, .bool false), (0x6f7363696c6c61746f7279, .bool false), (0x6f70657261746f72426c6f636b6564, .bool false), (0x6f766572466c6f77, .bool false)],
  [(0x76616c6964697479, 0x737472), (0x736f75726365, 0x737472), (0x6661696c757265, 0x626f6f6c), (0x73757370656374, 0x626f6f6c), (0x6f6c6444617461, 0x626f6f6c), (0x6261645265666572656e6365, 0x626f6f6c), (0x74657374, 0x626f6f6c), (0x6f75744f6652616e6765, 0x626f6f6c), (0x657374696d61746f725265706c61636564, 0x626f6f6c), (0x6f7363696c6c61746f7279, 0x626f6f6c), (0x6f70657261746f72426c6f636b6564, 0x626f6f6c), (0x6f766572466c6f77, 0x626f6f6c)],
  [(0x76616c6964697479, 0x56616c6964697479), (0x736f75726365, 0x536f75726365)],
  [],
  []⟩
def m_Quality61850 : List RClass := d_Quality61850 :: m_Element

/-- CIM14/IEC61970/OperationalLimits/BranchGroupTerminal.py:23 -/
def d_BranchGroupTerminal : RClass := ⟨0x4272616e636847726f75705465726d696e616c, 0x43494d31342e49454336313937302e4f7065726174696f6e616c4c696d6974732e4272616e636847726f75705465726d696e616c, 0x43494d31342e456c656d656e74,
  [(0x706f736974697665466c6f77496e, .bool false)],
  [0x706f736974697665466c6f77496e],
  [(0x706f736974697665466c6f77496e, .bool false)],
  [(0x706f736974697665466c6f77496e, 0x626f6f6c)],
  [],
  [⟨0x4272616e636847726f7570, .one2many, 0x4272616e636847726f75705465726d696e616c, 0, false⟩, ⟨0x5465726d696e616c, .one2many, 0x4272616e636847726f75705465726d696e616c, 0, false⟩],
  []⟩
def m_BranchGroupTerminal : List RClass := d_BranchGroupTerminal :: m_Element

/-- CIM14/IEC61970/StateVariables/StateVariable.py:23 -/
def d_StateVariable : RClass := ⟨0x53746174655661726961626c65, 0x43494d31342e49454336313937302e53746174655661726961626c65732e53746174655661726961626c65, 0x43494d31342e456c656d656e74,
  [],
  [],
  [],
  [],
  [],
  [],
  []⟩
def m_StateVariable : List RClass := d_StateVariable :: m_Element

/-- CIM14/IEC61968/AssetModels/AssetModel.py:23 -/
def d_AssetModel : RClass := ⟨0x41737365744d6f64656c, 0x43494d31342e49454336313936382e41737365744d6f64656c732e41737365744d6f64656c, 0x43494d31342e49454336313937302e436f72652e4964656e7469666965644f626a656374,
  [(0x75736167654b696e64, .str 0x7374726565746c69676874), (0x636f72706f726174655374616e646172644b696e64, .str 0x6f74686572), (0x6d6f64656c4e756d626572, .str 0), (0x776569676874546f74616c, .flt 0x0), (0x6d6f64656c56657273696f6e, .str 0)],
  [0x75736167654b696e64, 0x636f72706f726174655374616e646172644b696e64, 0x6d6f64656c4e756d626572, 0x776569676874546f74616c, 0x6d6f64656c56657273696f6e],
  [(0x75736167654b696e64, .str 0x7374726565746c69676874), (0x636f72706f726174655374616e646172644b696e64, .str 0x6f74686572), (0x6d6f64656c4e756d626572, .str 0), (0x776569676874546f74616c, .flt 0x0), (0x6d6f64656c56657273696f6e, .str 0)],
  [(0x75736167654b696e64, 0x737472), (0x636f72706f726174655374616e646172644b696e64, 0x737472), (0x6d6f64656c4e756d626572, 0x737472), (0x776569676874546f74616c, 0x666c6f6174), (0x6d6f64656c56657273696f6e, 0x737472)],
  [(0x75736167654b696e64, 0x41737365744d6f64656c55736167654b696e64), (0x636f72706f726174655374616e646172644b696e64, 0x436f72706f726174655374616e646172644b696e64)],
  [],
  []⟩
def m_AssetModel : List RClass := d_AssetModel :: m_IdentifiedObject

/-- CIM14/IEC61968/AssetModels/ConductorInfo.py:23 -/
def d_ConductorInfo : RClass := ⟨0x436f6e647563746f72496e666f, 0x43494d31342e49454336313936382e41737365744d6f64656c732e436f6e647563746f72496e666f, 0x43494d31342e49454336313937302e436f72652e4964656e7469666965644f626a656374,
  [(0x7573616765, .str 0x646973747269627574696f6e), (0x696e73756c6174696f6e4d6174657269616c, .str 0x63726f73736c696e6b6564506f6c79657468796c656e65), (0x696e73756c61746564, .bool false), (0x696e73756c6174696f6e546869636b6e657373, .flt 0x0), (0x7068617365436f756e74, .int 0)],
  [0x7573616765, 0x696e73756c6174696f6e4d6174657269616c, 0x696e73756c61746564, 0x696e73756c6174696f6e546869636b6e657373, 0x7068617365436f756e74],
  [(0x7573616765, .str 0x646973747269627574696f6e), (0x696e73756c6174696f6e4d6174657269616c, .str 0x63726f73736c696e6b6564506f6c79657468796c656e65), (0x696e73756c61746564, .bool false), (0x696e73756c6174696f6e546869636b6e657373, .flt 0x0), (0x7068617365436f756e74, .int 0)],
  [(0x7573616765, 0x737472), (0x696e73756c6174696f6e4d6174657269616c, 0x737472), (0x696e73756c61746564, 0x626f6f6c), (0x696e73756c6174696f6e546869636b6e657373, 0x666c6f6174), (0x7068617365436f756e74, 0x696e74)],
  [(0x7573616765, 0x436f6e647563746f7255736167654b696e64), (0x696e73756c6174696f6e4d6174657269616c, 0x436f6e647563746f72496e73756c6174696f6e4b696e64)],
  [⟨0x436f6e647563746f725365676d656e7473, .many2one, 0x436f6e647563746f72496e666f, 0, false⟩, ⟨0x57697265417272616e67656d656e7473, .many2one, 0x436f6e647563746f72496e666f, 0, false⟩],
  [0x436f6e647563746f725365676d656e7473, 0x57697265417272616e67656d656e7473]⟩
def m_ConductorInfo : List RClass := d_ConductorInfo :: m_IdentifiedObject

/-- CIM14/IEC61968/AssetModels/DistributionWindingTest.py:23 -/
def d_DistributionWindingTest : RClass := ⟨0x446973747269627574696f6e57696e64696e6754657374, 0x43494d31342e49454336313936382e41737365744d6f64656c732e446973747269627574696f6e57696e64696e6754657374, 0x43494d31342e49454336313937302e436f72652e4964656e7469666965644f626a656374,
  [(0x66726f6d54617053746570, .int 0)],
  [0x66726f6d54617053746570],
  [(0x66726f6d54617053746570, .int 0)],
  [(0x66726f6d54617053746570, 0x696e74)],
  [],
  [⟨0x46726f6d57696e64696e67, .one2many, 0x57696e64696e675465737473, 0, false⟩],
  []⟩
def m_DistributionWindingTest : List RClass := d_DistributionWindingTest :: m_IdentifiedObject

/-- CIM14/IEC61968/AssetModels/ToWindingSpec.py:23 -/
def d_ToWindingSpec : RClass := ⟨0x546f57696e64696e6753706563, 0x43494d31342e49454336313936382e41737365744d6f64656c732e546f57696e64696e6753706563, 0x43494d31342e49454336313937302e436f72652e4964656e7469666965644f626a656374,
  [(0x766f6c74616765, .flt 0x0), (0x70686173655368696674, .flt 0x0), (0x746f54617053746570, .int 0)],
  [0x766f6c74616765, 0x70686173655368696674, 0x746f54617053746570],
  [(0x766f6c74616765, .flt 0x0), (0x70686173655368696674, .flt 0x0), (0x746f54617053746570, .int 0)],
  [(0x766f6c74616765, 0x666c6f6174), (0x70686173655368696674, 0x666c6f6174), (0x746f54617053746570, 0x696e74)],
  [],
  [⟨0x546f57696e64696e67, .one2many, 0x546f57696e64696e675370656373, 0, false⟩, ⟨0x4f70656e436972637569745465737473, .many2many, 0x4d6561737572656457696e64696e675370656373, 0, false⟩, ⟨0x53686f7274436972637569745465737473, .many2many, 0x53686f7274656457696e64696e675370656373, 0, false⟩],
  [0x4f70656e436972637569745465737473, 0x53686f7274436972637569745465737473]⟩
def m_ToWindingSpec : List RClass := d_ToWindingSpec :: m_IdentifiedObject

/-- CIM14/IEC61968/AssetModels/TransformerInfo.py:23 -/
def d_TransformerInfo : RClass := ⟨0x5472616e73666f726d6572496e666f, 0x43494d31342e49454336313936382e41737365744d6f64656c732e5472616e73666f726d6572496e666f, 0x43494d31342e49454336313937302e436f72652e4964656e7469666965644f626a656374,
  [],
  [],
  [],
  [],
  [],
  [⟨0x57696e64696e67496e666f73, .many2one, 0x5472616e73666f726d6572496e666f, 0, false⟩, ⟨0x5472616e73666f726d657273, .many2one, 0x5472616e73666f726d6572496e666f, 0, false⟩],
  [0x57696e64696e67496e666f73, 0x5472616e73666f726d657273]⟩
def m_TransformerInfo : List RClass := d_TransformerInfo :: m_IdentifiedObject

/-- CIM14/IEC61968/AssetModels/WindingInfo.py:23 -/
def d_WindingInfo : RClass := ⟨0x57696e64696e67496e666f, 0x43494d31342e49454336313936382e41737365744d6f64656c732e57696e64696e67496e666f, 0x43494d31342e49454336313937302e436f72652e4964656e7469666965644f626a656374,
  [(0x636f6e6e656374696f6e4b696e64, .str 0x596e), (0x72, .flt 0x0), (0x7068617365416e676c65, .int 0), (0x656d657267656e637953, .flt 0x0), (0x726174656455, .flt 0x0), (0x696e73756c6174696f6e55, .flt 0x0), (0x726174656453, .flt 0x0), (0x73657175656e63654e756d626572, .int 0), (0x73686f72745465726d53, .flt 0x0)],
  [0x636f6e6e656374696f6e4b696e64, 0x72, 0x7068617365416e676c65, 0x656d657267656e637953, 0x726174656455, 0x696e73756c6174696f6e55, 0x726174656453, 0x73657175656e63654e756d626572, 0x73686f72745465726d53],
  [(0x636f6e6e656374696f6e4b696e64, .str 0x596e), (0x72, .flt 0x0), (0x7068617365416e676c65, .int 0), (0x656d657267656e637953, .flt 0x0), (0x726174656455, .flt 0x0), (0x696e73756c6174696f6e55, .flt 0x0), (0x726174656453, .flt 0x0), (0x73657175656e63654e756d626572, .int 0), (0x73686f72745465726d53, .flt 0x0)],
  [(0x636f6e6e656374696f6e4b696e64, 0x737472), (0x72, 0x666c6f6174), (0x7068617365416e676c65, 0x696e74), (0x656d657267656e637953, 0x666c6f6174), (0x726174656455, 0x666c6f6174), (0x696e73756c6174696f6e55, 0x666c6f6174), (0x726174656453, 0x666c6f6174), (0x73657175656e63654e756d626572, 0x696e74), (0x73686f72745465726d53, 0x666c6f6174)],
  [(0x636f6e6e656374696f6e4b696e64, 0x57696e64696e67436f6e6e656374696f6e)],
  [⟨0x57696e64696e6773, .many2one, 0x57696e64696e67496e666f, 0, false⟩, ⟨0x57696e64696e675465737473, .many2one, 0x46726f6d57696e64696e67, 0, false⟩, ⟨0x5472616e73666f726d6572496e666f, .one2many, 0x57696e64696e67496e666f73, 0, false⟩, ⟨0x546f57696e64696e675370656373, .many2one, 0x546f57696e64696e67, 0, false⟩],
  [0x57696e64696e6773, 0x57696e64696e675465737473, 0x546f57696e64696e675370656373]⟩
def m_WindingInfo : List RClass := d_WindingInfo :: m_IdentifiedObject

/-- CIM14/IEC61968/AssetModels/WireArrangement.py:23 -/
def d_WireArrangement : RClass := ⟨0x57697265417272616e67656d656e74, 0x43494d31342e49454336313936382e41737365744d6f64656c732e57697265417272616e67656d656e74, 0x43494d31342e49454336313937302e436f72652e4964656e7469666965644f626a656374,
  [(0x706f736974696f6e, .int 0), (0x6d6f756e74696e67506f696e7458, .flt 0x0), (0x6d6f756e74696e67506f696e7459, .flt 0x0)],
  [0x706f736974696f6e, 0x6d6f756e74696e67506f696e7458, 0x6d6f756e74696e67506f696e7459],
  [(0x706f736974696f6e, .int 0), (0x6d6f756e74696e67506f696e7458, .flt 0x0), (0x6d6f756e74696e67506f696e7459, .flt 0x0)],
  [(0x706f736974696f6e, 0x696e74), (0x6d6f756e74696e67506f696e7458, 0x666c6f6174), (0x6d6f756e74696e67506f696e7459, 0x666c6f6174)],
  [],
  [⟨0x5769726554797065, .one2many, 0x57697265417272616e67656d656e7473, 0, false⟩, ⟨0x436f6e647563746f72496e666f, .one2many, 0x57697265417272616e67656d656e7473, 0, false⟩],
  []⟩
def m_WireArrangement : List RClass := d_WireArrangement :: m_IdentifiedObject

/-- CIM14/IEC61968/AssetModels/WireType.py:23 -/
def d_WireType : RClass := ⟨0x5769726554797065, 0x43494d31342e49454336313936382e41737365744d6f64656c732e5769726554797065, 0x43494d31342e49454336313937302e436f72652e4964656e7469666965644f626a656374,
  [(0x6d6174657269616c, .str 0x61637372), (0x7241433235, .flt 0x0), (0x73697a654465736372697074696f6e, .str 0), (0x7241433735, .flt 0x0), (0x726164697573, .flt 0x0), (0x636f7265526164697573, .flt 0x0), (0x7241433530, .flt 0x0), (0x676d72, .flt 0x0), (0x7244433230, .flt 0x0), (0x726174656443757272656e74, .flt 0x0), (0x636f7265537472616e64436f756e74, .int 0), (0x737472616e64436f756e74, .int 0)],
  [0x6d6174657269616c, 0x7241433235, 0x73697a654465736372697074696f6e, 0x7241433735, 0x726164697573, 0x636f7265526164697573, 0x7241433530, 0x676d72, 0x7244433230, 0x726174656443757272656e74, 0x636f7265537472616e64436f756e74, 0x737472616e64436f756e74],
  [(0x6d6174657269616c, .str 0x61637372), (0x7241433235, .flt 0x0), (0x73697a654465736372697074696f6e, .str 0), (0x7241433735, .flt 0x0), (0x726164697573, .flt 0x0), (0x636f7265526164697573, .flt 0x0), (0x7241433530, .flt 0x0), (0x676d72, .flt 0x0), (0x7244433230, .flt 0x0), (0x726174656443757272656e74, .flt 0x0), (0x636f7265537472616e64436f756e74, .int 0), (0x737472616e64436f756e74, .int 0)],
  [(0x6d6174657269616c, 0x737472), (0x7241433235, 0x666c6f6174), (0x73697a654465736372697074696f6e, 0x737472), (0x7241433735, 0x666c6f6174), (0x726164697573, 0x666c6f6174), (0x636f7265526164697573, 0x666c6f6174), (0x7241433530, 0x666c6f6174), (0x676d72, 0x666c6f6174), (0x7244433230, 0x666c6f6174), (0x726174656443757272656e74, 0x666c6f6174), (0x636f7265537472616e64436f756e74, 0x696e74), (0x737472616e64436f756e74, 0x696e74)],
  [(0x6d6174657269616c, 0x436f6e647563746f724d6174657269616c4b696e64)],
  [⟨0x57697265417272616e67656d656e7473, .many2one, 0x5769726554797065, 0, false⟩, ⟨0x436f6e63656e747269634e65757472616c4361626c65496e666f73, .many2one, 0x5769726554797065, 0, false⟩],
  [0x57697265417272616e67656d656e7473, 0x436f6e63656e747269634e65757472616c4361626c65496e666f73]⟩
def m_WireType : List RClass := d_WireType :: m_IdentifiedObject

/-- CIM14/IEC61968/Assets/Asset.py:23 -/
def d_Asset : RClass := ⟨0x4173736574, 0x43494d31342e49454336313936382e4173736574732e4173736574, 0x43494d31342e49454336313937302e436f72652e4964656e7469666965644f626a656374,
  [(0x63617465676f7279, .str 0), (0x73657269616c4e756d626572, .str 0), (0x6d616e75666163747572656444617465, .str 0), (0x6c6f744e756d626572, .str 0), (0x637269746963616c, .bool false), (0x6170706c69636174696f6e, .str 0), (0x696e697469616c4c6f73734f664c696665, .flt 0x0), (0x636f72706f72617465436f6465, .str 0), (0x70757263686173655072696365, .flt 0x0), (0x7574634e756d626572, .str 0), (0x696e7374616c6c6174696f6e44617465, .str 0), (0x696e697469616c436f6e646974696f6e, .str 0)],
  [0x63617465676f7279, 0x73657269616c4e756d626572, 0x6d616e75666163747572656444617465, 0x6c6f744e756d626572, 0x637269746963616c, 0x6170706c69636174696f6e, 0x696e697469616c4c6f73734f664c696665, 0x636f72706f72617465436f6465, 0x70757263686173655072696365, 0x7574634e756d626572, 0x696e7374616c6c6174696f6e44617465, 0x696e697469616c436f6e646974696f6e],
  [(0x63617465676f7279, .str 0), (0x73657269616c4e756d626572, .str 0), (0x6d616e75666163747572656444617465, .str 0), (0x6c6f744e756d626572, .str 0), (0x637269746963616c, .bool false), (0x6170706c69636174696f6e, .str 0), (0x696e697469616c4c6f73734f664c696665, .flt 0x0), (0x636f72706f72617465436f6465, .str 0), (0x70757263686173655072696365, .flt 0x0), (0x7574634e756d626572, .str 0), (0x696e7374616c6c6174696f6e44617465, .str 0), (0x696e697469616c436f6e646974696f6e, .str 0)],
  [(0x63617465676f7279, 0x737472), (0x73657269616c4e756d626572, 0x737472), (0x6d616e75666163747572656444617465, 0x737472), (0x6c6f744e756d626572, 0x737472), (0x637269746963616c, 0x626f6f6c), (0x6170706c69636174696f6e, 0x737472), (0x696e697469616c4c6f73734f664c696665, 0x666c6f6174), (0x636f72706f72617465436f6465, 0x737472), (0x70757263686173655072696365, 0x666c6f6174), (0x7574634e756d626572, 0x737472), (0x696e7374616c6c6174696f6e44617465, 0x737472), (0x696e697469616c436f6e646974696f6e, 0x737472)],
  [],
  [⟨0x506f77657253797374656d5265736f7572636573, .many2many, 0x417373657473, 0, false⟩, ⟨0x50726f70657274696573, .many2many, 0x50726f7065727479417373657473, 0, false⟩, ⟨0x616363657074616e636554657374, .plainOne, 0, 0, false⟩, ⟨0x41637469766974795265636f726473, .many2many, 0x417373657473, 0, false⟩, ⟨0x4c6f636174696f6e, .one2many, 0x417373657473, 0, false⟩, ⟨0x417373657446756e6374696f6e73, .many2one, 0x4173736574, 0, false⟩, ⟨0x4d6561737572656d656e7473, .many2one, 0x4173736574, 0, false⟩, ⟨0x4173736574436f6e7461696e6572, .one2many, 0x417373657473, 0, false⟩, ⟨0x737461747573, .plainOne, 0, 0, false⟩, ⟨0x526174696e6773, .many2many, 0x526174696e67417373657473, 0, false⟩, ⟨0x656c656374726f6e696341646472657373, .plainOne, 0, 0, false⟩],
  [0x506f77657253797374656d5265736f7572636573, 0x50726f70657274696573, 0x41637469766974795265636f726473, 0x417373657446756e6374696f6e73, 0x4d6561737572656d656e7473, 0x526174696e6773]⟩
def m_Asset : List RClass := d_Asset :: m_IdentifiedObject

/-- CIM14/IEC61968/Assets/AssetFunction.py:23 -/
def d_AssetFunction : RClass := ⟨0x417373657446756e6374696f6e, 0x43494d31342e49454336313936382e4173736574732e417373657446756e6374696f6e, 0x43494d31342e49454336313937302e436f72652e4964656e7469666965644f626a656374,
  [(0x636f6e6669674944, .str 0), (0x70726f6772616d4944, .str 0), (0x6669726d776172654944, .str 0), (0x70617373776f7264, .str 0), (0x68617264776172654944, .str 0)],
  [0x636f6e6669674944, 0x70726f6772616d4944, 0x6669726d776172654944, 0x70617373776f7264, 0x68617264776172654944],
  [(0x636f6e6669674944, .str 0), (0x70726f6772616d4944, .str 0), (0x6669726d776172654944, .str 0), (0x70617373776f7264, .str 0), (0x68617264776172654944, .str 0)],
  [(0x636f6e6669674944, 0x737472), (0x70726f6772616d4944, 0x737472), (0x6669726d776172654944, 0x737472), (0x70617373776f7264, 0x737472), (0x68617264776172654944, 0x737472)],
  [],
  [⟨0x4173736574, .one2many, 0x417373657446756e6374696f6e73, 0, false⟩],
  []⟩
def m_AssetFunction : List RClass := d_AssetFunction :: m_IdentifiedObject

/-- CIM14/IEC61968/Assets/Seal.py:23 -/
def d_Seal : RClass := ⟨0x5365616c, 0x43494d31342e49454336313936382e4173736574732e5365616c, 0x43494d31342e49454336313937302e436f72652e4964656e7469666965644f626a656374,
  [(0x6b696e64, .str 0x6f74686572), (0x636f6e646974696f6e, .str 0x6f70656e), (0x7365616c4e756d626572, .str 0), (0x6170706c6965644461746554696d65, .str 0)],
  [0x6b696e64, 0x636f6e646974696f6e, 0x7365616c4e756d626572, 0x6170706c6965644461746554696d65],
  [(0x6b696e64, .str 0x6f74686572), (0x636f6e646974696f6e, .str 0x6f70656e), (0x7365616c4e756d626572, .str 0), (0x6170706c6965644461746554696d65, .str 0)],
  [(0x6b696e64, 0x737472), (0x636f6e646974696f6e, 0x737472), (0x7365616c4e756d626572, 0x737472), (0x6170706c6965644461746554696d65, 0x737472)],
  [(0x6b696e64, 0x5365616c4b696e64), (0x636f6e646974696f6e, 0x5365616c436f6e646974696f6e4b696e64)],
  [⟨0x4173736574436f6e7461696e6572, .one2many, 0x5365616c73, 0, false⟩],
  []⟩
def m_Seal : List RClass := d_Seal :: m_IdentifiedObject

/-- CIM14/IEC61968/Common/ActivityRecord.py:23 -/
def d_ActivityRecord : RClass := ⟨0x41637469766974795265636f7264, 0x43494d31342e49454336313936382e436f6d6d6f6e2e41637469766974795265636f7264, 0x43494d31342e49454336313937302e436f72652e4964656e7469666965644f626a656374,
  [(0x726561736f6e, .str 0), (0x637265617465644461746554696d65, .str 0), (0x7365766572697479, .str 0), (0x63617465676f7279, .str 0)],
  [0x726561736f6e, 0x637265617465644461746554696d65, 0x7365766572697479, 0x63617465676f7279],
  [(0x726561736f6e, .str 0), (0x637265617465644461746554696d65, .str 0), (0x7365766572697479, .str 0), (0x63617465676f7279, .str 0)],
  [(0x726561736f6e, 0x737472), (0x637265617465644461746554696d65, 0x737472), (0x7365766572697479, 0x737472), (0x63617465676f7279, 0x737472)],
  [],
  [⟨0x446f63756d656e7473, .many2many, 0x41637469766974795265636f726473, 0, false⟩, ⟨0x417373657473, .many2many, 0x41637469766974795265636f726473, 0, false⟩, ⟨0x737461747573, .plainOne, 0, 0, false⟩],
  [0x446f63756d656e7473, 0x417373657473]⟩
def m_ActivityRecord : List RClass := d_ActivityRecord :: m_IdentifiedObject

/-- CIM14/IEC61968/Common/Document.py:23 -/
def d_Document : RClass := ⟨0x446f63756d656e74, 0x43494d31342e49454336313936382e436f6d6d6f6e2e446f63756d656e74, 0x43494d31342e49454336313937302e436f72652e4964656e7469666965644f626a656374,
  [(0x7265766973696f6e4e756d626572, .str 0), (0x7375626a656374, .str 0), (0x637265617465644461746554696d65, .str 0), (0x7469746c65, .str 0), (0x63617465676f7279, .str 0), (0x6c6173744d6f6469666965644461746554696d65, .str 0)],
  [0x7265766973696f6e4e756d626572, 0x7375626a656374, 0x637265617465644461746554696d65, 0x7469746c65, 0x63617465676f7279, 0x6c6173744d6f6469666965644461746554696d65],
  [(0x7265766973696f6e4e756d626572, .str 0), (0x7375626a656374, .str 0), (0x637265617465644461746554696d65, .str 0), (0x7469746c65, .str 0), (0x63617465676f7279, .str 0), (0x6c6173744d6f6469666965644461746554696d65, .str 0)],
  [(0x7265766973696f6e4e756d626572, 0x737472), (0x7375626a656374, 0x737472), (0x637265617465644461746554696d65, 0x737472), (0x7469746c65, 0x737472), (0x63617465676f7279, 0x737472), (0x6c6173744d6f6469666965644461746554696d65, 0x737472)],
  [],
  [⟨0x656c656374726f6e696341646472657373, .plainOne, 0, 0, false⟩, ⟨0x737461747573, .plainOne, 0, 0, false⟩, ⟨0x41637469766974795265636f726473, .many2many, 0x446f63756d656e7473, 0, false⟩, ⟨0x646f63537461747573, .plainOne, 0, 0, false⟩, ⟨0x4d6561737572656d656e7473, .many2many, 0x446f63756d656e7473, 0, false⟩],
  [0x41637469766974795265636f726473, 0x4d6561737572656d656e7473]⟩
def m_Document : List RClass := d_Document :: m_IdentifiedObject

/-- CIM14/IEC61968/Common/Location.py:23 -/
def d_Location : RClass := ⟨0x4c6f636174696f6e, 0x43494d31342e49454336313936382e436f6d6d6f6e2e4c6f636174696f6e, 0x43494d31342e49454336313937302e436f72652e4964656e7469666965644f626a656374,
  [(0x67656f496e666f5265666572656e6365, .str 0), (0x636f72706f72617465436f6465, .str 0), (0x646972656374696f6e, .str 0), (0x63617465676f7279, .str 0)],
  [0x67656f496e666f5265666572656e6365, 0x636f72706f72617465436f6465, 0x646972656374696f6e, 0x63617465676f7279],
  [(0x67656f496e666f5265666572656e6365, .str 0), (0x636f72706f72617465436f6465, .str 0), (0x646972656374696f6e, .str 0), (0x63617465676f7279, .str 0)],
  [(0x67656f496e666f5265666572656e6365, 0x737472), (0x636f72706f72617465436f6465, 0x737472), (0x646972656374696f6e, 0x737472), (0x63617465676f7279, 0x737472)],
  [],
  [⟨0x506f736974696f6e506f696e7473, .many2one, 0x4c6f636174696f6e, 0, false⟩, ⟨0x506f77657253797374656d5265736f7572636573, .many2one, 0x4c6f636174696f6e, 0, false⟩, ⟨0x436f6f7264696e61746553797374656d73, .many2one, 0x4c6f636174696f6e, 0, false⟩, ⟨0x4d6561737572656d656e7473, .many2many, 0x4c6f636174696f6e73, 0, false⟩, ⟨0x7365636f6e6461727941646472657373, .plainOne, 0, 0, false⟩, ⟨0x417373657473, .many2one, 0x4c6f636174696f6e, 0, false⟩, ⟨0x70686f6e6532, .plainOne, 0, 0, false⟩, ⟨0x656c656374726f6e696341646472657373, .plainOne, 0, 0, false⟩, ⟨0x70686f6e6531, .plainOne, 0, 0, false⟩, ⟨0x6d61696e41646472657373, .plainOne, 0, 0, false⟩, ⟨0x737461747573, .plainOne, 0, 0, false⟩],
  [0x506f736974696f6e506f696e7473, 0x506f77657253797374656d5265736f7572636573, 0x436f6f7264696e61746553797374656d73, 0x4d6561737572656d656e7473, 0x417373657473]⟩
def m_Location : List RClass := d_Location :: m_IdentifiedObject

/-- CIM14/IEC61968/Common/Organisation.py:23 -/
def d_Organisation : RClass := ⟨0x4f7267616e69736174696f6e, 0x43494d31342e49454336313936382e436f6d6d6f6e2e4f7267616e69736174696f6e, 0x43494d31342e49454336313937302e436f72652e4964656e7469666965644f626a656374,
  [],
  [],
  [],
  [],
  [],
  [⟨0x656c656374726f6e696341646472657373, .plainOne, 0, 0, false⟩, ⟨0x73747265657441646472657373, .plainOne, 0, 0, false⟩, ⟨0x70686f6e6532, .plainOne, 0, 0, false⟩, ⟨0x70686f6e6531, .plainOne, 0, 0, false⟩, ⟨0x706f7374616c41646472657373, .plainOne, 0, 0, false⟩],
  []⟩
def m_Organisation : List RClass := d_Organisation :: m_IdentifiedObject

/-- CIM14/IEC61968/Common/TimePoint.py:23 -/
def d_TimePoint : RClass := ⟨0x54696d65506f696e74, 0x43494d31342e49454336313936382e436f6d6d6f6e2e54696d65506f696e74, 0x43494d31342e49454336313937302e436f72652e4964656e7469666965644f626a656374,
  [(0x72656c617469766554696d65496e74657276616c, .flt 0x0), (0x73657175656e63654e756d626572, .int 0), (0x6461746554696d65, .str 0)],
  [0x72656c617469766554696d65496e74657276616c, 0x73657175656e63654e756d626572, 0x6461746554696d65],
  [(0x72656c617469766554696d65496e74657276616c, .flt 0x0), (0x73657175656e63654e756d626572, .int 0), (0x6461746554696d65, .str 0)],
  [(0x72656c617469766554696d65496e74657276616c, 0x666c6f6174), (0x73657175656e63654e756d626572, 0x696e74), (0x6461746554696d65, 0x737472)],
  [],
  [⟨0x54696d655363686564756c65, .one2many, 0x54696d65506f696e7473, 0, false⟩, ⟨0x737461747573, .plainOne, 0, 0, false⟩, ⟨0x77696e646f77, .plainOne, 0, 0, false⟩],
  []⟩
def m_TimePoint : List RClass := d_TimePoint :: m_IdentifiedObject

/-- CIM14/IEC61968/Customers/ServiceCategory.py:23 -/
def d_ServiceCategory : RClass := ⟨0x5365727669636543617465676f7279, 0x43494d31342e49454336313936382e437573746f6d6572732e5365727669636543617465676f7279, 0x43494d31342e49454336313937302e436f72652e4964656e7469666965644f626a656374,
  [(0x6b696e64, .str 0x7761746572)],
  [0x6b696e64],
  [(0x6b696e64, .str 0x7761746572)],
  [(0x6b696e64, 0x737472)],
  [(0x6b696e64, 0x536572766963654b696e64)],
  [⟨0x437573746f6d657241677265656d656e7473, .many2one, 0x5365727669636543617465676f7279, 0, false⟩, ⟨0x50726963696e6753747275637475726573, .many2one, 0x5365727669636543617465676f7279, 0, false⟩, ⟨0x5365727669636544656c6976657279506f696e7473, .many2one, 0x5365727669636543617465676f7279, 0, false⟩],
  [0x437573746f6d657241677265656d656e7473, 0x50726963696e6753747275637475726573, 0x5365727669636544656c6976657279506f696e7473]⟩
def m_ServiceCategory : List RClass := d_ServiceCategory :: m_IdentifiedObject

/-- CIM14/IEC61968/Metering/DemandResponseProgram.py:23 -/
def d_DemandResponseProgram : RClass := ⟨0x44656d616e64526573706f6e736550726f6772616d, 0x43494d31342e49454336313936382e4d65746572696e672e44656d616e64526573706f6e736550726f6772616d, 0x43494d31342e49454336313937302e436f72652e4964656e7469666965644f626a656374,
  [(0x74797065, .str 0)],
  [0x74797065],
  [(0x74797065, .str 0)],
  [(0x74797065, 0x737472)],
  [],
  [⟨0x437573746f6d657241677265656d656e7473, .many2one, 0x44656d616e64526573706f6e736550726f6772616d, 0, false⟩, ⟨0x456e64446576696365436f6e74726f6c73, .many2one, 0x44656d616e64526573706f6e736550726f6772616d, 0, false⟩, ⟨0x76616c6964697479496e74657276616c, .plainOne, 0, 0, false⟩, ⟨0x456e6444657669636547726f757073, .many2one, 0x44656d616e64526573706f6e736550726f6772616d, 0, false⟩],
  [0x437573746f6d657241677265656d656e7473, 0x456e64446576696365436f6e74726f6c73, 0x456e6444657669636547726f757073]⟩
def m_DemandResponseProgram : List RClass := d_DemandResponseProgram :: m_IdentifiedObject

/-- CIM14/IEC61968/Metering/EndDeviceControl.py:23 -/
def d_EndDeviceControl : RClass := ⟨0x456e64446576696365436f6e74726f6c, 0x43494d31342e49454336313936382e4d65746572696e672e456e64446576696365436f6e74726f6c, 0x43494d31342e49454336313937302e436f72652e4964656e7469666965644f626a656374,
  [(0x74797065, .str 0), (0x647250726f6772616d4d616e6461746f7279, .bool false), (0x70726963655369676e616c, .flt 0x0), (0x647250726f6772616d4c6576656c, .int 0)],
  [0x74797065, 0x647250726f6772616d4d616e6461746f7279, 0x70726963655369676e616c, 0x647250726f6772616d4c6576656c],
  [(0x74797065, .str 0), (0x647250726f6772616d4d616e6461746f7279, .bool false), (0x70726963655369676e616c, .flt 0x0), (0x647250726f6772616d4c6576656c, .int 0)],
  [(0x74797065, 0x737472), (0x647250726f6772616d4d616e6461746f7279, 0x626f6f6c), (0x70726963655369676e616c, 0x666c6f6174), (0x647250726f6772616d4c6576656c, 0x696e74)],
  [],
  [⟨0x456e6444657669636547726f7570, .one2many, 0x456e64446576696365436f6e74726f6c73, 0, false⟩, ⟨0x44656d616e64526573706f6e736550726f6772616d, .one2many, 0x456e64446576696365436f6e74726f6c73, 0, false⟩, ⟨0x437573746f6d657241677265656d656e74, .one2many, 0x456e64446576696365436f6e74726f6c73, 0, false⟩, ⟨0x456e644465766963654173736574, .one2many, 0x456e64446576696365436f6e74726f6c73, 0, false⟩, ⟨0x7363686564756c6564496e74657276616c, .plainOne, 0, 0, false⟩],
  []⟩
def m_EndDeviceControl : List RClass := d_EndDeviceControl :: m_IdentifiedObject

/-- CIM14/IEC61968/Metering/EndDeviceGroup.py:23 -/
def d_EndDeviceGroup : RClass := ⟨0x456e6444657669636547726f7570, 0x43494d31342e49454336313936382e4d65746572696e672e456e6444657669636547726f7570, 0x43494d31342e49454336313937302e436f72652e4964656e7469666965644f626a656374,
  [(0x67726f757041646472657373, .int 0)],
  [0x67726f757041646472657373],
  [(0x67726f757041646472657373, .int 0)],
  [(0x67726f757041646472657373, 0x696e74)],
  [],
  [⟨0x456e64446576696365417373657473, .many2many, 0x456e6444657669636547726f757073, 0, false⟩, ⟨0x456e64446576696365436f6e74726f6c73, .many2one, 0x456e6444657669636547726f7570, 0, false⟩, ⟨0x44656d616e64526573706f6e736550726f6772616d, .one2many, 0x456e6444657669636547726f757073, 0, false⟩],
  [0x456e64446576696365417373657473, 0x456e64446576696365436f6e74726f6c73]⟩
def m_EndDeviceGroup : List RClass := d_EndDeviceGroup :: m_IdentifiedObject

/-- CIM14/IEC61968/Metering/MeterReading.py:23 -/
def d_MeterReading : RClass := ⟨0x4d6574657252656164696e67, 0x43494d31342e49454336313936382e4d65746572696e672e4d6574657252656164696e67, 0x43494d31342e49454336313937302e436f72652e4964656e7469666965644f626a656374,
  [],
  [],
  [],
  [],
  [],
  [⟨0x496e74657276616c426c6f636b73, .many2one, 0x4d6574657252656164696e67, 0, false⟩, ⟨0x437573746f6d657241677265656d656e74, .one2many, 0x4d6574657252656164696e6773, 0, false⟩, ⟨0x4d657465724173736574, .one2many, 0x4d6574657252656164696e6773, 0, false⟩, ⟨0x456e644465766963654576656e7473, .many2one, 0x4d6574657252656164696e67, 0, false⟩, ⟨0x52656164696e6773, .many2many, 0x4d6574657252656164696e6773, 0, false⟩, ⟨0x5365727669636544656c6976657279506f696e74, .one2many, 0x4d6574657252656164696e6773, 0, false⟩, ⟨0x76616c756573496e74657276616c, .plainOne, 0, 0, false⟩],
  [0x496e74657276616c426c6f636b73, 0x456e644465766963654576656e7473, 0x52656164696e6773]⟩
def m_MeterReading : List RClass := d_MeterReading :: m_IdentifiedObject

/-- CIM14/IEC61968/Metering/ReadingType.py:23 -/
def d_ReadingType : RClass := ⟨0x52656164696e6754797065, 0x43494d31342e49454336313936382e4d65746572696e672e52656164696e6754797065, 0x43494d31342e49454336313937302e436f72652e4964656e7469666965644f626a656374,
  [(0x6d756c7469706c696572, .str 0x6b), (0x6b696e64, .str 0x766f6c74616765416e676c65), (0x756e6974, .str 0x4e), (0x726576657273654368726f6e6f6c6f6779, .bool false), (0x64656661756c745175616c697479, .str 0), (0x64656661756c7456616c75654461746154797065, .str 0), (0x6368616e6e656c4e756d626572, .int 0), (0x696e74657276616c4c656e677468, .flt 0x0)],
  [0x6d756c7469706c696572, 0x6b696e64, 0x756e6974, 0x726576657273654368726f6e6f6c6f6779, 0x64656661756c745175616c697479, 0x64656661756c7456616c75654461746154797065, 0x6368616e6e656c4e756d626572, 0x696e74657276616c4c656e677468],
  [(0x6d756c7469706c696572, .str 0x6b), (0x6b696e64, .str 0x766f6c74616765416e676c65), (0x756e6974, .str 0x4e), (0x726576657273654368726f6e6f6c6f6779, .bool false), (0x64656661756c745175616c697479, .str 0), (0x64656661756c7456616c75654461746154797065, .str 0), (0x6368616e6e656c4e756d626572, .int 0), (0x696e74657276616c4c656e677468, .flt 0x0)],
  [(0x6d756c7469706c696572, 0x737472), (0x6b696e64, 0x737472), (0x756e6974, 0x737472), (0x726576657273654368726f6e6f6c6f6779, 0x626f6f6c), (0x64656661756c745175616c697479, 0x737472), (0x64656661756c7456616c75654461746154797065, 0x737472), (0x6368616e6e656c4e756d626572, 0x696e74), (0x696e74657276616c4c656e677468, 0x666c6f6174)],
  [(0x6d756c7469706c696572, 0x556e69744d756c7469706c696572), (0x6b696e64, 0x52656164696e674b696e64), (0x756e6974, 0x556e697453796d626f6c)],
  [⟨0x52656164696e6773, .many2one, 0x52656164696e6754797065, 0, false⟩, ⟨0x64796e616d6963436f6e66696775726174696f6e, .plainOne, 0, 0, false⟩, ⟨0x496e74657276616c426c6f636b73, .many2one, 0x52656164696e6754797065, 0, false⟩, ⟨0x50656e64696e67, .one2one, 0x52656164696e6754797065, 0, false⟩, ⟨0x5265676973746572, .one2one, 0x52656164696e6754797065, 0, false⟩],
  [0x52656164696e6773, 0x496e74657276616c426c6f636b73]⟩
def m_ReadingType : List RClass := d_ReadingType :: m_IdentifiedObject

/-- CIM14/IEC61968/Metering/Register.py:23 -/
def d_Register : RClass := ⟨0x5265676973746572, 0x43494d31342e49454336313936382e4d65746572696e672e5265676973746572, 0x43494d31342e49454336313937302e436f72652e4964656e7469666965644f626a656374,
  [(0x6c6566744469676974436f756e74, .int 0), (0x72696768744469676974436f756e74, .int 0)],
  [0x6c6566744469676974436f756e74, 0x72696768744469676974436f756e74],
  [(0x6c6566744469676974436f756e74, .int 0), (0x72696768744469676974436f756e74, .int 0)],
  [(0x6c6566744469676974436f756e74, 0x696e74), (0x72696768744469676974436f756e74, 0x696e74)],
  [],
  [⟨0x52656164696e6754797065, .one2one, 0x5265676973746572, 0, false⟩, ⟨0x44657669636546756e6374696f6e, .one2many, 0x526567697374657273, 0, false⟩],
  []⟩
def m_Register : List RClass := d_Register :: m_IdentifiedObject

/-- CIM14/IEC61968/Metering/ServiceDeliveryPoint.py:23 -/
def d_ServiceDeliveryPoint : RClass := ⟨0x5365727669636544656c6976657279506f696e74, 0x43494d31342e49454336313936382e4d65746572696e672e5365727669636544656c6976657279506f696e74, 0x43494d31342e49454336313937302e436f72652e4964656e7469666965644f626a656374,
  [(0x7068617365436f6465, .str 0x41), (0x7261746564506f776572, .flt 0x0), (0x736572766963655072696f72697479, .str 0), (0x636865636b42696c6c696e67, .bool false), (0x67726f756e646564, .bool false), (0x7365727669636544656c697665727952656d61726b, .str 0), (0x726174656443757272656e74, .flt 0x0), (0x657374696d617465644c6f6164, .flt 0x0), (0x6e6f6d696e616c53657276696365566f6c74616765, .int 0), (0x637470745265666572656e6365, .int 0)],
  [0x7068617365436f6465, 0x7261746564506f776572, 0x736572766963655072696f72697479, 0x636865636b42696c6c696e67, 0x67726f756e646564, 0x7365727669636544656c697665727952656d61726b, 0x726174656443757272656e74, 0x657374696d617465644c6f6164, 0x6e6f6d696e616c53657276696365566f6c74616765, 0x637470745265666572656e6365],
  [(0x7068617365436f6465, .str 0x41), (0x7261746564506f776572, .flt 0x0), (0x736572766963655072696f72697479, .str 0), (0x636865636b42696c6c696e67, .bool false), (0x67726f756e646564, .bool false), (0x7365727669636544656c697665727952656d61726b, .str 0), (0x726174656443757272656e74, .flt 0x0), (0x657374696d617465644c6f6164, .flt 0x0), (0x6e6f6d696e616c53657276696365566f6c74616765, .int 0), (0x637470745265666572656e6365, .int 0)],
  [(0x7068617365436f6465, 0x737472), (0x7261746564506f776572, 0x666c6f6174), (0x736572766963655072696f72697479, 0x737472), (0x636865636b42696c6c696e67, 0x626f6f6c), (0x67726f756e646564, 0x626f6f6c), (0x7365727669636544656c697665727952656d61726b, 0x737472), (0x726174656443757272656e74, 0x666c6f6174), (0x657374696d617465644c6f6164, 0x666c6f6174), (0x6e6f6d696e616c53657276696365566f6c74616765, 0x696e74), (0x637470745265666572656e6365, 0x696e74)],
  [(0x7068617365436f6465, 0x5068617365436f6465)],
  [⟨0x50726963696e6753747275637475726573, .many2many, 0x5365727669636544656c6976657279506f696e7473, 0, false⟩, ⟨0x5472616e73666f726d6572, .one2many, 0x5365727669636544656c6976657279506f696e7473, 0, false⟩, ⟨0x5344504c6f636174696f6e73, .many2many, 0x5365727669636544656c6976657279506f696e7473, 0, false⟩, ⟨0x456e64446576696365417373657473, .many2one, 0x5365727669636544656c6976657279506f696e74, 0, false⟩, ⟨0x456e65726779436f6e73756d6572, .one2many, 0x5365727669636544656c6976657279506f696e7473, 0, false⟩, ⟨0x536572766963654c6f636174696f6e, .one2many, 0x5365727669636544656c6976657279506f696e7473, 0, false⟩, ⟨0x437573746f6d657241677265656d656e74, .one2many, 0x5365727669636544656c6976657279506f696e7473, 0, false⟩, ⟨0x4d6574657252656164696e6773, .many2one, 0x5365727669636544656c6976657279506f696e74, 0, false⟩, ⟨0x53657276696365537570706c696572, .one2many, 0x5365727669636544656c6976657279506f696e7473, 0, false⟩, ⟨0x5365727669636543617465676f7279, .one2many, 0x5365727669636544656c6976657279506f696e7473, 0, false⟩],
  [0x50726963696e6753747275637475726573, 0x5344504c6f636174696f6e73, 0x456e64446576696365417373657473, 0x4d6574657252656164696e6773]⟩
def m_ServiceDeliveryPoint : List RClass := d_ServiceDeliveryPoint :: m_IdentifiedObject

/-- CIM14/IEC61968/PaymentMetering/Cashier.py:23 -/
def d_Cashier : RClass := ⟨0x43617368696572, 0x43494d31342e49454336313936382e5061796d656e744d65746572696e672e43617368696572, 0x43494d31342e49454336313937302e436f72652e4964656e7469666965644f626a656374,
  [],
  [],
  [],
  [],
  [],
  [⟨0x43617368696572536869667473, .many2one, 0x43617368696572, 0, false⟩, ⟨0x656c656374726f6e696341646472657373, .plainOne, 0, 0, false⟩, ⟨0x56656e646f72, .one2many, 0x4361736869657273, 0, false⟩],
  [0x43617368696572536869667473]⟩
def m_Cashier : List RClass := d_Cashier :: m_IdentifiedObject

/-- CIM14/IEC61968/PaymentMetering/Charge.py:23 -/
def d_Charge : RClass := ⟨0x436861726765, 0x43494d31342e49454336313936382e5061796d656e744d65746572696e672e436861726765, 0x43494d31342e49454336313937302e436f72652e4964656e7469666965644f626a656374,
  [(0x6b696e64, .str 0x64656d616e64436861726765), (0x7661726961626c65506f7274696f6e, .flt 0x0)],
  [0x6b696e64, 0x7661726961626c65506f7274696f6e],
  [(0x6b696e64, .str 0x64656d616e64436861726765), (0x7661726961626c65506f7274696f6e, .flt 0x0)],
  [(0x6b696e64, 0x737472), (0x7661726961626c65506f7274696f6e, 0x666c6f6174)],
  [(0x6b696e64, 0x4368617267654b696e64)],
  [⟨0x417578696c696172794163636f756e7473, .many2many, 0x43686172676573, 0, false⟩, ⟨0x506172656e74436861726765, .one2many, 0x4368696c6443686172676573, 0, false⟩, ⟨0x4368696c6443686172676573, .many2one, 0x506172656e74436861726765, 0, false⟩, ⟨0x6669786564506f7274696f6e, .plainOne, 0, 0, false⟩, ⟨0x436f6e73756d7074696f6e546172696666496e74657276616c73, .many2many, 0x43686172676573, 0, false⟩, ⟨0x54696d65546172696666496e74657276616c73, .many2many, 0x43686172676573, 0, false⟩],
  [0x417578696c696172794163636f756e7473, 0x4368696c6443686172676573, 0x436f6e73756d7074696f6e546172696666496e74657276616c73, 0x54696d65546172696666496e74657276616c73]⟩
def m_Charge : List RClass := d_Charge :: m_IdentifiedObject

/-- CIM14/IEC61968/PaymentMetering/PointOfSale.py:23 -/
def d_PointOfSale : RClass := ⟨0x506f696e744f6653616c65, 0x43494d31342e49454336313936382e5061796d656e744d65746572696e672e506f696e744f6653616c65, 0x43494d31342e49454336313937302e436f72652e4964656e7469666965644f626a656374,
  [(0x6c6f636174696f6e, .str 0)],
  [0x6c6f636174696f6e],
  [(0x6c6f636174696f6e, .str 0)],
  [(0x6c6f636174696f6e, 0x737472)],
  [],
  [⟨0x56656e646f72, .one2many, 0x506f696e744f6653616c6573, 0, false⟩, ⟨0x43617368696572536869667473, .many2one, 0x506f696e744f6653616c65, 0, false⟩],
  [0x43617368696572536869667473]⟩
def m_PointOfSale : List RClass := d_PointOfSale :: m_IdentifiedObject

/-- CIM14/IEC61968/PaymentMetering/Receipt.py:23 -/
def d_Receipt : RClass := ⟨0x52656365697074, 0x43494d31342e49454336313936382e5061796d656e744d65746572696e672e52656365697074, 0x43494d31342e49454336313937302e436f72652e4964656e7469666965644f626a656374,
  [(0x697342616e6b61626c65, .bool false)],
  [0x697342616e6b61626c65],
  [(0x697342616e6b61626c65, .bool false)],
  [(0x697342616e6b61626c65, 0x626f6f6c)],
  [],
  [⟨0x436173686965725368696674, .one2many, 0x5265636569707473, 0, false⟩, ⟨0x54656e64657273, .many2one, 0x52656365697074, 0, false⟩, ⟨0x56656e646f725368696674, .one2many, 0x5265636569707473, 0, false⟩, ⟨0x5472616e73616374696f6e73, .many2one, 0x52656365697074, 0, false⟩, ⟨0x6c696e65, .plainOne, 0, 0, false⟩],
  [0x54656e64657273, 0x5472616e73616374696f6e73]⟩
def m_Receipt : List RClass := d_Receipt :: m_IdentifiedObject

/-- CIM14/IEC61968/PaymentMetering/Shift.py:23 -/
def d_Shift : RClass := ⟨0x5368696674, 0x43494d31342e49454336313936382e5061796d656e744d65746572696e672e5368696674, 0x43494d31342e49454336313937302e436f72652e4964656e7469666965644f626a656374,
  [(0x72656365697074734772616e64546f74616c4e6f6e42616e6b61626c65, .flt 0x0), (0x72656365697074734772616e64546f74616c42616e6b61626c65, .flt 0x0), (0x72656365697074734772616e64546f74616c526f756e64696e67, .flt 0x0), (0x7472616e73616374696f6e734772616e64546f74616c, .flt 0x0), (0x7472616e73616374696f6e734772616e64546f74616c526f756e64696e67, .flt 0x0)],
  [0x72656365697074734772616e64546f74616c4e6f6e42616e6b61626c65, 0x72656365697074734772616e64546f74616c42616e6b61626c65, 0x72656365697074734772616e64546f74616c526f756e64696e67, 0x7472616e73616374696f6e734772616e64546f74616c, 0x7472616e73616374696f6e734772616e64546f74616c526f756e64696e67],
  [(0x72656365697074734772616e64546f74616c4e6f6e42616e6b61626c65, .flt 0x0), (0x72656365697074734772616e64546f74616c42616e6b61626c65, .flt 0x0), (0x72656365697074734772616e64546f74616c526f756e64696e67, .flt 0x0), (0x7472616e73616374696f6e734772616e64546f74616c, .flt 0x0), (0x7472616e73616374696f6e734772616e64546f74616c526f756e64696e67, .flt 0x0)],
  [(0x72656365697074734772616e64546f74616c4e6f6e42616e6b61626c65, 0x666c6f6174), (0x72656365697074734772616e64546f74616c42616e6b61626c65, 0x666c6f6174), (0x72656365697074734772616e64546f74616c526f756e64696e67, 0x666c6f6174), (0x7472616e73616374696f6e734772616e64546f74616c, 0x666c6f6174), (0x7472616e73616374696f6e734772616e64546f74616c526f756e64696e67, 0x666c6f6174)],
  [],
  [⟨0x6163746976697479496e74657276616c, .plainOne, 0, 0, false⟩],
  []⟩
def m_Shift : List RClass := d_Shift :: m_IdentifiedObject

/-- CIM14/IEC61968/PaymentMetering/Tender.py:23 -/
def d_Tender : RClass := ⟨0x54656e646572, 0x43494d31342e49454336313936382e5061796d656e744d65746572696e672e54656e646572, 0x43494d31342e49454336313937302e436f72652e4964656e7469666965644f626a656374,
  [(0x6b696e64, .str 0x63617368), (0x616d6f756e74, .flt 0x0), (0x6368616e6765, .flt 0x0)],
  [0x6b696e64, 0x616d6f756e74, 0x6368616e6765],
  [(0x6b696e64, .str 0x63617368), (0x616d6f756e74, .flt 0x0), (0x6368616e6765, .flt 0x0)],
  [(0x6b696e64, 0x737472), (0x616d6f756e74, 0x666c6f6174), (0x6368616e6765, 0x666c6f6174)],
  [(0x6b696e64, 0x54656e6465724b696e64)],
  [⟨0x436865717565, .one2one, 0x54656e646572, 0, false⟩, ⟨0x52656365697074, .one2many, 0x54656e64657273, 0, false⟩, ⟨0x43617264, .one2one, 0x54656e646572, 0, false⟩],
  []⟩
def m_Tender : List RClass := d_Tender :: m_IdentifiedObject

/-- CIM14/IEC61968/PaymentMetering/Transaction.py:23 -/
def d_Transaction : RClass := ⟨0x5472616e73616374696f6e, 0x43494d31342e49454336313936382e5061796d656e744d65746572696e672e5472616e73616374696f6e, 0x43494d31342e49454336313937302e436f72652e4964656e7469666965644f626a656374,
  [(0x6b696e64, .str 0x646976657273655061796d656e74), (0x73657276696365556e697473456e65726779, .flt 0x0), (0x646976657273655265666572656e6365, .str 0), (0x72656365697665725265666572656e6365, .str 0), (0x646f6e6f725265666572656e6365, .str 0), (0x73657276696365556e6974734572726f72, .flt 0x0), (0x72657665727365644964, .str 0)],
  [0x6b696e64, 0x73657276696365556e697473456e65726779, 0x646976657273655265666572656e6365, 0x72656365697665725265666572656e6365, 0x646f6e6f725265666572656e6365, 0x73657276696365556e6974734572726f72, 0x72657665727365644964],
  [(0x6b696e64, .str 0x646976657273655061796d656e74), (0x73657276696365556e697473456e65726779, .flt 0x0), (0x646976657273655265666572656e6365, .str 0), (0x72656365697665725265666572656e6365, .str 0), (0x646f6e6f725265666572656e6365, .str 0), (0x73657276696365556e6974734572726f72, .flt 0x0), (0x72657665727365644964, .str 0)],
  [(0x6b696e64, 0x737472), (0x73657276696365556e697473456e65726779, 0x666c6f6174), (0x646976657273655265666572656e6365, 0x737472), (0x72656365697665725265666572656e6365, 0x737472), (0x646f6e6f725265666572656e6365, 0x737472), (0x73657276696365556e6974734572726f72, 0x666c6f6174), (0x72657665727365644964, 0x737472)],
  [(0x6b696e64, 0x5472616e73616374696f6e4b696e64)],
  [⟨0x50726963696e67537472756374757265, .one2many, 0x5472616e73616374696f6e73, 0, false⟩, ⟨0x5573657241747472696275746573, .many2one, 0x5472616e73616374696f6e, 0, false⟩, ⟨0x437573746f6d65724163636f756e74, .one2many, 0x5061796d656e745472616e73616374696f6e73, 0, false⟩, ⟨0x436173686965725368696674, .one2many, 0x5472616e73616374696f6e73, 0, false⟩, ⟨0x56656e646f725368696674, .one2many, 0x5472616e73616374696f6e73, 0, false⟩, ⟨0x4d657465724173736574, .one2many, 0x56656e64696e675472616e73616374696f6e73, 0, false⟩, ⟨0x417578696c696172794163636f756e74, .one2many, 0x5061796d656e745472616e73616374696f6e73, 0, false⟩, ⟨0x6c696e65, .plainOne, 0, 0, false⟩, ⟨0x52656365697074, .one2many, 0x5472616e73616374696f6e73, 0, false⟩],
  [0x5573657241747472696275746573]⟩
def m_Transaction : List RClass := d_Transaction :: m_IdentifiedObject

/-- CIM14/IEC61968/PaymentMetering/Transactor.py:23 -/
def d_Transactor : RClass := ⟨0x5472616e736163746f72, 0x43494d31342e49454336313936382e5061796d656e744d65746572696e672e5472616e736163746f72, 0x43494d31342e49454336313937302e436f72652e4964656e7469666965644f626a656374,
  [],
  [],
  [],
  [],
  [],
  [⟨0x4d65726368616e744163636f756e7473, .many2many, 0x5472616e736163746f7273, 0, false⟩],
  [0x4d65726368616e744163636f756e7473]⟩
def m_Transactor : List RClass := d_Transactor :: m_IdentifiedObject

/-- CIM14/IEC61968/PaymentMetering/Vendor.py:23 -/
def d_Vendor : RClass := ⟨0x56656e646f72, 0x43494d31342e49454336313936382e5061796d656e744d65746572696e672e56656e646f72, 0x43494d31342e49454336313937302e436f72652e4964656e7469666965644f626a656374,
  [],
  [],
  [],
  [],
  [],
  [⟨0x506f696e744f6653616c6573, .many2one, 0x56656e646f72, 0, false⟩, ⟨0x4d65726368616e744163636f756e74, .one2many, 0x56656e646f7273, 0, false⟩, ⟨0x4361736869657273, .many2one, 0x56656e646f72, 0, false⟩, ⟨0x56656e646f72536869667473, .many2one, 0x56656e646f72, 0, false⟩],
  [0x506f696e744f6653616c6573, 0x4361736869657273, 0x56656e646f72536869667473]⟩
def m_Vendor : List RClass := d_Vendor :: m_IdentifiedObject

/-- CIM14/IEC61968/WiresExt/PerLengthPhaseImpedance.py:23 -/
def d_PerLengthPhaseImpedance : RClass := ⟨0x5065724c656e6774685068617365496d706564616e6365, 0x43494d31342e49454336313936382e57697265734578742e5065724c656e6774685068617365496d706564616e6365, 0x43494d31342e49454336313937302e436f72652e4964656e7469666965644f626a656374,
  [(0x636f6e647563746f72436f756e74, .int 0)],
  [0x636f6e647563746f72436f756e74],
  [(0x636f6e647563746f72436f756e74, .int 0)],
  [(0x636f6e647563746f72436f756e74, 0x696e74)],
  [],
  [⟨0x436f6e647563746f725365676d656e7473, .many2one, 0x5068617365496d706564616e6365, 0, false⟩, ⟨0x5068617365496d706564616e636544617461, .many2one, 0x5068617365496d706564616e6365, 0, false⟩],
  [0x436f6e647563746f725365676d656e7473, 0x5068617365496d706564616e636544617461]⟩
def m_PerLengthPhaseImpedance : List RClass := d_PerLengthPhaseImpedance :: m_IdentifiedObject

/-- CIM14/IEC61968/WiresExt/PerLengthSequenceImpedance.py:23 -/
def d_PerLengthSequenceImpedance : RClass := ⟨0x5065724c656e67746853657175656e6365496d706564616e6365, 0x43494d31342e49454336313936382e57697265734578742e5065724c656e67746853657175656e6365496d706564616e6365, 0x43494d31342e49454336313937302e436f72652e4964656e7469666965644f626a656374,
  [(0x7230, .flt 0x0), (0x72, .flt 0x0), (0x62306368, .flt 0x0), (0x7830, .flt 0x0), (0x676368, .flt 0x0), (0x67306368, .flt 0x0), (0x626368, .flt 0x0), (0x78, .flt 0x0)],
  [0x7230, 0x72, 0x62306368, 0x7830, 0x676368, 0x67306368, 0x626368, 0x78],
  [(0x7230, .flt 0x0), (0x72, .flt 0x0), (0x62306368, .flt 0x0), (0x7830, .flt 0x0), (0x676368, .flt 0x0), (0x67306368, .flt 0x0), (0x626368, .flt 0x0), (0x78, .flt 0x0)],
  [(0x7230, 0x666c6f6174), (0x72, 0x666c6f6174), (0x62306368, 0x666c6f6174), (0x7830, 0x666c6f6174), (0x676368, 0x666c6f6174), (0x67306368, 0x666c6f6174), (0x626368, 0x666c6f6174), (0x78, 0x666c6f6174)],
  [],
  [⟨0x436f6e647563746f725365676d656e7473, .many2one, 0x53657175656e6365496d706564616e6365, 0, false⟩],
  [0x436f6e647563746f725365676d656e7473]⟩
def m_PerLengthSequenceImpedance : List RClass := d_PerLengthSequenceImpedance :: m_IdentifiedObject

/-- CIM14/IEC61968/WiresExt/WindingPiImpedance.py:23 -/
def d_WindingPiImpedance : RClass := ⟨0x57696e64696e675069496d706564616e6365, 0x43494d31342e49454336313936382e57697265734578742e57696e64696e675069496d706564616e6365, 0x43494d31342e49454336313937302e436f72652e4964656e7469666965644f626a656374,
  [(0x67, .flt 0x0), (0x62, .flt 0x0), (0x72, .flt 0x0), (0x7830, .flt 0x0), (0x78, .flt 0x0), (0x7230, .flt 0x0), (0x6230, .flt 0x0), (0x6730, .flt 0x0)],
  [0x67, 0x62, 0x72, 0x7830, 0x78, 0x7230, 0x6230, 0x6730],
  [(0x67, .flt 0x0), (0x62, .flt 0x0), (0x72, .flt 0x0), (0x7830, .flt 0x0), (0x78, .flt 0x0), (0x7230, .flt 0x0), (0x6230, .flt 0x0), (0x6730, .flt 0x0)],
  [(0x67, 0x666c6f6174), (0x62, 0x666c6f6174), (0x72, 0x666c6f6174), (0x7830, 0x666c6f6174), (0x78, 0x666c6f6174), (0x7230, 0x666c6f6174), (0x6230, 0x666c6f6174), (0x6730, 0x666c6f6174)],
  [],
  [⟨0x57696e64696e6773, .many2one, 0x5069496d706564616e6365, 0, false⟩],
  [0x57696e64696e6773]⟩
def m_WindingPiImpedance : List RClass := d_WindingPiImpedance :: m_IdentifiedObject

/-- CIM14/IEC61970/Contingency/Contingency.py:23 -/
def d_Contingency : RClass := ⟨0x436f6e74696e67656e6379, 0x43494d31342e49454336313937302e436f6e74696e67656e63792e436f6e74696e67656e6379, 0x43494d31342e49454336313937302e436f72652e4964656e7469666965644f626a656374,
  [(0x6d7573745374756479, .bool false)],
  [0x6d7573745374756479],
  [(0x6d7573745374756479, .bool false)],
  [(0x6d7573745374756479, 0x626f6f6c)],
  [],
  [⟨0x436f6e74696e67656e6379456c656d656e74, .many2one, 0x436f6e74696e67656e6379, 0, false⟩],
  [0x436f6e74696e67656e6379456c656d656e74]⟩
def m_Contingency : List RClass := d_Contingency :: m_IdentifiedObject

/-- CIM14/IEC61970/Contingency/ContingencyElement.py:23 -/
def d_ContingencyElement : RClass := ⟨0x436f6e74696e67656e6379456c656d656e74, 0x43494d31342e49454336313937302e436f6e74696e67656e63792e436f6e74696e67656e6379456c656d656e74, 0x43494d31342e49454336313937302e436f72652e4964656e7469666965644f626a656374,
  [],
  [],
  [],
  [],
  [],
  [⟨0x436f6e74696e67656e6379, .one2many, 0x436f6e74696e67656e6379456c656d656e74, 0, false⟩],
  []⟩
def m_ContingencyElement : List RClass := d_ContingencyElement :: m_IdentifiedObject

/-- CIM14/IEC61970/Core/BasePower.py:23 -/
def d_BasePower : RClass := ⟨0x42617365506f776572, 0x43494d31342e49454336313937302e436f72652e42617365506f776572, 0x43494d31342e49454336313937302e436f72652e4964656e7469666965644f626a656374,
  [(0x62617365506f776572, .flt 0x0)],
  [0x62617365506f776572],
  [(0x62617365506f776572, .flt 0x0)],
  [(0x62617365506f776572, 0x666c6f6174)],
  [],
  [],
  []⟩
def m_BasePower : List RClass := d_BasePower :: m_IdentifiedObject

/-- CIM14/IEC61970/Core/BaseVoltage.py:23 -/
def d_BaseVoltage : RClass := ⟨0x42617365566f6c74616765, 0x43494d31342e49454336313937302e436f72652e42617365566f6c74616765, 0x43494d31342e49454336313937302e436f72652e4964656e7469666965644f626a656374,
  [(0x6e6f6d696e616c566f6c74616765, .flt 0x0), (0x69734443, .bool false)],
  [0x6e6f6d696e616c566f6c74616765, 0x69734443],
  [(0x6e6f6d696e616c566f6c74616765, .flt 0x0), (0x69734443, .bool false)],
  [(0x6e6f6d696e616c566f6c74616765, 0x666c6f6174), (0x69734443, 0x626f6f6c)],
  [],
  [⟨0x436f6e64756374696e6745717569706d656e74, .many2one, 0x42617365566f6c74616765, 0, false⟩, ⟨0x566f6c746167654c6576656c, .many2one, 0x42617365566f6c74616765, 0, false⟩, ⟨0x546f706f6c6f676963616c4e6f6465, .many2one, 0x42617365566f6c74616765, 0, false⟩],
  [0x436f6e64756374696e6745717569706d656e74, 0x566f6c746167654c6576656c, 0x546f706f6c6f676963616c4e6f6465]⟩
def m_BaseVoltage : List RClass := d_BaseVoltage :: m_IdentifiedObject

/-- CIM14/IEC61970/Core/BasicIntervalSchedule.py:23 -/
def d_BasicIntervalSchedule : RClass := ⟨0x4261736963496e74657276616c5363686564756c65, 0x43494d31342e49454336313937302e436f72652e4261736963496e74657276616c5363686564756c65, 0x43494d31342e49454336313937302e436f72652e4964656e7469666965644f626a656374,
  [(0x76616c7565324d756c7469706c696572, .str 0x6b), (0x76616c756532556e6974, .str 0x4e), (0x76616c7565314d756c7469706c696572, .str 0x6b), (0x76616c756531556e6974, .str 0x4e), (0x737461727454696d65, .str 0)],
  [0x76616c7565324d756c7469706c696572, 0x76616c756532556e6974, 0x76616c7565314d756c7469706c696572, 0x76616c756531556e6974, 0x737461727454696d65],
  [(0x76616c7565324d756c7469706c696572, .str 0x6b), (0x76616c756532556e6974, .str 0x4e), (0x76616c7565314d756c7469706c696572, .str 0x6b), (0x76616c756531556e6974, .str 0x4e), (0x737461727454696d65, .str 0)],
  [(0x76616c7565324d756c7469706c696572, 0x737472), (0x76616c756532556e6974, 0x737472), (0x76616c7565314d756c7469706c696572, 0x737472), (0x76616c756531556e6974, 0x737472), (0x737461727454696d65, 0x737472)],
  [(0x76616c7565324d756c7469706c696572, 0x556e69744d756c7469706c696572), (0x76616c756532556e6974, 0x556e697453796d626f6c), (0x76616c7565314d756c7469706c696572, 0x556e69744d756c7469706c696572), (0x76616c756531556e6974, 0x556e697453796d626f6c)],
  [],
  []⟩
def m_BasicIntervalSchedule : List RClass := d_BasicIntervalSchedule :: m_IdentifiedObject

/-- CIM14/IEC61970/Core/ConnectivityNode.py:23 -/
def d_ConnectivityNode : RClass := ⟨0x436f6e6e65637469766974794e6f6465, 0x43494d31342e49454336313937302e436f72652e436f6e6e65637469766974794e6f6465, 0x43494d31342e49454336313937302e436f72652e4964656e7469666965644f626a656374,
  [],
  [],
  [],
  [],
  [],
  [⟨0x546f706f6c6f676963616c4e6f6465, .one2many, 0x436f6e6e65637469766974794e6f646573, 0, false⟩, ⟨0x4275734e616d654d61726b6572, .one2many, 0x436f6e6e65637469766974794e6f6465, 0, false⟩, ⟨0x436f6e6e65637469766974794e6f6465436f6e7461696e6572, .one2many, 0x436f6e6e65637469766974794e6f646573, 0, false⟩, ⟨0x5465726d696e616c73, .many2one, 0x436f6e6e65637469766974794e6f6465, 0, false⟩],
  [0x5465726d696e616c73]⟩
def m_ConnectivityNode : List RClass := d_ConnectivityNode :: m_IdentifiedObject

/-- CIM14/IEC61970/Core/Curve.py:23 -/
def d_Curve : RClass := ⟨0x4375727665, 0x43494d31342e49454336313937302e436f72652e4375727665, 0x43494d31342e49454336313937302e436f72652e4964656e7469666965644f626a656374,
  [(0x79324d756c7469706c696572, .str 0x6b), (0x79334d756c7469706c696572, .str 0x6b), (0x7931556e6974, .str 0x4e), (0x784d756c7469706c696572, .str 0x6b), (0x7933556e6974, .str 0x4e), (0x78556e6974, .str 0x4e), (0x79314d756c7469706c696572, .str 0x6b), (0x63757276655374796c65, .str 0x72616d705956616c7565), (0x7932556e6974, .str 0x4e)],
  [0x79324d756c7469706c696572, 0x79334d756c7469706c696572, 0x7931556e6974, 0x784d756c7469706c696572, 0x7933556e6974, 0x78556e6974, 0x79314d756c7469706c696572, 0x63757276655374796c65, 0x7932556e6974],
  [(0x79324d756c7469706c696572, .str 0x6b), (0x79334d756c7469706c696572, .str 0x6b), (0x7931556e6974, .str 0x4e), (0x784d756c7469706c696572, .str 0x6b), (0x7933556e6974, .str 0x4e), (0x78556e6974, .str 0x4e), (0x79314d756c7469706c696572, .str 0x6b), (0x63757276655374796c65, .str 0x72616d705956616c7565), (0x7932556e6974, .str 0x4e)],
  [(0x79324d756c7469706c696572, 0x737472), (0x79334d756c7469706c696572, 0x737472), (0x7931556e6974, 0x737472), (0x784d756c7469706c696572, 0x737472), (0x7933556e6974, 0x737472), (0x78556e6974, 0x737472), (0x79314d756c7469706c696572, 0x737472), (0x63757276655374796c65, 0x737472), (0x7932556e6974, 0x737472)],
  [(0x79324d756c7469706c696572, 0x556e69744d756c7469706c696572), (0x79334d756c7469706c696572, 0x556e69744d756c7469706c696572), (0x7931556e6974, 0x556e697453796d626f6c), (0x784d756c7469706c696572, 0x556e69744d756c7469706c696572), (0x7933556e6974, 0x556e697453796d626f6c), (0x78556e6974, 0x556e697453796d626f6c), (0x79314d756c7469706c696572, 0x556e69744d756c7469706c696572), (0x63757276655374796c65, 0x43757276655374796c65), (0x7932556e6974, 0x556e697453796d626f6c)],
  [⟨0x43757276654461746173, .many2one, 0x4375727665, 0, false⟩],
  [0x43757276654461746173]⟩
def m_Curve : List RClass := d_Curve :: m_IdentifiedObject

/-- CIM14/IEC61970/Core/GeographicalRegion.py:23 -/
def d_GeographicalRegion : RClass := ⟨0x47656f67726170686963616c526567696f6e, 0x43494d31342e49454336313937302e436f72652e47656f67726170686963616c526567696f6e, 0x43494d31342e49454336313937302e436f72652e4964656e7469666965644f626a656374,
  [],
  [],
  [],
  [],
  [],
  [⟨0x526567696f6e73, .many2one, 0x526567696f6e, 0, false⟩],
  [0x526567696f6e73]⟩
def m_GeographicalRegion : List RClass := d_GeographicalRegion :: m_IdentifiedObject

/-- CIM14/IEC61970/Core/OperatingParticipant.py:23 -/
def d_OperatingParticipant : RClass := ⟨0x4f7065726174696e675061727469636970616e74, 0x43494d31342e49454336313937302e436f72652e4f7065726174696e675061727469636970616e74, 0x43494d31342e49454336313937302e436f72652e4964656e7469666965644f626a656374,
  [],
  [],
  [],
  [],
  [],
  [⟨0x4f7065726174696e675368617265, .many2one, 0x4f7065726174696e675061727469636970616e74, 0, false⟩],
  [0x4f7065726174696e675368617265]⟩
def m_OperatingParticipant : List RClass := d_OperatingParticipant :: m_IdentifiedObject

/-- CIM14/IEC61970/Core/PSRType.py:23 -/
def d_PSRType : RClass := ⟨0x50535254797065, 0x43494d31342e49454336313937302e436f72652e50535254797065, 0x43494d31342e49454336313937302e436f72652e4964656e7469666965644f626a656374,
  [],
  [],
  [],
  [],
  [],
  [⟨0x506f77657253797374656d5265736f7572636573, .many2one, 0x50535254797065, 0, false⟩],
  [0x506f77657253797374656d5265736f7572636573]⟩
def m_PSRType : List RClass := d_PSRType :: m_IdentifiedObject

/-- CIM14/IEC61970/Core/PowerSystemResource.py:23 -/
def d_PowerSystemResource : RClass := ⟨0x506f77657253797374656d5265736f75726365, 0x43494d31342e49454336313937302e436f72652e506f77657253797374656d5265736f75726365, 0x43494d31342e49454336313937302e436f72652e4964656e7469666965644f626a656374,
  [],
  [],
  [],
  [],
  [],
  [⟨0x4c6f636174696f6e, .one2many, 0x506f77657253797374656d5265736f7572636573, 0, false⟩, ⟨0x417373657473, .many2many, 0x506f77657253797374656d5265736f7572636573, 0, false⟩, ⟨0x5073724c69737473, .many2many, 0x506f77657253797374656d5265736f7572636573, 0, false⟩, ⟨0x4d6561737572656d656e7473, .many2one, 0x506f77657253797374656d5265736f75726365, 0, false⟩, ⟨0x4f7065726174696e675368617265, .many2one, 0x506f77657253797374656d5265736f75726365, 0, false⟩, ⟨0x4f75746167655363686564756c65, .one2one, 0x506f77657253797374656d5265736f75726365, 0, false⟩, ⟨0x5265706f7274696e6747726f7570, .many2many, 0x506f77657253797374656d5265736f75726365, 0, false⟩, ⟨0x426c6f636b, .many2one, 0x506f77657253797374656d5265736f75726365, 0, false⟩, ⟨0x50535254797065, .one2many, 0x506f77657253797374656d5265736f7572636573, 0, false⟩],
  [0x417373657473, 0x5073724c69737473, 0x4d6561737572656d656e7473, 0x4f7065726174696e675368617265, 0x5265706f7274696e6747726f7570, 0x426c6f636b]⟩
def m_PowerSystemResource : List RClass := d_PowerSystemResource :: m_IdentifiedObject

/-- CIM14/IEC61970/Core/PsrList.py:23 -/
def d_PsrList : RClass := ⟨0x5073724c697374, 0x43494d31342e49454336313937302e436f72652e5073724c697374, 0x43494d31342e49454336313937302e436f72652e4964656e7469666965644f626a656374,
  [(0x747970655053524c697374, .str 0)],
  [0x747970655053524c697374],
  [(0x747970655053524c697374, .str 0)],
  [(0x747970655053524c697374, 0x737472)],
  [],
  [⟨0x506f77657253797374656d5265736f7572636573, .many2many, 0x5073724c69737473, 0, false⟩],
  [0x506f77657253797374656d5265736f7572636573]⟩
def m_PsrList : List RClass := d_PsrList :: m_IdentifiedObject

/-- CIM14/IEC61970/Core/ReportingGroup.py:23 -/
def d_ReportingGroup : RClass := ⟨0x5265706f7274696e6747726f7570, 0x43494d31342e49454336313937302e436f72652e5265706f7274696e6747726f7570, 0x43494d31342e49454336313937302e436f72652e4964656e7469666965644f626a656374,
  [],
  [],
  [],
  [],
  [],
  [⟨0x5265706f7274696e67537570657247726f7570, .one2many, 0x5265706f7274696e6747726f7570, 0, false⟩, ⟨0x546f706f6c6f676963616c4e6f6465, .many2one, 0x5265706f7274696e6747726f7570, 0, false⟩, ⟨0x4275734e616d654d61726b6572, .many2one, 0x5265706f7274696e6747726f7570, 0, false⟩, ⟨0x506f77657253797374656d5265736f75726365, .many2many, 0x5265706f7274696e6747726f7570, 0, false⟩],
  [0x546f706f6c6f676963616c4e6f6465, 0x4275734e616d654d61726b6572, 0x506f77657253797374656d5265736f75726365]⟩
def m_ReportingGroup : List RClass := d_ReportingGroup :: m_IdentifiedObject

/-- CIM14/IEC61970/Core/ReportingSuperGroup.py:23 -/
def d_ReportingSuperGroup : RClass := ⟨0x5265706f7274696e67537570657247726f7570, 0x43494d31342e49454336313937302e436f72652e5265706f7274696e67537570657247726f7570, 0x43494d31342e49454336313937302e436f72652e4964656e7469666965644f626a656374,
  [],
  [],
  [],
  [],
  [],
  [⟨0x5265706f7274696e6747726f7570, .many2one, 0x5265706f7274696e67537570657247726f7570, 0, false⟩],
  [0x5265706f7274696e6747726f7570]⟩
def m_ReportingSuperGroup : List RClass := d_ReportingSuperGroup :: m_IdentifiedObject

/-- CIM14/IEC61970/Core/SubGeographicalRegion.py:23 -/
def d_SubGeographicalRegion : RClass := ⟨0x53756247656f67726170686963616c526567696f6e, 0x43494d31342e49454336313937302e436f72652e53756247656f67726170686963616c526567696f6e, 0x43494d31342e49454336313937302e436f72652e4964656e7469666965644f626a656374,
  [],
  [],
  [],
  [],
  [],
  [⟨0x526567696f6e, .one2many, 0x526567696f6e73, 0, false⟩, ⟨0x53756273746174696f6e73, .many2one, 0x526567696f6e, 0, false⟩, ⟨0x4c696e6573, .many2one, 0x526567696f6e, 0, false⟩],
  [0x53756273746174696f6e73, 0x4c696e6573]⟩
def m_SubGeographicalRegion : List RClass := d_SubGeographicalRegion :: m_IdentifiedObject

/-- CIM14/IEC61970/Core/Terminal.py:23 -/
def d_Terminal : RClass := ⟨0x5465726d696e616c, 0x43494d31342e49454336313937302e436f72652e5465726d696e616c, 0x43494d31342e49454336313937302e436f72652e4964656e7469666965644f626a656374,
  [(0x636f6e6e6563746564, .bool false), (0x73657175656e63654e756d626572, .int 0)],
  [0x636f6e6e6563746564, 0x73657175656e63654e756d626572],
  [(0x636f6e6e6563746564, .bool false), (0x73657175656e63654e756d626572, .int 0)],
  [(0x636f6e6e6563746564, 0x626f6f6c), (0x73657175656e63654e756d626572, 0x696e74)],
  [],
  [⟨0x546f706f6c6f676963616c4e6f6465, .one2many, 0x5465726d696e616c, 0, false⟩, ⟨0x426c6f636b, .many2one, 0x5465726d696e616c, 0, false⟩, ⟨0x4f7065726174696f6e616c4c696d6974536574, .many2one, 0x5465726d696e616c, 0, false⟩, ⟨0x4861735365636f6e645f4d757475616c436f75706c696e67, .many2one, 0x5365636f6e645f5465726d696e616c, 0, false⟩, ⟨0x526567756c6174696e67436f6e74726f6c, .many2one, 0x5465726d696e616c, 0, false⟩, ⟨0x4d6561737572656d656e7473, .many2one, 0x5465726d696e616c, 0, false⟩, ⟨0x4272616e636847726f75705465726d696e616c, .many2one, 0x5465726d696e616c, 0, false⟩, ⟨0x436f6e64756374696e6745717569706d656e74, .one2many, 0x5465726d696e616c73, 0, false⟩, ⟨0x48617346697273745f4d757475616c436f75706c696e67, .many2one, 0x46697273745f5465726d696e616c, 0, false⟩, ⟨0x5376506f776572466c6f77, .one2one, 0x5465726d696e616c, 0, false⟩, ⟨0x436f6e6e65637469766974794e6f6465, .one2many, 0x5465726d696e616c73, 0, false⟩, ⟨0x546965466c6f77, .many2one, 0x5465726d696e616c, 0, false⟩],
  [0x426c6f636b, 0x4f7065726174696f6e616c4c696d6974536574, 0x4861735365636f6e645f4d757475616c436f75706c696e67, 0x526567756c6174696e67436f6e74726f6c, 0x4d6561737572656d656e7473, 0x4272616e636847726f75705465726d696e616c, 0x48617346697273745f4d757475616c436f75706c696e67, 0x546965466c6f77]⟩
def m_Terminal : List RClass := d_Terminal :: m_IdentifiedObject

/-- CIM14/IEC61970/Core/Unit.py:23 -/
def d_Unit : RClass := ⟨0x556e6974, 0x43494d31342e49454336313937302e436f72652e556e6974, 0x43494d31342e49454336313937302e436f72652e4964656e7469666965644f626a656374,
  [],
  [],
  [],
  [],
  [],
  [⟨0x436f6e74726f6c73, .many2one, 0x556e6974, 0, false⟩, ⟨0x4d6561737572656d656e7473, .many2one, 0x556e6974, 0, false⟩, ⟨0x4d657461426c6f636b436f6e4f7574707574, .many2one, 0x556e6974, 0, false⟩, ⟨0x4d657461426c6f636b436f6e496e707574, .many2one, 0x556e6974, 0, false⟩, ⟨0x50726f74656374696f6e45717569706d656e7473, .many2one, 0x556e6974, 0, false⟩],
  [0x436f6e74726f6c73, 0x4d6561737572656d656e7473, 0x4d657461426c6f636b436f6e4f7574707574, 0x4d657461426c6f636b436f6e496e707574, 0x50726f74656374696f6e45717569706d656e7473]⟩
def m_Unit : List RClass := d_Unit :: m_IdentifiedObject

/-- CIM14/IEC61970/Dynamics/BlockConnection.py:23 -/
def d_BlockConnection : RClass := ⟨0x426c6f636b436f6e6e656374696f6e, 0x43494d31342e49454336313937302e44796e616d6963732e426c6f636b436f6e6e656374696f6e, 0x43494d31342e49454336313937302e436f72652e4964656e7469666965644f626a656374,
  [],
  [],
  [],
  [],
  [],
  [⟨0x4d657461426c6f636b436f6e6e656374696f6e, .one2many, 0x426c6f636b436f6e6e656374696f6e, 0, false⟩, ⟨0x4d656d6265724f665f426c6f636b436f6e6e6563746976697479, .one2many, 0x426c6f636b436f6e6e656374696f6e, 0, false⟩, ⟨0x426c6f636b, .one2many, 0x426c6f636b436f6e6e656374696f6e, 0, false⟩],
  []⟩
def m_BlockConnection : List RClass := d_BlockConnection :: m_IdentifiedObject

/-- CIM14/IEC61970/Dynamics/BlockConnectivity.py:23 -/
def d_BlockConnectivity : RClass := ⟨0x426c6f636b436f6e6e6563746976697479, 0x43494d31342e49454336313937302e44796e616d6963732e426c6f636b436f6e6e6563746976697479, 0x43494d31342e49454336313937302e436f72652e4964656e7469666965644f626a656374,
  [],
  [],
  [],
  [],
  [],
  [⟨0x4d657461426c6f636b436f6e6e6563746976697479, .one2many, 0x426c6f636b436f6e6e6563746976697479, 0, false⟩, ⟨0x426c6f636b, .many2one, 0x4d656d6265724f665f426c6f636b436f6e6e6563746976697479, 0, false⟩, ⟨0x426c6f636b436f6e6e656374696f6e, .many2one, 0x4d656d6265724f665f426c6f636b436f6e6e6563746976697479, 0, false⟩],
  [0x426c6f636b, 0x426c6f636b436f6e6e656374696f6e]⟩
def m_BlockConnectivity : List RClass := d_BlockConnectivity :: m_IdentifiedObject

/-- CIM14/IEC61970/Dynamics/BlockInputReference.py:23 -/
def d_BlockInputReference : RClass := ⟨0x426c6f636b496e7075745265666572656e6365, 0x43494d31342e49454336313937302e44796e616d6963732e426c6f636b496e7075745265666572656e6365, 0x43494d31342e49454336313937302e436f72652e4964656e7469666965644f626a656374,
  [],
  [],
  [],
  [],
  [],
  [⟨0x6d657461426c6f636b5265666572656e636530, .one2many, 0x626c6f636b496e7075745265666572656e636530, 0, false⟩, ⟨0x6d657461426c6f636b496e70757430, .one2many, 0x626c6f636b496e7075745265666572656e636530, 0, false⟩, ⟨0x426c6f636b436f6e6e65637461626c65, .one2many, 0x426c6f636b496e7075745265666572656e6365, 0, false⟩],
  []⟩
def m_BlockInputReference : List RClass := d_BlockInputReference :: m_IdentifiedObject

/-- CIM14/IEC61970/Dynamics/BlockInputType.py:23 -/
def d_BlockInputType : RClass := ⟨0x426c6f636b496e70757454797065, 0x43494d31342e49454336313937302e44796e616d6963732e426c6f636b496e70757454797065, 0x43494d31342e49454336313937302e436f72652e4964656e7469666965644f626a656374,
  [],
  [],
  [],
  [],
  [],
  [⟨0x736c6f74496e70757430, .many2one, 0x626c6f636b496e7075745479706530, 0, false⟩, ⟨0x6d657461426c6f636b496e70757430, .many2one, 0x626c6f636b496e7075745479706530, 0, false⟩],
  [0x736c6f74496e70757430, 0x6d657461426c6f636b496e70757430]⟩
def m_BlockInputType : List RClass := d_BlockInputType :: m_IdentifiedObject

/-- CIM14/IEC61970/Dynamics/BlockOutputType.py:23 -/
def d_BlockOutputType : RClass := ⟨0x426c6f636b4f757470757454797065, 0x43494d31342e49454336313937302e44796e616d6963732e426c6f636b4f757470757454797065, 0x43494d31342e49454336313937302e436f72652e4964656e7469666965644f626a656374,
  [],
  [],
  [],
  [],
  [],
  [⟨0x6d657461426c6f636b4f757470757430, .many2one, 0x626c6f636b4f75747075745479706530, 0, false⟩, ⟨0x736c6f744f757470757430, .many2one, 0x626c6f636b4f75747075745479706530, 0, false⟩],
  [0x6d657461426c6f636b4f757470757430, 0x736c6f744f757470757430]⟩
def m_BlockOutputType : List RClass := d_BlockOutputType :: m_IdentifiedObject

/-- CIM14/IEC61970/Dynamics/BlockParameter.py:23 -/
def d_BlockParameter : RClass := ⟨0x426c6f636b506172616d65746572, 0x43494d31342e49454336313937302e44796e616d6963732e426c6f636b506172616d65746572, 0x43494d31342e49454336313937302e436f72652e4964656e7469666965644f626a656374,
  [(0x76616c7565, .flt 0x0)],
  [0x76616c7565],
  [(0x76616c7565, .flt 0x0)],
  [(0x76616c7565, 0x666c6f6174)],
  [],
  [⟨0x4d657461426c6f636b506172616d65746572, .one2many, 0x426c6f636b506172616d65746572, 0, false⟩, ⟨0x4d656d6265724f665f4d657461426c6f636b5265666572656e6365, .one2many, 0x426c6f636b506172616d65746572, 0, false⟩, ⟨0x55736572426c6f636b506172616d65746572, .one2many, 0x426c6f636b5573616765506172616d65746572, 0, false⟩, ⟨0x4d656d6265724f665f426c6f636b, .one2many, 0x426c6f636b506172616d65746572, 0, false⟩],
  []⟩
def m_BlockParameter : List RClass := d_BlockParameter :: m_IdentifiedObject

/-- CIM14/IEC61970/Dynamics/BlockType.py:23 -/
def d_BlockType : RClass := ⟨0x426c6f636b54797065, 0x43494d31342e49454336313937302e44796e616d6963732e426c6f636b54797065, 0x43494d31342e49454336313937302e436f72652e4964656e7469666965644f626a656374,
  [],
  [],
  [],
  [],
  [],
  [⟨0x736c6f7430, .many2one, 0x626c6f636b5479706530, 0, false⟩, ⟨0x6d657461426c6f636b30, .many2one, 0x626c6f636b5479706530, 0, false⟩],
  [0x736c6f7430, 0x6d657461426c6f636b30]⟩
def m_BlockType : List RClass := d_BlockType :: m_IdentifiedObject

/-- CIM14/IEC61970/Dynamics/BlockUsageInputReference.py:23 -/
def d_BlockUsageInputReference : RClass := ⟨0x426c6f636b5573616765496e7075745265666572656e6365, 0x43494d31342e49454336313937302e44796e616d6963732e426c6f636b5573616765496e7075745265666572656e6365, 0x43494d31342e49454336313937302e436f72652e4964656e7469666965644f626a656374,
  [],
  [],
  [],
  [],
  [],
  [⟨0x626c6f636b30, .one2many, 0x626c6f636b5573616765496e7075745265666572656e636530, 0, false⟩, ⟨0x426c6f636b55736167654f75747075745265666572656e6365, .one2many, 0x426c6f636b5573616765496e7075745265666572656e6365, 0, false⟩, ⟨0x6d657461426c6f636b496e70757430, .one2many, 0x626c6f636b5573616765496e7075745265666572656e636530, 0, false⟩],
  []⟩
def m_BlockUsageInputReference : List RClass := d_BlockUsageInputReference :: m_IdentifiedObject

/-- CIM14/IEC61970/Dynamics/BlockUsageOutputReference.py:23 -/
def d_BlockUsageOutputReference : RClass := ⟨0x426c6f636b55736167654f75747075745265666572656e6365, 0x43494d31342e49454336313937302e44796e616d6963732e426c6f636b55736167654f75747075745265666572656e6365, 0x43494d31342e49454336313937302e436f72652e4964656e7469666965644f626a656374,
  [],
  [],
  [],
  [],
  [],
  [⟨0x626c6f636b30, .one2many, 0x426c6f636b55736167654f75747075745265666572656e6365, 0, false⟩, ⟨0x426c6f636b5573616765496e7075745265666572656e6365, .many2one, 0x426c6f636b55736167654f75747075745265666572656e6365, 0, false⟩, ⟨0x6d657461426c6f636b4f757470757430, .one2many, 0x626c6f636b55736167654f75747075745265666572656e636530, 0, false⟩],
  [0x426c6f636b5573616765496e7075745265666572656e6365]⟩
def m_BlockUsageOutputReference : List RClass := d_BlockUsageOutputReference :: m_IdentifiedObject

/-- CIM14/IEC61970/Dynamics/ConnectionFrame.py:23 -/
def d_ConnectionFrame : RClass := ⟨0x436f6e6e656374696f6e4672616d65, 0x43494d31342e49454336313937302e44796e616d6963732e436f6e6e656374696f6e4672616d65, 0x43494d31342e49454336313937302e436f72652e4964656e7469666965644f626a656374,
  [],
  [],
  [],
  [],
  [],
  [⟨0x736c6f74436f6e6e656374696f6e30, .many2one, 0x636f6e6e656374696f6e4672616d6530, 0, false⟩, ⟨0x736c6f7430, .many2one, 0x636f6e6e656374696f6e4672616d6530, 0, false⟩],
  [0x736c6f74436f6e6e656374696f6e30, 0x736c6f7430]⟩
def m_ConnectionFrame : List RClass := d_ConnectionFrame :: m_IdentifiedObject

/-- CIM14/IEC61970/Dynamics/MetaBlock.py:23 -/
def d_MetaBlock : RClass := ⟨0x4d657461426c6f636b, 0x43494d31342e49454336313937302e44796e616d6963732e4d657461426c6f636b, 0x43494d31342e49454336313937302e436f72652e4964656e7469666965644f626a656374,
  [(0x626c6f636b4b696e64, .str 0x706f77657253797374656d53746162696c697a6572), (0x696e7465726e616c, .bool false), (0x70726f7072696574617279, .bool false), (0x7072696d6974697665, .bool false)],
  [0x626c6f636b4b696e64, 0x696e7465726e616c, 0x70726f7072696574617279, 0x7072696d6974697665],
  [(0x626c6f636b4b696e64, .str 0x706f77657253797374656d53746162696c697a6572), (0x696e7465726e616c, .bool false), (0x70726f7072696574617279, .bool false), (0x7072696d6974697665, .bool false)],
  [(0x626c6f636b4b696e64, 0x737472), (0x696e7465726e616c, 0x626f6f6c), (0x70726f7072696574617279, 0x626f6f6c), (0x7072696d6974697665, 0x626f6f6c)],
  [(0x626c6f636b4b696e64, 0x426c6f636b4b696e64)],
  [⟨0x4d657461426c6f636b5265666572656e6365, .many2one, 0x4d656d6265724f665f4d657461426c6f636b, 0, false⟩, ⟨0x4d657461426c6f636b4f7574707574, .many2one, 0x4d656d6265724f665f4d657461426c6f636b, 0, false⟩, ⟨0x4d657461426c6f636b5374617465, .many2one, 0x4d656d6265724f665f4d657461426c6f636b, 0, false⟩, ⟨0x4d657461426c6f636b5369676e616c, .many2one, 0x4d656d6265724f665f4d657461426c6f636b, 0, false⟩, ⟨0x626c6f636b5479706530, .one2many, 0x6d657461426c6f636b30, 0, false⟩, ⟨0x4d657461426c6f636b496e707574, .many2one, 0x4d656d6265724f665f4d657461426c6f636b, 0, false⟩, ⟨0x626c6f636b436f6e7374616e7430, .many2one, 0x6d657461426c6f636b30, 0, false⟩, ⟨0x426c6f636b, .many2one, 0x4d657461426c6f636b, 0, false⟩, ⟨0x4d657461426c6f636b506172616d65746572, .many2one, 0x4d656d6265724f665f4d657461426c6f636b, 0, false⟩],
  [0x4d657461426c6f636b5265666572656e6365, 0x4d657461426c6f636b4f7574707574, 0x4d657461426c6f636b5374617465, 0x4d657461426c6f636b5369676e616c, 0x4d657461426c6f636b496e707574, 0x626c6f636b436f6e7374616e7430, 0x426c6f636b, 0x4d657461426c6f636b506172616d65746572]⟩
def m_MetaBlock : List RClass := d_MetaBlock :: m_IdentifiedObject

/-- CIM14/IEC61970/Dynamics/MetaBlockConInput.py:23 -/
def d_MetaBlockConInput : RClass := ⟨0x4d657461426c6f636b436f6e496e707574, 0x43494d31342e49454336313937302e44796e616d6963732e4d657461426c6f636b436f6e496e707574, 0x43494d31342e49454336313937302e436f72652e4964656e7469666965644f626a656374,
  [],
  [],
  [],
  [],
  [],
  [⟨0x4d657461426c6f636b436f6e5369676e616c, .one2one, 0x4d657461426c6f636b436f6e496e707574, 0, false⟩, ⟨0x4d656d6265724f665f4d657461426c6f636b436f6e6e656374696f6e, .one2many, 0x4d657461426c6f636b436f6e496e707574, 0, false⟩, ⟨0x556e6974, .one2many, 0x4d657461426c6f636b436f6e496e707574, 0, false⟩],
  []⟩
def m_MetaBlockConInput : List RClass := d_MetaBlockConInput :: m_IdentifiedObject

/-- CIM14/IEC61970/Dynamics/MetaBlockConOutput.py:23 -/
def d_MetaBlockConOutput : RClass := ⟨0x4d657461426c6f636b436f6e4f7574707574, 0x43494d31342e49454336313937302e44796e616d6963732e4d657461426c6f636b436f6e4f7574707574, 0x43494d31342e49454336313937302e436f72652e4964656e7469666965644f626a656374,
  [],
  [],
  [],
  [],
  [],
  [⟨0x4d657461426c6f636b436f6e5369676e616c, .many2one, 0x4d657461426c6f636b436f6e4f7574707574, 0, false⟩, ⟨0x4d656d6265724f665f4d657461426c6f636b436f6e6e656374696f6e, .one2many, 0x4d657461426c6f636b436f6e4f7574707574, 0, false⟩, ⟨0x556e6974, .one2many, 0x4d657461426c6f636b436f6e4f7574707574, 0, false⟩],
  [0x4d657461426c6f636b436f6e5369676e616c]⟩
def m_MetaBlockConOutput : List RClass := d_MetaBlockConOutput :: m_IdentifiedObject

/-- CIM14/IEC61970/Dynamics/MetaBlockConSignal.py:23 -/
def d_MetaBlockConSignal : RClass := ⟨0x4d657461426c6f636b436f6e5369676e616c, 0x43494d31342e49454336313937302e44796e616d6963732e4d657461426c6f636b436f6e5369676e616c, 0x43494d31342e49454336313937302e436f72652e4964656e7469666965644f626a656374,
  [],
  [],
  [],
  [],
  [],
  [⟨0x4d657461426c6f636b436f6e496e707574, .one2one, 0x4d657461426c6f636b436f6e5369676e616c, 0, false⟩, ⟨0x4d656d6265724f665f4d657461426c6f636b436f6e6e6563746976697479, .one2many, 0x4d657461426c6f636b436f6e5369676e616c, 0, false⟩, ⟨0x4d657461426c6f636b436f6e4f7574707574, .one2many, 0x4d657461426c6f636b436f6e5369676e616c, 0, false⟩, ⟨0x6d657461426c6f636b436f6e6e656374697669747930, .one2many, 0x6d657461426c6f636b436f6e5369676e616c30, 0, false⟩],
  []⟩
def m_MetaBlockConSignal : List RClass := d_MetaBlockConSignal :: m_IdentifiedObject

/-- CIM14/IEC61970/Dynamics/MetaBlockConnectable.py:23 -/
def d_MetaBlockConnectable : RClass := ⟨0x4d657461426c6f636b436f6e6e65637461626c65, 0x43494d31342e49454336313937302e44796e616d6963732e4d657461426c6f636b436f6e6e65637461626c65, 0x43494d31342e49454336313937302e436f72652e4964656e7469666965644f626a656374,
  [],
  [],
  [],
  [],
  [],
  [⟨0x5374616e64617264436f6e74726f6c426c6f636b5f4d657461426c6f636b53746174655265666572656e6365, .many2one, 0x5374616e64617264436f6e74726f6c426c6f636b5f4d657461426c6f636b436f6e6e65637461626c65, 0, false⟩, ⟨0x4d657461426c6f636b4f75747075745265666572656e6365, .many2one, 0x4d657461426c6f636b436f6e6e65637461626c65, 0, false⟩, ⟨0x4d657461426c6f636b53746174655265666572656e6365, .many2one, 0x4d657461426c6f636b436f6e6e65637461626c65, 0, false⟩, ⟨0x426c6f636b496e7075745265666572656e6365, .many2one, 0x426c6f636b436f6e6e65637461626c65, 0, false⟩, ⟨0x5374616e64617264436f6e74726f6c426c6f636b5f4d657461426c6f636b496e7075745265666572656e6365, .many2one, 0x5374616e64617264436f6e74726f6c426c6f636b5f4d657461426c6f636b436f6e6e65637461626c65, 0, false⟩, ⟨0x5374616e64617264436f6e74726f6c426c6f636b5f4d657461426c6f636b506172616d657465725265666572656e6365, .many2one, 0x5374616e64617264436f6e74726f6c426c6f636b5f4d657461426c6f636b436f6e6e65637461626c65, 0, false⟩, ⟨0x4d657461426c6f636b506172616d657465725265666572656e6365, .many2one, 0x4d657461426c6f636b436f6e6e65637461626c65, 0, false⟩, ⟨0x5374616e64617264436f6e74726f6c426c6f636b5f4d657461426c6f636b4f75747075745265666572656e6365, .many2one, 0x5374616e64617264436f6e74726f6c426c6f636b5f4d657461426c6f636b436f6e6e65637461626c65, 0, false⟩, ⟨0x4d657461426c6f636b496e7075745265666572656e6365, .many2one, 0x4d657461426c6f636b436f6e6e65637461626c65, 0, false⟩],
  [0x5374616e64617264436f6e74726f6c426c6f636b5f4d657461426c6f636b53746174655265666572656e6365, 0x4d657461426c6f636b4f75747075745265666572656e6365, 0x4d657461426c6f636b53746174655265666572656e6365, 0x426c6f636b496e7075745265666572656e6365, 0x5374616e64617264436f6e74726f6c426c6f636b5f4d657461426c6f636b496e7075745265666572656e6365, 0x5374616e64617264436f6e74726f6c426c6f636b5f4d657461426c6f636b506172616d657465725265666572656e6365, 0x4d657461426c6f636b506172616d657465725265666572656e6365, 0x5374616e64617264436f6e74726f6c426c6f636b5f4d657461426c6f636b4f75747075745265666572656e6365, 0x4d657461426c6f636b496e7075745265666572656e6365]⟩
def m_MetaBlockConnectable : List RClass := d_MetaBlockConnectable :: m_IdentifiedObject

/-- CIM14/IEC61970/Dynamics/MetaBlockConnection.py:23 -/
def d_MetaBlockConnection : RClass := ⟨0x4d657461426c6f636b436f6e6e656374696f6e, 0x43494d31342e49454336313937302e44796e616d6963732e4d657461426c6f636b436f6e6e656374696f6e, 0x43494d31342e49454336313937302e436f72652e4964656e7469666965644f626a656374,
  [(0x736c6f746e616d65, .str 0)],
  [0x736c6f746e616d65],
  [(0x736c6f746e616d65, .str 0)],
  [(0x736c6f746e616d65, 0x737472)],
  [],
  [⟨0x4d657461426c6f636b436f6e4f7574707574, .many2one, 0x4d656d6265724f665f4d657461426c6f636b436f6e6e656374696f6e, 0, false⟩, ⟨0x4d657461426c6f636b436f6e496e707574, .many2one, 0x4d656d6265724f665f4d657461426c6f636b436f6e6e656374696f6e, 0, false⟩, ⟨0x6d657461426c6f636b436f6e6e656374697669747930, .one2many, 0x6d657461426c6f636b436f6e6e656374696f6e30, 0, false⟩, ⟨0x426c6f636b436f6e6e656374696f6e, .many2one, 0x4d657461426c6f636b436f6e6e656374696f6e, 0, false⟩, ⟨0x4d656d6265724f665f4d657461426c6f636b436f6e6e6563746976697479, .one2many, 0x4d657461426c6f636b436f6e6e656374696f6e, 0, false⟩],
  [0x4d657461426c6f636b436f6e4f7574707574, 0x4d657461426c6f636b436f6e496e707574, 0x426c6f636b436f6e6e656374696f6e]⟩
def m_MetaBlockConnection : List RClass := d_MetaBlockConnection :: m_IdentifiedObject

/-- CIM14/IEC61970/Dynamics/MetaBlockConnectivity.py:23 -/
def d_MetaBlockConnectivity : RClass := ⟨0x4d657461426c6f636b436f6e6e6563746976697479, 0x43494d31342e49454336313937302e44796e616d6963732e4d657461426c6f636b436f6e6e6563746976697479, 0x43494d31342e49454336313937302e436f72652e4964656e7469666965644f626a656374,
  [],
  [],
  [],
  [],
  [],
  [⟨0x426c6f636b436f6e6e6563746976697479, .many2one, 0x4d657461426c6f636b436f6e6e6563746976697479, 0, false⟩, ⟨0x4d657461426c6f636b436f6e5369676e616c, .many2one, 0x4d656d6265724f665f4d657461426c6f636b436f6e6e6563746976697479, 0, false⟩, ⟨0x6d657461426c6f636b436f6e6e656374696f6e30, .many2one, 0x6d657461426c6f636b436f6e6e656374697669747930, 0, false⟩, ⟨0x6d657461426c6f636b436f6e5369676e616c30, .many2one, 0x6d657461426c6f636b436f6e6e656374697669747930, 0, false⟩, ⟨0x4d657461426c6f636b436f6e6e656374696f6e, .many2one, 0x4d656d6265724f665f4d657461426c6f636b436f6e6e6563746976697479, 0, false⟩],
  [0x426c6f636b436f6e6e6563746976697479, 0x4d657461426c6f636b436f6e5369676e616c, 0x6d657461426c6f636b436f6e6e656374696f6e30, 0x6d657461426c6f636b436f6e5369676e616c30, 0x4d657461426c6f636b436f6e6e656374696f6e]⟩
def m_MetaBlockConnectivity : List RClass := d_MetaBlockConnectivity :: m_IdentifiedObject

/-- CIM14/IEC61970/Dynamics/MetaBlockInputReference.py:23 -/
def d_MetaBlockInputReference : RClass := ⟨0x4d657461426c6f636b496e7075745265666572656e6365, 0x43494d31342e49454336313937302e44796e616d6963732e4d657461426c6f636b496e7075745265666572656e6365, 0x43494d31342e49454336313937302e436f72652e4964656e7469666965644f626a656374,
  [(0x706f736974697665466c6f77496e, .bool false)],
  [0x706f736974697665466c6f77496e],
  [(0x706f736974697665466c6f77496e, .bool false)],
  [(0x706f736974697665466c6f77496e, 0x626f6f6c)],
  [],
  [⟨0x5374616e64617264436f6e74726f6c426c6f636b5f4d657461426c6f636b436f6e6e65637461626c65, .one2many, 0x5374616e64617264436f6e74726f6c426c6f636b5f4d657461426c6f636b496e7075745265666572656e6365, 0, false⟩, ⟨0x4d656d6265724f665f4d657461426c6f636b5265666572656e6365, .one2many, 0x4d657461426c6f636b496e7075745265666572656e6365, 0, false⟩, ⟨0x4d657461426c6f636b5369676e616c, .one2one, 0x46726f6d, 0, false⟩, ⟨0x4d657461426c6f636b436f6e6e65637461626c65, .one2many, 0x4d657461426c6f636b496e7075745265666572656e6365, 0, false⟩],
  []⟩
def m_MetaBlockInputReference : List RClass := d_MetaBlockInputReference :: m_IdentifiedObject

/-- CIM14/IEC61970/Dynamics/MetaBlockOutputReference.py:23 -/
def d_MetaBlockOutputReference : RClass := ⟨0x4d657461426c6f636b4f75747075745265666572656e6365, 0x43494d31342e49454336313937302e44796e616d6963732e4d657461426c6f636b4f75747075745265666572656e6365, 0x43494d31342e49454336313937302e436f72652e4964656e7469666965644f626a656374,
  [],
  [],
  [],
  [],
  [],
  [⟨0x4d657461426c6f636b436f6e6e65637461626c65, .one2many, 0x4d657461426c6f636b4f75747075745265666572656e6365, 0, false⟩, ⟨0x4d656d6265724f665f4d657461426c6f636b5265666572656e6365, .one2many, 0x4d657461426c6f636b4f75747075745265666572656e6365, 0, false⟩, ⟨0x4d657461426c6f636b5369676e616c, .many2one, 0x546f, 0, false⟩, ⟨0x5374616e64617264436f6e74726f6c426c6f636b5f4d657461426c6f636b436f6e6e65637461626c65, .one2many, 0x5374616e64617264436f6e74726f6c426c6f636b5f4d657461426c6f636b4f75747075745265666572656e6365, 0, false⟩],
  [0x4d657461426c6f636b5369676e616c]⟩
def m_MetaBlockOutputReference : List RClass := d_MetaBlockOutputReference :: m_IdentifiedObject

/-- CIM14/IEC61970/Dynamics/MetaBlockParameterReference.py:23 -/
def d_MetaBlockParameterReference : RClass := ⟨0x4d657461426c6f636b506172616d657465725265666572656e6365, 0x43494d31342e49454336313937302e44796e616d6963732e4d657461426c6f636b506172616d657465725265666572656e6365, 0x43494d31342e49454336313937302e436f72652e4964656e7469666965644f626a656374,
  [],
  [],
  [],
  [],
  [],
  [⟨0x5374616e64617264436f6e74726f6c426c6f636b5f4d657461426c6f636b436f6e6e65637461626c65, .one2many, 0x5374616e64617264436f6e74726f6c426c6f636b5f4d657461426c6f636b506172616d657465725265666572656e6365, 0, false⟩, ⟨0x4d657461426c6f636b436f6e6e65637461626c65, .one2many, 0x4d657461426c6f636b506172616d657465725265666572656e6365, 0, false⟩, ⟨0x4d656d6265724f665f4d657461426c6f636b5265666572656e6365, .one2many, 0x4d657461426c6f636b506172616d657465725265666572656e6365, 0, false⟩],
  []⟩
def m_MetaBlockParameterReference : List RClass := d_MetaBlockParameterReference :: m_IdentifiedObject

/-- CIM14/IEC61970/Dynamics/MetaBlockReference.py:23 -/
def d_MetaBlockReference : RClass := ⟨0x4d657461426c6f636b5265666572656e6365, 0x43494d31342e49454336313937302e44796e616d6963732e4d657461426c6f636b5265666572656e6365, 0x43494d31342e49454336313937302e436f72652e4964656e7469666965644f626a656374,
  [(0x6571756174696f6e54797065, .str 0)],
  [0x6571756174696f6e54797065],
  [(0x6571756174696f6e54797065, .str 0)],
  [(0x6571756174696f6e54797065, 0x737472)],
  [],
  [⟨0x626c6f636b496e7075745265666572656e636530, .many2one, 0x6d657461426c6f636b5265666572656e636530, 0, false⟩, ⟨0x4d656d6265724f665f4d657461426c6f636b, .one2many, 0x4d657461426c6f636b5265666572656e6365, 0, false⟩, ⟨0x4d657461426c6f636b, .plainOne, 0, 0, false⟩, ⟨0x626c6f636b4f75747075745265666572656e636530, .many2many, 0x6d657461426c6f636b5265666572656e636530, 0, false⟩, ⟨0x4d657461426c6f636b53746174655265666572656e6365, .many2one, 0x4d656d6265724f665f4d657461426c6f636b5265666572656e6365, 0, false⟩, ⟨0x4d657461426c6f636b496e7075745265666572656e6365, .many2one, 0x4d656d6265724f665f4d657461426c6f636b5265666572656e6365, 0, false⟩, ⟨0x4d657461426c6f636b4f75747075745265666572656e6365, .many2one, 0x4d656d6265724f665f4d657461426c6f636b5265666572656e6365, 0, false⟩, ⟨0x426c6f636b506172616d65746572, .many2one, 0x4d656d6265724f665f4d657461426c6f636b5265666572656e6365, 0, false⟩, ⟨0x4d657461426c6f636b506172616d657465725265666572656e6365, .many2one, 0x4d656d6265724f665f4d657461426c6f636b5265666572656e6365, 0, false⟩],
  [0x626c6f636b496e7075745265666572656e636530, 0x626c6f636b4f75747075745265666572656e636530, 0x4d657461426c6f636b53746174655265666572656e6365, 0x4d657461426c6f636b496e7075745265666572656e6365, 0x4d657461426c6f636b4f75747075745265666572656e6365, 0x426c6f636b506172616d65746572, 0x4d657461426c6f636b506172616d657465725265666572656e6365]⟩
def m_MetaBlockReference : List RClass := d_MetaBlockReference :: m_IdentifiedObject

/-- CIM14/IEC61970/Dynamics/MetaBlockSignal.py:23 -/
def d_MetaBlockSignal : RClass := ⟨0x4d657461426c6f636b5369676e616c, 0x43494d31342e49454336313937302e44796e616d6963732e4d657461426c6f636b5369676e616c, 0x43494d31342e49454336313937302e436f72652e4964656e7469666965644f626a656374,
  [],
  [],
  [],
  [],
  [],
  [⟨0x6d657461426c6f636b5369676e616c31, .many2many, 0x6d657461426c6f636b5369676e616c, 0, false⟩, ⟨0x6d657461426c6f636b5369676e616c, .many2many, 0x6d657461426c6f636b5369676e616c31, 0, false⟩, ⟨0x4d656d6265724f665f4d657461426c6f636b, .one2many, 0x4d657461426c6f636b5369676e616c, 0, false⟩, ⟨0x46726f6d, .one2one, 0x4d657461426c6f636b5369676e616c, 0, false⟩, ⟨0x546f, .one2many, 0x4d657461426c6f636b5369676e616c, 0, false⟩],
  [0x6d657461426c6f636b5369676e616c31, 0x6d657461426c6f636b5369676e616c]⟩
def m_MetaBlockSignal : List RClass := d_MetaBlockSignal :: m_IdentifiedObject

/-- CIM14/IEC61970/Dynamics/MetaBlockStateReference.py:23 -/
def d_MetaBlockStateReference : RClass := ⟨0x4d657461426c6f636b53746174655265666572656e6365, 0x43494d31342e49454336313937302e44796e616d6963732e4d657461426c6f636b53746174655265666572656e6365, 0x43494d31342e49454336313937302e436f72652e4964656e7469666965644f626a656374,
  [(0x706f736974697665466c6f77496e, .bool false)],
  [0x706f736974697665466c6f77496e],
  [(0x706f736974697665466c6f77496e, .bool false)],
  [(0x706f736974697665466c6f77496e, 0x626f6f6c)],
  [],
  [⟨0x5374616e64617264436f6e74726f6c426c6f636b5f4d657461426c6f636b436f6e6e65637461626c65, .one2many, 0x5374616e64617264436f6e74726f6c426c6f636b5f4d657461426c6f636b53746174655265666572656e6365, 0, false⟩, ⟨0x4d657461426c6f636b436f6e6e65637461626c65, .one2many, 0x4d657461426c6f636b53746174655265666572656e6365, 0, false⟩, ⟨0x4d656d6265724f665f4d657461426c6f636b5265666572656e6365, .one2many, 0x4d657461426c6f636b53746174655265666572656e6365, 0, false⟩],
  []⟩
def m_MetaBlockStateReference : List RClass := d_MetaBlockStateReference :: m_IdentifiedObject

/-- CIM14/IEC61970/Dynamics/Slot.py:23 -/
def d_Slot : RClass := ⟨0x536c6f74, 0x43494d31342e49454336313937302e44796e616d6963732e536c6f74, 0x43494d31342e49454336313937302e436f72652e4964656e7469666965644f626a656374,
  [],
  [],
  [],
  [],
  [],
  [⟨0x626c6f636b5479706530, .one2many, 0x736c6f7430, 0, false⟩, ⟨0x736c6f745265666572656e636530, .many2one, 0x736c6f7430, 0, false⟩, ⟨0x736c6f744f757470757430, .many2one, 0x736c6f7430, 0, false⟩, ⟨0x636f6e6e656374696f6e4672616d6530, .one2many, 0x736c6f7430, 0, false⟩, ⟨0x736c6f74496e70757430, .many2one, 0x736c6f7430, 0, false⟩],
  [0x736c6f745265666572656e636530, 0x736c6f744f757470757430, 0x736c6f74496e70757430]⟩
def m_Slot : List RClass := d_Slot :: m_IdentifiedObject

/-- CIM14/IEC61970/Dynamics/SlotConnection.py:23 -/
def d_SlotConnection : RClass := ⟨0x536c6f74436f6e6e656374696f6e, 0x43494d31342e49454336313937302e44796e616d6963732e536c6f74436f6e6e656374696f6e, 0x43494d31342e49454336313937302e436f72652e4964656e7469666965644f626a656374,
  [],
  [],
  [],
  [],
  [],
  [⟨0x636f6e6e656374696f6e4672616d6530, .one2many, 0x736c6f74436f6e6e656374696f6e30, 0, false⟩, ⟨0x736c6f74496e70757430, .one2one, 0x736c6f74436f6e6e656374696f6e30, 0, false⟩, ⟨0x736c6f744f757470757430, .one2many, 0x736c6f74436f6e6e656374696f6e30, 0, false⟩],
  []⟩
def m_SlotConnection : List RClass := d_SlotConnection :: m_IdentifiedObject

/-- CIM14/IEC61970/Dynamics/SlotInput.py:23 -/
def d_SlotInput : RClass := ⟨0x536c6f74496e707574, 0x43494d31342e49454336313937302e44796e616d6963732e536c6f74496e707574, 0x43494d31342e49454336313937302e436f72652e4964656e7469666965644f626a656374,
  [],
  [],
  [],
  [],
  [],
  [⟨0x626c6f636b496e7075745479706530, .one2many, 0x736c6f74496e70757430, 0, false⟩, ⟨0x736c6f74436f6e6e656374696f6e30, .one2one, 0x736c6f74496e70757430, 0, false⟩, ⟨0x736c6f7430, .one2many, 0x736c6f74496e70757430, 0, false⟩],
  []⟩
def m_SlotInput : List RClass := d_SlotInput :: m_IdentifiedObject

/-- CIM14/IEC61970/Dynamics/SlotOutput.py:23 -/
def d_SlotOutput : RClass := ⟨0x536c6f744f7574707574, 0x43494d31342e49454336313937302e44796e616d6963732e536c6f744f7574707574, 0x43494d31342e49454336313937302e436f72652e4964656e7469666965644f626a656374,
  [],
  [],
  [],
  [],
  [],
  [⟨0x736c6f7430, .one2many, 0x736c6f744f757470757430, 0, false⟩, ⟨0x736c6f74436f6e6e656374696f6e30, .many2one, 0x736c6f744f757470757430, 0, false⟩, ⟨0x626c6f636b4f75747075745479706530, .one2many, 0x736c6f744f757470757430, 0, false⟩],
  [0x736c6f74436f6e6e656374696f6e30]⟩
def m_SlotOutput : List RClass := d_SlotOutput :: m_IdentifiedObject

/-- CIM14/IEC61970/Dynamics/SlotReference.py:23 -/
def d_SlotReference : RClass := ⟨0x536c6f745265666572656e6365, 0x43494d31342e49454336313937302e44796e616d6963732e536c6f745265666572656e6365, 0x43494d31342e49454336313937302e436f72652e4964656e7469666965644f626a656374,
  [],
  [],
  [],
  [],
  [],
  [⟨0x736c6f7430, .one2many, 0x736c6f745265666572656e636530, 0, false⟩, ⟨0x626c6f636b30, .many2one, 0x736c6f745265666572656e636530, 0, false⟩, ⟨0x636f6d706f736974654d6f64656c30, .many2many, 0x736c6f745265666572656e636530, 0, false⟩],
  [0x626c6f636b30, 0x636f6d706f736974654d6f64656c30]⟩
def m_SlotReference : List RClass := d_SlotReference :: m_IdentifiedObject

/-- CIM14/IEC61970/Dynamics/TieToMeasurement.py:23 -/
def d_TieToMeasurement : RClass := ⟨0x546965546f4d6561737572656d656e74, 0x43494d31342e49454336313937302e44796e616d6963732e546965546f4d6561737572656d656e74, 0x43494d31342e49454336313937302e436f72652e4964656e7469666965644f626a656374,
  [],
  [],
  [],
  [],
  [],
  [⟨0x6d6561737572656d656e7430, .one2many, 0x746965546f4d6561737572656d656e7430, 0, false⟩, ⟨0x626c6f636b30, .one2many, 0x746965546f4d6561737572656d656e7430, 0, false⟩, ⟨0x6d657461426c6f636b496e70757430, .one2many, 0x746965546f4d6561737572656d656e7430, 0, false⟩],
  []⟩
def m_TieToMeasurement : List RClass := d_TieToMeasurement :: m_IdentifiedObject

/-- CIM14/IEC61970/Generation/Production/FossilFuel.py:23 -/
def d_FossilFuel : RClass := ⟨0x466f7373696c4675656c, 0x43494d31342e49454336313937302e47656e65726174696f6e2e50726f64756374696f6e2e466f7373696c4675656c, 0x43494d31342e49454336313937302e436f72652e4964656e7469666965644f626a656374,
  [(0x666f7373696c4675656c54797065, .str 0x6c69676e697465), (0x6675656c53756c667572, .flt 0x0), (0x6675656c4d697874757265, .flt 0x0), (0x6675656c436f7374, .flt 0x0), (0x6675656c48616e646c696e67436f7374, .flt 0x0), (0x6675656c456666466163746f72, .flt 0x0), (0x6675656c48656174436f6e74656e74, .flt 0x0), (0x6675656c4469737061746368436f7374, .flt 0x0), (0x6c6f77427265616b706f696e7450, .flt 0x0), (0x68696768427265616b706f696e7450, .flt 0x0)],
  [0x666f7373696c4675656c54797065, 0x6675656c53756c667572, 0x6675656c4d697874757265, 0x6675656c436f7374, 0x6675656c48616e646c696e67436f7374, 0x6675656c456666466163746f72, 0x6675656c48656174436f6e74656e74, 0x6675656c4469737061746368436f7374, 0x6c6f77427265616b706f696e7450, 0x68696768427265616b706f696e7450],
  [(0x666f7373696c4675656c54797065, .str 0x6c69676e697465), (0x6675656c53756c667572, .flt 0x0), (0x6675656c4d697874757265, .flt 0x0), (0x6675656c436f7374, .flt 0x0), (0x6675656c48616e646c696e67436f7374, .flt 0x0), (0x6675656c456666466163746f72, .flt 0x0), (0x6675656c48656174436f6e74656e74, .flt 0x0), (0x6675656c4469737061746368436f7374, .flt 0x0), (0x6c6f77427265616b706f696e7450, .flt 0x0), (0x68696768427265616b706f696e7450, .flt 0x0)],
  [(0x666f7373696c4675656c54797065, 0x737472), (0x6675656c53756c667572, 0x666c6f6174), (0x6675656c4d697874757265, 0x666c6f6174), (0x6675656c436f7374, 0x666c6f6174), (0x6675656c48616e646c696e67436f7374, 0x666c6f6174), (0x6675656c456666466163746f72, 0x666c6f6174), (0x6675656c48656174436f6e74656e74, 0x666c6f6174), (0x6675656c4469737061746368436f7374, 0x666c6f6174), (0x6c6f77427265616b706f696e7450, 0x666c6f6174), (0x68696768427265616b706f696e7450, 0x666c6f6174)],
  [(0x666f7373696c4675656c54797065, 0x4675656c54797065)],
  [⟨0x4675656c416c6c6f636174696f6e5363686564756c6573, .many2one, 0x466f7373696c4675656c, 0, false⟩, ⟨0x546865726d616c47656e65726174696e67556e6974, .one2many, 0x466f7373696c4675656c73, 0, false⟩],
  [0x4675656c416c6c6f636174696f6e5363686564756c6573]⟩
def m_FossilFuel : List RClass := d_FossilFuel :: m_IdentifiedObject

/-- CIM14/IEC61970/Generation/Production/StartupModel.py:23 -/
def d_StartupModel : RClass := ⟨0x537461727475704d6f64656c, 0x43494d31342e49454336313937302e47656e65726174696f6e2e50726f64756374696f6e2e537461727475704d6f64656c, 0x43494d31342e49454336313937302e436f72652e4964656e7469666965644f626a656374,
  [(0x7374627941757850, .flt 0x0), (0x696e6372656d656e74616c4d61696e74436f7374, .flt 0x0), (0x686f745374616e64627948656174, .flt 0x0), (0x737461727475705072696f72697479, .int 0), (0x66697865644d61696e74436f7374, .flt 0x0), (0x7374617274757044617465, .str 0), (0x6d696e696d756d52756e54696d65, .flt 0x0), (0x73746172747570436f7374, .flt 0x0), (0x7269736b466163746f72436f7374, .flt 0x0), (0x6d696e696d756d446f776e54696d65, .flt 0x0)],
  [0x7374627941757850, 0x696e6372656d656e74616c4d61696e74436f7374, 0x686f745374616e64627948656174, 0x737461727475705072696f72697479, 0x66697865644d61696e74436f7374, 0x7374617274757044617465, 0x6d696e696d756d52756e54696d65, 0x73746172747570436f7374, 0x7269736b466163746f72436f7374, 0x6d696e696d756d446f776e54696d65],
  [(0x7374627941757850, .flt 0x0), (0x696e6372656d656e74616c4d61696e74436f7374, .flt 0x0), (0x686f745374616e64627948656174, .flt 0x0), (0x737461727475705072696f72697479, .int 0), (0x66697865644d61696e74436f7374, .flt 0x0), (0x7374617274757044617465, .str 0), (0x6d696e696d756d52756e54696d65, .flt 0x0), (0x73746172747570436f7374, .flt 0x0), (0x7269736b466163746f72436f7374, .flt 0x0), (0x6d696e696d756d446f776e54696d65, .flt 0x0)],
  [(0x7374627941757850, 0x666c6f6174), (0x696e6372656d656e74616c4d61696e74436f7374, 0x666c6f6174), (0x686f745374616e64627948656174, 0x666c6f6174), (0x737461727475705072696f72697479, 0x696e74), (0x66697865644d61696e74436f7374, 0x666c6f6174), (0x7374617274757044617465, 0x737472), (0x6d696e696d756d52756e54696d65, 0x666c6f6174), (0x73746172747570436f7374, 0x666c6f6174), (0x7269736b466163746f72436f7374, 0x666c6f6174), (0x6d696e696d756d446f776e54696d65, 0x666c6f6174)],
  [],
  [⟨0x546865726d616c47656e65726174696e67556e6974, .one2one, 0x537461727475704d6f64656c, 0, false⟩, ⟨0x537461727452616d704375727665, .one2one, 0x537461727475704d6f64656c, 0, false⟩, ⟨0x53746172744d61696e4675656c4375727665, .one2one, 0x537461727475704d6f64656c, 0, false⟩, ⟨0x537461727449676e4675656c4375727665, .one2one, 0x537461727475704d6f64656c, 0, false⟩],
  []⟩
def m_StartupModel : List RClass := d_StartupModel :: m_IdentifiedObject

/-- CIM14/IEC61970/Informative/InfCore/ModelingAuthority.py:23 -/
def d_ModelingAuthority : RClass := ⟨0x4d6f64656c696e67417574686f72697479, 0x43494d31342e49454336313937302e496e666f726d61746976652e496e66436f72652e4d6f64656c696e67417574686f72697479, 0x43494d31342e49454336313937302e436f72652e4964656e7469666965644f626a656374,
  [],
  [],
  [],
  [],
  [],
  [⟨0x4d6f64656c696e67417574686f7269747953657473, .many2one, 0x4d6f64656c696e67417574686f72697479, 0, false⟩],
  [0x4d6f64656c696e67417574686f7269747953657473]⟩
def m_ModelingAuthority : List RClass := d_ModelingAuthority :: m_IdentifiedObject

/-- CIM14/IEC61970/Informative/InfCore/ModelingAuthoritySet.py:23 -/
def d_ModelingAuthoritySet : RClass := ⟨0x4d6f64656c696e67417574686f72697479536574, 0x43494d31342e49454336313937302e496e666f726d61746976652e496e66436f72652e4d6f64656c696e67417574686f72697479536574, 0x43494d31342e49454336313937302e436f72652e4964656e7469666965644f626a656374,
  [],
  [],
  [],
  [],
  [],
  [⟨0x4d6f64656c696e67417574686f72697479, .one2many, 0x4d6f64656c696e67417574686f7269747953657473, 0, false⟩, ⟨0x4964656e7469666965644f626a65637473, .many2one, 0x4d6f64656c696e67417574686f72697479536574, 0, false⟩],
  [0x4964656e7469666965644f626a65637473]⟩
def m_ModelingAuthoritySet : List RClass := d_ModelingAuthoritySet :: m_IdentifiedObject

/-- CIM14/IEC61970/LoadModel/DayType.py:23 -/
def d_DayType : RClass := ⟨0x44617954797065, 0x43494d31342e49454336313937302e4c6f61644d6f64656c2e44617954797065, 0x43494d31342e49454336313937302e436f72652e4964656e7469666965644f626a656374,
  [],
  [],
  [],
  [],
  [],
  [⟨0x536561736f6e446179547970655363686564756c6573, .many2one, 0x44617954797065, 0, false⟩],
  [0x536561736f6e446179547970655363686564756c6573]⟩
def m_DayType : List RClass := d_DayType :: m_IdentifiedObject

/-- CIM14/IEC61970/LoadModel/EnergyArea.py:23 -/
def d_EnergyArea : RClass := ⟨0x456e6572677941726561, 0x43494d31342e49454336313937302e4c6f61644d6f64656c2e456e6572677941726561, 0x43494d31342e49454336313937302e436f72652e4964656e7469666965644f626a656374,
  [],
  [],
  [],
  [],
  [],
  [⟨0x436f6e74726f6c41726561, .one2one, 0x456e6572677941726561, 0, false⟩],
  []⟩
def m_EnergyArea : List RClass := d_EnergyArea :: m_IdentifiedObject

/-- CIM14/IEC61970/LoadModel/LoadGroup.py:23 -/
def d_LoadGroup : RClass := ⟨0x4c6f616447726f7570, 0x43494d31342e49454336313937302e4c6f61644d6f64656c2e4c6f616447726f7570, 0x43494d31342e49454336313937302e436f72652e4964656e7469666965644f626a656374,
  [],
  [],
  [],
  [],
  [],
  [⟨0x5375624c6f616441726561, .one2many, 0x4c6f616447726f757073, 0, false⟩],
  []⟩
def m_LoadGroup : List RClass := d_LoadGroup :: m_IdentifiedObject

/-- CIM14/IEC61970/LoadModel/LoadResponseCharacteristic.py:23 -/
def d_LoadResponseCharacteristic : RClass := ⟨0x4c6f6164526573706f6e73654368617261637465726973746963, 0x43494d31342e49454336313937302e4c6f61644d6f64656c2e4c6f6164526573706f6e73654368617261637465726973746963, 0x43494d31342e49454336313937302e436f72652e4964656e7469666965644f626a656374,
  [(0x704672657175656e63794578706f6e656e74, .flt 0x0), (0x714672657175656e63794578706f6e656e74, .flt 0x0), (0x70436f6e7374616e74506f776572, .flt 0x0), (0x70436f6e7374616e7443757272656e74, .flt 0x0), (0x70566f6c746167654578706f6e656e74, .flt 0x0), (0x70436f6e7374616e74496d706564616e6365, .flt 0x0), (0x71436f6e7374616e74496d706564616e6365, .flt 0x0), (0x71436f6e7374616e74506f776572, .flt 0x0), (0x71566f6c746167654578706f6e656e74, .flt 0x0), (0x6578706f6e656e744d6f64656c, .bool false), (0x71436f6e7374616e7443757272656e74, .flt 0x0)],
  [0x704672657175656e63794578706f6e656e74, 0x714672657175656e63794578706f6e656e74, 0x70436f6e7374616e74506f776572, 0x70436f6e7374616e7443757272656e74, 0x70566f6c746167654578706f6e656e74, 0x70436f6e7374616e74496d706564616e6365, 0x71436f6e7374616e74496d706564616e6365, 0x71436f6e7374616e74506f776572, 0x71566f6c746167654578706f6e656e74, 0x6578706f6e656e744d6f64656c, 0x71436f6e7374616e7443757272656e74],
  [(0x704672657175656e63794578706f6e656e74, .flt 0x0), (0x714672657175656e63794578706f6e656e74, .flt 0x0), (0x70436f6e7374616e74506f776572, .flt 0x0), (0x70436f6e7374616e7443757272656e74, .flt 0x0), (0x70566f6c746167654578706f6e656e74, .flt 0x0), (0x70436f6e7374616e74496d706564616e6365, .flt 0x0), (0x71436f6e7374616e74496d706564616e6365, .flt 0x0), (0x71436f6e7374616e74506f776572, .flt 0x0), (0x71566f6c746167654578706f6e656e74, .flt 0x0), (0x6578706f6e656e744d6f64656c, .bool false), (0x71436f6e7374616e7443757272656e74, .flt 0x0)],
  [(0x704672657175656e63794578706f6e656e74, 0x666c6f6174), (0x714672657175656e63794578706f6e656e74, 0x666c6f6174), (0x70436f6e7374616e74506f776572, 0x666c6f6174), (0x70436f6e7374616e7443757272656e74, 0x666c6f6174), (0x70566f6c746167654578706f6e656e74, 0x666c6f6174), (0x70436f6e7374616e74496d706564616e6365, 0x666c6f6174), (0x71436f6e7374616e74496d706564616e6365, 0x666c6f6174), (0x71436f6e7374616e74506f776572, 0x666c6f6174), (0x71566f6c746167654578706f6e656e74, 0x666c6f6174), (0x6578706f6e656e744d6f64656c, 0x626f6f6c), (0x71436f6e7374616e7443757272656e74, 0x666c6f6174)],
  [],
  [⟨0x456e65726779436f6e73756d6572, .many2one, 0x4c6f6164526573706f6e7365, 0, false⟩],
  [0x456e65726779436f6e73756d6572]⟩
def m_LoadResponseCharacteristic : List RClass := d_LoadResponseCharacteristic :: m_IdentifiedObject

/-- CIM14/IEC61970/Meas/Control.py:23 -/
def d_Control : RClass := ⟨0x436f6e74726f6c, 0x43494d31342e49454336313937302e4d6561732e436f6e74726f6c, 0x43494d31342e49454336313937302e436f72652e4964656e7469666965644f626a656374,
  [(0x74696d655374616d70, .str 0), (0x6f7065726174696f6e496e50726f6772657373, .bool false)],
  [0x74696d655374616d70, 0x6f7065726174696f6e496e50726f6772657373],
  [(0x74696d655374616d70, .str 0), (0x6f7065726174696f6e496e50726f6772657373, .bool false)],
  [(0x74696d655374616d70, 0x737472), (0x6f7065726174696f6e496e50726f6772657373, 0x626f6f6c)],
  [],
  [⟨0x556e6974, .one2many, 0x436f6e74726f6c73, 0, false⟩, ⟨0x526567756c6174696e67436f6e644571, .one2many, 0x436f6e74726f6c73, 0, false⟩, ⟨0x436f6e74726f6c54797065, .one2many, 0x436f6e74726f6c73, 0, false⟩, ⟨0x52656d6f7465436f6e74726f6c, .one2one, 0x436f6e74726f6c, 0, false⟩],
  []⟩
def m_Control : List RClass := d_Control :: m_IdentifiedObject

/-- CIM14/IEC61970/Meas/ControlType.py:23 -/
def d_ControlType : RClass := ⟨0x436f6e74726f6c54797065, 0x43494d31342e49454336313937302e4d6561732e436f6e74726f6c54797065, 0x43494d31342e49454336313937302e436f72652e4964656e7469666965644f626a656374,
  [],
  [],
  [],
  [],
  [],
  [⟨0x436f6e74726f6c73, .many2one, 0x436f6e74726f6c54797065, 0, false⟩],
  [0x436f6e74726f6c73]⟩
def m_ControlType : List RClass := d_ControlType :: m_IdentifiedObject

/-- CIM14/IEC61970/Meas/Limit.py:23 -/
def d_Limit : RClass := ⟨0x4c696d6974, 0x43494d31342e49454336313937302e4d6561732e4c696d6974, 0x43494d31342e49454336313937302e436f72652e4964656e7469666965644f626a656374,
  [],
  [],
  [],
  [],
  [],
  [],
  []⟩
def m_Limit : List RClass := d_Limit :: m_IdentifiedObject

/-- CIM14/IEC61970/Meas/LimitSet.py:23 -/
def d_LimitSet : RClass := ⟨0x4c696d6974536574, 0x43494d31342e49454336313937302e4d6561732e4c696d6974536574, 0x43494d31342e49454336313937302e436f72652e4964656e7469666965644f626a656374,
  [(0x697350657263656e746167654c696d697473, .bool false)],
  [0x697350657263656e746167654c696d697473],
  [(0x697350657263656e746167654c696d697473, .bool false)],
  [(0x697350657263656e746167654c696d697473, 0x626f6f6c)],
  [],
  [],
  []⟩
def m_LimitSet : List RClass := d_LimitSet :: m_IdentifiedObject

/-- CIM14/IEC61970/Meas/Measurement.py:23 -/
def d_Measurement : RClass := ⟨0x4d6561737572656d656e74, 0x43494d31342e49454336313937302e4d6561732e4d6561737572656d656e74, 0x43494d31342e49454336313937302e436f72652e4964656e7469666965644f626a656374,
  [(0x6d6561737572656d656e7454797065, .str 0)],
  [0x6d6561737572656d656e7454797065],
  [(0x6d6561737572656d656e7454797065, .str 0)],
  [(0x6d6561737572656d656e7454797065, 0x737472)],
  [],
  [⟨0x506f77657253797374656d5265736f75726365, .one2many, 0x4d6561737572656d656e7473, 0, false⟩, ⟨0x4c6f636174696f6e73, .many2many, 0x4d6561737572656d656e7473, 0, false⟩, ⟨0x5465726d696e616c, .one2many, 0x4d6561737572656d656e7473, 0, false⟩, ⟨0x556e6974, .one2many, 0x4d6561737572656d656e7473, 0, false⟩, ⟨0x746965546f4d6561737572656d656e7430, .many2one, 0x6d6561737572656d656e7430, 0, false⟩, ⟨0x4173736574, .one2many, 0x4d6561737572656d656e7473, 0, false⟩, ⟨0x446f63756d656e7473, .many2many, 0x4d6561737572656d656e7473, 0, false⟩],
  [0x4c6f636174696f6e73, 0x746965546f4d6561737572656d656e7430, 0x446f63756d656e7473]⟩
def m_Measurement : List RClass := d_Measurement :: m_IdentifiedObject

/-- CIM14/IEC61970/Meas/MeasurementValue.py:23 -/
def d_MeasurementValue : RClass := ⟨0x4d6561737572656d656e7456616c7565, 0x43494d31342e49454336313937302e4d6561732e4d6561737572656d656e7456616c7565, 0x43494d31342e49454336313937302e436f72652e4964656e7469666965644f626a656374,
  [(0x73656e736f724163637572616379, .flt 0x0), (0x74696d655374616d70, .str 0)],
  [0x73656e736f724163637572616379, 0x74696d655374616d70],
  [(0x73656e736f724163637572616379, .flt 0x0), (0x74696d655374616d70, .str 0)],
  [(0x73656e736f724163637572616379, 0x666c6f6174), (0x74696d655374616d70, 0x737472)],
  [],
  [⟨0x4d6561737572656d656e7456616c7565536f75726365, .one2many, 0x4d6561737572656d656e7456616c756573, 0, false⟩, ⟨0x52656d6f7465536f75726365, .one2one, 0x4d6561737572656d656e7456616c7565, 0, false⟩, ⟨0x4d6561737572656d656e7456616c75655175616c697479, .one2one, 0x4d6561737572656d656e7456616c7565, 0, false⟩],
  []⟩
def m_MeasurementValue : List RClass := d_MeasurementValue :: m_IdentifiedObject

/-- CIM14/IEC61970/Meas/MeasurementValueQuality.py:23 -/
def d_MeasurementValueQuality : RClass := ⟨0x4d6561737572656d656e7456616c75655175616c697479, 0x43494d31342e49454336313937302e4d6561732e4d6561737572656d656e7456616c75655175616c697479, 0x43494d31342e49454336313937302e4d6561732e5175616c6974793631383530,
  [],
  [],
  [],
  [],
  [],
  [⟨0x4d6561737572656d656e7456616c7565, .one2one, 0x4d6561737572656d656e7456616c75655175616c697479, 0, false⟩],
  []⟩
def m_MeasurementValueQuality : List RClass := d_MeasurementValueQuality :: m_Quality61850

/-- CIM14/IEC61970/Meas/MeasurementValueSource.py:23 -/
def d_MeasurementValueSource : RClass := ⟨0x4d6561737572656d656e7456616c7565536f75726365, 0x43494d31342e49454336313937302e4d6561732e4d6561737572656d656e7456616c7565536f75726365, 0x43494d31342e49454336313937302e436f72652e4964656e7469666965644f626a656374,
  [],
  [],
  [],
  [],
  [],
  [⟨0x4d6561737572656d656e7456616c756573, .many2one, 0x4d6561737572656d656e7456616c7565536f75726365, 0, false⟩],
  [0x4d6561737572656d656e7456616c756573]⟩
def m_MeasurementValueSource : List RClass := d_MeasurementValueSource :: m_IdentifiedObject

/-- CIM14/IEC61970/Meas/ValueAliasSet.py:23 -/
def d_ValueAliasSet : RClass := ⟨0x56616c7565416c696173536574, 0x43494d31342e49454336313937302e4d6561732e56616c7565416c696173536574, 0x43494d31342e49454336313937302e436f72652e4964656e7469666965644f626a656374,
  [],
  [],
  [],
  [],
  [],
  [⟨0x436f6d6d616e6473, .many2one, 0x56616c7565416c696173536574, 0, false⟩, ⟨0x56616c756573, .many2one, 0x56616c7565416c696173536574, 0, false⟩, ⟨0x446973637265746573, .many2one, 0x56616c7565416c696173536574, 0, false⟩],
  [0x436f6d6d616e6473, 0x56616c756573, 0x446973637265746573]⟩
def m_ValueAliasSet : List RClass := d_ValueAliasSet :: m_IdentifiedObject

/-- CIM14/IEC61970/Meas/ValueToAlias.py:23 -/
def d_ValueToAlias : RClass := ⟨0x56616c7565546f416c696173, 0x43494d31342e49454336313937302e4d6561732e56616c7565546f416c696173, 0x43494d31342e49454336313937302e436f72652e4964656e7469666965644f626a656374,
  [(0x76616c7565, .int 0)],
  [0x76616c7565],
  [(0x76616c7565, .int 0)],
  [(0x76616c7565, 0x696e74)],
  [],
  [⟨0x56616c7565416c696173536574, .one2many, 0x56616c756573, 0, false⟩],
  []⟩
def m_ValueToAlias : List RClass := d_ValueToAlias :: m_IdentifiedObject

/-- CIM14/IEC61970/OperationalLimits/BranchGroup.py:23 -/
def d_BranchGroup : RClass := ⟨0x4272616e636847726f7570, 0x43494d31342e49454336313937302e4f7065726174696f6e616c4c696d6974732e4272616e636847726f7570, 0x43494d31342e49454336313937302e436f72652e4964656e7469666965644f626a656374,
  [(0x6d696e696d756d5265616374697665506f776572, .flt 0x0), (0x6d6f6e69746f72416374697665506f776572, .bool false), (0x6d696e696d756d416374697665506f776572, .flt 0x0), (0x6d6178696d756d5265616374697665506f776572, .flt 0x0), (0x6d6178696d756d416374697665506f776572, .flt 0x0), (0x6d6f6e69746f725265616374697665506f776572, .bool false)],
  [0x6d696e696d756d5265616374697665506f776572, 0x6d6f6e69746f72416374697665506f776572, 0x6d696e696d756d416374697665506f776572, 0x6d6178696d756d5265616374697665506f776572, 0x6d6178696d756d416374697665506f776572, 0x6d6f6e69746f725265616374697665506f776572],
  [(0x6d696e696d756d5265616374697665506f776572, .flt 0x0), (0x6d6f6e69746f72416374697665506f776572, .bool false), (0x6d696e696d756d416374697665506f776572, .flt 0x0), (0x6d6178696d756d5265616374697665506f776572, .flt 0x0), (0x6d6178696d756d416374697665506f776572, .flt 0x0), (0x6d6f6e69746f725265616374697665506f776572, .bool false)],
  [(0x6d696e696d756d5265616374697665506f776572, 0x666c6f6174), (0x6d6f6e69746f72416374697665506f776572, 0x626f6f6c), (0x6d696e696d756d416374697665506f776572, 0x666c6f6174), (0x6d6178696d756d5265616374697665506f776572, 0x666c6f6174), (0x6d6178696d756d416374697665506f776572, 0x666c6f6174), (0x6d6f6e69746f725265616374697665506f776572, 0x626f6f6c)],
  [],
  [⟨0x4272616e636847726f75705465726d696e616c, .many2one, 0x4272616e636847726f7570, 0, false⟩],
  [0x4272616e636847726f75705465726d696e616c]⟩
def m_BranchGroup : List RClass := d_BranchGroup :: m_IdentifiedObject

/-- CIM14/IEC61970/OperationalLimits/OperationalLimit.py:23 -/
def d_OperationalLimit : RClass := ⟨0x4f7065726174696f6e616c4c696d6974, 0x43494d31342e49454336313937302e4f7065726174696f6e616c4c696d6974732e4f7065726174696f6e616c4c696d6974, 0x43494d31342e49454336313937302e436f72652e4964656e7469666965644f626a656374,
  [(0x74797065, .str 0)],
  [0x74797065],
  [(0x74797065, .str 0)],
  [(0x74797065, 0x737472)],
  [],
  [⟨0x4f7065726174696f6e616c4c696d697454797065, .one2many, 0x4f7065726174696f6e616c4c696d6974, 0, false⟩, ⟨0x4f7065726174696f6e616c4c696d6974536574, .one2many, 0x4f7065726174696f6e616c4c696d697456616c7565, 0, false⟩],
  []⟩
def m_OperationalLimit : List RClass := d_OperationalLimit :: m_IdentifiedObject

/-- CIM14/IEC61970/OperationalLimits/OperationalLimitSet.py:23 -/
def d_OperationalLimitSet : RClass := ⟨0x4f7065726174696f6e616c4c696d6974536574, 0x43494d31342e49454336313937302e4f7065726174696f6e616c4c696d6974732e4f7065726174696f6e616c4c696d6974536574, 0x43494d31342e49454336313937302e436f72652e4964656e7469666965644f626a656374,
  [],
  [],
  [],
  [],
  [],
  [⟨0x45717569706d656e74, .one2many, 0x4f7065726174696f6e616c4c696d6974536574, 0, false⟩, ⟨0x5465726d696e616c, .one2many, 0x4f7065726174696f6e616c4c696d6974536574, 0, false⟩, ⟨0x4f7065726174696f6e616c4c696d697456616c7565, .many2one, 0x4f7065726174696f6e616c4c696d6974536574, 0, false⟩],
  [0x4f7065726174696f6e616c4c696d697456616c7565]⟩
def m_OperationalLimitSet : List RClass := d_OperationalLimitSet :: m_IdentifiedObject

/-- CIM14/IEC61970/OperationalLimits/OperationalLimitType.py:23 -/
def d_OperationalLimitType : RClass := ⟨0x4f7065726174696f6e616c4c696d697454797065, 0x43494d31342e49454336313937302e4f7065726174696f6e616c4c696d6974732e4f7065726174696f6e616c4c696d697454797065, 0x43494d31342e49454336313937302e436f72652e4964656e7469666965644f626a656374,
  [(0x646972656374696f6e, .str 0x6c6f77), (0x61636365707461626c654475726174696f6e, .flt 0x0)],
  [0x646972656374696f6e, 0x61636365707461626c654475726174696f6e],
  [(0x646972656374696f6e, .str 0x6c6f77), (0x61636365707461626c654475726174696f6e, .flt 0x0)],
  [(0x646972656374696f6e, 0x737472), (0x61636365707461626c654475726174696f6e, 0x666c6f6174)],
  [(0x646972656374696f6e, 0x4f7065726174696f6e616c4c696d6974446972656374696f6e4b696e64)],
  [⟨0x4f7065726174696f6e616c4c696d6974, .many2one, 0x4f7065726174696f6e616c4c696d697454797065, 0, false⟩],
  [0x4f7065726174696f6e616c4c696d6974]⟩
def m_OperationalLimitType : List RClass := d_OperationalLimitType :: m_IdentifiedObject

/-- CIM14/IEC61970/Outage/ClearanceTag.py:23 -/
def d_ClearanceTag : RClass := ⟨0x436c656172616e6365546167, 0x43494d31342e49454336313937302e4f75746167652e436c656172616e6365546167, 0x43494d31342e49454336313937302e436f72652e4964656e7469666965644f626a656374,
  [(0x776f726b537461727454696d65, .str 0), (0x776f726b4465736372697074696f6e, .str 0), (0x776f726b456e6454696d65, .str 0), (0x617574686f726974794e616d65, .str 0), (0x6465656e657267697a65526571466c6167, .bool false), (0x67726f756e64526571466c6167, .bool false), (0x746167497373756554696d65, .str 0), (0x7068617365436865636b526571466c6167, .bool false)],
  [0x776f726b537461727454696d65, 0x776f726b4465736372697074696f6e, 0x776f726b456e6454696d65, 0x617574686f726974794e616d65, 0x6465656e657267697a65526571466c6167, 0x67726f756e64526571466c6167, 0x746167497373756554696d65, 0x7068617365436865636b526571466c6167],
  [(0x776f726b537461727454696d65, .str 0), (0x776f726b4465736372697074696f6e, .str 0), (0x776f726b456e6454696d65, .str 0), (0x617574686f726974794e616d65, .str 0), (0x6465656e657267697a65526571466c6167, .bool false), (0x67726f756e64526571466c6167, .bool false), (0x746167497373756554696d65, .str 0), (0x7068617365436865636b526571466c6167, .bool false)],
  [(0x776f726b537461727454696d65, 0x737472), (0x776f726b4465736372697074696f6e, 0x737472), (0x776f726b456e6454696d65, 0x737472), (0x617574686f726974794e616d65, 0x737472), (0x6465656e657267697a65526571466c6167, 0x626f6f6c), (0x67726f756e64526571466c6167, 0x626f6f6c), (0x746167497373756554696d65, 0x737472), (0x7068617365436865636b526571466c6167, 0x626f6f6c)],
  [],
  [⟨0x436c656172616e636554616754797065, .one2many, 0x436c656172616e636554616773, 0, false⟩, ⟨0x436f6e64756374696e6745717569706d656e74, .one2many, 0x436c656172616e636554616773, 0, false⟩],
  []⟩
def m_ClearanceTag : List RClass := d_ClearanceTag :: m_IdentifiedObject

/-- CIM14/IEC61970/Outage/ClearanceTagType.py:23 -/
def d_ClearanceTagType : RClass := ⟨0x436c656172616e636554616754797065, 0x43494d31342e49454336313937302e4f75746167652e436c656172616e636554616754797065, 0x43494d31342e49454336313937302e436f72652e4964656e7469666965644f626a656374,
  [],
  [],
  [],
  [],
  [],
  [⟨0x436c656172616e636554616773, .many2one, 0x436c656172616e636554616754797065, 0, false⟩],
  [0x436c656172616e636554616773]⟩
def m_ClearanceTagType : List RClass := d_ClearanceTagType :: m_IdentifiedObject

/-- CIM14/IEC61970/Outage/SwitchingOperation.py:23 -/
def d_SwitchingOperation : RClass := ⟨0x537769746368696e674f7065726174696f6e, 0x43494d31342e49454336313937302e4f75746167652e537769746368696e674f7065726174696f6e, 0x43494d31342e49454336313937302e436f72652e4964656e7469666965644f626a656374,
  [(0x6e65775374617465, .str 0x6f70656e), (0x6f7065726174696f6e54696d65, .str 0)],
  [0x6e65775374617465, 0x6f7065726174696f6e54696d65],
  [(0x6e65775374617465, .str 0x6f70656e), (0x6f7065726174696f6e54696d65, .str 0)],
  [(0x6e65775374617465, 0x737472), (0x6f7065726174696f6e54696d65, 0x737472)],
  [(0x6e65775374617465, 0x5377697463685374617465)],
  [⟨0x5377697463686573, .many2many, 0x537769746368696e674f7065726174696f6e73, 0, false⟩, ⟨0x4f75746167655363686564756c65, .one2many, 0x537769746368696e674f7065726174696f6e73, 0, false⟩],
  [0x5377697463686573]⟩
def m_SwitchingOperation : List RClass := d_SwitchingOperation :: m_IdentifiedObject

/-- CIM14/IEC61970/Protection/RecloseSequence.py:23 -/
def d_RecloseSequence : RClass := ⟨0x5265636c6f736553657175656e6365, 0x43494d31342e49454336313937302e50726f74656374696f6e2e5265636c6f736553657175656e6365, 0x43494d31342e49454336313937302e436f72652e4964656e7469666965644f626a656374,
  [(0x7265636c6f736544656c6179, .flt 0x0), (0x7265636c6f736553746570, .int 0)],
  [0x7265636c6f736544656c6179, 0x7265636c6f736553746570],
  [(0x7265636c6f736544656c6179, .flt 0x0), (0x7265636c6f736553746570, .int 0)],
  [(0x7265636c6f736544656c6179, 0x666c6f6174), (0x7265636c6f736553746570, 0x696e74)],
  [],
  [⟨0x50726f746563746564537769746368, .one2many, 0x5265636c6f736553657175656e636573, 0, false⟩],
  []⟩
def m_RecloseSequence : List RClass := d_RecloseSequence :: m_IdentifiedObject

/-- CIM14/IEC61970/SCADA/RemotePoint.py:23 -/
def d_RemotePoint : RClass := ⟨0x52656d6f7465506f696e74, 0x43494d31342e49454336313937302e53434144412e52656d6f7465506f696e74, 0x43494d31342e49454336313937302e436f72652e4964656e7469666965644f626a656374,
  [],
  [],
  [],
  [],
  [],
  [⟨0x52656d6f7465556e6974, .one2many, 0x52656d6f7465506f696e7473, 0, false⟩],
  []⟩
def m_RemotePoint : List RClass := d_RemotePoint :: m_IdentifiedObject

/-- CIM14/IEC61970/StateVariables/SvInjection.py:23 -/
def d_SvInjection : RClass := ⟨0x5376496e6a656374696f6e, 0x43494d31342e49454336313937302e53746174655661726961626c65732e5376496e6a656374696f6e, 0x43494d31342e49454336313937302e53746174655661726961626c65732e53746174655661726961626c65,
  [(0x704e6574496e6a656374696f6e, .flt 0x0), (0x714e6574496e6a656374696f6e, .flt 0x0)],
  [0x704e6574496e6a656374696f6e, 0x714e6574496e6a656374696f6e],
  [(0x704e6574496e6a656374696f6e, .flt 0x0), (0x714e6574496e6a656374696f6e, .flt 0x0)],
  [(0x704e6574496e6a656374696f6e, 0x666c6f6174), (0x714e6574496e6a656374696f6e, 0x666c6f6174)],
  [],
  [⟨0x546f706f6c6f676963616c4e6f6465, .one2one, 0x5376496e6a656374696f6e, 0, false⟩],
  []⟩
def m_SvInjection : List RClass := d_SvInjection :: m_StateVariable

/-- CIM14/IEC61970/StateVariables/SvPowerFlow.py:23 -/
def d_SvPowerFlow : RClass := ⟨0x5376506f776572466c6f77, 0x43494d31342e49454336313937302e53746174655661726961626c65732e5376506f776572466c6f77, 0x43494d31342e49454336313937302e53746174655661726961626c65732e53746174655661726961626c65,
  [(0x71, .flt 0x0), (0x70, .flt 0x0)],
  [0x71, 0x70],
  [(0x71, .flt 0x0), (0x70, .flt 0x0)],
  [(0x71, 0x666c6f6174), (0x70, 0x666c6f6174)],
  [],
  [⟨0x5465726d696e616c, .one2one, 0x5376506f776572466c6f77, 0, false⟩],
  []⟩
def m_SvPowerFlow : List RClass := d_SvPowerFlow :: m_StateVariable

/-- CIM14/IEC61970/StateVariables/SvShortCircuit.py:23 -/
def d_SvShortCircuit : RClass := ⟨0x537653686f727443697263756974, 0x43494d31342e49454336313937302e53746174655661726961626c65732e537653686f727443697263756974, 0x43494d31342e49454336313937302e53746174655661726961626c65732e53746174655661726961626c65,
  [(0x783050657258, .flt 0x0), (0x7353686f727443697263756974, .flt 0x0), (0x723050657252, .flt 0x0), (0x7850657252, .flt 0x0)],
  [0x783050657258, 0x7353686f727443697263756974, 0x723050657252, 0x7850657252],
  [(0x783050657258, .flt 0x0), (0x7353686f727443697263756974, .flt 0x0), (0x723050657252, .flt 0x0), (0x7850657252, .flt 0x0)],
  [(0x783050657258, 0x666c6f6174), (0x7353686f727443697263756974, 0x666c6f6174), (0x723050657252, 0x666c6f6174), (0x7850657252, 0x666c6f6174)],
  [],
  [⟨0x546f706f6c6f676963616c4e6f6465, .one2one, 0x537653686f727443697263756974, 0, false⟩],
  []⟩
def m_SvShortCircuit : List RClass := d_SvShortCircuit :: m_StateVariable

/-- CIM14/IEC61970/StateVariables/SvShuntCompensatorSections.py:23 -/
def d_SvShuntCompensatorSections : RClass := ⟨0x53765368756e74436f6d70656e7361746f7253656374696f6e73, 0x43494d31342e49454336313937302e53746174655661726961626c65732e53765368756e74436f6d70656e7361746f7253656374696f6e73, 0x43494d31342e49454336313937302e53746174655661726961626c65732e53746174655661726961626c65,
  [(0x636f6e74696e756f757353656374696f6e73, .flt 0x0), (0x73656374696f6e73, .int 0)],
  [0x636f6e74696e756f757353656374696f6e73, 0x73656374696f6e73],
  [(0x636f6e74696e756f757353656374696f6e73, .flt 0x0), (0x73656374696f6e73, .int 0)],
  [(0x636f6e74696e756f757353656374696f6e73, 0x666c6f6174), (0x73656374696f6e73, 0x696e74)],
  [],
  [⟨0x5368756e74436f6d70656e7361746f72, .one2one, 0x53765368756e74436f6d70656e7361746f7253656374696f6e73, 0, false⟩],
  []⟩
def m_SvShuntCompensatorSections : List RClass := d_SvShuntCompensatorSections :: m_StateVariable

/-- CIM14/IEC61970/StateVariables/SvStatus.py:23 -/
def d_SvStatus : RClass := ⟨0x5376537461747573, 0x43494d31342e49454336313937302e53746174655661726961626c65732e5376537461747573, 0x43494d31342e49454336313937302e53746174655661726961626c65732e53746174655661726961626c65,
  [(0x696e53657276696365, .bool false)],
  [0x696e53657276696365],
  [(0x696e53657276696365, .bool false)],
  [(0x696e53657276696365, 0x626f6f6c)],
  [],
  [⟨0x436f6e64756374696e6745717569706d656e74, .one2one, 0x5376537461747573, 0, false⟩],
  []⟩
def m_SvStatus : List RClass := d_SvStatus :: m_StateVariable

/-- CIM14/IEC61970/StateVariables/SvTapStep.py:23 -/
def d_SvTapStep : RClass := ⟨0x537654617053746570, 0x43494d31342e49454336313937302e53746174655661726961626c65732e537654617053746570, 0x43494d31342e49454336313937302e53746174655661726961626c65732e53746174655661726961626c65,
  [(0x636f6e74696e756f7573506f736974696f6e, .flt 0x0), (0x706f736974696f6e, .int 0)],
  [0x636f6e74696e756f7573506f736974696f6e, 0x706f736974696f6e],
  [(0x636f6e74696e756f7573506f736974696f6e, .flt 0x0), (0x706f736974696f6e, .int 0)],
  [(0x636f6e74696e756f7573506f736974696f6e, 0x666c6f6174), (0x706f736974696f6e, 0x696e74)],
  [],
  [⟨0x5461704368616e676572, .one2one, 0x537654617053746570, 0, false⟩],
  []⟩
def m_SvTapStep : List RClass := d_SvTapStep :: m_StateVariable

/-- CIM14/IEC61970/StateVariables/SvVoltage.py:23 -/
def d_SvVoltage : RClass := ⟨0x5376566f6c74616765, 0x43494d31342e49454336313937302e53746174655661726961626c65732e5376566f6c74616765, 0x43494d31342e49454336313937302e53746174655661726961626c65732e53746174655661726961626c65,
  [(0x616e676c65, .flt 0x0), (0x76, .flt 0x0)],
  [0x616e676c65, 0x76],
  [(0x616e676c65, .flt 0x0), (0x76, .flt 0x0)],
  [(0x616e676c65, 0x666c6f6174), (0x76, 0x666c6f6174)],
  [],
  [⟨0x546f706f6c6f676963616c4e6f6465, .one2one, 0x5376566f6c74616765, 0, false⟩],
  []⟩
def m_SvVoltage : List RClass := d_SvVoltage :: m_StateVariable

/-- CIM14/IEC61970/StateVariables/TopologicalIsland.py:23 -/
def d_TopologicalIsland : RClass := ⟨0x546f706f6c6f676963616c49736c616e64, 0x43494d31342e49454336313937302e53746174655661726961626c65732e546f706f6c6f676963616c49736c616e64, 0x43494d31342e49454336313937302e436f72652e4964656e7469666965644f626a656374,
  [],
  [],
  [],
  [],
  [],
  [⟨0x546f706f6c6f676963616c4e6f646573, .many2one, 0x546f706f6c6f676963616c49736c616e64, 0, false⟩, ⟨0x416e676c655265665f546f706f6c6f676963616c4e6f6465, .one2one, 0x416e676c655265665f546f706f6c6f676963616c49736c616e64, 0, false⟩],
  [0x546f706f6c6f676963616c4e6f646573]⟩
def m_TopologicalIsland : List RClass := d_TopologicalIsland :: m_IdentifiedObject

/-- CIM14/IEC61970/Topology/BusNameMarker.py:23 -/
def d_BusNameMarker : RClass := ⟨0x4275734e616d654d61726b6572, 0x43494d31342e49454336313937302e546f706f6c6f67792e4275734e616d654d61726b6572, 0x43494d31342e49454336313937302e436f72652e4964656e7469666965644f626a656374,
  [],
  [],
  [],
  [],
  [],
  [⟨0x5265706f7274696e6747726f7570, .one2many, 0x4275734e616d654d61726b6572, 0, false⟩, ⟨0x436f6e6e65637469766974794e6f6465, .many2one, 0x4275734e616d654d61726b6572, 0, false⟩],
  [0x436f6e6e65637469766974794e6f6465]⟩
def m_BusNameMarker : List RClass := d_BusNameMarker :: m_IdentifiedObject

/-- CIM14/IEC61970/Topology/TopologicalNode.py:23 -/
def d_TopologicalNode : RClass := ⟨0x546f706f6c6f676963616c4e6f6465, 0x43494d31342e49454336313937302e546f706f6c6f67792e546f706f6c6f676963616c4e6f6465, 0x43494d31342e49454336313937302e436f72652e4964656e7469666965644f626a656374,
  [],
  [],
  [],
  [],
  [],
  [⟨0x5465726d696e616c, .many2one, 0x546f706f6c6f676963616c4e6f6465, 0, false⟩, ⟨0x546f706f6c6f676963616c49736c616e64, .one2many, 0x546f706f6c6f676963616c4e6f646573, 0, false⟩, ⟨0x5265706f7274696e6747726f7570, .one2many, 0x546f706f6c6f676963616c4e6f6465, 0, false⟩, ⟨0x436f6e6e65637469766974794e6f646573, .many2one, 0x546f706f6c6f676963616c4e6f6465, 0, false⟩, ⟨0x5376496e6a656374696f6e, .one2one, 0x546f706f6c6f676963616c4e6f6465, 0, false⟩, ⟨0x5376566f6c74616765, .one2one, 0x546f706f6c6f676963616c4e6f6465, 0, false⟩, ⟨0x537653686f727443697263756974, .one2one, 0x546f706f6c6f676963616c4e6f6465, 0, false⟩, ⟨0x42617365566f6c74616765, .one2many, 0x546f706f6c6f676963616c4e6f6465, 0, false⟩, ⟨0x436f6e6e65637469766974794e6f6465436f6e7461696e6572, .one2many, 0x546f706f6c6f676963616c4e6f6465, 0, false⟩, ⟨0x416e676c655265665f546f706f6c6f676963616c49736c616e64, .one2one, 0x416e676c655265665f546f706f6c6f676963616c4e6f6465, 0, false⟩],
  [0x5465726d696e616c, 0x436f6e6e65637469766974794e6f646573]⟩
def m_TopologicalNode : List RClass := d_TopologicalNode :: m_IdentifiedObject

/-- CIM14/IEC61970/Wires/MutualCoupling.py:23 -/
def d_MutualCoupling : RClass := ⟨0x4d757475616c436f75706c696e67, 0x43494d31342e49454336313937302e57697265732e4d757475616c436f75706c696e67, 0x43494d31342e49454336313937302e436f72652e4964656e7469666965644f626a656374,
  [(0x64697374616e63653232, .flt 0x0), (0x67306368, .flt 0x0), (0x64697374616e63653132, .flt 0x0), (0x64697374616e63653231, .flt 0x0), (0x7830, .flt 0x0), (0x62306368, .flt 0x0), (0x7230, .flt 0x0), (0x64697374616e63653131, .flt 0x0)],
  [0x64697374616e63653232, 0x67306368, 0x64697374616e63653132, 0x64697374616e63653231, 0x7830, 0x62306368, 0x7230, 0x64697374616e63653131],
  [(0x64697374616e63653232, .flt 0x0), (0x67306368, .flt 0x0), (0x64697374616e63653132, .flt 0x0), (0x64697374616e63653231, .flt 0x0), (0x7830, .flt 0x0), (0x62306368, .flt 0x0), (0x7230, .flt 0x0), (0x64697374616e63653131, .flt 0x0)],
  [(0x64697374616e63653232, 0x666c6f6174), (0x67306368, 0x666c6f6174), (0x64697374616e63653132, 0x666c6f6174), (0x64697374616e63653231, 0x666c6f6174), (0x7830, 0x666c6f6174), (0x62306368, 0x666c6f6174), (0x7230, 0x666c6f6174), (0x64697374616e63653131, 0x666c6f6174)],
  [],
  [⟨0x5365636f6e645f5465726d696e616c, .one2many, 0x4861735365636f6e645f4d757475616c436f75706c696e67, 0, false⟩, ⟨0x46697273745f5465726d696e616c, .one2many, 0x48617346697273745f4d757475616c436f75706c696e67, 0, false⟩],
  []⟩
def m_MutualCoupling : List RClass := d_MutualCoupling :: m_IdentifiedObject

/-- CIM14/IEC61970/Wires/WindingTest.py:23 -/
def d_WindingTest : RClass := ⟨0x57696e64696e6754657374, 0x43494d31342e49454336313937302e57697265732e57696e64696e6754657374, 0x43494d31342e49454336313937302e436f72652e4964656e7469666965644f626a656374,
  [(0x66726f6d54617053746570, .int 0), (0x6c65616b616765496d706564616e6365, .flt 0x0), (0x6e6f4c6f61644c6f7373, .flt 0x0), (0x70686173655368696674, .flt 0x0), (0x6578636974696e6743757272656e74, .flt 0x0), (0x6c6f61644c6f7373, .flt 0x0), (0x746f54617053746570, .int 0), (0x766f6c74616765, .flt 0x0)],
  [0x66726f6d54617053746570, 0x6c65616b616765496d706564616e6365, 0x6e6f4c6f61644c6f7373, 0x70686173655368696674, 0x6578636974696e6743757272656e74, 0x6c6f61644c6f7373, 0x746f54617053746570, 0x766f6c74616765],
  [(0x66726f6d54617053746570, .int 0), (0x6c65616b616765496d706564616e6365, .flt 0x0), (0x6e6f4c6f61644c6f7373, .flt 0x0), (0x70686173655368696674, .flt 0x0), (0x6578636974696e6743757272656e74, .flt 0x0), (0x6c6f61644c6f7373, .flt 0x0), (0x746f54617053746570, .int 0), (0x766f6c74616765, .flt 0x0)],
  [(0x66726f6d54617053746570, 0x696e74), (0x6c65616b616765496d706564616e6365, 0x666c6f6174), (0x6e6f4c6f61644c6f7373, 0x666c6f6174), (0x70686173655368696674, 0x666c6f6174), (0x6578636974696e6743757272656e74, 0x666c6f6174), (0x6c6f61644c6f7373, 0x666c6f6174), (0x746f54617053746570, 0x696e74), (0x766f6c74616765, 0x666c6f6174)],
  [],
  [⟨0x46726f6d5f5472616e73666f726d657257696e64696e67, .one2many, 0x46726f6d5f57696e64696e6754657374, 0, false⟩, ⟨0x546f5f5472616e73666f726d657257696e64696e67, .one2many, 0x546f5f57696e64696e6754657374, 0, false⟩],
  []⟩
def m_WindingTest : List RClass := d_WindingTest :: m_IdentifiedObject

/-- CIM14/IEC61968/AssetModels/CableInfo.py:23 -/
def d_CableInfo : RClass := ⟨0x4361626c65496e666f, 0x43494d31342e49454336313936382e41737365744d6f64656c732e4361626c65496e666f, 0x43494d31342e49454336313936382e41737365744d6f64656c732e436f6e647563746f72496e666f,
  [(0x636f6e737472756374696f6e4b696e64, .str 0x736563746f72), (0x736869656c644d6174657269616c, .str 0x737465656c), (0x6f757465724a61636b65744b696e64, .str 0x706f6c79657468796c656e65), (0x6973537472616e6446696c6c, .bool false), (0x6469616d657465724f76657253637265656e, .flt 0x0), (0x6469616d657465724f766572496e73756c6174696f6e, .flt 0x0), (0x6469616d657465724f7665724a61636b6574, .flt 0x0), (0x6e6f6d696e616c54656d7065726174757265, .flt 0x0), (0x6469616d657465724f766572436f7265, .flt 0x0), (0x73686561746841734e65757472616c, .bool false)],
  [0x636f6e737472756374696f6e4b696e64, 0x736869656c644d6174657269616c, 0x6f757465724a61636b65744b696e64, 0x6973537472616e6446696c6c, 0x6469616d657465724f76657253637265656e, 0x6469616d657465724f766572496e73756c6174696f6e, 0x6469616d657465724f7665724a61636b6574, 0x6e6f6d696e616c54656d7065726174757265, 0x6469616d657465724f766572436f7265, 0x73686561746841734e65757472616c],
  [(0x636f6e737472756374696f6e4b696e64, .str 0x736563746f72), (0x736869656c644d6174657269616c, .str 0x737465656c), (0x6f757465724a61636b65744b696e64, .str 0x706f6c79657468796c656e65), (0x6973537472616e6446696c6c, .bool false), (0x6469616d657465724f76657253637265656e, .flt 0x0), (0x6469616d657465724f766572496e73756c6174696f6e, .flt 0x0), (0x6469616d657465724f7665724a61636b6574, .flt 0x0), (0x6e6f6d696e616c54656d7065726174757265, .flt 0x0), (0x6469616d657465724f766572436f7265, .flt 0x0), (0x73686561746841734e65757472616c, .bool false)],
  [(0x636f6e737472756374696f6e4b696e64, 0x737472), (0x736869656c644d6174657269616c, 0x737472), (0x6f757465724a61636b65744b696e64, 0x737472), (0x6973537472616e6446696c6c, 0x626f6f6c), (0x6469616d657465724f76657253637265656e, 0x666c6f6174), (0x6469616d657465724f766572496e73756c6174696f6e, 0x666c6f6174), (0x6469616d657465724f7665724a61636b6574, 0x666c6f6174), (0x6e6f6d696e616c54656d7065726174757265, 0x666c6f6174), (0x6469616d657465724f766572436f7265, 0x666c6f6174), (0x73686561746841734e65757472616c, 0x626f6f6c)],
  [(0x636f6e737472756374696f6e4b696e64, 0x4361626c65436f6e737472756374696f6e4b696e64), (0x736869656c644d6174657269616c, 0x4361626c65536869656c644d6174657269616c4b696e64), (0x6f757465724a61636b65744b696e64, 0x4361626c654f757465724a61636b65744b696e64)],
  [],
  []⟩
def m_CableInfo : List RClass := d_CableInfo :: m_ConductorInfo

/-- CIM14/IEC61968/AssetModels/EndDeviceModel.py:23 -/
def d_EndDeviceModel : RClass := ⟨0x456e644465766963654d6f64656c, 0x43494d31342e49454336313936382e41737365744d6f64656c732e456e644465766963654d6f64656c, 0x43494d31342e49454336313936382e41737365744d6f64656c732e41737365744d6f64656c,
  [],
  [],
  [],
  [],
  [],
  [⟨0x456e64446576696365417373657473, .many2one, 0x456e644465766963654d6f64656c, 0, false⟩],
  [0x456e64446576696365417373657473]⟩
def m_EndDeviceModel : List RClass := d_EndDeviceModel :: m_AssetModel

/-- CIM14/IEC61968/AssetModels/OpenCircuitTest.py:23 -/
def d_OpenCircuitTest : RClass := ⟨0x4f70656e4369726375697454657374, 0x43494d31342e49454336313936382e41737365744d6f64656c732e4f70656e4369726375697454657374, 0x43494d31342e49454336313936382e41737365744d6f64656c732e446973747269627574696f6e57696e64696e6754657374,
  [(0x6578636974696e6743757272656e745a65726f, .flt 0x0), (0x6e6f4c6f61644c6f73735a65726f, .flt 0x0), (0x6e6f4c6f61644c6f7373, .flt 0x0), (0x6578636974696e6743757272656e74, .flt 0x0)],
  [0x6578636974696e6743757272656e745a65726f, 0x6e6f4c6f61644c6f73735a65726f, 0x6e6f4c6f61644c6f7373, 0x6578636974696e6743757272656e74],
  [(0x6578636974696e6743757272656e745a65726f, .flt 0x0), (0x6e6f4c6f61644c6f73735a65726f, .flt 0x0), (0x6e6f4c6f61644c6f7373, .flt 0x0), (0x6578636974696e6743757272656e74, .flt 0x0)],
  [(0x6578636974696e6743757272656e745a65726f, 0x666c6f6174), (0x6e6f4c6f61644c6f73735a65726f, 0x666c6f6174), (0x6e6f4c6f61644c6f7373, 0x666c6f6174), (0x6578636974696e6743757272656e74, 0x666c6f6174)],
  [],
  [⟨0x4d6561737572656457696e64696e675370656373, .many2many, 0x4f70656e436972637569745465737473, 0, false⟩],
  [0x4d6561737572656457696e64696e675370656373]⟩
def m_OpenCircuitTest : List RClass := d_OpenCircuitTest :: m_DistributionWindingTest

/-- CIM14/IEC61968/AssetModels/OverheadConductorInfo.py:23 -/
def d_OverheadConductorInfo : RClass := ⟨0x4f76657268656164436f6e647563746f72496e666f, 0x43494d31342e49454336313936382e41737365744d6f64656c732e4f76657268656164436f6e647563746f72496e666f, 0x43494d31342e49454336313936382e41737365744d6f64656c732e436f6e647563746f72496e666f,
  [(0x6e65757472616c496e73756c6174696f6e546869636b6e657373, .flt 0x0), (0x7068617365436f6e647563746f7253706163696e67, .flt 0x0), (0x7068617365436f6e647563746f72436f756e74, .int 0)],
  [0x6e65757472616c496e73756c6174696f6e546869636b6e657373, 0x7068617365436f6e647563746f7253706163696e67, 0x7068617365436f6e647563746f72436f756e74],
  [(0x6e65757472616c496e73756c6174696f6e546869636b6e657373, .flt 0x0), (0x7068617365436f6e647563746f7253706163696e67, .flt 0x0), (0x7068617365436f6e647563746f72436f756e74, .int 0)],
  [(0x6e65757472616c496e73756c6174696f6e546869636b6e657373, 0x666c6f6174), (0x7068617365436f6e647563746f7253706163696e67, 0x666c6f6174), (0x7068617365436f6e647563746f72436f756e74, 0x696e74)],
  [],
  [],
  []⟩
def m_OverheadConductorInfo : List RClass := d_OverheadConductorInfo :: m_ConductorInfo

/-- CIM14/IEC61968/AssetModels/ShortCircuitTest.py:23 -/
def d_ShortCircuitTest : RClass := ⟨0x53686f72744369726375697454657374, 0x43494d31342e49454336313936382e41737365744d6f64656c732e53686f72744369726375697454657374, 0x43494d31342e49454336313936382e41737365744d6f64656c732e446973747269627574696f6e57696e64696e6754657374,
  [(0x6c6f61644c6f73735a65726f, .flt 0x0), (0x6c65616b616765496d706564616e63655a65726f, .flt 0x0), (0x6c65616b616765496d706564616e6365, .flt 0x0), (0x6c6f61644c6f7373, .flt 0x0)],
  [0x6c6f61644c6f73735a65726f, 0x6c65616b616765496d706564616e63655a65726f, 0x6c65616b616765496d706564616e6365, 0x6c6f61644c6f7373],
  [(0x6c6f61644c6f73735a65726f, .flt 0x0), (0x6c65616b616765496d706564616e63655a65726f, .flt 0x0), (0x6c65616b616765496d706564616e6365, .flt 0x0), (0x6c6f61644c6f7373, .flt 0x0)],
  [(0x6c6f61644c6f73735a65726f, 0x666c6f6174), (0x6c65616b616765496d706564616e63655a65726f, 0x666c6f6174), (0x6c65616b616765496d706564616e6365, 0x666c6f6174), (0x6c6f61644c6f7373, 0x666c6f6174)],
  [],
  [⟨0x53686f7274656457696e64696e675370656373, .many2many, 0x53686f7274436972637569745465737473, 0, false⟩],
  [0x53686f7274656457696e64696e675370656373]⟩
def m_ShortCircuitTest : List RClass := d_ShortCircuitTest :: m_DistributionWindingTest

/-- CIM14/IEC61968/Assets/AssetContainer.py:23 -/
def d_AssetContainer : RClass := ⟨0x4173736574436f6e7461696e6572, 0x43494d31342e49454336313936382e4173736574732e4173736574436f6e7461696e6572, 0x43494d31342e49454336313936382e4173736574732e4173736574,
  [],
  [],
  [],
  [],
  [],
  [⟨0x5365616c73, .many2one, 0x4173736574436f6e7461696e6572, 0, false⟩, ⟨0x417373657473, .many2one, 0x4173736574436f6e7461696e6572, 0, false⟩],
  [0x5365616c73, 0x417373657473]⟩
def m_AssetContainer : List RClass := d_AssetContainer :: m_Asset

/-- CIM14/IEC61968/Assets/ComMediaAsset.py:23 -/
def d_ComMediaAsset : RClass := ⟨0x436f6d4d656469614173736574, 0x43494d31342e49454336313936382e4173736574732e436f6d4d656469614173736574, 0x43494d31342e49454336313936382e4173736574732e4173736574,
  [],
  [],
  [],
  [],
  [],
  [],
  []⟩
def m_ComMediaAsset : List RClass := d_ComMediaAsset :: m_Asset

/-- CIM14/IEC61968/Common/Agreement.py:23 -/
def d_Agreement : RClass := ⟨0x41677265656d656e74, 0x43494d31342e49454336313936382e436f6d6d6f6e2e41677265656d656e74, 0x43494d31342e49454336313936382e436f6d6d6f6e2e446f63756d656e74,
  [(0x7369676e44617465, .str 0)],
  [0x7369676e44617465],
  [(0x7369676e44617465, .str 0)],
  [(0x7369676e44617465, 0x737472)],
  [],
  [⟨0x76616c6964697479496e74657276616c, .plainOne, 0, 0, false⟩],
  []⟩
def m_Agreement : List RClass := d_Agreement :: m_Document

/-- CIM14/IEC61968/Common/TimeSchedule.py:23 -/
def d_TimeSchedule : RClass := ⟨0x54696d655363686564756c65, 0x43494d31342e49454336313936382e436f6d6d6f6e2e54696d655363686564756c65, 0x43494d31342e49454336313936382e436f6d6d6f6e2e446f63756d656e74,
  [(0x726563757272656e6365506572696f64, .flt 0x0), (0x64697361626c6564, .bool false), (0x6f6666736574, .flt 0x0), (0x726563757272656e63655061747465726e, .str 0)],
  [0x726563757272656e6365506572696f64, 0x64697361626c6564, 0x6f6666736574, 0x726563757272656e63655061747465726e],
  [(0x726563757272656e6365506572696f64, .flt 0x0), (0x64697361626c6564, .bool false), (0x6f6666736574, .flt 0x0), (0x726563757272656e63655061747465726e, .str 0)],
  [(0x726563757272656e6365506572696f64, 0x666c6f6174), (0x64697361626c6564, 0x626f6f6c), (0x6f6666736574, 0x666c6f6174), (0x726563757272656e63655061747465726e, 0x737472)],
  [],
  [⟨0x54696d65506f696e7473, .many2one, 0x54696d655363686564756c65, 0, false⟩, ⟨0x7363686564756c65496e74657276616c, .plainOne, 0, 0, false⟩],
  [0x54696d65506f696e7473]⟩
def m_TimeSchedule : List RClass := d_TimeSchedule :: m_Document

/-- CIM14/IEC61968/Customers/Customer.py:23 -/
def d_Customer : RClass := ⟨0x437573746f6d6572, 0x43494d31342e49454336313936382e437573746f6d6572732e437573746f6d6572, 0x43494d31342e49454336313936382e436f6d6d6f6e2e4f7267616e69736174696f6e,
  [(0x6b696e64, .str 0x7265736964656e7469616c416e64436f6d6d65726369616c), (0x7075634e756d626572, .str 0), (0x7370656369616c4e656564, .str 0), (0x766970, .bool false)],
  [0x6b696e64, 0x7075634e756d626572, 0x7370656369616c4e656564, 0x766970],
  [(0x6b696e64, .str 0x7265736964656e7469616c416e64436f6d6d65726369616c), (0x7075634e756d626572, .str 0), (0x7370656369616c4e656564, .str 0), (0x766970, .bool false)],
  [(0x6b696e64, 0x737472), (0x7075634e756d626572, 0x737472), (0x7370656369616c4e656564, 0x737472), (0x766970, 0x626f6f6c)],
  [(0x6b696e64, 0x437573746f6d65724b696e64)],
  [⟨0x737461747573, .plainOne, 0, 0, false⟩, ⟨0x576f726b73, .many2many, 0x437573746f6d657273, 0, false⟩, ⟨0x437573746f6d657241677265656d656e7473, .many2one, 0x437573746f6d6572, 0, false⟩, ⟨0x456e64446576696365417373657473, .many2one, 0x437573746f6d6572, 0, false⟩],
  [0x576f726b73, 0x437573746f6d657241677265656d656e7473, 0x456e64446576696365417373657473]⟩
def m_Customer : List RClass := d_Customer :: m_Organisation

/-- CIM14/IEC61968/Customers/CustomerAccount.py:23 -/
def d_CustomerAccount : RClass := ⟨0x437573746f6d65724163636f756e74, 0x43494d31342e49454336313936382e437573746f6d6572732e437573746f6d65724163636f756e74, 0x43494d31342e49454336313936382e436f6d6d6f6e2e446f63756d656e74,
  [],
  [],
  [],
  [],
  [],
  [⟨0x5061796d656e745472616e73616374696f6e73, .many2one, 0x437573746f6d65724163636f756e74, 0, false⟩, ⟨0x437573746f6d657241677265656d656e7473, .many2one, 0x437573746f6d65724163636f756e74, 0, false⟩],
  [0x5061796d656e745472616e73616374696f6e73, 0x437573746f6d657241677265656d656e7473]⟩
def m_CustomerAccount : List RClass := d_CustomerAccount :: m_Document

/-- CIM14/IEC61968/Customers/PricingStructure.py:23 -/
def d_PricingStructure : RClass := ⟨0x50726963696e67537472756374757265, 0x43494d31342e49454336313936382e437573746f6d6572732e50726963696e67537472756374757265, 0x43494d31342e49454336313936382e436f6d6d6f6e2e446f63756d656e74,
  [(0x726576656e75654b696e64, .str 0x696e647573747269616c), (0x636f6465, .str 0), (0x6461696c79466c6f6f725573616765, .int 0), (0x7461784578656d7074696f6e, .bool false), (0x6461696c79457374696d617465645573616765, .int 0), (0x6461696c794365696c696e675573616765, .int 0)],
  [0x726576656e75654b696e64, 0x636f6465, 0x6461696c79466c6f6f725573616765, 0x7461784578656d7074696f6e, 0x6461696c79457374696d617465645573616765, 0x6461696c794365696c696e675573616765],
  [(0x726576656e75654b696e64, .str 0x696e647573747269616c), (0x636f6465, .str 0), (0x6461696c79466c6f6f725573616765, .int 0), (0x7461784578656d7074696f6e, .bool false), (0x6461696c79457374696d617465645573616765, .int 0), (0x6461696c794365696c696e675573616765, .int 0)],
  [(0x726576656e75654b696e64, 0x737472), (0x636f6465, 0x737472), (0x6461696c79466c6f6f725573616765, 0x696e74), (0x7461784578656d7074696f6e, 0x626f6f6c), (0x6461696c79457374696d617465645573616765, 0x696e74), (0x6461696c794365696c696e675573616765, 0x696e74)],
  [(0x726576656e75654b696e64, 0x526576656e75654b696e64)],
  [⟨0x5472616e73616374696f6e73, .many2one, 0x50726963696e67537472756374757265, 0, false⟩, ⟨0x5365727669636544656c6976657279506f696e7473, .many2many, 0x50726963696e6753747275637475726573, 0, false⟩, ⟨0x437573746f6d657241677265656d656e7473, .many2many, 0x50726963696e6753747275637475726573, 0, false⟩, ⟨0x5365727669636543617465676f7279, .one2many, 0x50726963696e6753747275637475726573, 0, false⟩, ⟨0x54617269666673, .many2many, 0x50726963696e6753747275637475726573, 0, false⟩],
  [0x5472616e73616374696f6e73, 0x5365727669636544656c6976657279506f696e7473, 0x437573746f6d657241677265656d656e7473, 0x54617269666673]⟩
def m_PricingStructure : List RClass := d_PricingStructure :: m_Document

/-- CIM14/IEC61968/Customers/ServiceLocation.py:23 -/
def d_ServiceLocation : RClass := ⟨0x536572766963654c6f636174696f6e, 0x43494d31342e49454336313936382e437573746f6d6572732e536572766963654c6f636174696f6e, 0x43494d31342e49454336313936382e436f6d6d6f6e2e4c6f636174696f6e,
  [(0x7369746541636365737350726f626c656d, .str 0), (0x6163636573734d6574686f64, .str 0), (0x6e65656473496e7370656374696f6e, .bool false)],
  [0x7369746541636365737350726f626c656d, 0x6163636573734d6574686f64, 0x6e65656473496e7370656374696f6e],
  [(0x7369746541636365737350726f626c656d, .str 0), (0x6163636573734d6574686f64, .str 0), (0x6e65656473496e7370656374696f6e, .bool false)],
  [(0x7369746541636365737350726f626c656d, 0x737472), (0x6163636573734d6574686f64, 0x737472), (0x6e65656473496e7370656374696f6e, 0x626f6f6c)],
  [],
  [⟨0x456e64446576696365417373657473, .many2one, 0x536572766963654c6f636174696f6e, 0, false⟩, ⟨0x437573746f6d657241677265656d656e7473, .many2many, 0x536572766963654c6f636174696f6e73, 0, false⟩, ⟨0x5365727669636544656c6976657279506f696e7473, .many2one, 0x536572766963654c6f636174696f6e, 0, false⟩],
  [0x456e64446576696365417373657473, 0x437573746f6d657241677265656d656e7473, 0x5365727669636544656c6976657279506f696e7473]⟩
def m_ServiceLocation : List RClass := d_ServiceLocation :: m_Location

/-- CIM14/IEC61968/Customers/Tariff.py:23 -/
def d_Tariff : RClass := ⟨0x546172696666, 0x43494d31342e49454336313936382e437573746f6d6572732e546172696666, 0x43494d31342e49454336313936382e436f6d6d6f6e2e446f63756d656e74,
  [(0x737461727444617465, .str 0), (0x656e6444617465, .str 0)],
  [0x737461727444617465, 0x656e6444617465],
  [(0x737461727444617465, .str 0), (0x656e6444617465, .str 0)],
  [(0x737461727444617465, 0x737472), (0x656e6444617465, 0x737472)],
  [],
  [⟨0x54617269666650726f66696c6573, .many2many, 0x54617269666673, 0, false⟩, ⟨0x50726963696e6753747275637475726573, .many2many, 0x54617269666673, 0, false⟩],
  [0x54617269666650726f66696c6573, 0x50726963696e6753747275637475726573]⟩
def m_Tariff : List RClass := d_Tariff :: m_Document

/-- CIM14/IEC61968/Metering/DeviceFunction.py:23 -/
def d_DeviceFunction : RClass := ⟨0x44657669636546756e6374696f6e, 0x43494d31342e49454336313936382e4d65746572696e672e44657669636546756e6374696f6e, 0x43494d31342e49454336313936382e4173736574732e417373657446756e6374696f6e,
  [(0x64697361626c6564, .bool false)],
  [0x64697361626c6564],
  [(0x64697361626c6564, .bool false)],
  [(0x64697361626c6564, 0x626f6f6c)],
  [],
  [⟨0x456e644465766963654173736574, .one2many, 0x44657669636546756e6374696f6e73, 0, false⟩, ⟨0x526567697374657273, .many2one, 0x44657669636546756e6374696f6e, 0, false⟩, ⟨0x456e644465766963654576656e7473, .many2one, 0x44657669636546756e6374696f6e, 0, false⟩],
  [0x526567697374657273, 0x456e644465766963654576656e7473]⟩
def m_DeviceFunction : List RClass := d_DeviceFunction :: m_AssetFunction

/-- CIM14/IEC61968/Metering/EndDeviceEvent.py:23 -/
def d_EndDeviceEvent : RClass := ⟨0x456e644465766963654576656e74, 0x43494d31342e49454336313936382e4d65746572696e672e456e644465766963654576656e74, 0x43494d31342e49454336313936382e436f6d6d6f6e2e41637469766974795265636f7264,
  [(0x757365724944, .str 0)],
  [0x757365724944],
  [(0x757365724944, .str 0)],
  [(0x757365724944, 0x737472)],
  [],
  [⟨0x4d6574657252656164696e67, .one2many, 0x456e644465766963654576656e7473, 0, false⟩, ⟨0x44657669636546756e6374696f6e, .one2many, 0x456e644465766963654576656e7473, 0, false⟩],
  []⟩
def m_EndDeviceEvent : List RClass := d_EndDeviceEvent :: m_ActivityRecord

/-- CIM14/IEC61968/Metering/IntervalReading.py:23 -/
def d_IntervalReading : RClass := ⟨0x496e74657276616c52656164696e67, 0x43494d31342e49454336313936382e4d65746572696e672e496e74657276616c52656164696e67, 0x43494d31342e49454336313937302e4d6561732e4d6561737572656d656e7456616c7565,
  [(0x76616c7565, .flt 0x0)],
  [0x76616c7565],
  [(0x76616c7565, .flt 0x0)],
  [(0x76616c7565, 0x666c6f6174)],
  [],
  [⟨0x52656164696e675175616c6974696573, .many2one, 0x496e74657276616c52656164696e67, 0, false⟩, ⟨0x496e74657276616c426c6f636b73, .many2many, 0x496e74657276616c52656164696e6773, 0, false⟩],
  [0x52656164696e675175616c6974696573, 0x496e74657276616c426c6f636b73]⟩
def m_IntervalReading : List RClass := d_IntervalReading :: m_MeasurementValue

/-- CIM14/IEC61968/Metering/Reading.py:23 -/
def d_Reading : RClass := ⟨0x52656164696e67, 0x43494d31342e49454336313936382e4d65746572696e672e52656164696e67, 0x43494d31342e49454336313937302e4d6561732e4d6561737572656d656e7456616c7565,
  [(0x76616c7565, .flt 0x0)],
  [0x76616c7565],
  [(0x76616c7565, .flt 0x0)],
  [(0x76616c7565, 0x666c6f6174)],
  [],
  [⟨0x52656164696e6754797065, .one2many, 0x52656164696e6773, 0, false⟩, ⟨0x52656164696e675175616c6974696573, .many2one, 0x52656164696e67, 0, false⟩, ⟨0x456e644465766963654173736574, .one2many, 0x52656164696e6773, 0, false⟩, ⟨0x4d6574657252656164696e6773, .many2many, 0x52656164696e6773, 0, false⟩],
  [0x52656164696e675175616c6974696573, 0x4d6574657252656164696e6773]⟩
def m_Reading : List RClass := d_Reading :: m_MeasurementValue

/-- CIM14/IEC61968/Metering/SDPLocation.py:23 -/
def d_SDPLocation : RClass := ⟨0x5344504c6f636174696f6e, 0x43494d31342e49454336313936382e4d65746572696e672e5344504c6f636174696f6e, 0x43494d31342e49454336313936382e436f6d6d6f6e2e4c6f636174696f6e,
  [(0x72656d61726b, .str 0), (0x7369746541636365737350726f626c656d, .str 0), (0x6f63637570616e637944617465, .str 0), (0x6163636573734d6574686f64, .str 0)],
  [0x72656d61726b, 0x7369746541636365737350726f626c656d, 0x6f63637570616e637944617465, 0x6163636573734d6574686f64],
  [(0x72656d61726b, .str 0), (0x7369746541636365737350726f626c656d, .str 0), (0x6f63637570616e637944617465, .str 0), (0x6163636573734d6574686f64, .str 0)],
  [(0x72656d61726b, 0x737472), (0x7369746541636365737350726f626c656d, 0x737472), (0x6f63637570616e637944617465, 0x737472), (0x6163636573734d6574686f64, 0x737472)],
  [],
  [⟨0x5365727669636544656c6976657279506f696e7473, .many2many, 0x5344504c6f636174696f6e73, 0, false⟩],
  [0x5365727669636544656c6976657279506f696e7473]⟩
def m_SDPLocation : List RClass := d_SDPLocation :: m_Location

/-- CIM14/IEC61968/PaymentMetering/AuxiliaryAccount.py:23 -/
def d_AuxiliaryAccount : RClass := ⟨0x417578696c696172794163636f756e74, 0x43494d31342e49454336313936382e5061796d656e744d65746572696e672e417578696c696172794163636f756e74, 0x43494d31342e49454336313936382e436f6d6d6f6e2e446f63756d656e74,
  [(0x62616c616e6365, .flt 0x0), (0x7072696e6369706c65416d6f756e74, .flt 0x0)],
  [0x62616c616e6365, 0x7072696e6369706c65416d6f756e74],
  [(0x62616c616e6365, .flt 0x0), (0x7072696e6369706c65416d6f756e74, .flt 0x0)],
  [(0x62616c616e6365, 0x666c6f6174), (0x7072696e6369706c65416d6f756e74, 0x666c6f6174)],
  [],
  [⟨0x43686172676573, .many2many, 0x417578696c696172794163636f756e7473, 0, false⟩, ⟨0x417578696c6961727941677265656d656e74, .one2many, 0x417578696c696172794163636f756e7473, 0, false⟩, ⟨0x5061796d656e745472616e73616374696f6e73, .many2one, 0x417578696c696172794163636f756e74, 0, false⟩, ⟨0x6c6173744465626974, .plainOne, 0, 0, false⟩, ⟨0x6c617374437265646974, .plainOne, 0, 0, false⟩, ⟨0x647565, .plainOne, 0, 0, false⟩],
  [0x43686172676573, 0x5061796d656e745472616e73616374696f6e73]⟩
def m_AuxiliaryAccount : List RClass := d_AuxiliaryAccount :: m_Document

/-- CIM14/IEC61968/PaymentMetering/CashierShift.py:23 -/
def d_CashierShift : RClass := ⟨0x436173686965725368696674, 0x43494d31342e49454336313936382e5061796d656e744d65746572696e672e436173686965725368696674, 0x43494d31342e49454336313936382e5061796d656e744d65746572696e672e5368696674,
  [(0x63617368466c6f6174, .flt 0x0)],
  [0x63617368466c6f6174],
  [(0x63617368466c6f6174, .flt 0x0)],
  [(0x63617368466c6f6174, 0x666c6f6174)],
  [],
  [⟨0x5265636569707473, .many2one, 0x436173686965725368696674, 0, false⟩, ⟨0x5472616e73616374696f6e73, .many2one, 0x436173686965725368696674, 0, false⟩, ⟨0x43617368696572, .one2many, 0x43617368696572536869667473, 0, false⟩, ⟨0x506f696e744f6653616c65, .one2many, 0x43617368696572536869667473, 0, false⟩],
  [0x5265636569707473, 0x5472616e73616374696f6e73]⟩
def m_CashierShift : List RClass := d_CashierShift :: m_Shift

/-- CIM14/IEC61968/PaymentMetering/MerchantAccount.py:23 -/
def d_MerchantAccount : RClass := ⟨0x4d65726368616e744163636f756e74, 0x43494d31342e49454336313936382e5061796d656e744d65746572696e672e4d65726368616e744163636f756e74, 0x43494d31342e49454336313936382e436f6d6d6f6e2e446f63756d656e74,
  [(0x70726f766973696f6e616c42616c616e6365, .flt 0x0), (0x63757272656e7442616c616e6365, .flt 0x0)],
  [0x70726f766973696f6e616c42616c616e6365, 0x63757272656e7442616c616e6365],
  [(0x70726f766973696f6e616c42616c616e6365, .flt 0x0), (0x63757272656e7442616c616e6365, .flt 0x0)],
  [(0x70726f766973696f6e616c42616c616e6365, 0x666c6f6174), (0x63757272656e7442616c616e6365, 0x666c6f6174)],
  [],
  [⟨0x56656e646f72536869667473, .many2one, 0x4d65726368616e744163636f756e74, 0, false⟩, ⟨0x4d65726368616e7441677265656d656e74, .one2many, 0x4d65726368616e744163636f756e7473, 0, false⟩, ⟨0x56656e646f7273, .many2one, 0x4d65726368616e744163636f756e74, 0, false⟩, ⟨0x5472616e736163746f7273, .many2many, 0x4d65726368616e744163636f756e7473, 0, false⟩],
  [0x56656e646f72536869667473, 0x56656e646f7273, 0x5472616e736163746f7273]⟩
def m_MerchantAccount : List RClass := d_MerchantAccount :: m_Document

/-- CIM14/IEC61968/PaymentMetering/ServiceSupplier.py:23 -/
def d_ServiceSupplier : RClass := ⟨0x53657276696365537570706c696572, 0x43494d31342e49454336313936382e5061796d656e744d65746572696e672e53657276696365537570706c696572, 0x43494d31342e49454336313936382e436f6d6d6f6e2e4f7267616e69736174696f6e,
  [(0x6b696e64, .str 0x72657461696c6572), (0x6973737565724964656e74696669636174696f6e4e756d626572, .str 0)],
  [0x6b696e64, 0x6973737565724964656e74696669636174696f6e4e756d626572],
  [(0x6b696e64, .str 0x72657461696c6572), (0x6973737565724964656e74696669636174696f6e4e756d626572, .str 0)],
  [(0x6b696e64, 0x737472), (0x6973737565724964656e74696669636174696f6e4e756d626572, 0x737472)],
  [(0x6b696e64, 0x537570706c6965724b696e64)],
  [⟨0x437573746f6d657241677265656d656e7473, .many2one, 0x53657276696365537570706c696572, 0, false⟩, ⟨0x5365727669636544656c6976657279506f696e7473, .many2one, 0x53657276696365537570706c696572, 0, false⟩],
  [0x437573746f6d657241677265656d656e7473, 0x5365727669636544656c6976657279506f696e7473]⟩
def m_ServiceSupplier : List RClass := d_ServiceSupplier :: m_Organisation

/-- CIM14/IEC61968/PaymentMetering/TariffProfile.py:23 -/
def d_TariffProfile : RClass := ⟨0x54617269666650726f66696c65, 0x43494d31342e49454336313936382e5061796d656e744d65746572696e672e54617269666650726f66696c65, 0x43494d31342e49454336313936382e436f6d6d6f6e2e446f63756d656e74,
  [(0x7461726966664379636c65, .str 0)],
  [0x7461726966664379636c65],
  [(0x7461726966664379636c65, .str 0)],
  [(0x7461726966664379636c65, 0x737472)],
  [],
  [⟨0x436f6e73756d7074696f6e546172696666496e74657276616c73, .many2many, 0x54617269666650726f66696c6573, 0, false⟩, ⟨0x54696d65546172696666496e74657276616c73, .many2many, 0x54617269666650726f66696c6573, 0, false⟩, ⟨0x54617269666673, .many2many, 0x54617269666650726f66696c6573, 0, false⟩],
  [0x436f6e73756d7074696f6e546172696666496e74657276616c73, 0x54696d65546172696666496e74657276616c73, 0x54617269666673]⟩
def m_TariffProfile : List RClass := d_TariffProfile :: m_Document

/-- CIM14/IEC61968/PaymentMetering/VendorShift.py:23 -/
def d_VendorShift : RClass := ⟨0x56656e646f725368696674, 0x43494d31342e49454336313936382e5061796d656e744d65746572696e672e56656e646f725368696674, 0x43494d31342e49454336313936382e5061796d656e744d65746572696e672e5368696674,
  [(0x6d65726368616e744465626974416d6f756e74, .flt 0x0), (0x706f73746564, .bool false)],
  [0x6d65726368616e744465626974416d6f756e74, 0x706f73746564],
  [(0x6d65726368616e744465626974416d6f756e74, .flt 0x0), (0x706f73746564, .bool false)],
  [(0x6d65726368616e744465626974416d6f756e74, 0x666c6f6174), (0x706f73746564, 0x626f6f6c)],
  [],
  [⟨0x4d65726368616e744163636f756e74, .one2many, 0x56656e646f72536869667473, 0, false⟩, ⟨0x5472616e73616374696f6e73, .many2one, 0x56656e646f725368696674, 0, false⟩, ⟨0x5265636569707473, .many2one, 0x56656e646f725368696674, 0, false⟩, ⟨0x56656e646f72, .one2many, 0x56656e646f72536869667473, 0, false⟩],
  [0x5472616e73616374696f6e73, 0x5265636569707473]⟩
def m_VendorShift : List RClass := d_VendorShift :: m_Shift

/-- CIM14/IEC61968/Work/Work.py:23 -/
def d_Work : RClass := ⟨0x576f726b, 0x43494d31342e49454336313936382e576f726b2e576f726b, 0x43494d31342e49454336313936382e436f6d6d6f6e2e446f63756d656e74,
  [(0x6b696e64, .str 0x636f6e737472756374696f6e), (0x7072696f72697479, .str 0), (0x726571756573744461746554696d65, .str 0)],
  [0x6b696e64, 0x7072696f72697479, 0x726571756573744461746554696d65],
  [(0x6b696e64, .str 0x636f6e737472756374696f6e), (0x7072696f72697479, .str 0), (0x726571756573744461746554696d65, .str 0)],
  [(0x6b696e64, 0x737472), (0x7072696f72697479, 0x737472), (0x726571756573744461746554696d65, 0x737472)],
  [(0x6b696e64, 0x576f726b4b696e64)],
  [⟨0x437573746f6d657273, .many2many, 0x576f726b73, 0, false⟩],
  [0x437573746f6d657273]⟩
def m_Work : List RClass := d_Work :: m_Document

/-- CIM14/IEC61970/Contingency/ContingencyEquipment.py:23 -/
def d_ContingencyEquipment : RClass := ⟨0x436f6e74696e67656e637945717569706d656e74, 0x43494d31342e49454336313937302e436f6e74696e67656e63792e436f6e74696e67656e637945717569706d656e74, 0x43494d31342e49454336313937302e436f6e74696e67656e63792e436f6e74696e67656e6379456c656d656e74,
  [(0x636f6e74696e67656e74537461747573, .str 0x6f75744f6653657276696365)],
  [0x636f6e74696e67656e74537461747573],
  [(0x636f6e74696e67656e74537461747573, .str 0x6f75744f6653657276696365)],
  [(0x636f6e74696e67656e74537461747573, 0x737472)],
  [(0x636f6e74696e67656e74537461747573, 0x436f6e74696e67656e637945717569706d656e745374617475734b696e64)],
  [⟨0x45717569706d656e74, .one2many, 0x436f6e74696e67656e637945717569706d656e74, 0, false⟩],
  []⟩
def m_ContingencyEquipment : List RClass := d_ContingencyEquipment :: m_ContingencyElement

/-- CIM14/IEC61970/ControlArea/ControlArea.py:23 -/
def d_ControlArea : RClass := ⟨0x436f6e74726f6c41726561, 0x43494d31342e49454336313937302e436f6e74726f6c417265612e436f6e74726f6c41726561, 0x43494d31342e49454336313937302e436f72652e506f77657253797374656d5265736f75726365,
  [(0x74797065, .str 0x496e7465726368616e6765), (0x6e6574496e7465726368616e6765, .flt 0x0), (0x70546f6c6572616e6365, .flt 0x0)],
  [0x74797065, 0x6e6574496e7465726368616e6765, 0x70546f6c6572616e6365],
  [(0x74797065, .str 0x496e7465726368616e6765), (0x6e6574496e7465726368616e6765, .flt 0x0), (0x70546f6c6572616e6365, .flt 0x0)],
  [(0x74797065, 0x737472), (0x6e6574496e7465726368616e6765, 0x666c6f6174), (0x70546f6c6572616e6365, 0x666c6f6174)],
  [(0x74797065, 0x436f6e74726f6c41726561547970654b696e64)],
  [⟨0x546965466c6f77, .many2one, 0x436f6e74726f6c41726561, 0, false⟩, ⟨0x456e6572677941726561, .one2one, 0x436f6e74726f6c41726561, 0, false⟩, ⟨0x436f6e74726f6c4172656147656e65726174696e67556e6974, .many2one, 0x436f6e74726f6c41726561, 0, false⟩],
  [0x546965466c6f77, 0x436f6e74726f6c4172656147656e65726174696e67556e6974]⟩
def m_ControlArea : List RClass := d_ControlArea :: m_PowerSystemResource

/-- CIM14/IEC61970/Core/ConnectivityNodeContainer.py:23 -/
def d_ConnectivityNodeContainer : RClass := ⟨0x436f6e6e65637469766974794e6f6465436f6e7461696e6572, 0x43494d31342e49454336313937302e436f72652e436f6e6e65637469766974794e6f6465436f6e7461696e6572, 0x43494d31342e49454336313937302e436f72652e506f77657253797374656d5265736f75726365,
  [],
  [],
  [],
  [],
  [],
  [⟨0x436f6e6e65637469766974794e6f646573, .many2one, 0x436f6e6e65637469766974794e6f6465436f6e7461696e6572, 0, false⟩, ⟨0x546f706f6c6f676963616c4e6f6465, .many2one, 0x436f6e6e65637469766974794e6f6465436f6e7461696e6572, 0, false⟩],
  [0x436f6e6e65637469766974794e6f646573, 0x546f706f6c6f676963616c4e6f6465]⟩
def m_ConnectivityNodeContainer : List RClass := d_ConnectivityNodeContainer :: m_PowerSystemResource

/-- CIM14/IEC61970/Core/Equipment.py:23 -/
def d_Equipment : RClass := ⟨0x45717569706d656e74, 0x43494d31342e49454336313937302e436f72652e45717569706d656e74, 0x43494d31342e49454336313937302e436f72652e506f77657253797374656d5265736f75726365,
  [(0x6e6f726d61496c79496e53657276696365, .bool false), (0x616767726567617465, .bool false)],
  [0x6e6f726d61496c79496e53657276696365, 0x616767726567617465],
  [(0x6e6f726d61496c79496e53657276696365, .bool false), (0x616767726567617465, .bool false)],
  [(0x6e6f726d61496c79496e53657276696365, 0x626f6f6c), (0x616767726567617465, 0x626f6f6c)],
  [],
  [⟨0x4f7065726174696f6e616c4c696d6974536574, .many2one, 0x45717569706d656e74, 0, false⟩, ⟨0x436f6e74696e67656e637945717569706d656e74, .many2one, 0x45717569706d656e74, 0, false⟩, ⟨0x45717569706d656e74436f6e7461696e6572, .one2many, 0x45717569706d656e7473, 0, false⟩, ⟨0x437573746f6d657241677265656d656e7473, .many2many, 0x45717569706d656e7473, 0, false⟩],
  [0x4f7065726174696f6e616c4c696d6974536574, 0x436f6e74696e67656e637945717569706d656e74, 0x437573746f6d657241677265656d656e7473]⟩
def m_Equipment : List RClass := d_Equipment :: m_PowerSystemResource

/-- CIM14/IEC61970/Core/IrregularIntervalSchedule.py:23 -/
def d_IrregularIntervalSchedule : RClass := ⟨0x4972726567756c6172496e74657276616c5363686564756c65, 0x43494d31342e49454336313937302e436f72652e4972726567756c6172496e74657276616c5363686564756c65, 0x43494d31342e49454336313937302e436f72652e4261736963496e74657276616c5363686564756c65,
  [],
  [],
  [],
  [],
  [],
  [⟨0x54696d65506f696e7473, .many2one, 0x496e74657276616c5363686564756c65, 0, false⟩],
  [0x54696d65506f696e7473]⟩
def m_IrregularIntervalSchedule : List RClass := d_IrregularIntervalSchedule :: m_BasicIntervalSchedule

/-- CIM14/IEC61970/Core/RegularIntervalSchedule.py:23 -/
def d_RegularIntervalSchedule : RClass := ⟨0x526567756c6172496e74657276616c5363686564756c65, 0x43494d31342e49454336313937302e436f72652e526567756c6172496e74657276616c5363686564756c65, 0x43494d31342e49454336313937302e436f72652e4261736963496e74657276616c5363686564756c65,
  [(0x656e6454696d65, .str 0), (0x74696d6553746570, .flt 0x0)],
  [0x656e6454696d65, 0x74696d6553746570],
  [(0x656e6454696d65, .str 0), (0x74696d6553746570, .flt 0x0)],
  [(0x656e6454696d65, 0x737472), (0x74696d6553746570, 0x666c6f6174)],
  [],
  [⟨0x54696d65506f696e7473, .many2one, 0x496e74657276616c5363686564756c65, 0, false⟩],
  [0x54696d65506f696e7473]⟩
def m_RegularIntervalSchedule : List RClass := d_RegularIntervalSchedule :: m_BasicIntervalSchedule

/-- CIM14/IEC61970/Dynamics/Block.py:23 -/
def d_Block : RClass := ⟨0x426c6f636b, 0x43494d31342e49454336313937302e44796e616d6963732e426c6f636b, 0x43494d31342e49454336313937302e436f72652e506f77657253797374656d5265736f75726365,
  [(0x706f736974697665466c6f77496e, .bool false), (0x696e53657276696365, .bool false)],
  [0x706f736974697665466c6f77496e, 0x696e53657276696365],
  [(0x706f736974697665466c6f77496e, .bool false), (0x696e53657276696365, .bool false)],
  [(0x706f736974697665466c6f77496e, 0x626f6f6c), (0x696e53657276696365, 0x626f6f6c)],
  [],
  [⟨0x5465726d696e616c, .one2many, 0x426c6f636b, 0, false⟩, ⟨0x4d656d6265724f665f426c6f636b436f6e6e6563746976697479, .one2many, 0x426c6f636b, 0, false⟩, ⟨0x626c6f636b5573616765496e7075745265666572656e636530, .many2one, 0x626c6f636b30, 0, false⟩, ⟨0x426c6f636b55736167654f75747075745265666572656e6365, .many2one, 0x626c6f636b30, 0, false⟩, ⟨0x506f77657253797374656d5265736f75726365, .one2many, 0x426c6f636b, 0, false⟩, ⟨0x736c6f745265666572656e636530, .one2many, 0x626c6f636b30, 0, false⟩, ⟨0x746965546f4d6561737572656d656e7430, .many2one, 0x626c6f636b30, 0, false⟩, ⟨0x4d657461426c6f636b, .one2many, 0x426c6f636b, 0, false⟩, ⟨0x426c6f636b436f6e6e656374696f6e, .many2one, 0x426c6f636b, 0, false⟩, ⟨0x426c6f636b506172616d65746572, .many2one, 0x4d656d6265724f665f426c6f636b, 0, false⟩],
  [0x626c6f636b5573616765496e7075745265666572656e636530, 0x426c6f636b55736167654f75747075745265666572656e6365, 0x746965546f4d6561737572656d656e7430, 0x426c6f636b436f6e6e656374696f6e, 0x426c6f636b506172616d65746572]⟩
def m_Block : List RClass := d_Block :: m_PowerSystemResource

/-- CIM14/IEC61970/Dynamics/BlockConstant.py:23 -/
def d_BlockConstant : RClass := ⟨0x426c6f636b436f6e7374616e74, 0x43494d31342e49454336313937302e44796e616d6963732e426c6f636b436f6e7374616e74, 0x43494d31342e49454336313937302e44796e616d6963732e4d657461426c6f636b436f6e6e65637461626c65,
  [(0x76616c7565, .flt 0x0)],
  [0x76616c7565],
  [(0x76616c7565, .flt 0x0)],
  [(0x76616c7565, 0x666c6f6174)],
  [],
  [⟨0x6d657461426c6f636b30, .one2many, 0x626c6f636b436f6e7374616e7430, 0, false⟩],
  []⟩
def m_BlockConstant : List RClass := d_BlockConstant :: m_MetaBlockConnectable

/-- CIM14/IEC61970/Dynamics/BlockOutputReference.py:23 -/
def d_BlockOutputReference : RClass := ⟨0x426c6f636b4f75747075745265666572656e6365, 0x43494d31342e49454336313937302e44796e616d6963732e426c6f636b4f75747075745265666572656e6365, 0x43494d31342e49454336313937302e44796e616d6963732e4d657461426c6f636b436f6e6e65637461626c65,
  [],
  [],
  [],
  [],
  [],
  [⟨0x6d657461426c6f636b4f757470757430, .one2many, 0x426c6f636b4f75747075745265666572656e6365, 0, false⟩, ⟨0x6d657461426c6f636b5265666572656e636530, .many2many, 0x626c6f636b4f75747075745265666572656e636530, 0, false⟩],
  [0x6d657461426c6f636b5265666572656e636530]⟩
def m_BlockOutputReference : List RClass := d_BlockOutputReference :: m_MetaBlockConnectable

/-- CIM14/IEC61970/Dynamics/ExcitationSystems/ExcitationSystem.py:23 -/
def d_ExcitationSystem : RClass := ⟨0x45786369746174696f6e53797374656d, 0x43494d31342e49454336313937302e44796e616d6963732e45786369746174696f6e53797374656d732e45786369746174696f6e53797374656d, 0x43494d31342e49454336313937302e436f72652e506f77657253797374656d5265736f75726365,
  [],
  [],
  [],
  [],
  [],
  [],
  []⟩
def m_ExcitationSystem : List RClass := d_ExcitationSystem :: m_PowerSystemResource

/-- CIM14/IEC61970/Dynamics/Loads/AggregateLoad.py:23 -/
def d_AggregateLoad : RClass := ⟨0x4167677265676174654c6f6164, 0x43494d31342e49454336313937302e44796e616d6963732e4c6f6164732e4167677265676174654c6f6164, 0x43494d31342e49454336313937302e436f72652e506f77657253797374656d5265736f75726365,
  [],
  [],
  [],
  [],
  [],
  [⟨0x656e65726779436f6e73756d657230, .many2many, 0x6167677265676174654c6f616430, 0, false⟩],
  [0x656e65726779436f6e73756d657230]⟩
def m_AggregateLoad : List RClass := d_AggregateLoad :: m_PowerSystemResource

/-- CIM14/IEC61970/Dynamics/MetaBlockInput.py:23 -/
def d_MetaBlockInput : RClass := ⟨0x4d657461426c6f636b496e707574, 0x43494d31342e49454336313937302e44796e616d6963732e4d657461426c6f636b496e707574, 0x43494d31342e49454336313937302e44796e616d6963732e4d657461426c6f636b436f6e6e65637461626c65,
  [],
  [],
  [],
  [],
  [],
  [⟨0x626c6f636b496e7075745265666572656e636530, .many2one, 0x6d657461426c6f636b496e70757430, 0, false⟩, ⟨0x4d656d6265724f665f4d657461426c6f636b, .one2many, 0x4d657461426c6f636b496e707574, 0, false⟩, ⟨0x626c6f636b5573616765496e7075745265666572656e636530, .many2one, 0x6d657461426c6f636b496e70757430, 0, false⟩, ⟨0x626c6f636b496e7075745479706530, .one2many, 0x6d657461426c6f636b496e70757430, 0, false⟩, ⟨0x746965546f4d6561737572656d656e7430, .many2one, 0x6d657461426c6f636b496e70757430, 0, false⟩],
  [0x626c6f636b496e7075745265666572656e636530, 0x626c6f636b5573616765496e7075745265666572656e636530, 0x746965546f4d6561737572656d656e7430]⟩
def m_MetaBlockInput : List RClass := d_MetaBlockInput :: m_MetaBlockConnectable

/-- CIM14/IEC61970/Dynamics/MetaBlockOutput.py:23 -/
def d_MetaBlockOutput : RClass := ⟨0x4d657461426c6f636b4f7574707574, 0x43494d31342e49454336313937302e44796e616d6963732e4d657461426c6f636b4f7574707574, 0x43494d31342e49454336313937302e44796e616d6963732e4d657461426c6f636b436f6e6e65637461626c65,
  [],
  [],
  [],
  [],
  [],
  [⟨0x426c6f636b4f75747075745265666572656e6365, .many2one, 0x6d657461426c6f636b4f757470757430, 0, false⟩, ⟨0x4d656d6265724f665f4d657461426c6f636b, .one2many, 0x4d657461426c6f636b4f7574707574, 0, false⟩, ⟨0x626c6f636b55736167654f75747075745265666572656e636530, .many2one, 0x6d657461426c6f636b4f757470757430, 0, false⟩, ⟨0x626c6f636b4f75747075745479706530, .one2many, 0x6d657461426c6f636b4f757470757430, 0, false⟩],
  [0x426c6f636b4f75747075745265666572656e6365, 0x626c6f636b55736167654f75747075745265666572656e636530]⟩
def m_MetaBlockOutput : List RClass := d_MetaBlockOutput :: m_MetaBlockConnectable

/-- CIM14/IEC61970/Dynamics/MetaBlockParameter.py:23 -/
def d_MetaBlockParameter : RClass := ⟨0x4d657461426c6f636b506172616d65746572, 0x43494d31342e49454336313937302e44796e616d6963732e4d657461426c6f636b506172616d65746572, 0x43494d31342e49454336313937302e44796e616d6963732e4d657461426c6f636b436f6e6e65637461626c65,
  [],
  [],
  [],
  [],
  [],
  [⟨0x426c6f636b506172616d65746572, .many2one, 0x4d657461426c6f636b506172616d65746572, 0, false⟩, ⟨0x4d656d6265724f665f4d657461426c6f636b, .one2many, 0x4d657461426c6f636b506172616d65746572, 0, false⟩],
  [0x426c6f636b506172616d65746572]⟩
def m_MetaBlockParameter : List RClass := d_MetaBlockParameter :: m_MetaBlockConnectable

/-- CIM14/IEC61970/Dynamics/MetaBlockState.py:23 -/
def d_MetaBlockState : RClass := ⟨0x4d657461426c6f636b5374617465, 0x43494d31342e49454336313937302e44796e616d6963732e4d657461426c6f636b5374617465, 0x43494d31342e49454336313937302e44796e616d6963732e4d657461426c6f636b436f6e6e65637461626c65,
  [],
  [],
  [],
  [],
  [],
  [⟨0x4d656d6265724f665f4d657461426c6f636b, .one2many, 0x4d657461426c6f636b5374617465, 0, false⟩],
  []⟩
def m_MetaBlockState : List RClass := d_MetaBlockState :: m_MetaBlockConnectable

/-- CIM14/IEC61970/Dynamics/Motors/MechanicalLoad.py:23 -/
def d_MechanicalLoad : RClass := ⟨0x4d656368616e6963616c4c6f6164, 0x43494d31342e49454336313937302e44796e616d6963732e4d6f746f72732e4d656368616e6963616c4c6f6164, 0x43494d31342e49454336313937302e436f72652e506f77657253797374656d5265736f75726365,
  [],
  [],
  [],
  [],
  [],
  [⟨0x726f746174696e674d616368696e6530, .many2many, 0x6d656368616e6963616c4c6f616430, 0, false⟩],
  [0x726f746174696e674d616368696e6530]⟩
def m_MechanicalLoad : List RClass := d_MechanicalLoad :: m_PowerSystemResource

/-- CIM14/IEC61970/Dynamics/PowerSystemStabilizers/PowerSystemStabilizer.py:23 -/
def d_PowerSystemStabilizer : RClass := ⟨0x506f77657253797374656d53746162696c697a6572, 0x43494d31342e49454336313937302e44796e616d6963732e506f77657253797374656d53746162696c697a6572732e506f77657253797374656d53746162696c697a6572, 0x43494d31342e49454336313937302e436f72652e506f77657253797374656d5265736f75726365,
  [],
  [],
  [],
  [],
  [],
  [],
  []⟩
def m_PowerSystemStabilizer : List RClass := d_PowerSystemStabilizer :: m_PowerSystemResource

/-- CIM14/IEC61970/Dynamics/TurbineGovernors/TurbineGovernor.py:23 -/
def d_TurbineGovernor : RClass := ⟨0x54757262696e65476f7665726e6f72, 0x43494d31342e49454336313937302e44796e616d6963732e54757262696e65476f7665726e6f72732e54757262696e65476f7665726e6f72, 0x43494d31342e49454336313937302e436f72652e506f77657253797374656d5265736f75726365,
  [],
  [],
  [],
  [],
  [],
  [],
  []⟩
def m_TurbineGovernor : List RClass := d_TurbineGovernor :: m_PowerSystemResource

/-- CIM14/IEC61970/Dynamics/VoltageCompensator/VoltageCompensator.py:23 -/
def d_VoltageCompensator : RClass := ⟨0x566f6c74616765436f6d70656e7361746f72, 0x43494d31342e49454336313937302e44796e616d6963732e566f6c74616765436f6d70656e7361746f722e566f6c74616765436f6d70656e7361746f72, 0x43494d31342e49454336313937302e436f72652e506f77657253797374656d5265736f75726365,
  [],
  [],
  [],
  [],
  [],
  [],
  []⟩
def m_VoltageCompensator : List RClass := d_VoltageCompensator :: m_PowerSystemResource

/-- CIM14/IEC61970/Generation/GenerationDynamics/CTTempActivePowerCurve.py:23 -/
def d_CTTempActivePowerCurve : RClass := ⟨0x435454656d70416374697665506f7765724375727665, 0x43494d31342e49454336313937302e47656e65726174696f6e2e47656e65726174696f6e44796e616d6963732e435454656d70416374697665506f7765724375727665, 0x43494d31342e49454336313937302e436f72652e4375727665,
  [],
  [],
  [],
  [],
  [],
  [⟨0x436f6d62757374696f6e54757262696e65, .one2one, 0x435454656d70416374697665506f7765724375727665, 0, false⟩],
  []⟩
def m_CTTempActivePowerCurve : List RClass := d_CTTempActivePowerCurve :: m_Curve

/-- CIM14/IEC61970/Generation/GenerationDynamics/PrimeMover.py:23 -/
def d_PrimeMover : RClass := ⟨0x5072696d654d6f766572, 0x43494d31342e49454336313937302e47656e65726174696f6e2e47656e65726174696f6e44796e616d6963732e5072696d654d6f766572, 0x43494d31342e49454336313937302e436f72652e506f77657253797374656d5265736f75726365,
  [(0x7072696d654d6f766572526174696e67, .flt 0x0)],
  [0x7072696d654d6f766572526174696e67],
  [(0x7072696d654d6f766572526174696e67, .flt 0x0)],
  [(0x7072696d654d6f766572526174696e67, 0x666c6f6174)],
  [],
  [⟨0x53796e6368726f6e6f75734d616368696e6573, .many2many, 0x5072696d654d6f76657273, 0, false⟩],
  [0x53796e6368726f6e6f75734d616368696e6573]⟩
def m_PrimeMover : List RClass := d_PrimeMover :: m_PowerSystemResource

/-- CIM14/IEC61970/Generation/GenerationDynamics/SteamSupply.py:23 -/
def d_SteamSupply : RClass := ⟨0x537465616d537570706c79, 0x43494d31342e49454336313937302e47656e65726174696f6e2e47656e65726174696f6e44796e616d6963732e537465616d537570706c79, 0x43494d31342e49454336313937302e436f72652e506f77657253797374656d5265736f75726365,
  [(0x737465616d537570706c79526174696e67, .flt 0x0)],
  [0x737465616d537570706c79526174696e67],
  [(0x737465616d537570706c79526174696e67, .flt 0x0)],
  [(0x737465616d537570706c79526174696e67, 0x666c6f6174)],
  [],
  [⟨0x537465616d54757262696e6573, .many2many, 0x537465616d537570706c7973, 0, false⟩],
  [0x537465616d54757262696e6573]⟩
def m_SteamSupply : List RClass := d_SteamSupply :: m_PowerSystemResource

/-- CIM14/IEC61970/Generation/Production/AirCompressor.py:23 -/
def d_AirCompressor : RClass := ⟨0x416972436f6d70726573736f72, 0x43494d31342e49454336313937302e47656e65726174696f6e2e50726f64756374696f6e2e416972436f6d70726573736f72, 0x43494d31342e49454336313937302e436f72652e506f77657253797374656d5265736f75726365,
  [(0x616972436f6d70726573736f72526174696e67, .flt 0x0)],
  [0x616972436f6d70726573736f72526174696e67],
  [(0x616972436f6d70726573736f72526174696e67, .flt 0x0)],
  [(0x616972436f6d70726573736f72526174696e67, 0x666c6f6174)],
  [],
  [⟨0x43414553506c616e74, .one2one, 0x416972436f6d70726573736f72, 0, false⟩, ⟨0x436f6d62757374696f6e54757262696e65, .one2one, 0x416972436f6d70726573736f72, 0, false⟩],
  []⟩
def m_AirCompressor : List RClass := d_AirCompressor :: m_PowerSystemResource

/-- CIM14/IEC61970/Generation/Production/CAESPlant.py:23 -/
def d_CAESPlant : RClass := ⟨0x43414553506c616e74, 0x43494d31342e49454336313937302e47656e65726174696f6e2e50726f64756374696f6e2e43414553506c616e74, 0x43494d31342e49454336313937302e436f72652e506f77657253797374656d5265736f75726365,
  [(0x656e6572677953746f726167654361706163697479, .flt 0x0), (0x7261746564436170616369747950, .flt 0x0)],
  [0x656e6572677953746f726167654361706163697479, 0x7261746564436170616369747950],
  [(0x656e6572677953746f726167654361706163697479, .flt 0x0), (0x7261746564436170616369747950, .flt 0x0)],
  [(0x656e6572677953746f726167654361706163697479, 0x666c6f6174), (0x7261746564436170616369747950, 0x666c6f6174)],
  [],
  [⟨0x416972436f6d70726573736f72, .one2one, 0x43414553506c616e74, 0, false⟩, ⟨0x546865726d616c47656e65726174696e67556e6974, .one2one, 0x43414553506c616e74, 0, false⟩],
  []⟩
def m_CAESPlant : List RClass := d_CAESPlant :: m_PowerSystemResource

/-- CIM14/IEC61970/Generation/Production/CogenerationPlant.py:23 -/
def d_CogenerationPlant : RClass := ⟨0x436f67656e65726174696f6e506c616e74, 0x43494d31342e49454336313937302e47656e65726174696f6e2e50726f64756374696f6e2e436f67656e65726174696f6e506c616e74, 0x43494d31342e49454336313937302e436f72652e506f77657253797374656d5265736f75726365,
  [(0x636f67656e4c50537465616d526174696e67, .flt 0x0), (0x636f67656e485053656e646f7574526174696e67, .flt 0x0), (0x726174656450, .flt 0x0), (0x636f67656e4c5053656e646f7574526174696e67, .flt 0x0), (0x636f67656e4850537465616d526174696e67, .flt 0x0)],
  [0x636f67656e4c50537465616d526174696e67, 0x636f67656e485053656e646f7574526174696e67, 0x726174656450, 0x636f67656e4c5053656e646f7574526174696e67, 0x636f67656e4850537465616d526174696e67],
  [(0x636f67656e4c50537465616d526174696e67, .flt 0x0), (0x636f67656e485053656e646f7574526174696e67, .flt 0x0), (0x726174656450, .flt 0x0), (0x636f67656e4c5053656e646f7574526174696e67, .flt 0x0), (0x636f67656e4850537465616d526174696e67, .flt 0x0)],
  [(0x636f67656e4c50537465616d526174696e67, 0x666c6f6174), (0x636f67656e485053656e646f7574526174696e67, 0x666c6f6174), (0x726174656450, 0x666c6f6174), (0x636f67656e4c5053656e646f7574526174696e67, 0x666c6f6174), (0x636f67656e4850537465616d526174696e67, 0x666c6f6174)],
  [],
  [⟨0x546865726d616c47656e65726174696e67556e697473, .many2one, 0x436f67656e65726174696f6e506c616e74, 0, false⟩, ⟨0x537465616d53656e646f75745363686564756c65, .one2one, 0x436f67656e65726174696f6e506c616e74, 0, false⟩],
  [0x546865726d616c47656e65726174696e67556e697473]⟩
def m_CogenerationPlant : List RClass := d_CogenerationPlant :: m_PowerSystemResource

/-- CIM14/IEC61970/Generation/Production/CombinedCyclePlant.py:23 -/
def d_CombinedCyclePlant : RClass := ⟨0x436f6d62696e65644379636c65506c616e74, 0x43494d31342e49454336313937302e47656e65726174696f6e2e50726f64756374696f6e2e436f6d62696e65644379636c65506c616e74, 0x43494d31342e49454336313937302e436f72652e506f77657253797374656d5265736f75726365,
  [(0x636f6d624379636c65506c616e74526174696e67, .flt 0x0)],
  [0x636f6d624379636c65506c616e74526174696e67],
  [(0x636f6d624379636c65506c616e74526174696e67, .flt 0x0)],
  [(0x636f6d624379636c65506c616e74526174696e67, 0x666c6f6174)],
  [],
  [⟨0x546865726d616c47656e65726174696e67556e697473, .many2one, 0x436f6d62696e65644379636c65506c616e74, 0, false⟩],
  [0x546865726d616c47656e65726174696e67556e697473]⟩
def m_CombinedCyclePlant : List RClass := d_CombinedCyclePlant :: m_PowerSystemResource

/-- CIM14/IEC61970/Generation/Production/EmissionAccount.py:23 -/
def d_EmissionAccount : RClass := ⟨0x456d697373696f6e4163636f756e74, 0x43494d31342e49454336313937302e47656e65726174696f6e2e50726f64756374696f6e2e456d697373696f6e4163636f756e74, 0x43494d31342e49454336313937302e436f72652e4375727665,
  [(0x656d697373696f6e54797065, .str 0x63686c6f72696e65), (0x656d697373696f6e56616c7565536f75726365, .str 0x6d65617375726564)],
  [0x656d697373696f6e54797065, 0x656d697373696f6e56616c7565536f75726365],
  [(0x656d697373696f6e54797065, .str 0x63686c6f72696e65), (0x656d697373696f6e56616c7565536f75726365, .str 0x6d65617375726564)],
  [(0x656d697373696f6e54797065, 0x737472), (0x656d697373696f6e56616c7565536f75726365, 0x737472)],
  [(0x656d697373696f6e54797065, 0x456d697373696f6e54797065), (0x656d697373696f6e56616c7565536f75726365, 0x456d697373696f6e56616c7565536f75726365)],
  [⟨0x546865726d616c47656e65726174696e67556e6974, .one2many, 0x456d6d697373696f6e4163636f756e7473, 0, false⟩],
  []⟩
def m_EmissionAccount : List RClass := d_EmissionAccount :: m_Curve

/-- CIM14/IEC61970/Generation/Production/EmissionCurve.py:23 -/
def d_EmissionCurve : RClass := ⟨0x456d697373696f6e4375727665, 0x43494d31342e49454336313937302e47656e65726174696f6e2e50726f64756374696f6e2e456d697373696f6e4375727665, 0x43494d31342e49454336313937302e436f72652e4375727665,
  [(0x656d697373696f6e54797065, .str 0x63686c6f72696e65), (0x69734e657447726f737350, .bool false), (0x656d697373696f6e436f6e74656e74, .flt 0x0)],
  [0x656d697373696f6e54797065, 0x69734e657447726f737350, 0x656d697373696f6e436f6e74656e74],
  [(0x656d697373696f6e54797065, .str 0x63686c6f72696e65), (0x69734e657447726f737350, .bool false), (0x656d697373696f6e436f6e74656e74, .flt 0x0)],
  [(0x656d697373696f6e54797065, 0x737472), (0x69734e657447726f737350, 0x626f6f6c), (0x656d697373696f6e436f6e74656e74, 0x666c6f6174)],
  [(0x656d697373696f6e54797065, 0x456d697373696f6e54797065)],
  [⟨0x546865726d616c47656e65726174696e67556e6974, .one2many, 0x456d697373696f6e437572766573, 0, false⟩],
  []⟩
def m_EmissionCurve : List RClass := d_EmissionCurve :: m_Curve

/-- CIM14/IEC61970/Generation/Production/FuelAllocationSchedule.py:23 -/
def d_FuelAllocationSchedule : RClass := ⟨0x4675656c416c6c6f636174696f6e5363686564756c65, 0x43494d31342e49454336313937302e47656e65726174696f6e2e50726f64756374696f6e2e4675656c416c6c6f636174696f6e5363686564756c65, 0x43494d31342e49454336313937302e436f72652e4375727665,
  [(0x6675656c54797065, .str 0x6c69676e697465), (0x6d696e4675656c416c6c6f636174696f6e, .flt 0x0), (0x6675656c416c6c6f636174696f6e537461727444617465, .str 0), (0x6d61784675656c416c6c6f636174696f6e, .flt 0x0), (0x6675656c416c6c6f636174696f6e456e6444617465, .str 0)],
  [0x6675656c54797065, 0x6d696e4675656c416c6c6f636174696f6e, 0x6675656c416c6c6f636174696f6e537461727444617465, 0x6d61784675656c416c6c6f636174696f6e, 0x6675656c416c6c6f636174696f6e456e6444617465],
  [(0x6675656c54797065, .str 0x6c69676e697465), (0x6d696e4675656c416c6c6f636174696f6e, .flt 0x0), (0x6675656c416c6c6f636174696f6e537461727444617465, .str 0), (0x6d61784675656c416c6c6f636174696f6e, .flt 0x0), (0x6675656c416c6c6f636174696f6e456e6444617465, .str 0)],
  [(0x6675656c54797065, 0x737472), (0x6d696e4675656c416c6c6f636174696f6e, 0x666c6f6174), (0x6675656c416c6c6f636174696f6e537461727444617465, 0x737472), (0x6d61784675656c416c6c6f636174696f6e, 0x666c6f6174), (0x6675656c416c6c6f636174696f6e456e6444617465, 0x737472)],
  [(0x6675656c54797065, 0x4675656c54797065)],
  [⟨0x466f7373696c4675656c, .one2many, 0x4675656c416c6c6f636174696f6e5363686564756c6573, 0, false⟩, ⟨0x546865726d616c47656e65726174696e67556e6974, .one2many, 0x4675656c416c6c6f636174696f6e5363686564756c6573, 0, false⟩],
  []⟩
def m_FuelAllocationSchedule : List RClass := d_FuelAllocationSchedule :: m_Curve

/-- CIM14/IEC61970/Generation/Production/GenUnitOpCostCurve.py:23 -/
def d_GenUnitOpCostCurve : RClass := ⟨0x47656e556e69744f70436f73744375727665, 0x43494d31342e49454336313937302e47656e65726174696f6e2e50726f64756374696f6e2e47656e556e69744f70436f73744375727665, 0x43494d31342e49454336313937302e436f72652e4375727665,
  [(0x69734e657447726f737350, .bool false)],
  [0x69734e657447726f737350],
  [(0x69734e657447726f737350, .bool false)],
  [(0x69734e657447726f737350, 0x626f6f6c)],
  [],
  [⟨0x47656e65726174696e67556e6974, .one2many, 0x47656e556e69744f70436f7374437572766573, 0, false⟩],
  []⟩
def m_GenUnitOpCostCurve : List RClass := d_GenUnitOpCostCurve :: m_Curve

/-- CIM14/IEC61970/Generation/Production/GrossToNetActivePowerCurve.py:23 -/
def d_GrossToNetActivePowerCurve : RClass := ⟨0x47726f7373546f4e6574416374697665506f7765724375727665, 0x43494d31342e49454336313937302e47656e65726174696f6e2e50726f64756374696f6e2e47726f7373546f4e6574416374697665506f7765724375727665, 0x43494d31342e49454336313937302e436f72652e4375727665,
  [],
  [],
  [],
  [],
  [],
  [⟨0x47656e65726174696e67556e6974, .one2many, 0x47726f7373546f4e6574416374697665506f776572437572766573, 0, false⟩],
  []⟩
def m_GrossToNetActivePowerCurve : List RClass := d_GrossToNetActivePowerCurve :: m_Curve

/-- CIM14/IEC61970/Generation/Production/HeatInputCurve.py:23 -/
def d_HeatInputCurve : RClass := ⟨0x48656174496e7075744375727665, 0x43494d31342e49454336313937302e47656e65726174696f6e2e50726f64756374696f6e2e48656174496e7075744375727665, 0x43494d31342e49454336313937302e436f72652e4375727665,
  [(0x68656174496e707574456666, .flt 0x0), (0x617578506f7765724d756c74, .flt 0x0), (0x68656174496e7075744f6666736574, .flt 0x0), (0x69734e657447726f737350, .bool false), (0x617578506f7765724f6666736574, .flt 0x0)],
  [0x68656174496e707574456666, 0x617578506f7765724d756c74, 0x68656174496e7075744f6666736574, 0x69734e657447726f737350, 0x617578506f7765724f6666736574],
  [(0x68656174496e707574456666, .flt 0x0), (0x617578506f7765724d756c74, .flt 0x0), (0x68656174496e7075744f6666736574, .flt 0x0), (0x69734e657447726f737350, .bool false), (0x617578506f7765724f6666736574, .flt 0x0)],
  [(0x68656174496e707574456666, 0x666c6f6174), (0x617578506f7765724d756c74, 0x666c6f6174), (0x68656174496e7075744f6666736574, 0x666c6f6174), (0x69734e657447726f737350, 0x626f6f6c), (0x617578506f7765724f6666736574, 0x666c6f6174)],
  [],
  [⟨0x546865726d616c47656e65726174696e67556e6974, .one2one, 0x48656174496e7075744375727665, 0, false⟩],
  []⟩
def m_HeatInputCurve : List RClass := d_HeatInputCurve :: m_Curve

/-- CIM14/IEC61970/Generation/Production/HeatRateCurve.py:23 -/
def d_HeatRateCurve : RClass := ⟨0x48656174526174654375727665, 0x43494d31342e49454336313937302e47656e65726174696f6e2e50726f64756374696f6e2e48656174526174654375727665, 0x43494d31342e49454336313937302e436f72652e4375727665,
  [(0x69734e657447726f737350, .bool false)],
  [0x69734e657447726f737350],
  [(0x69734e657447726f737350, .bool false)],
  [(0x69734e657447726f737350, 0x626f6f6c)],
  [],
  [⟨0x546865726d616c47656e65726174696e67556e6974, .one2one, 0x48656174526174654375727665, 0, false⟩],
  []⟩
def m_HeatRateCurve : List RClass := d_HeatRateCurve :: m_Curve

/-- CIM14/IEC61970/Generation/Production/HydroGeneratingEfficiencyCurve.py:23 -/
def d_HydroGeneratingEfficiencyCurve : RClass := ⟨0x487964726f47656e65726174696e67456666696369656e63794375727665, 0x43494d31342e49454336313937302e47656e65726174696f6e2e50726f64756374696f6e2e487964726f47656e65726174696e67456666696369656e63794375727665, 0x43494d31342e49454336313937302e436f72652e4375727665,
  [],
  [],
  [],
  [],
  [],
  [⟨0x487964726f47656e65726174696e67556e6974, .one2many, 0x487964726f47656e65726174696e67456666696369656e6379437572766573, 0, false⟩],
  []⟩
def m_HydroGeneratingEfficiencyCurve : List RClass := d_HydroGeneratingEfficiencyCurve :: m_Curve

/-- CIM14/IEC61970/Generation/Production/HydroPowerPlant.py:23 -/
def d_HydroPowerPlant : RClass := ⟨0x487964726f506f776572506c616e74, 0x43494d31342e49454336313937302e47656e65726174696f6e2e50726f64756374696f6e2e487964726f506f776572506c616e74, 0x43494d31342e49454336313937302e436f72652e506f77657253797374656d5265736f75726365,
  [(0x687964726f506c616e7454797065, .str 0x72756e4f665269766572), (0x70656e73746f636b54797065, .str 0), (0x737572676554616e6b436f6465, .str 0), (0x706c616e74526174656448656164, .flt 0x0), (0x706c616e744469736368617267654361706163697479, .flt 0x0), (0x737572676554616e6b43726573744c6576656c, .flt 0x0), (0x64697363686172676554726176656c44656c6179, .flt 0x0), (0x70756d70526174656450, .flt 0x0), (0x67656e526174656450, .flt 0x0)],
  [0x687964726f506c616e7454797065, 0x70656e73746f636b54797065, 0x737572676554616e6b436f6465, 0x706c616e74526174656448656164, 0x706c616e744469736368617267654361706163697479, 0x737572676554616e6b43726573744c6576656c, 0x64697363686172676554726176656c44656c6179, 0x70756d70526174656450, 0x67656e526174656450],
  [(0x687964726f506c616e7454797065, .str 0x72756e4f665269766572), (0x70656e73746f636b54797065, .str 0), (0x737572676554616e6b436f6465, .str 0), (0x706c616e74526174656448656164, .flt 0x0), (0x706c616e744469736368617267654361706163697479, .flt 0x0), (0x737572676554616e6b43726573744c6576656c, .flt 0x0), (0x64697363686172676554726176656c44656c6179, .flt 0x0), (0x70756d70526174656450, .flt 0x0), (0x67656e526174656450, .flt 0x0)],
  [(0x687964726f506c616e7454797065, 0x737472), (0x70656e73746f636b54797065, 0x737472), (0x737572676554616e6b436f6465, 0x737472), (0x706c616e74526174656448656164, 0x666c6f6174), (0x706c616e744469736368617267654361706163697479, 0x666c6f6174), (0x737572676554616e6b43726573744c6576656c, 0x666c6f6174), (0x64697363686172676554726176656c44656c6179, 0x666c6f6174), (0x70756d70526174656450, 0x666c6f6174), (0x67656e526174656450, 0x666c6f6174)],
  [(0x687964726f506c616e7454797065, 0x487964726f506c616e7454797065), (0x70656e73746f636b54797065, 0x50656e73746f636b54797065), (0x737572676554616e6b436f6465, 0x537572676554616e6b436f6465)],
  [⟨0x487964726f47656e65726174696e67556e697473, .many2one, 0x487964726f506f776572506c616e74, 0, false⟩, ⟨0x487964726f50756d7073, .many2one, 0x487964726f506f776572506c616e74, 0, false⟩, ⟨0x5265736572766f6972, .one2many, 0x487964726f506f776572506c616e7473, 0, false⟩, ⟨0x47656e536f7572636550756d704469736368617267655265736572766f6972, .one2many, 0x557073747265616d46726f6d487964726f506f776572506c616e7473, 0, false⟩],
  [0x487964726f47656e65726174696e67556e697473, 0x487964726f50756d7073]⟩
def m_HydroPowerPlant : List RClass := d_HydroPowerPlant :: m_PowerSystemResource

/-- CIM14/IEC61970/Generation/Production/HydroPump.py:23 -/
def d_HydroPump : RClass := ⟨0x487964726f50756d70, 0x43494d31342e49454336313937302e47656e65726174696f6e2e50726f64756374696f6e2e487964726f50756d70, 0x43494d31342e49454336313937302e436f72652e506f77657253797374656d5265736f75726365,
  [(0x70756d70506f77657241744d617848656164, .flt 0x0), (0x70756d70506f77657241744d696e48656164, .flt 0x0), (0x70756d70446973636841744d696e48656164, .flt 0x0), (0x70756d70446973636841744d617848656164, .flt 0x0)],
  [0x70756d70506f77657241744d617848656164, 0x70756d70506f77657241744d696e48656164, 0x70756d70446973636841744d696e48656164, 0x70756d70446973636841744d617848656164],
  [(0x70756d70506f77657241744d617848656164, .flt 0x0), (0x70756d70506f77657241744d696e48656164, .flt 0x0), (0x70756d70446973636841744d696e48656164, .flt 0x0), (0x70756d70446973636841744d617848656164, .flt 0x0)],
  [(0x70756d70506f77657241744d617848656164, 0x666c6f6174), (0x70756d70506f77657241744d696e48656164, 0x666c6f6174), (0x70756d70446973636841744d696e48656164, 0x666c6f6174), (0x70756d70446973636841744d617848656164, 0x666c6f6174)],
  [],
  [⟨0x53796e6368726f6e6f75734d616368696e65, .one2one, 0x487964726f50756d70, 0, false⟩, ⟨0x487964726f50756d704f705363686564756c65, .one2one, 0x487964726f50756d70, 0, false⟩, ⟨0x487964726f506f776572506c616e74, .one2many, 0x487964726f50756d7073, 0, false⟩],
  []⟩
def m_HydroPump : List RClass := d_HydroPump :: m_PowerSystemResource

/-- CIM14/IEC61970/Generation/Production/IncrementalHeatRateCurve.py:23 -/
def d_IncrementalHeatRateCurve : RClass := ⟨0x496e6372656d656e74616c48656174526174654375727665, 0x43494d31342e49454336313937302e47656e65726174696f6e2e50726f64756374696f6e2e496e6372656d656e74616c48656174526174654375727665, 0x43494d31342e49454336313937302e436f72652e4375727665,
  [(0x69734e657447726f737350, .bool false)],
  [0x69734e657447726f737350],
  [(0x69734e657447726f737350, .bool false)],
  [(0x69734e657447726f737350, 0x626f6f6c)],
  [],
  [⟨0x546865726d616c47656e65726174696e67556e6974, .one2one, 0x496e6372656d656e74616c48656174526174654375727665, 0, false⟩],
  []⟩
def m_IncrementalHeatRateCurve : List RClass := d_IncrementalHeatRateCurve :: m_Curve

/-- CIM14/IEC61970/Generation/Production/LevelVsVolumeCurve.py:23 -/
def d_LevelVsVolumeCurve : RClass := ⟨0x4c6576656c5673566f6c756d654375727665, 0x43494d31342e49454336313937302e47656e65726174696f6e2e50726f64756374696f6e2e4c6576656c5673566f6c756d654375727665, 0x43494d31342e49454336313937302e436f72652e4375727665,
  [],
  [],
  [],
  [],
  [],
  [⟨0x5265736572766f6972, .one2many, 0x4c6576656c5673566f6c756d65437572766573, 0, false⟩],
  []⟩
def m_LevelVsVolumeCurve : List RClass := d_LevelVsVolumeCurve :: m_Curve

/-- CIM14/IEC61970/Generation/Production/PenstockLossCurve.py:23 -/
def d_PenstockLossCurve : RClass := ⟨0x50656e73746f636b4c6f73734375727665, 0x43494d31342e49454336313937302e47656e65726174696f6e2e50726f64756374696f6e2e50656e73746f636b4c6f73734375727665, 0x43494d31342e49454336313937302e436f72652e4375727665,
  [],
  [],
  [],
  [],
  [],
  [⟨0x487964726f47656e65726174696e67556e6974, .one2one, 0x50656e73746f636b4c6f73734375727665, 0, false⟩],
  []⟩
def m_PenstockLossCurve : List RClass := d_PenstockLossCurve :: m_Curve

/-- CIM14/IEC61970/Generation/Production/Reservoir.py:23 -/
def d_Reservoir : RClass := ⟨0x5265736572766f6972, 0x43494d31342e49454336313937302e47656e65726174696f6e2e50726f64756374696f6e2e5265736572766f6972, 0x43494d31342e49454336313937302e436f72652e506f77657253797374656d5265736f75726365,
  [(0x7370696c6c5761794761746554797065, .str 0), (0x66756c6c537570706c794c6576656c, .flt 0x0), (0x7370696c6c54726176656c44656c6179, .flt 0x0), (0x7370696c6c77617943726573744c656e677468, .flt 0x0), (0x67726f73734361706163697479, .flt 0x0), (0x72697665724f75746c6574576f726b73, .str 0), (0x7370696c6c7761794361706163697479, .flt 0x0), (0x7370696c6c77617943726573744c6576656c, .flt 0x0), (0x6e6f726d616c4d696e4f7065726174654c6576656c, .flt 0x0), (0x656e6572677953746f72616765526174696e67, .flt 0x0), (0x61637469766553746f726167654361706163697479, .flt 0x0)],
  [0x7370696c6c5761794761746554797065, 0x66756c6c537570706c794c6576656c, 0x7370696c6c54726176656c44656c6179, 0x7370696c6c77617943726573744c656e677468, 0x67726f73734361706163697479, 0x72697665724f75746c6574576f726b73, 0x7370696c6c7761794361706163697479, 0x7370696c6c77617943726573744c6576656c, 0x6e6f726d616c4d696e4f7065726174654c6576656c, 0x656e6572677953746f72616765526174696e67, 0x61637469766553746f726167654361706163697479],
  [(0x7370696c6c5761794761746554797065, .str 0), (0x66756c6c537570706c794c6576656c, .flt 0x0), (0x7370696c6c54726176656c44656c6179, .flt 0x0), (0x7370696c6c77617943726573744c656e677468, .flt 0x0), (0x67726f73734361706163697479, .flt 0x0), (0x72697665724f75746c6574576f726b73, .str 0), (0x7370696c6c7761794361706163697479, .flt 0x0), (0x7370696c6c77617943726573744c6576656c, .flt 0x0), (0x6e6f726d616c4d696e4f7065726174654c6576656c, .flt 0x0), (0x656e6572677953746f72616765526174696e67, .flt 0x0), (0x61637469766553746f726167654361706163697479, .flt 0x0)],
  [(0x7370696c6c5761794761746554797065, 0x737472), (0x66756c6c537570706c794c6576656c, 0x666c6f6174), (0x7370696c6c54726176656c44656c6179, 0x666c6f6174), (0x7370696c6c77617943726573744c656e677468, 0x666c6f6174), (0x67726f73734361706163697479, 0x666c6f6174), (0x72697665724f75746c6574576f726b73, 0x737472), (0x7370696c6c7761794361706163697479, 0x666c6f6174), (0x7370696c6c77617943726573744c6576656c, 0x666c6f6174), (0x6e6f726d616c4d696e4f7065726174654c6576656c, 0x666c6f6174), (0x656e6572677953746f72616765526174696e67, 0x666c6f6174), (0x61637469766553746f726167654361706163697479, 0x666c6f6174)],
  [(0x7370696c6c5761794761746554797065, 0x5370696c6c7761794761746554797065)],
  [⟨0x4c6576656c5673566f6c756d65437572766573, .many2one, 0x5265736572766f6972, 0, false⟩, ⟨0x496e666c6f77466f72656361737473, .many2one, 0x5265736572766f6972, 0, false⟩, ⟨0x5461726765744c6576656c5363686564756c65, .one2one, 0x5265736572766f6972, 0, false⟩, ⟨0x487964726f506f776572506c616e7473, .many2one, 0x5265736572766f6972, 0, false⟩, ⟨0x557073747265616d46726f6d487964726f506f776572506c616e7473, .many2one, 0x47656e536f7572636550756d704469736368617267655265736572766f6972, 0, false⟩, ⟨0x5370696c6c7346726f6d5265736572766f6972, .one2many, 0x5370696c6c73496e746f5265736572766f697273, 0, false⟩, ⟨0x5370696c6c73496e746f5265736572766f697273, .many2one, 0x5370696c6c7346726f6d5265736572766f6972, 0, false⟩],
  [0x4c6576656c5673566f6c756d65437572766573, 0x496e666c6f77466f72656361737473, 0x487964726f506f776572506c616e7473, 0x557073747265616d46726f6d487964726f506f776572506c616e7473, 0x5370696c6c73496e746f5265736572766f697273]⟩
def m_Reservoir : List RClass := d_Reservoir :: m_PowerSystemResource

/-- CIM14/IEC61970/Generation/Production/ShutdownCurve.py:23 -/
def d_ShutdownCurve : RClass := ⟨0x53687574646f776e4375727665, 0x43494d31342e49454336313937302e47656e65726174696f6e2e50726f64756374696f6e2e53687574646f776e4375727665, 0x43494d31342e49454336313937302e436f72652e4375727665,
  [(0x73687574646f776e436f7374, .flt 0x0), (0x73687574646f776e44617465, .str 0)],
  [0x73687574646f776e436f7374, 0x73687574646f776e44617465],
  [(0x73687574646f776e436f7374, .flt 0x0), (0x73687574646f776e44617465, .str 0)],
  [(0x73687574646f776e436f7374, 0x666c6f6174), (0x73687574646f776e44617465, 0x737472)],
  [],
  [⟨0x546865726d616c47656e65726174696e67556e6974, .one2one, 0x53687574646f776e4375727665, 0, false⟩],
  []⟩
def m_ShutdownCurve : List RClass := d_ShutdownCurve :: m_Curve

/-- CIM14/IEC61970/Generation/Production/StartIgnFuelCurve.py:23 -/
def d_StartIgnFuelCurve : RClass := ⟨0x537461727449676e4675656c4375727665, 0x43494d31342e49454336313937302e47656e65726174696f6e2e50726f64756374696f6e2e537461727449676e4675656c4375727665, 0x43494d31342e49454336313937302e436f72652e4375727665,
  [(0x69676e6974696f6e4675656c54797065, .str 0x6c69676e697465)],
  [0x69676e6974696f6e4675656c54797065],
  [(0x69676e6974696f6e4675656c54797065, .str 0x6c69676e697465)],
  [(0x69676e6974696f6e4675656c54797065, 0x737472)],
  [(0x69676e6974696f6e4675656c54797065, 0x4675656c54797065)],
  [⟨0x537461727475704d6f64656c, .one2one, 0x537461727449676e4675656c4375727665, 0, false⟩],
  []⟩
def m_StartIgnFuelCurve : List RClass := d_StartIgnFuelCurve :: m_Curve

/-- CIM14/IEC61970/Generation/Production/StartMainFuelCurve.py:23 -/
def d_StartMainFuelCurve : RClass := ⟨0x53746172744d61696e4675656c4375727665, 0x43494d31342e49454336313937302e47656e65726174696f6e2e50726f64756374696f6e2e53746172744d61696e4675656c4375727665, 0x43494d31342e49454336313937302e436f72652e4375727665,
  [(0x6d61696e4675656c54797065, .str 0x6c69676e697465)],
  [0x6d61696e4675656c54797065],
  [(0x6d61696e4675656c54797065, .str 0x6c69676e697465)],
  [(0x6d61696e4675656c54797065, 0x737472)],
  [(0x6d61696e4675656c54797065, 0x4675656c54797065)],
  [⟨0x537461727475704d6f64656c, .one2one, 0x53746172744d61696e4675656c4375727665, 0, false⟩],
  []⟩
def m_StartMainFuelCurve : List RClass := d_StartMainFuelCurve :: m_Curve

/-- CIM14/IEC61970/Generation/Production/StartRampCurve.py:23 -/
def d_StartRampCurve : RClass := ⟨0x537461727452616d704375727665, 0x43494d31342e49454336313937302e47656e65726174696f6e2e50726f64756374696f6e2e537461727452616d704375727665, 0x43494d31342e49454336313937302e436f72652e4375727665,
  [(0x686f745374616e64627952616d70, .flt 0x0)],
  [0x686f745374616e64627952616d70],
  [(0x686f745374616e64627952616d70, .flt 0x0)],
  [(0x686f745374616e64627952616d70, 0x666c6f6174)],
  [],
  [⟨0x537461727475704d6f64656c, .one2one, 0x537461727452616d704375727665, 0, false⟩],
  []⟩
def m_StartRampCurve : List RClass := d_StartRampCurve :: m_Curve

/-- CIM14/IEC61970/Generation/Production/TailbayLossCurve.py:23 -/
def d_TailbayLossCurve : RClass := ⟨0x5461696c6261794c6f73734375727665, 0x43494d31342e49454336313937302e47656e65726174696f6e2e50726f64756374696f6e2e5461696c6261794c6f73734375727665, 0x43494d31342e49454336313937302e436f72652e4375727665,
  [],
  [],
  [],
  [],
  [],
  [⟨0x487964726f47656e65726174696e67556e6974, .one2many, 0x5461696c6261794c6f73734375727665, 0, false⟩],
  []⟩
def m_TailbayLossCurve : List RClass := d_TailbayLossCurve :: m_Curve

/-- CIM14/IEC61970/Generation/Production/TargetLevelSchedule.py:23 -/
def d_TargetLevelSchedule : RClass := ⟨0x5461726765744c6576656c5363686564756c65, 0x43494d31342e49454336313937302e47656e65726174696f6e2e50726f64756374696f6e2e5461726765744c6576656c5363686564756c65, 0x43494d31342e49454336313937302e436f72652e4375727665,
  [(0x686967684c6576656c4c696d6974, .flt 0x0), (0x6c6f774c6576656c4c696d6974, .flt 0x0)],
  [0x686967684c6576656c4c696d6974, 0x6c6f774c6576656c4c696d6974],
  [(0x686967684c6576656c4c696d6974, .flt 0x0), (0x6c6f774c6576656c4c696d6974, .flt 0x0)],
  [(0x686967684c6576656c4c696d6974, 0x666c6f6174), (0x6c6f774c6576656c4c696d6974, 0x666c6f6174)],
  [],
  [⟨0x5265736572766f6972, .one2one, 0x5461726765744c6576656c5363686564756c65, 0, false⟩],
  []⟩
def m_TargetLevelSchedule : List RClass := d_TargetLevelSchedule :: m_Curve

/-- CIM14/IEC61970/LoadModel/ConformLoadGroup.py:23 -/
def d_ConformLoadGroup : RClass := ⟨0x436f6e666f726d4c6f616447726f7570, 0x43494d31342e49454336313937302e4c6f61644d6f64656c2e436f6e666f726d4c6f616447726f7570, 0x43494d31342e49454336313937302e4c6f61644d6f64656c2e4c6f616447726f7570,
  [],
  [],
  [],
  [],
  [],
  [⟨0x436f6e666f726d4c6f61645363686564756c6573, .many2one, 0x436f6e666f726d4c6f616447726f7570, 0, false⟩, ⟨0x456e65726779436f6e73756d657273, .many2one, 0x4c6f616447726f7570, 0, false⟩],
  [0x436f6e666f726d4c6f61645363686564756c6573, 0x456e65726779436f6e73756d657273]⟩
def m_ConformLoadGroup : List RClass := d_ConformLoadGroup :: m_LoadGroup

/-- CIM14/IEC61970/LoadModel/LoadArea.py:23 -/
def d_LoadArea : RClass := ⟨0x4c6f616441726561, 0x43494d31342e49454336313937302e4c6f61644d6f64656c2e4c6f616441726561, 0x43494d31342e49454336313937302e4c6f61644d6f64656c2e456e6572677941726561,
  [],
  [],
  [],
  [],
  [],
  [⟨0x5375624c6f61644172656173, .many2one, 0x4c6f616441726561, 0, false⟩],
  [0x5375624c6f61644172656173]⟩
def m_LoadArea : List RClass := d_LoadArea :: m_EnergyArea

/-- CIM14/IEC61970/LoadModel/NonConformLoadGroup.py:23 -/
def d_NonConformLoadGroup : RClass := ⟨0x4e6f6e436f6e666f726d4c6f616447726f7570, 0x43494d31342e49454336313937302e4c6f61644d6f64656c2e4e6f6e436f6e666f726d4c6f616447726f7570, 0x43494d31342e49454336313937302e4c6f61644d6f64656c2e4c6f616447726f7570,
  [],
  [],
  [],
  [],
  [],
  [⟨0x456e65726779436f6e73756d657273, .many2one, 0x4c6f616447726f7570, 0, false⟩, ⟨0x4e6f6e436f6e666f726d4c6f61645363686564756c6573, .many2one, 0x4e6f6e436f6e666f726d4c6f616447726f7570, 0, false⟩],
  [0x456e65726779436f6e73756d657273, 0x4e6f6e436f6e666f726d4c6f61645363686564756c6573]⟩
def m_NonConformLoadGroup : List RClass := d_NonConformLoadGroup :: m_LoadGroup

/-- CIM14/IEC61970/LoadModel/PowerCutZone.py:23 -/
def d_PowerCutZone : RClass := ⟨0x506f7765724375745a6f6e65, 0x43494d31342e49454336313937302e4c6f61644d6f64656c2e506f7765724375745a6f6e65, 0x43494d31342e49454336313937302e436f72652e506f77657253797374656d5265736f75726365,
  [(0x6375744c6576656c31, .flt 0x0), (0x6375744c6576656c32, .flt 0x0)],
  [0x6375744c6576656c31, 0x6375744c6576656c32],
  [(0x6375744c6576656c31, .flt 0x0), (0x6375744c6576656c32, .flt 0x0)],
  [(0x6375744c6576656c31, 0x666c6f6174), (0x6375744c6576656c32, 0x666c6f6174)],
  [],
  [⟨0x456e65726779436f6e73756d657273, .many2one, 0x506f7765724375745a6f6e65, 0, false⟩],
  [0x456e65726779436f6e73756d657273]⟩
def m_PowerCutZone : List RClass := d_PowerCutZone :: m_PowerSystemResource

/-- CIM14/IEC61970/LoadModel/SubLoadArea.py:23 -/
def d_SubLoadArea : RClass := ⟨0x5375624c6f616441726561, 0x43494d31342e49454336313937302e4c6f61644d6f64656c2e5375624c6f616441726561, 0x43494d31342e49454336313937302e4c6f61644d6f64656c2e456e6572677941726561,
  [],
  [],
  [],
  [],
  [],
  [⟨0x4c6f616447726f757073, .many2one, 0x5375624c6f616441726561, 0, false⟩, ⟨0x4c6f616441726561, .one2many, 0x5375624c6f61644172656173, 0, false⟩],
  [0x4c6f616447726f757073]⟩
def m_SubLoadArea : List RClass := d_SubLoadArea :: m_EnergyArea

/-- CIM14/IEC61970/Meas/Accumulator.py:23 -/
def d_Accumulator : RClass := ⟨0x416363756d756c61746f72, 0x43494d31342e49454336313937302e4d6561732e416363756d756c61746f72, 0x43494d31342e49454336313937302e4d6561732e4d6561737572656d656e74,
  [(0x6d617856616c7565, .int 0)],
  [0x6d617856616c7565],
  [(0x6d617856616c7565, .int 0)],
  [(0x6d617856616c7565, 0x696e74)],
  [],
  [⟨0x4c696d697453657473, .many2many, 0x4d6561737572656d656e7473, 0, false⟩, ⟨0x416363756d756c61746f7256616c756573, .many2one, 0x416363756d756c61746f72, 0, false⟩],
  [0x4c696d697453657473, 0x416363756d756c61746f7256616c756573]⟩
def m_Accumulator : List RClass := d_Accumulator :: m_Measurement

/-- CIM14/IEC61970/Meas/AccumulatorLimit.py:23 -/
def d_AccumulatorLimit : RClass := ⟨0x416363756d756c61746f724c696d6974, 0x43494d31342e49454336313937302e4d6561732e416363756d756c61746f724c696d6974, 0x43494d31342e49454336313937302e4d6561732e4c696d6974,
  [(0x76616c7565, .int 0)],
  [0x76616c7565],
  [(0x76616c7565, .int 0)],
  [(0x76616c7565, 0x696e74)],
  [],
  [⟨0x4c696d6974536574, .one2many, 0x4c696d697473, 0, false⟩],
  []⟩
def m_AccumulatorLimit : List RClass := d_AccumulatorLimit :: m_Limit

/-- CIM14/IEC61970/Meas/AccumulatorLimitSet.py:23 -/
def d_AccumulatorLimitSet : RClass := ⟨0x416363756d756c61746f724c696d6974536574, 0x43494d31342e49454336313937302e4d6561732e416363756d756c61746f724c696d6974536574, 0x43494d31342e49454336313937302e4d6561732e4c696d6974536574,
  [],
  [],
  [],
  [],
  [],
  [⟨0x4d6561737572656d656e7473, .many2many, 0x4c696d697453657473, 0, false⟩, ⟨0x4c696d697473, .many2one, 0x4c696d6974536574, 0, false⟩],
  [0x4d6561737572656d656e7473, 0x4c696d697473]⟩
def m_AccumulatorLimitSet : List RClass := d_AccumulatorLimitSet :: m_LimitSet

/-- CIM14/IEC61970/Meas/AccumulatorValue.py:23 -/
def d_AccumulatorValue : RClass := ⟨0x416363756d756c61746f7256616c7565, 0x43494d31342e49454336313937302e4d6561732e416363756d756c61746f7256616c7565, 0x43494d31342e49454336313937302e4d6561732e4d6561737572656d656e7456616c7565,
  [(0x76616c7565, .int 0)],
  [0x76616c7565],
  [(0x76616c7565, .int 0)],
  [(0x76616c7565, 0x696e74)],
  [],
  [⟨0x416363756d756c61746f72, .one2many, 0x416363756d756c61746f7256616c756573, 0, false⟩],
  []⟩
def m_AccumulatorValue : List RClass := d_AccumulatorValue :: m_MeasurementValue

/-- CIM14/IEC61970/Meas/Analog.py:23 -/
def d_Analog : RClass := ⟨0x416e616c6f67, 0x43494d31342e49454336313937302e4d6561732e416e616c6f67, 0x43494d31342e49454336313937302e4d6561732e4d6561737572656d656e74,
  [(0x706f736974697665466c6f77496e, .bool false), (0x6d696e56616c7565, .flt 0x0), (0x6d617856616c7565, .flt 0x0), (0x6e6f726d616c56616c7565, .flt 0x0)],
  [0x706f736974697665466c6f77496e, 0x6d696e56616c7565, 0x6d617856616c7565, 0x6e6f726d616c56616c7565],
  [(0x706f736974697665466c6f77496e, .bool false), (0x6d696e56616c7565, .flt 0x0), (0x6d617856616c7565, .flt 0x0), (0x6e6f726d616c56616c7565, .flt 0x0)],
  [(0x706f736974697665466c6f77496e, 0x626f6f6c), (0x6d696e56616c7565, 0x666c6f6174), (0x6d617856616c7565, 0x666c6f6174), (0x6e6f726d616c56616c7565, 0x666c6f6174)],
  [],
  [⟨0x4c696d697453657473, .many2many, 0x4d6561737572656d656e7473, 0, false⟩, ⟨0x536574506f696e74, .one2one, 0x416e616c6f67, 0, false⟩, ⟨0x416e616c6f6756616c756573, .many2one, 0x416e616c6f67, 0, false⟩],
  [0x4c696d697453657473, 0x416e616c6f6756616c756573]⟩
def m_Analog : List RClass := d_Analog :: m_Measurement

/-- CIM14/IEC61970/Meas/AnalogLimit.py:23 -/
def d_AnalogLimit : RClass := ⟨0x416e616c6f674c696d6974, 0x43494d31342e49454336313937302e4d6561732e416e616c6f674c696d6974, 0x43494d31342e49454336313937302e4d6561732e4c696d6974,
  [(0x76616c7565, .flt 0x0)],
  [0x76616c7565],
  [(0x76616c7565, .flt 0x0)],
  [(0x76616c7565, 0x666c6f6174)],
  [],
  [⟨0x4c696d6974536574, .one2many, 0x4c696d697473, 0, false⟩],
  []⟩
def m_AnalogLimit : List RClass := d_AnalogLimit :: m_Limit

/-- CIM14/IEC61970/Meas/AnalogLimitSet.py:23 -/
def d_AnalogLimitSet : RClass := ⟨0x416e616c6f674c696d6974536574, 0x43494d31342e49454336313937302e4d6561732e416e616c6f674c696d6974536574, 0x43494d31342e49454336313937302e4d6561732e4c696d6974536574,
  [],
  [],
  [],
  [],
  [],
  [⟨0x4d6561737572656d656e7473, .many2many, 0x4c696d697453657473, 0, false⟩, ⟨0x4c696d697473, .many2one, 0x4c696d6974536574, 0, false⟩],
  [0x4d6561737572656d656e7473, 0x4c696d697473]⟩
def m_AnalogLimitSet : List RClass := d_AnalogLimitSet :: m_LimitSet

/-- CIM14/IEC61970/Meas/AnalogValue.py:23 -/
def d_AnalogValue : RClass := ⟨0x416e616c6f6756616c7565, 0x43494d31342e49454336313937302e4d6561732e416e616c6f6756616c7565, 0x43494d31342e49454336313937302e4d6561732e4d6561737572656d656e7456616c7565,
  [(0x76616c7565, .flt 0x0)],
  [0x76616c7565],
  [(0x76616c7565, .flt 0x0)],
  [(0x76616c7565, 0x666c6f6174)],
  [],
  [⟨0x416c745469654d656173, .many2one, 0x416e616c6f6756616c7565, 0, false⟩, ⟨0x416e616c6f67, .one2many, 0x416e616c6f6756616c756573, 0, false⟩, ⟨0x416c7447656e65726174696e67556e6974, .many2one, 0x416e616c6f6756616c7565, 0, false⟩],
  [0x416c745469654d656173, 0x416c7447656e65726174696e67556e6974]⟩
def m_AnalogValue : List RClass := d_AnalogValue :: m_MeasurementValue

/-- CIM14/IEC61970/Meas/Command.py:23 -/
def d_Command : RClass := ⟨0x436f6d6d616e64, 0x43494d31342e49454336313937302e4d6561732e436f6d6d616e64, 0x43494d31342e49454336313937302e4d6561732e436f6e74726f6c,
  [(0x76616c7565, .int 0), (0x6e6f726d616c56616c7565, .int 0)],
  [0x76616c7565, 0x6e6f726d616c56616c7565],
  [(0x76616c7565, .int 0), (0x6e6f726d616c56616c7565, .int 0)],
  [(0x76616c7565, 0x696e74), (0x6e6f726d616c56616c7565, 0x696e74)],
  [],
  [⟨0x56616c7565416c696173536574, .one2many, 0x436f6d6d616e6473, 0, false⟩, ⟨0x4469736372657465, .one2one, 0x436f6d6d616e64, 0, false⟩],
  []⟩
def m_Command : List RClass := d_Command :: m_Control

/-- CIM14/IEC61970/Meas/Discrete.py:23 -/
def d_Discrete : RClass := ⟨0x4469736372657465, 0x43494d31342e49454336313937302e4d6561732e4469736372657465, 0x43494d31342e49454336313937302e4d6561732e4d6561737572656d656e74,
  [(0x6e6f726d616c56616c7565, .int 0), (0x6d696e56616c7565, .int 0), (0x6d617856616c7565, .int 0)],
  [0x6e6f726d616c56616c7565, 0x6d696e56616c7565, 0x6d617856616c7565],
  [(0x6e6f726d616c56616c7565, .int 0), (0x6d696e56616c7565, .int 0), (0x6d617856616c7565, .int 0)],
  [(0x6e6f726d616c56616c7565, 0x696e74), (0x6d696e56616c7565, 0x696e74), (0x6d617856616c7565, 0x696e74)],
  [],
  [⟨0x436f6d6d616e64, .one2one, 0x4469736372657465, 0, false⟩, ⟨0x446973637265746556616c756573, .many2one, 0x4469736372657465, 0, false⟩, ⟨0x56616c7565416c696173536574, .one2many, 0x446973637265746573, 0, false⟩],
  [0x446973637265746556616c756573]⟩
def m_Discrete : List RClass := d_Discrete :: m_Measurement

/-- CIM14/IEC61970/Meas/DiscreteValue.py:23 -/
def d_DiscreteValue : RClass := ⟨0x446973637265746556616c7565, 0x43494d31342e49454336313937302e4d6561732e446973637265746556616c7565, 0x43494d31342e49454336313937302e4d6561732e4d6561737572656d656e7456616c7565,
  [(0x76616c7565, .int 0)],
  [0x76616c7565],
  [(0x76616c7565, .int 0)],
  [(0x76616c7565, 0x696e74)],
  [],
  [⟨0x4469736372657465, .one2many, 0x446973637265746556616c756573, 0, false⟩],
  []⟩
def m_DiscreteValue : List RClass := d_DiscreteValue :: m_MeasurementValue

/-- CIM14/IEC61970/Meas/SetPoint.py:23 -/
def d_SetPoint : RClass := ⟨0x536574506f696e74, 0x43494d31342e49454336313937302e4d6561732e536574506f696e74, 0x43494d31342e49454336313937302e4d6561732e436f6e74726f6c,
  [(0x6d696e56616c7565, .flt 0x0), (0x76616c7565, .flt 0x0), (0x6d617856616c7565, .flt 0x0), (0x6e6f726d616c56616c7565, .flt 0x0)],
  [0x6d696e56616c7565, 0x76616c7565, 0x6d617856616c7565, 0x6e6f726d616c56616c7565],
  [(0x6d696e56616c7565, .flt 0x0), (0x76616c7565, .flt 0x0), (0x6d617856616c7565, .flt 0x0), (0x6e6f726d616c56616c7565, .flt 0x0)],
  [(0x6d696e56616c7565, 0x666c6f6174), (0x76616c7565, 0x666c6f6174), (0x6d617856616c7565, 0x666c6f6174), (0x6e6f726d616c56616c7565, 0x666c6f6174)],
  [],
  [⟨0x416e616c6f67, .one2one, 0x536574506f696e74, 0, false⟩],
  []⟩
def m_SetPoint : List RClass := d_SetPoint :: m_Control

/-- CIM14/IEC61970/Meas/StringMeasurement.py:23 -/
def d_StringMeasurement : RClass := ⟨0x537472696e674d6561737572656d656e74, 0x43494d31342e49454336313937302e4d6561732e537472696e674d6561737572656d656e74, 0x43494d31342e49454336313937302e4d6561732e4d6561737572656d656e74,
  [],
  [],
  [],
  [],
  [],
  [⟨0x537472696e674d6561737572656d656e7456616c756573, .many2one, 0x537472696e674d6561737572656d656e74, 0, false⟩],
  [0x537472696e674d6561737572656d656e7456616c756573]⟩
def m_StringMeasurement : List RClass := d_StringMeasurement :: m_Measurement

/-- CIM14/IEC61970/Meas/StringMeasurementValue.py:23 -/
def d_StringMeasurementValue : RClass := ⟨0x537472696e674d6561737572656d656e7456616c7565, 0x43494d31342e49454336313937302e4d6561732e537472696e674d6561737572656d656e7456616c7565, 0x43494d31342e49454336313937302e4d6561732e4d6561737572656d656e7456616c7565,
  [(0x76616c7565, .str 0)],
  [0x76616c7565],
  [(0x76616c7565, .str 0)],
  [(0x76616c7565, 0x737472)],
  [],
  [⟨0x537472696e674d6561737572656d656e74, .one2many, 0x537472696e674d6561737572656d656e7456616c756573, 0, false⟩],
  []⟩
def m_StringMeasurementValue : List RClass := d_StringMeasurementValue :: m_MeasurementValue

/-- CIM14/IEC61970/OperationalLimits/ActivePowerLimit.py:23 -/
def d_ActivePowerLimit : RClass := ⟨0x416374697665506f7765724c696d6974, 0x43494d31342e49454336313937302e4f7065726174696f6e616c4c696d6974732e416374697665506f7765724c696d6974, 0x43494d31342e49454336313937302e4f7065726174696f6e616c4c696d6974732e4f7065726174696f6e616c4c696d6974,
  [(0x76616c7565, .flt 0x0)],
  [0x76616c7565],
  [(0x76616c7565, .flt 0x0)],
  [(0x76616c7565, 0x666c6f6174)],
  [],
  [],
  []⟩
def m_ActivePowerLimit : List RClass := d_ActivePowerLimit :: m_OperationalLimit

/-- CIM14/IEC61970/OperationalLimits/ApparentPowerLimit.py:23 -/
def d_ApparentPowerLimit : RClass := ⟨0x4170706172656e74506f7765724c696d6974, 0x43494d31342e49454336313937302e4f7065726174696f6e616c4c696d6974732e4170706172656e74506f7765724c696d6974, 0x43494d31342e49454336313937302e4f7065726174696f6e616c4c696d6974732e4f7065726174696f6e616c4c696d6974,
  [(0x76616c7565, .flt 0x0)],
  [0x76616c7565],
  [(0x76616c7565, .flt 0x0)],
  [(0x76616c7565, 0x666c6f6174)],
  [],
  [],
  []⟩
def m_ApparentPowerLimit : List RClass := d_ApparentPowerLimit :: m_OperationalLimit

/-- CIM14/IEC61970/OperationalLimits/CurrentLimit.py:23 -/
def d_CurrentLimit : RClass := ⟨0x43757272656e744c696d6974, 0x43494d31342e49454336313937302e4f7065726174696f6e616c4c696d6974732e43757272656e744c696d6974, 0x43494d31342e49454336313937302e4f7065726174696f6e616c4c696d6974732e4f7065726174696f6e616c4c696d6974,
  [(0x76616c7565, .flt 0x0)],
  [0x76616c7565],
  [(0x76616c7565, .flt 0x0)],
  [(0x76616c7565, 0x666c6f6174)],
  [],
  [],
  []⟩
def m_CurrentLimit : List RClass := d_CurrentLimit :: m_OperationalLimit

/-- CIM14/IEC61970/OperationalLimits/VoltageLimit.py:23 -/
def d_VoltageLimit : RClass := ⟨0x566f6c746167654c696d6974, 0x43494d31342e49454336313937302e4f7065726174696f6e616c4c696d6974732e566f6c746167654c696d6974, 0x43494d31342e49454336313937302e4f7065726174696f6e616c4c696d6974732e4f7065726174696f6e616c4c696d6974,
  [(0x76616c7565, .flt 0x0)],
  [0x76616c7565],
  [(0x76616c7565, .flt 0x0)],
  [(0x76616c7565, 0x666c6f6174)],
  [],
  [],
  []⟩
def m_VoltageLimit : List RClass := d_VoltageLimit :: m_OperationalLimit

/-- CIM14/IEC61970/SCADA/CommunicationLink.py:23 -/
def d_CommunicationLink : RClass := ⟨0x436f6d6d756e69636174696f6e4c696e6b, 0x43494d31342e49454336313937302e53434144412e436f6d6d756e69636174696f6e4c696e6b, 0x43494d31342e49454336313937302e436f72652e506f77657253797374656d5265736f75726365,
  [],
  [],
  [],
  [],
  [],
  [⟨0x52656d6f7465556e697473, .many2many, 0x436f6d6d756e69636174696f6e4c696e6b73, 0, false⟩],
  [0x52656d6f7465556e697473]⟩
def m_CommunicationLink : List RClass := d_CommunicationLink :: m_PowerSystemResource

/-- CIM14/IEC61970/SCADA/RemoteControl.py:23 -/
def d_RemoteControl : RClass := ⟨0x52656d6f7465436f6e74726f6c, 0x43494d31342e49454336313937302e53434144412e52656d6f7465436f6e74726f6c, 0x43494d31342e49454336313937302e53434144412e52656d6f7465506f696e74,
  [(0x6163747561746f724d696e696d756d, .flt 0x0), (0x72656d6f7465436f6e74726f6c6c6564, .bool false), (0x6163747561746f724d6178696d756d, .flt 0x0)],
  [0x6163747561746f724d696e696d756d, 0x72656d6f7465436f6e74726f6c6c6564, 0x6163747561746f724d6178696d756d],
  [(0x6163747561746f724d696e696d756d, .flt 0x0), (0x72656d6f7465436f6e74726f6c6c6564, .bool false), (0x6163747561746f724d6178696d756d, .flt 0x0)],
  [(0x6163747561746f724d696e696d756d, 0x666c6f6174), (0x72656d6f7465436f6e74726f6c6c6564, 0x626f6f6c), (0x6163747561746f724d6178696d756d, 0x666c6f6174)],
  [],
  [⟨0x436f6e74726f6c, .one2one, 0x52656d6f7465436f6e74726f6c, 0, false⟩],
  []⟩
def m_RemoteControl : List RClass := d_RemoteControl :: m_RemotePoint

/-- CIM14/IEC61970/SCADA/RemoteSource.py:23 -/
def d_RemoteSource : RClass := ⟨0x52656d6f7465536f75726365, 0x43494d31342e49454336313937302e53434144412e52656d6f7465536f75726365, 0x43494d31342e49454336313937302e53434144412e52656d6f7465506f696e74,
  [(0x7363616e496e74657276616c, .flt 0x0), (0x73656e736f724d6178696d756d, .flt 0x0), (0x6465616462616e64, .flt 0x0), (0x73656e736f724d696e696d756d, .flt 0x0)],
  [0x7363616e496e74657276616c, 0x73656e736f724d6178696d756d, 0x6465616462616e64, 0x73656e736f724d696e696d756d],
  [(0x7363616e496e74657276616c, .flt 0x0), (0x73656e736f724d6178696d756d, .flt 0x0), (0x6465616462616e64, .flt 0x0), (0x73656e736f724d696e696d756d, .flt 0x0)],
  [(0x7363616e496e74657276616c, 0x666c6f6174), (0x73656e736f724d6178696d756d, 0x666c6f6174), (0x6465616462616e64, 0x666c6f6174), (0x73656e736f724d696e696d756d, 0x666c6f6174)],
  [],
  [⟨0x4d6561737572656d656e7456616c7565, .one2one, 0x52656d6f7465536f75726365, 0, false⟩],
  []⟩
def m_RemoteSource : List RClass := d_RemoteSource :: m_RemotePoint

/-- CIM14/IEC61970/SCADA/RemoteUnit.py:23 -/
def d_RemoteUnit : RClass := ⟨0x52656d6f7465556e6974, 0x43494d31342e49454336313937302e53434144412e52656d6f7465556e6974, 0x43494d31342e49454336313937302e436f72652e506f77657253797374656d5265736f75726365,
  [(0x72656d6f7465556e697454797065, .str 0x494544)],
  [0x72656d6f7465556e697454797065],
  [(0x72656d6f7465556e697454797065, .str 0x494544)],
  [(0x72656d6f7465556e697454797065, 0x737472)],
  [(0x72656d6f7465556e697454797065, 0x52656d6f7465556e697454797065)],
  [⟨0x436f6d6d756e69636174696f6e4c696e6b73, .many2many, 0x52656d6f7465556e697473, 0, false⟩, ⟨0x52656d6f7465506f696e7473, .many2one, 0x52656d6f7465556e6974, 0, false⟩],
  [0x436f6d6d756e69636174696f6e4c696e6b73, 0x52656d6f7465506f696e7473]⟩
def m_RemoteUnit : List RClass := d_RemoteUnit :: m_PowerSystemResource

/-- CIM14/IEC61970/Wires/ImpedanceVariationCurve.py:23 -/
def d_ImpedanceVariationCurve : RClass := ⟨0x496d706564616e6365566172696174696f6e4375727665, 0x43494d31342e49454336313937302e57697265732e496d706564616e6365566172696174696f6e4375727665, 0x43494d31342e49454336313937302e436f72652e4375727665,
  [],
  [],
  [],
  [],
  [],
  [⟨0x5461704368616e676572, .one2one, 0x496d706564616e6365566172696174696f6e4375727665, 0, false⟩],
  []⟩
def m_ImpedanceVariationCurve : List RClass := d_ImpedanceVariationCurve :: m_Curve

/-- CIM14/IEC61970/Wires/PhaseVariationCurve.py:23 -/
def d_PhaseVariationCurve : RClass := ⟨0x5068617365566172696174696f6e4375727665, 0x43494d31342e49454336313937302e57697265732e5068617365566172696174696f6e4375727665, 0x43494d31342e49454336313937302e436f72652e4375727665,
  [],
  [],
  [],
  [],
  [],
  [⟨0x50686173655461704368616e676572, .one2one, 0x5068617365566172696174696f6e4375727665, 0, false⟩],
  []⟩
def m_PhaseVariationCurve : List RClass := d_PhaseVariationCurve :: m_Curve

/-- CIM14/IEC61970/Wires/RatioVariationCurve.py:23 -/
def d_RatioVariationCurve : RClass := ⟨0x526174696f566172696174696f6e4375727665, 0x43494d31342e49454336313937302e57697265732e526174696f566172696174696f6e4375727665, 0x43494d31342e49454336313937302e436f72652e4375727665,
  [],
  [],
  [],
  [],
  [],
  [⟨0x526174696f5461704368616e676572, .one2one, 0x526174696f566172696174696f6e4375727665, 0, false⟩],
  []⟩
def m_RatioVariationCurve : List RClass := d_RatioVariationCurve :: m_Curve

/-- CIM14/IEC61970/Wires/ReactiveCapabilityCurve.py:23 -/
def d_ReactiveCapabilityCurve : RClass := ⟨0x52656163746976654361706162696c6974794375727665, 0x43494d31342e49454336313937302e57697265732e52656163746976654361706162696c6974794375727665, 0x43494d31342e49454336313937302e436f72652e4375727665,
  [(0x636f6f6c616e7454656d7065726174757265, .flt 0x0), (0x687964726f67656e5072657373757265, .flt 0x0)],
  [0x636f6f6c616e7454656d7065726174757265, 0x687964726f67656e5072657373757265],
  [(0x636f6f6c616e7454656d7065726174757265, .flt 0x0), (0x687964726f67656e5072657373757265, .flt 0x0)],
  [(0x636f6f6c616e7454656d7065726174757265, 0x666c6f6174), (0x687964726f67656e5072657373757265, 0x666c6f6174)],
  [],
  [⟨0x496e697469616c6c7955736564427953796e6368726f6e6f75734d616368696e6573, .many2one, 0x496e697469616c52656163746976654361706162696c6974794375727665, 0, false⟩, ⟨0x53796e6368726f6e6f75734d616368696e6573, .many2many, 0x52656163746976654361706162696c697479437572766573, 0, false⟩],
  [0x496e697469616c6c7955736564427953796e6368726f6e6f75734d616368696e6573, 0x53796e6368726f6e6f75734d616368696e6573]⟩
def m_ReactiveCapabilityCurve : List RClass := d_ReactiveCapabilityCurve :: m_Curve

/-- CIM14/IEC61970/Wires/RegulatingControl.py:23 -/
def d_RegulatingControl : RClass := ⟨0x526567756c6174696e67436f6e74726f6c, 0x43494d31342e49454336313937302e57697265732e526567756c6174696e67436f6e74726f6c, 0x43494d31342e49454336313937302e436f72652e506f77657253797374656d5265736f75726365,
  [(0x6d6f6465, .str 0x6669786564), (0x74617267657452616e6765, .flt 0x0), (0x6469736372657465, .bool false), (0x74617267657456616c7565, .flt 0x0)],
  [0x6d6f6465, 0x74617267657452616e6765, 0x6469736372657465, 0x74617267657456616c7565],
  [(0x6d6f6465, .str 0x6669786564), (0x74617267657452616e6765, .flt 0x0), (0x6469736372657465, .bool false), (0x74617267657456616c7565, .flt 0x0)],
  [(0x6d6f6465, 0x737472), (0x74617267657452616e6765, 0x666c6f6174), (0x6469736372657465, 0x626f6f6c), (0x74617267657456616c7565, 0x666c6f6174)],
  [(0x6d6f6465, 0x526567756c6174696e67436f6e74726f6c4d6f64654b696e64)],
  [⟨0x526567756c6174696f6e5363686564756c65, .many2one, 0x526567756c6174696e67436f6e74726f6c, 0, false⟩, ⟨0x5465726d696e616c, .one2many, 0x526567756c6174696e67436f6e74726f6c, 0, false⟩, ⟨0x5461704368616e676572, .many2one, 0x526567756c6174696e67436f6e74726f6c, 0, false⟩, ⟨0x526567756c6174696e67436f6e644571, .many2one, 0x526567756c6174696e67436f6e74726f6c, 0, false⟩],
  [0x526567756c6174696f6e5363686564756c65, 0x5461704368616e676572, 0x526567756c6174696e67436f6e644571]⟩
def m_RegulatingControl : List RClass := d_RegulatingControl :: m_PowerSystemResource

/-- CIM14/IEC61970/Wires/TapChanger.py:23 -/
def d_TapChanger : RClass := ⟨0x5461704368616e676572, 0x43494d31342e49454336313937302e57697265732e5461704368616e676572, 0x43494d31342e49454336313937302e436f72652e506f77657253797374656d5265736f75726365,
  [(0x73746570566f6c74616765496e6372656d656e74, .flt 0x0), (0x6e6f726d616c53746570, .int 0), (0x6e65757472616c53746570, .int 0), (0x73756273657175656e7444656c6179, .flt 0x0), (0x726567756c6174696f6e537461747573, .bool false), (0x6c7463466c6167, .bool false), (0x6869676853746570, .int 0), (0x696e697469616c44656c6179, .flt 0x0), (0x6c6f7753746570, .int 0), (0x6e65757472616c55, .flt 0x0)],
  [0x73746570566f6c74616765496e6372656d656e74, 0x6e6f726d616c53746570, 0x6e65757472616c53746570, 0x73756273657175656e7444656c6179, 0x726567756c6174696f6e537461747573, 0x6c7463466c6167, 0x6869676853746570, 0x696e697469616c44656c6179, 0x6c6f7753746570, 0x6e65757472616c55],
  [(0x73746570566f6c74616765496e6372656d656e74, .flt 0x0), (0x6e6f726d616c53746570, .int 0), (0x6e65757472616c53746570, .int 0), (0x73756273657175656e7444656c6179, .flt 0x0), (0x726567756c6174696f6e537461747573, .bool false), (0x6c7463466c6167, .bool false), (0x6869676853746570, .int 0), (0x696e697469616c44656c6179, .flt 0x0), (0x6c6f7753746570, .int 0), (0x6e65757472616c55, .flt 0x0)],
  [(0x73746570566f6c74616765496e6372656d656e74, 0x666c6f6174), (0x6e6f726d616c53746570, 0x696e74), (0x6e65757472616c53746570, 0x696e74), (0x73756273657175656e7444656c6179, 0x666c6f6174), (0x726567756c6174696f6e537461747573, 0x626f6f6c), (0x6c7463466c6167, 0x626f6f6c), (0x6869676853746570, 0x696e74), (0x696e697469616c44656c6179, 0x666c6f6174), (0x6c6f7753746570, 0x696e74), (0x6e65757472616c55, 0x666c6f6174)],
  [],
  [⟨0x537654617053746570, .one2one, 0x5461704368616e676572, 0, false⟩, ⟨0x496d706564616e6365566172696174696f6e4375727665, .one2one, 0x5461704368616e676572, 0, false⟩, ⟨0x5461705363686564756c6573, .many2one, 0x5461704368616e676572, 0, false⟩, ⟨0x526567756c6174696e67436f6e74726f6c, .one2many, 0x5461704368616e676572, 0, false⟩],
  [0x5461705363686564756c6573]⟩
def m_TapChanger : List RClass := d_TapChanger :: m_PowerSystemResource

/-- CIM14/IEC61970/Wires/VoltageControlZone.py:23 -/
def d_VoltageControlZone : RClass := ⟨0x566f6c74616765436f6e74726f6c5a6f6e65, 0x43494d31342e49454336313937302e57697265732e566f6c74616765436f6e74726f6c5a6f6e65, 0x43494d31342e49454336313937302e436f72652e506f77657253797374656d5265736f75726365,
  [],
  [],
  [],
  [],
  [],
  [⟨0x526567756c6174696f6e5363686564756c65, .one2many, 0x566f6c74616765436f6e74726f6c5a6f6e6573, 0, false⟩, ⟨0x42757362617253656374696f6e, .one2one, 0x566f6c74616765436f6e74726f6c5a6f6e65, 0, false⟩],
  []⟩
def m_VoltageControlZone : List RClass := d_VoltageControlZone :: m_PowerSystemResource

/-- CIM14/IEC61968/AssetModels/ConcentricNeutralCableInfo.py:23 -/
def d_ConcentricNeutralCableInfo : RClass := ⟨0x436f6e63656e747269634e65757472616c4361626c65496e666f, 0x43494d31342e49454336313936382e41737365744d6f64656c732e436f6e63656e747269634e65757472616c4361626c65496e666f, 0x43494d31342e49454336313936382e41737365744d6f64656c732e4361626c65496e666f,
  [(0x6469616d657465724f7665724e65757472616c, .flt 0x0), (0x6e65757472616c537472616e64436f756e74, .int 0)],
  [0x6469616d657465724f7665724e65757472616c, 0x6e65757472616c537472616e64436f756e74],
  [(0x6469616d657465724f7665724e65757472616c, .flt 0x0), (0x6e65757472616c537472616e64436f756e74, .int 0)],
  [(0x6469616d657465724f7665724e65757472616c, 0x666c6f6174), (0x6e65757472616c537472616e64436f756e74, 0x696e74)],
  [],
  [⟨0x5769726554797065, .one2many, 0x436f6e63656e747269634e65757472616c4361626c65496e666f73, 0, false⟩],
  []⟩
def m_ConcentricNeutralCableInfo : List RClass := d_ConcentricNeutralCableInfo :: m_CableInfo

/-- CIM14/IEC61968/AssetModels/TapeShieldCableInfo.py:23 -/
def d_TapeShieldCableInfo : RClass := ⟨0x54617065536869656c644361626c65496e666f, 0x43494d31342e49454336313936382e41737365744d6f64656c732e54617065536869656c644361626c65496e666f, 0x43494d31342e49454336313936382e41737365744d6f64656c732e4361626c65496e666f,
  [(0x74617065546869636b6e657373, .flt 0x0), (0x746170654c6170, .flt 0x0)],
  [0x74617065546869636b6e657373, 0x746170654c6170],
  [(0x74617065546869636b6e657373, .flt 0x0), (0x746170654c6170, .flt 0x0)],
  [(0x74617065546869636b6e657373, 0x666c6f6174), (0x746170654c6170, 0x666c6f6174)],
  [],
  [],
  []⟩
def m_TapeShieldCableInfo : List RClass := d_TapeShieldCableInfo :: m_CableInfo

/-- CIM14/IEC61968/Customers/CustomerAgreement.py:23 -/
def d_CustomerAgreement : RClass := ⟨0x437573746f6d657241677265656d656e74, 0x43494d31342e49454336313936382e437573746f6d6572732e437573746f6d657241677265656d656e74, 0x43494d31342e49454336313936382e436f6d6d6f6e2e41677265656d656e74,
  [(0x6c6f61644d676d74, .str 0), (0x62756467657442696c6c, .str 0), (0x62696c6c696e674379636c65, .str 0)],
  [0x6c6f61644d676d74, 0x62756467657442696c6c, 0x62696c6c696e674379636c65],
  [(0x6c6f61644d676d74, .str 0), (0x62756467657442696c6c, .str 0), (0x62696c6c696e674379636c65, .str 0)],
  [(0x6c6f61644d676d74, 0x737472), (0x62756467657442696c6c, 0x737472), (0x62696c6c696e674379636c65, 0x737472)],
  [],
  [⟨0x44656d616e64526573706f6e736550726f6772616d, .one2many, 0x437573746f6d657241677265656d656e7473, 0, false⟩, ⟨0x53657276696365537570706c696572, .one2many, 0x437573746f6d657241677265656d656e7473, 0, false⟩, ⟨0x50726963696e6753747275637475726573, .many2many, 0x437573746f6d657241677265656d656e7473, 0, false⟩, ⟨0x536572766963654c6f636174696f6e73, .many2many, 0x437573746f6d657241677265656d656e7473, 0, false⟩, ⟨0x5365727669636543617465676f7279, .one2many, 0x437573746f6d657241677265656d656e7473, 0, false⟩, ⟨0x4d6574657252656164696e6773, .many2one, 0x437573746f6d657241677265656d656e74, 0, false⟩, ⟨0x437573746f6d65724163636f756e74, .one2many, 0x437573746f6d657241677265656d656e7473, 0, false⟩, ⟨0x417578696c6961727941677265656d656e7473, .many2one, 0x437573746f6d657241677265656d656e74, 0, false⟩, ⟨0x456e64446576696365436f6e74726f6c73, .many2one, 0x437573746f6d657241677265656d656e74, 0, false⟩, ⟨0x437573746f6d6572, .one2many, 0x437573746f6d657241677265656d656e7473, 0, false⟩, ⟨0x5365727669636544656c6976657279506f696e7473, .many2one, 0x437573746f6d657241677265656d656e74, 0, false⟩, ⟨0x45717569706d656e7473, .many2many, 0x437573746f6d657241677265656d656e7473, 0, false⟩],
  [0x50726963696e6753747275637475726573, 0x536572766963654c6f636174696f6e73, 0x4d6574657252656164696e6773, 0x417578696c6961727941677265656d656e7473, 0x456e64446576696365436f6e74726f6c73, 0x5365727669636544656c6976657279506f696e7473, 0x45717569706d656e7473]⟩
def m_CustomerAgreement : List RClass := d_CustomerAgreement :: m_Agreement

/-- CIM14/IEC61968/LoadControl/ConnectDisconnectFunction.py:23 -/
def d_ConnectDisconnectFunction : RClass := ⟨0x436f6e6e656374446973636f6e6e65637446756e6374696f6e, 0x43494d31342e49454336313936382e4c6f6164436f6e74726f6c2e436f6e6e656374446973636f6e6e65637446756e6374696f6e, 0x43494d31342e49454336313936382e4d65746572696e672e44657669636546756e6374696f6e,
  [(0x69734c6f63616c4175746f5265636f6e4f70, .bool false), (0x69734c6f63616c4175746f446973636f6e4f70, .bool false), (0x697352656d6f74654175746f5265636f6e4f70, .bool false), (0x697352656d6f74654175746f446973636f6e4f70, .bool false), (0x6973436f6e6e6563746564, .bool false), (0x6576656e74436f756e74, .int 0), (0x697344656c61796564446973636f6e, .bool false)],
  [0x69734c6f63616c4175746f5265636f6e4f70, 0x69734c6f63616c4175746f446973636f6e4f70, 0x697352656d6f74654175746f5265636f6e4f70, 0x697352656d6f74654175746f446973636f6e4f70, 0x6973436f6e6e6563746564, 0x6576656e74436f756e74, 0x697344656c61796564446973636f6e],
  [(0x69734c6f63616c4175746f5265636f6e4f70, .bool false), (0x69734c6f63616c4175746f446973636f6e4f70, .bool false), (0x697352656d6f74654175746f5265636f6e4f70, .bool false), (0x697352656d6f74654175746f446973636f6e4f70, .bool false), (0x6973436f6e6e6563746564, .bool false), (0x6576656e74436f756e74, .int 0), (0x697344656c61796564446973636f6e, .bool false)],
  [(0x69734c6f63616c4175746f5265636f6e4f70, 0x626f6f6c), (0x69734c6f63616c4175746f446973636f6e4f70, 0x626f6f6c), (0x697352656d6f74654175746f5265636f6e4f70, 0x626f6f6c), (0x697352656d6f74654175746f446973636f6e4f70, 0x626f6f6c), (0x6973436f6e6e6563746564, 0x626f6f6c), (0x6576656e74436f756e74, 0x696e74), (0x697344656c61796564446973636f6e, 0x626f6f6c)],
  [],
  [⟨0x726364496e666f, .plainOne, 0, 0, false⟩, ⟨0x5377697463686573, .many2many, 0x436f6e6e656374446973636f6e6e65637446756e6374696f6e73, 0, false⟩],
  [0x5377697463686573]⟩
def m_ConnectDisconnectFunction : List RClass := d_ConnectDisconnectFunction :: m_DeviceFunction

/-- CIM14/IEC61968/Metering/ComFunction.py:23 -/
def d_ComFunction : RClass := ⟨0x436f6d46756e6374696f6e, 0x43494d31342e49454336313936382e4d65746572696e672e436f6d46756e6374696f6e, 0x43494d31342e49454336313936382e4d65746572696e672e44657669636546756e6374696f6e,
  [(0x616d72526f75746572, .str 0), (0x74776f576179, .bool false), (0x616d7241646472657373, .str 0)],
  [0x616d72526f75746572, 0x74776f576179, 0x616d7241646472657373],
  [(0x616d72526f75746572, .str 0), (0x74776f576179, .bool false), (0x616d7241646472657373, .str 0)],
  [(0x616d72526f75746572, 0x737472), (0x74776f576179, 0x626f6f6c), (0x616d7241646472657373, 0x737472)],
  [],
  [],
  []⟩
def m_ComFunction : List RClass := d_ComFunction :: m_DeviceFunction

/-- CIM14/IEC61968/Metering/ElectricMeteringFunction.py:23 -/
def d_ElectricMeteringFunction : RClass := ⟨0x456c6563747269634d65746572696e6746756e6374696f6e, 0x43494d31342e49454336313936382e4d65746572696e672e456c6563747269634d65746572696e6746756e6374696f6e, 0x43494d31342e49454336313936382e4d65746572696e672e44657669636546756e6374696f6e,
  [(0x62696c6c696e674d756c7469706c6965724170706c696564, .bool false), (0x6b574d756c7469706c696572, .int 0), (0x64656d616e644d756c7469706c696572, .flt 0x0), (0x64656d616e644d756c7469706c6965724170706c696564, .bool false), (0x7472616e73666f726d6572526174696f734170706c696564, .bool false), (0x766f6c74616765526174696e67, .flt 0x0), (0x62696c6c696e674d756c7469706c696572, .flt 0x0), (0x7472616e73666f726d65725654526174696f, .flt 0x0), (0x6b57684d756c7469706c696572, .int 0), (0x7472616e73666f726d65724354526174696f, .flt 0x0), (0x63757272656e74526174696e67, .flt 0x0)],
  [0x62696c6c696e674d756c7469706c6965724170706c696564, 0x6b574d756c7469706c696572, 0x64656d616e644d756c7469706c696572, 0x64656d616e644d756c7469706c6965724170706c696564, 0x7472616e73666f726d6572526174696f734170706c696564, 0x766f6c74616765526174696e67, 0x62696c6c696e674d756c7469706c696572, 0x7472616e73666f726d65725654526174696f, 0x6b57684d756c7469706c696572, 0x7472616e73666f726d65724354526174696f, 0x63757272656e74526174696e67],
  [(0x62696c6c696e674d756c7469706c6965724170706c696564, .bool false), (0x6b574d756c7469706c696572, .int 0), (0x64656d616e644d756c7469706c696572, .flt 0x0), (0x64656d616e644d756c7469706c6965724170706c696564, .bool false), (0x7472616e73666f726d6572526174696f734170706c696564, .bool false), (0x766f6c74616765526174696e67, .flt 0x0), (0x62696c6c696e674d756c7469706c696572, .flt 0x0), (0x7472616e73666f726d65725654526174696f, .flt 0x0), (0x6b57684d756c7469706c696572, .int 0), (0x7472616e73666f726d65724354526174696f, .flt 0x0), (0x63757272656e74526174696e67, .flt 0x0)],
  [(0x62696c6c696e674d756c7469706c6965724170706c696564, 0x626f6f6c), (0x6b574d756c7469706c696572, 0x696e74), (0x64656d616e644d756c7469706c696572, 0x666c6f6174), (0x64656d616e644d756c7469706c6965724170706c696564, 0x626f6f6c), (0x7472616e73666f726d6572526174696f734170706c696564, 0x626f6f6c), (0x766f6c74616765526174696e67, 0x666c6f6174), (0x62696c6c696e674d756c7469706c696572, 0x666c6f6174), (0x7472616e73666f726d65725654526174696f, 0x666c6f6174), (0x6b57684d756c7469706c696572, 0x696e74), (0x7472616e73666f726d65724354526174696f, 0x666c6f6174), (0x63757272656e74526174696e67, 0x666c6f6174)],
  [],
  [],
  []⟩
def m_ElectricMeteringFunction : List RClass := d_ElectricMeteringFunction :: m_DeviceFunction

/-- CIM14/IEC61968/Metering/EndDeviceAsset.py:23 -/
def d_EndDeviceAsset : RClass := ⟨0x456e644465766963654173736574, 0x43494d31342e49454336313936382e4d65746572696e672e456e644465766963654173736574, 0x43494d31342e49454336313936382e4173736574732e4173736574436f6e7461696e6572,
  [(0x7265616452657175657374, .bool false), (0x64656d616e64526573706f6e7365, .bool false), (0x72656c617943617061626c65, .bool false), (0x616d7253797374656d, .str 0), (0x726174656443757272656e74, .flt 0x0), (0x7068617365436f756e74, .int 0), (0x72657665727365466c6f7748616e646c696e67, .bool false), (0x6d6574726f6c6f6779, .bool false), (0x74696d655a6f6e654f6666736574, .flt 0x0), (0x6f75746167655265706f7274, .bool false), (0x647374456e61626c6564, .bool false), (0x646973636f6e6e656374, .bool false), (0x7261746564566f6c74616765, .flt 0x0), (0x6c6f6164436f6e74726f6c, .bool false)],
  [0x7265616452657175657374, 0x64656d616e64526573706f6e7365, 0x72656c617943617061626c65, 0x616d7253797374656d, 0x726174656443757272656e74, 0x7068617365436f756e74, 0x72657665727365466c6f7748616e646c696e67, 0x6d6574726f6c6f6779, 0x74696d655a6f6e654f6666736574, 0x6f75746167655265706f7274, 0x647374456e61626c6564, 0x646973636f6e6e656374, 0x7261746564566f6c74616765, 0x6c6f6164436f6e74726f6c],
  [(0x7265616452657175657374, .bool false), (0x64656d616e64526573706f6e7365, .bool false), (0x72656c617943617061626c65, .bool false), (0x616d7253797374656d, .str 0), (0x726174656443757272656e74, .flt 0x0), (0x7068617365436f756e74, .int 0), (0x72657665727365466c6f7748616e646c696e67, .bool false), (0x6d6574726f6c6f6779, .bool false), (0x74696d655a6f6e654f6666736574, .flt 0x0), (0x6f75746167655265706f7274, .bool false), (0x647374456e61626c6564, .bool false), (0x646973636f6e6e656374, .bool false), (0x7261746564566f6c74616765, .flt 0x0), (0x6c6f6164436f6e74726f6c, .bool false)],
  [(0x7265616452657175657374, 0x626f6f6c), (0x64656d616e64526573706f6e7365, 0x626f6f6c), (0x72656c617943617061626c65, 0x626f6f6c), (0x616d7253797374656d, 0x737472), (0x726174656443757272656e74, 0x666c6f6174), (0x7068617365436f756e74, 0x696e74), (0x72657665727365466c6f7748616e646c696e67, 0x626f6f6c), (0x6d6574726f6c6f6779, 0x626f6f6c), (0x74696d655a6f6e654f6666736574, 0x666c6f6174), (0x6f75746167655265706f7274, 0x626f6f6c), (0x647374456e61626c6564, 0x626f6f6c), (0x646973636f6e6e656374, 0x626f6f6c), (0x7261746564566f6c74616765, 0x666c6f6174), (0x6c6f6164436f6e74726f6c, 0x626f6f6c)],
  [],
  [⟨0x456e6444657669636547726f757073, .many2many, 0x456e64446576696365417373657473, 0, false⟩, ⟨0x536572766963654c6f636174696f6e, .one2many, 0x456e64446576696365417373657473, 0, false⟩, ⟨0x456e644465766963654d6f64656c, .one2many, 0x456e64446576696365417373657473, 0, false⟩, ⟨0x44657669636546756e6374696f6e73, .many2one, 0x456e644465766963654173736574, 0, false⟩, ⟨0x5365727669636544656c6976657279506f696e74, .one2many, 0x456e64446576696365417373657473, 0, false⟩, ⟨0x52656164696e6773, .many2one, 0x456e644465766963654173736574, 0, false⟩, ⟨0x456e64446576696365436f6e74726f6c73, .many2one, 0x456e644465766963654173736574, 0, false⟩, ⟨0x437573746f6d6572, .one2many, 0x456e64446576696365417373657473, 0, false⟩],
  [0x456e6444657669636547726f757073, 0x44657669636546756e6374696f6e73, 0x52656164696e6773, 0x456e64446576696365436f6e74726f6c73]⟩
def m_EndDeviceAsset : List RClass := d_EndDeviceAsset :: m_AssetContainer

/-- CIM14/IEC61968/Metering/MeterServiceWork.py:23 -/
def d_MeterServiceWork : RClass := ⟨0x4d6574657253657276696365576f726b, 0x43494d31342e49454336313936382e4d65746572696e672e4d6574657253657276696365576f726b, 0x43494d31342e49454336313936382e576f726b2e576f726b,
  [],
  [],
  [],
  [],
  [],
  [⟨0x4f6c644d657465724173736574, .one2many, 0x4d657465725265706c6163656d656e74576f726b73, 0, false⟩, ⟨0x4d657465724173736574, .one2many, 0x4d6574657253657276696365576f726b73, 0, false⟩],
  []⟩
def m_MeterServiceWork : List RClass := d_MeterServiceWork :: m_Work

/-- CIM14/IEC61968/PaymentMetering/AuxiliaryAgreement.py:23 -/
def d_AuxiliaryAgreement : RClass := ⟨0x417578696c6961727941677265656d656e74, 0x43494d31342e49454336313936382e5061796d656e744d65746572696e672e417578696c6961727941677265656d656e74, 0x43494d31342e49454336313936382e436f6d6d6f6e2e41677265656d656e74,
  [(0x61727265617273496e746572657374, .flt 0x0), (0x76656e64506f7274696f6e, .flt 0x0), (0x6d696e416d6f756e74, .flt 0x0), (0x6175785072696f72697479436f6465, .str 0), (0x73756243617465676f7279, .str 0), (0x617578526566, .str 0), (0x6175784379636c65, .str 0), (0x76656e64506f7274696f6e417272656172, .flt 0x0), (0x7061794379636c65, .str 0), (0x6669786564416d6f756e74, .flt 0x0)],
  [0x61727265617273496e746572657374, 0x76656e64506f7274696f6e, 0x6d696e416d6f756e74, 0x6175785072696f72697479436f6465, 0x73756243617465676f7279, 0x617578526566, 0x6175784379636c65, 0x76656e64506f7274696f6e417272656172, 0x7061794379636c65, 0x6669786564416d6f756e74],
  [(0x61727265617273496e746572657374, .flt 0x0), (0x76656e64506f7274696f6e, .flt 0x0), (0x6d696e416d6f756e74, .flt 0x0), (0x6175785072696f72697479436f6465, .str 0), (0x73756243617465676f7279, .str 0), (0x617578526566, .str 0), (0x6175784379636c65, .str 0), (0x76656e64506f7274696f6e417272656172, .flt 0x0), (0x7061794379636c65, .str 0), (0x6669786564416d6f756e74, .flt 0x0)],
  [(0x61727265617273496e746572657374, 0x666c6f6174), (0x76656e64506f7274696f6e, 0x666c6f6174), (0x6d696e416d6f756e74, 0x666c6f6174), (0x6175785072696f72697479436f6465, 0x737472), (0x73756243617465676f7279, 0x737472), (0x617578526566, 0x737472), (0x6175784379636c65, 0x737472), (0x76656e64506f7274696f6e417272656172, 0x666c6f6174), (0x7061794379636c65, 0x737472), (0x6669786564416d6f756e74, 0x666c6f6174)],
  [],
  [⟨0x417578696c696172794163636f756e7473, .many2one, 0x417578696c6961727941677265656d656e74, 0, false⟩, ⟨0x437573746f6d657241677265656d656e74, .one2many, 0x417578696c6961727941677265656d656e7473, 0, false⟩],
  [0x417578696c696172794163636f756e7473]⟩
def m_AuxiliaryAgreement : List RClass := d_AuxiliaryAgreement :: m_Agreement

/-- CIM14/IEC61968/PaymentMetering/MerchantAgreement.py:23 -/
def d_MerchantAgreement : RClass := ⟨0x4d65726368616e7441677265656d656e74, 0x43494d31342e49454336313936382e5061796d656e744d65746572696e672e4d65726368616e7441677265656d656e74, 0x43494d31342e49454336313936382e436f6d6d6f6e2e41677265656d656e74,
  [],
  [],
  [],
  [],
  [],
  [⟨0x4d65726368616e744163636f756e7473, .many2one, 0x4d65726368616e7441677265656d656e74, 0, false⟩],
  [0x4d65726368616e744163636f756e7473]⟩
def m_MerchantAgreement : List RClass := d_MerchantAgreement :: m_Agreement

/-- CIM14/IEC61968/WiresExt/DistributionTransformer.py:23 -/
def d_DistributionTransformer : RClass := ⟨0x446973747269627574696f6e5472616e73666f726d6572, 0x43494d31342e49454336313936382e57697265734578742e446973747269627574696f6e5472616e73666f726d6572, 0x43494d31342e49454336313937302e436f72652e45717569706d656e74,
  [],
  [],
  [],
  [],
  [],
  [⟨0x57696e64696e6773, .many2one, 0x5472616e73666f726d6572, 0, false⟩, ⟨0x5365727669636544656c6976657279506f696e7473, .many2one, 0x5472616e73666f726d6572, 0, false⟩, ⟨0x5472616e73666f726d657242616e6b, .one2many, 0x5472616e73666f726d657273, 0, false⟩, ⟨0x5472616e73666f726d6572496e666f, .one2many, 0x5472616e73666f726d657273, 0, false⟩],
  [0x57696e64696e6773, 0x5365727669636544656c6976657279506f696e7473]⟩
def m_DistributionTransformer : List RClass := d_DistributionTransformer :: m_Equipment

/-- CIM14/IEC61968/WiresExt/TransformerBank.py:23 -/
def d_TransformerBank : RClass := ⟨0x5472616e73666f726d657242616e6b, 0x43494d31342e49454336313936382e57697265734578742e5472616e73666f726d657242616e6b, 0x43494d31342e49454336313937302e436f72652e45717569706d656e74,
  [(0x766563746f7247726f7570, .str 0)],
  [0x766563746f7247726f7570],
  [(0x766563746f7247726f7570, .str 0)],
  [(0x766563746f7247726f7570, 0x737472)],
  [],
  [⟨0x5472616e73666f726d657273, .many2one, 0x5472616e73666f726d657242616e6b, 0, false⟩],
  [0x5472616e73666f726d657273]⟩
def m_TransformerBank : List RClass := d_TransformerBank :: m_Equipment

/-- CIM14/IEC61970/Core/ConductingEquipment.py:23 -/
def d_ConductingEquipment : RClass := ⟨0x436f6e64756374696e6745717569706d656e74, 0x43494d31342e49454336313937302e436f72652e436f6e64756374696e6745717569706d656e74, 0x43494d31342e49454336313937302e436f72652e45717569706d656e74,
  [(0x706861736573, .str 0x41)],
  [0x706861736573],
  [(0x706861736573, .str 0x41)],
  [(0x706861736573, 0x737472)],
  [(0x706861736573, 0x5068617365436f6465)],
  [⟨0x436c656172616e636554616773, .many2one, 0x436f6e64756374696e6745717569706d656e74, 0, false⟩, ⟨0x5376537461747573, .one2one, 0x436f6e64756374696e6745717569706d656e74, 0, false⟩, ⟨0x5465726d696e616c73, .many2one, 0x436f6e64756374696e6745717569706d656e74, 0, false⟩, ⟨0x42617365566f6c74616765, .one2many, 0x436f6e64756374696e6745717569706d656e74, 0, false⟩, ⟨0x50726f74656374696f6e45717569706d656e7473, .many2many, 0x436f6e64756374696e6745717569706d656e7473, 0, false⟩],
  [0x436c656172616e636554616773, 0x5465726d696e616c73, 0x50726f74656374696f6e45717569706d656e7473]⟩
def m_ConductingEquipment : List RClass := d_ConductingEquipment :: m_Equipment

/-- CIM14/IEC61970/Core/EquipmentContainer.py:23 -/
def d_EquipmentContainer : RClass := ⟨0x45717569706d656e74436f6e7461696e6572, 0x43494d31342e49454336313937302e436f72652e45717569706d656e74436f6e7461696e6572, 0x43494d31342e49454336313937302e436f72652e436f6e6e65637469766974794e6f6465436f6e7461696e6572,
  [],
  [],
  [],
  [],
  [],
  [⟨0x45717569706d656e7473, .many2one, 0x45717569706d656e74436f6e7461696e6572, 0, false⟩],
  [0x45717569706d656e7473]⟩
def m_EquipmentContainer : List RClass := d_EquipmentContainer :: m_ConnectivityNodeContainer

/-- CIM14/IEC61970/Dynamics/AttributeBlockParameter.py:23 -/
def d_AttributeBlockParameter : RClass := ⟨0x417474726962757465426c6f636b506172616d65746572, 0x43494d31342e49454336313937302e44796e616d6963732e417474726962757465426c6f636b506172616d65746572, 0x43494d31342e49454336313937302e44796e616d6963732e4d657461426c6f636b506172616d65746572,
  [(0x6174747269627574654e616d65, .str 0)],
  [0x6174747269627574654e616d65],
  [(0x6174747269627574654e616d65, .str 0)],
  [(0x6174747269627574654e616d65, 0x737472)],
  [],
  [],
  []⟩
def m_AttributeBlockParameter : List RClass := d_AttributeBlockParameter :: m_MetaBlockParameter

/-- CIM14/IEC61970/Dynamics/ExcitationSystems/ExcAC1A.py:23 -/
def d_ExcAC1A : RClass := ⟨0x45786341433141, 0x43494d31342e49454336313937302e44796e616d6963732e45786369746174696f6e53797374656d732e45786341433141, 0x43494d31342e49454336313937302e44796e616d6963732e45786369746174696f6e53797374656d732e45786369746174696f6e53797374656d,
  [(0x76726d696e, .flt 0x0), (0x7472, .flt 0x0), (0x76726d6178, .flt 0x0), (0x7461, .flt 0x0), (0x6b66, .flt 0x0), (0x7465, .flt 0x0), (0x6b61, .flt 0x0), (0x76616d6178, .flt 0x0), (0x7462, .flt 0x0), (0x6531, .flt 0x0), (0x6b64, .flt 0x0), (0x736531, .flt 0x0), (0x76616d696e, .flt 0x0), (0x6b65, .flt 0x0), (0x6b63, .flt 0x0), (0x7466, .flt 0x0), (0x7463, .flt 0x0), (0x6532, .flt 0x0), (0x736532, .flt 0x0)],
  [0x76726d696e, 0x7472, 0x76726d6178, 0x7461, 0x6b66, 0x7465, 0x6b61, 0x76616d6178, 0x7462, 0x6531, 0x6b64, 0x736531, 0x76616d696e, 0x6b65, 0x6b63, 0x7466, 0x7463, 0x6532, 0x736532],
  [(0x76726d696e, .flt 0x0), (0x7472, .flt 0x0), (0x76726d6178, .flt 0x0), (0x7461, .flt 0x0), (0x6b66, .flt 0x0), (0x7465, .flt 0x0), (0x6b61, .flt 0x0), (0x76616d6178, .flt 0x0), (0x7462, .flt 0x0), (0x6531, .flt 0x0), (0x6b64, .flt 0x0), (0x736531, .flt 0x0), (0x76616d696e, .flt 0x0), (0x6b65, .flt 0x0), (0x6b63, .flt 0x0), (0x7466, .flt 0x0), (0x7463, .flt 0x0), (0x6532, .flt 0x0), (0x736532, .flt 0x0)],
  [(0x76726d696e, 0x666c6f6174), (0x7472, 0x666c6f6174), (0x76726d6178, 0x666c6f6174), (0x7461, 0x666c6f6174), (0x6b66, 0x666c6f6174), (0x7465, 0x666c6f6174), (0x6b61, 0x666c6f6174), (0x76616d6178, 0x666c6f6174), (0x7462, 0x666c6f6174), (0x6531, 0x666c6f6174), (0x6b64, 0x666c6f6174), (0x736531, 0x666c6f6174), (0x76616d696e, 0x666c6f6174), (0x6b65, 0x666c6f6174), (0x6b63, 0x666c6f6174), (0x7466, 0x666c6f6174), (0x7463, 0x666c6f6174), (0x6532, 0x666c6f6174), (0x736532, 0x666c6f6174)],
  [],
  [],
  []⟩
def m_ExcAC1A : List RClass := d_ExcAC1A :: m_ExcitationSystem

/-- CIM14/IEC61970/Dynamics/ExcitationSystems/ExcAC2A.py:23 -/
def d_ExcAC2A : RClass := ⟨0x45786341433241, 0x43494d31342e49454336313937302e44796e616d6963732e45786369746174696f6e53797374656d732e45786341433241, 0x43494d31342e49454336313937302e44796e616d6963732e45786369746174696f6e53797374656d732e45786369746174696f6e53797374656d,
  [(0x76726d696e, .flt 0x0), (0x76616d696e, .flt 0x0), (0x6b68, .flt 0x0), (0x76726d6178, .flt 0x0), (0x7462, .flt 0x0), (0x6531, .flt 0x0), (0x736531, .flt 0x0), (0x7465, .flt 0x0), (0x6b66, .flt 0x0), (0x7463, .flt 0x0), (0x6532, .flt 0x0), (0x6b65, .flt 0x0), (0x7472, .flt 0x0), (0x7466, .flt 0x0), (0x7461, .flt 0x0), (0x6b63, .flt 0x0), (0x6b64, .flt 0x0), (0x736532, .flt 0x0), (0x7666656d6178, .flt 0x0), (0x76616d6178, .flt 0x0), (0x6b62, .flt 0x0), (0x6b61, .flt 0x0)],
  [0x76726d696e, 0x76616d696e, 0x6b68, 0x76726d6178, 0x7462, 0x6531, 0x736531, 0x7465, 0x6b66, 0x7463, 0x6532, 0x6b65, 0x7472, 0x7466, 0x7461, 0x6b63, 0x6b64, 0x736532, 0x7666656d6178, 0x76616d6178, 0x6b62, 0x6b61],
  [(0x76726d696e, .flt 0x0), (0x76616d696e, .flt 0x0), (0x6b68, .flt 0x0), (0x76726d6178, .flt 0x0), (0x7462, .flt 0x0), (0x6531, .flt 0x0), (0x736531, .flt 0x0), (0x7465, .flt 0x0), (0x6b66, .flt 0x0), (0x7463, .flt 0x0), (0x6532, .flt 0x0), (0x6b65, .flt 0x0), (0x7472, .flt 0x0), (0x7466, .flt 0x0), (0x7461, .flt 0x0), (0x6b63, .flt 0x0), (0x6b64, .flt 0x0), (0x736532, .flt 0x0), (0x7666656d6178, .flt 0x0), (0x76616d6178, .flt 0x0), (0x6b62, .flt 0x0), (0x6b61, .flt 0x0)],
  [(0x76726d696e, 0x666c6f6174), (0x76616d696e, 0x666c6f6174), (0x6b68, 0x666c6f6174), (0x76726d6178, 0x666c6f6174), (0x7462, 0x666c6f6174), (0x6531, 0x666c6f6174), (0x736531, 0x666c6f6174), (0x7465, 0x666c6f6174), (0x6b66, 0x666c6f6174), (0x7463, 0x666c6f6174), (0x6532, 0x666c6f6174), (0x6b65, 0x666c6f6174), (0x7472, 0x666c6f6174), (0x7466, 0x666c6f6174), (0x7461, 0x666c6f6174), (0x6b63, 0x666c6f6174), (0x6b64, 0x666c6f6174), (0x736532, 0x666c6f6174), (0x7666656d6178, 0x666c6f6174), (0x76616d6178, 0x666c6f6174), (0x6b62, 0x666c6f6174), (0x6b61, 0x666c6f6174)],
  [],
  [],
  []⟩
def m_ExcAC2A : List RClass := d_ExcAC2A :: m_ExcitationSystem

/-- CIM14/IEC61970/Dynamics/ExcitationSystems/ExcAC3A.py:23 -/
def d_ExcAC3A : RClass := ⟨0x45786341433341, 0x43494d31342e49454336313937302e44796e616d6963732e45786369746174696f6e53797374656d732e45786341433341, 0x43494d31342e49454336313937302e44796e616d6963732e45786369746174696f6e53797374656d732e45786369746174696f6e53797374656d,
  [(0x6b66, .flt 0x0), (0x6532, .flt 0x0), (0x7465, .flt 0x0), (0x6b61, .flt 0x0), (0x6b72, .flt 0x0), (0x7463, .flt 0x0), (0x6566646e, .flt 0x0), (0x6b65, .flt 0x0), (0x6531, .flt 0x0), (0x6b64, .flt 0x0), (0x736532, .flt 0x0), (0x76616d6178, .flt 0x0), (0x7472, .flt 0x0), (0x76616d696e, .flt 0x0), (0x7466, .flt 0x0), (0x76656d696e, .flt 0x0), (0x6b6e, .flt 0x0), (0x7666656d6178, .flt 0x0), (0x7462, .flt 0x0), (0x736531, .flt 0x0), (0x6b63, .flt 0x0), (0x7461, .flt 0x0)],
  [0x6b66, 0x6532, 0x7465, 0x6b61, 0x6b72, 0x7463, 0x6566646e, 0x6b65, 0x6531, 0x6b64, 0x736532, 0x76616d6178, 0x7472, 0x76616d696e, 0x7466, 0x76656d696e, 0x6b6e, 0x7666656d6178, 0x7462, 0x736531, 0x6b63, 0x7461],
  [(0x6b66, .flt 0x0), (0x6532, .flt 0x0), (0x7465, .flt 0x0), (0x6b61, .flt 0x0), (0x6b72, .flt 0x0), (0x7463, .flt 0x0), (0x6566646e, .flt 0x0), (0x6b65, .flt 0x0), (0x6531, .flt 0x0), (0x6b64, .flt 0x0), (0x736532, .flt 0x0), (0x76616d6178, .flt 0x0), (0x7472, .flt 0x0), (0x76616d696e, .flt 0x0), (0x7466, .flt 0x0), (0x76656d696e, .flt 0x0), (0x6b6e, .flt 0x0), (0x7666656d6178, .flt 0x0), (0x7462, .flt 0x0), (0x736531, .flt 0x0), (0x6b63, .flt 0x0), (0x7461, .flt 0x0)],
  [(0x6b66, 0x666c6f6174), (0x6532, 0x666c6f6174), (0x7465, 0x666c6f6174), (0x6b61, 0x666c6f6174), (0x6b72, 0x666c6f6174), (0x7463, 0x666c6f6174), (0x6566646e, 0x666c6f6174), (0x6b65, 0x666c6f6174), (0x6531, 0x666c6f6174), (0x6b64, 0x666c6f6174), (0x736532, 0x666c6f6174), (0x76616d6178, 0x666c6f6174), (0x7472, 0x666c6f6174), (0x76616d696e, 0x666c6f6174), (0x7466, 0x666c6f6174), (0x76656d696e, 0x666c6f6174), (0x6b6e, 0x666c6f6174), (0x7666656d6178, 0x666c6f6174), (0x7462, 0x666c6f6174), (0x736531, 0x666c6f6174), (0x6b63, 0x666c6f6174), (0x7461, 0x666c6f6174)],
  [],
  [],
  []⟩
def m_ExcAC3A : List RClass := d_ExcAC3A :: m_ExcitationSystem

/-- CIM14/IEC61970/Dynamics/ExcitationSystems/ExcAC4A.py:23 -/
def d_ExcAC4A : RClass := ⟨0x45786341433441, 0x43494d31342e49454336313937302e44796e616d6963732e45786369746174696f6e53797374656d732e45786341433441, 0x43494d31342e49454336313937302e44796e616d6963732e45786369746174696f6e53797374656d732e45786369746174696f6e53797374656d,
  [(0x6b61, .flt 0x0), (0x76696d696e, .flt 0x0), (0x7462, .flt 0x0), (0x7472, .flt 0x0), (0x7463, .flt 0x0), (0x7461, .flt 0x0), (0x6b63, .flt 0x0), (0x76726d696e, .flt 0x0), (0x76726d6178, .flt 0x0), (0x76696d6178, .flt 0x0)],
  [0x6b61, 0x76696d696e, 0x7462, 0x7472, 0x7463, 0x7461, 0x6b63, 0x76726d696e, 0x76726d6178, 0x76696d6178],
  [(0x6b61, .flt 0x0), (0x76696d696e, .flt 0x0), (0x7462, .flt 0x0), (0x7472, .flt 0x0), (0x7463, .flt 0x0), (0x7461, .flt 0x0), (0x6b63, .flt 0x0), (0x76726d696e, .flt 0x0), (0x76726d6178, .flt 0x0), (0x76696d6178, .flt 0x0)],
  [(0x6b61, 0x666c6f6174), (0x76696d696e, 0x666c6f6174), (0x7462, 0x666c6f6174), (0x7472, 0x666c6f6174), (0x7463, 0x666c6f6174), (0x7461, 0x666c6f6174), (0x6b63, 0x666c6f6174), (0x76726d696e, 0x666c6f6174), (0x76726d6178, 0x666c6f6174), (0x76696d6178, 0x666c6f6174)],
  [],
  [],
  []⟩
def m_ExcAC4A : List RClass := d_ExcAC4A :: m_ExcitationSystem

/-- CIM14/IEC61970/Dynamics/ExcitationSystems/ExcAC5A.py:23 -/
def d_ExcAC5A : RClass := ⟨0x45786341433541, 0x43494d31342e49454336313937302e44796e616d6963732e45786369746174696f6e53797374656d732e45786341433541, 0x43494d31342e49454336313937302e44796e616d6963732e45786369746174696f6e53797374656d732e45786369746174696f6e53797374656d,
  [(0x6b61, .flt 0x0), (0x6531, .flt 0x0), (0x6b66, .flt 0x0), (0x7465, .flt 0x0), (0x76726d696e, .flt 0x0), (0x76726d6178, .flt 0x0), (0x736532, .flt 0x0), (0x746633, .flt 0x0), (0x6532, .flt 0x0), (0x6b65, .flt 0x0), (0x7472, .flt 0x0), (0x736531, .flt 0x0), (0x746632, .flt 0x0), (0x746631, .flt 0x0), (0x7461, .flt 0x0)],
  [0x6b61, 0x6531, 0x6b66, 0x7465, 0x76726d696e, 0x76726d6178, 0x736532, 0x746633, 0x6532, 0x6b65, 0x7472, 0x736531, 0x746632, 0x746631, 0x7461],
  [(0x6b61, .flt 0x0), (0x6531, .flt 0x0), (0x6b66, .flt 0x0), (0x7465, .flt 0x0), (0x76726d696e, .flt 0x0), (0x76726d6178, .flt 0x0), (0x736532, .flt 0x0), (0x746633, .flt 0x0), (0x6532, .flt 0x0), (0x6b65, .flt 0x0), (0x7472, .flt 0x0), (0x736531, .flt 0x0), (0x746632, .flt 0x0), (0x746631, .flt 0x0), (0x7461, .flt 0x0)],
  [(0x6b61, 0x666c6f6174), (0x6531, 0x666c6f6174), (0x6b66, 0x666c6f6174), (0x7465, 0x666c6f6174), (0x76726d696e, 0x666c6f6174), (0x76726d6178, 0x666c6f6174), (0x736532, 0x666c6f6174), (0x746633, 0x666c6f6174), (0x6532, 0x666c6f6174), (0x6b65, 0x666c6f6174), (0x7472, 0x666c6f6174), (0x736531, 0x666c6f6174), (0x746632, 0x666c6f6174), (0x746631, 0x666c6f6174), (0x7461, 0x666c6f6174)],
  [],
  [],
  []⟩
def m_ExcAC5A : List RClass := d_ExcAC5A :: m_ExcitationSystem

/-- CIM14/IEC61970/Dynamics/ExcitationSystems/ExcAC6A.py:23 -/
def d_ExcAC6A : RClass := ⟨0x45786341433641, 0x43494d31342e49454336313937302e44796e616d6963732e45786369746174696f6e53797374656d732e45786341433641, 0x43494d31342e49454336313937302e44796e616d6963732e45786369746174696f6e53797374656d732e45786369746174696f6e53797374656d,
  [(0x7465, .flt 0x0), (0x6b61, .flt 0x0), (0x76686d6178, .flt 0x0), (0x6b68, .flt 0x0), (0x746b, .flt 0x0), (0x6b65, .flt 0x0), (0x736531, .flt 0x0), (0x7472, .flt 0x0), (0x76726d696e, .flt 0x0), (0x76726d6178, .flt 0x0), (0x7463, .flt 0x0), (0x6532, .flt 0x0), (0x746a, .flt 0x0), (0x6b63, .flt 0x0), (0x7666656c696d, .flt 0x0), (0x7461, .flt 0x0), (0x7468, .flt 0x0), (0x6b64, .flt 0x0), (0x76616d6178, .flt 0x0), (0x7462, .flt 0x0), (0x6531, .flt 0x0), (0x76616d696e, .flt 0x0), (0x736532, .flt 0x0)],
  [0x7465, 0x6b61, 0x76686d6178, 0x6b68, 0x746b, 0x6b65, 0x736531, 0x7472, 0x76726d696e, 0x76726d6178, 0x7463, 0x6532, 0x746a, 0x6b63, 0x7666656c696d, 0x7461, 0x7468, 0x6b64, 0x76616d6178, 0x7462, 0x6531, 0x76616d696e, 0x736532],
  [(0x7465, .flt 0x0), (0x6b61, .flt 0x0), (0x76686d6178, .flt 0x0), (0x6b68, .flt 0x0), (0x746b, .flt 0x0), (0x6b65, .flt 0x0), (0x736531, .flt 0x0), (0x7472, .flt 0x0), (0x76726d696e, .flt 0x0), (0x76726d6178, .flt 0x0), (0x7463, .flt 0x0), (0x6532, .flt 0x0), (0x746a, .flt 0x0), (0x6b63, .flt 0x0), (0x7666656c696d, .flt 0x0), (0x7461, .flt 0x0), (0x7468, .flt 0x0), (0x6b64, .flt 0x0), (0x76616d6178, .flt 0x0), (0x7462, .flt 0x0), (0x6531, .flt 0x0), (0x76616d696e, .flt 0x0), (0x736532, .flt 0x0)],
  [(0x7465, 0x666c6f6174), (0x6b61, 0x666c6f6174), (0x76686d6178, 0x666c6f6174), (0x6b68, 0x666c6f6174), (0x746b, 0x666c6f6174), (0x6b65, 0x666c6f6174), (0x736531, 0x666c6f6174), (0x7472, 0x666c6f6174), (0x76726d696e, 0x666c6f6174), (0x76726d6178, 0x666c6f6174), (0x7463, 0x666c6f6174), (0x6532, 0x666c6f6174), (0x746a, 0x666c6f6174), (0x6b63, 0x666c6f6174), (0x7666656c696d, 0x666c6f6174), (0x7461, 0x666c6f6174), (0x7468, 0x666c6f6174), (0x6b64, 0x666c6f6174), (0x76616d6178, 0x666c6f6174), (0x7462, 0x666c6f6174), (0x6531, 0x666c6f6174), (0x76616d696e, 0x666c6f6174), (0x736532, 0x666c6f6174)],
  [],
  [],
  []⟩
def m_ExcAC6A : List RClass := d_ExcAC6A :: m_ExcitationSystem

/-- CIM14/IEC61970/Dynamics/ExcitationSystems/ExcAC7B.py:23 -/
def d_ExcAC7B : RClass := ⟨0x45786341433742, 0x43494d31342e49454336313937302e44796e616d6963732e45786369746174696f6e53797374656d732e45786341433742, 0x43494d31342e49454336313937302e44796e616d6963732e45786369746174696f6e53797374656d732e45786369746174696f6e53797374656d,
  [(0x6b6972, .flt 0x0), (0x6b7072, .flt 0x0), (0x7666656d6178, .flt 0x0), (0x7465, .flt 0x0), (0x76656d696e, .flt 0x0), (0x6b65, .flt 0x0), (0x6b70, .flt 0x0), (0x6b64, .flt 0x0), (0x6b6472, .flt 0x0), (0x6b6633, .flt 0x0), (0x6531, .flt 0x0), (0x746472, .flt 0x0), (0x736532, .flt 0x0), (0x6b6631, .flt 0x0), (0x6532, .flt 0x0), (0x6b63, .flt 0x0), (0x76616d696e, .flt 0x0), (0x736531, .flt 0x0), (0x76726d696e, .flt 0x0), (0x7466, .flt 0x0), (0x76726d6178, .flt 0x0), (0x6b6632, .flt 0x0), (0x6b6c, .flt 0x0), (0x6b7061, .flt 0x0), (0x6b6961, .flt 0x0), (0x7472, .flt 0x0), (0x76616d6178, .flt 0x0)],
  [0x6b6972, 0x6b7072, 0x7666656d6178, 0x7465, 0x76656d696e, 0x6b65, 0x6b70, 0x6b64, 0x6b6472, 0x6b6633, 0x6531, 0x746472, 0x736532, 0x6b6631, 0x6532, 0x6b63, 0x76616d696e, 0x736531, 0x76726d696e, 0x7466, 0x76726d6178, 0x6b6632, 0x6b6c, 0x6b7061, 0x6b6961, 0x7472, 0x76616d6178],
  [(0x6b6972, .flt 0x0), (0x6b7072, .flt 0x0), (0x7666656d6178, .flt 0x0), (0x7465, .flt 0x0), (0x76656d696e, .flt 0x0), (0x6b65, .flt 0x0), (0x6b70, .flt 0x0), (0x6b64, .flt 0x0), (0x6b6472, .flt 0x0), (0x6b6633, .flt 0x0), (0x6531, .flt 0x0), (0x746472, .flt 0x0), (0x736532, .flt 0x0), (0x6b6631, .flt 0x0), (0x6532, .flt 0x0), (0x6b63, .flt 0x0), (0x76616d696e, .flt 0x0), (0x736531, .flt 0x0), (0x76726d696e, .flt 0x0), (0x7466, .flt 0x0), (0x76726d6178, .flt 0x0), (0x6b6632, .flt 0x0), (0x6b6c, .flt 0x0), (0x6b7061, .flt 0x0), (0x6b6961, .flt 0x0), (0x7472, .flt 0x0), (0x76616d6178, .flt 0x0)],
  [(0x6b6972, 0x666c6f6174), (0x6b7072, 0x666c6f6174), (0x7666656d6178, 0x666c6f6174), (0x7465, 0x666c6f6174), (0x76656d696e, 0x666c6f6174), (0x6b65, 0x666c6f6174), (0x6b70, 0x666c6f6174), (0x6b64, 0x666c6f6174), (0x6b6472, 0x666c6f6174), (0x6b6633, 0x666c6f6174), (0x6531, 0x666c6f6174), (0x746472, 0x666c6f6174), (0x736532, 0x666c6f6174), (0x6b6631, 0x666c6f6174), (0x6532, 0x666c6f6174), (0x6b63, 0x666c6f6174), (0x76616d696e, 0x666c6f6174), (0x736531, 0x666c6f6174), (0x76726d696e, 0x666c6f6174), (0x7466, 0x666c6f6174), (0x76726d6178, 0x666c6f6174), (0x6b6632, 0x666c6f6174), (0x6b6c, 0x666c6f6174), (0x6b7061, 0x666c6f6174), (0x6b6961, 0x666c6f6174), (0x7472, 0x666c6f6174), (0x76616d6178, 0x666c6f6174)],
  [],
  [],
  []⟩
def m_ExcAC7B : List RClass := d_ExcAC7B :: m_ExcitationSystem

/-- CIM14/IEC61970/Dynamics/ExcitationSystems/ExcAC8B.py:23 -/
def d_ExcAC8B : RClass := ⟨0x45786341433842, 0x43494d31342e49454336313937302e44796e616d6963732e45786369746174696f6e53797374656d732e45786341433842, 0x43494d31342e49454336313937302e44796e616d6963732e45786369746174696f6e53797374656d732e45786369746174696f6e53797374656d,
  [(0x7666656d6178, .flt 0x0), (0x76726d696e, .flt 0x0), (0x7461, .flt 0x0), (0x746472, .flt 0x0), (0x76746d756c74, .flt 0x0), (0x6b61, .flt 0x0), (0x6b6472, .flt 0x0), (0x736531, .flt 0x0), (0x6531, .flt 0x0), (0x76656d696e, .flt 0x0), (0x7465, .flt 0x0), (0x6b65, .flt 0x0), (0x736532, .flt 0x0), (0x7472, .flt 0x0), (0x6b6972, .flt 0x0), (0x6b7072, .flt 0x0), (0x76726d6178, .flt 0x0), (0x6b64, .flt 0x0), (0x6532, .flt 0x0), (0x6b63, .flt 0x0)],
  [0x7666656d6178, 0x76726d696e, 0x7461, 0x746472, 0x76746d756c74, 0x6b61, 0x6b6472, 0x736531, 0x6531, 0x76656d696e, 0x7465, 0x6b65, 0x736532, 0x7472, 0x6b6972, 0x6b7072, 0x76726d6178, 0x6b64, 0x6532, 0x6b63],
  [(0x7666656d6178, .flt 0x0), (0x76726d696e, .flt 0x0), (0x7461, .flt 0x0), (0x746472, .flt 0x0), (0x76746d756c74, .flt 0x0), (0x6b61, .flt 0x0), (0x6b6472, .flt 0x0), (0x736531, .flt 0x0), (0x6531, .flt 0x0), (0x76656d696e, .flt 0x0), (0x7465, .flt 0x0), (0x6b65, .flt 0x0), (0x736532, .flt 0x0), (0x7472, .flt 0x0), (0x6b6972, .flt 0x0), (0x6b7072, .flt 0x0), (0x76726d6178, .flt 0x0), (0x6b64, .flt 0x0), (0x6532, .flt 0x0), (0x6b63, .flt 0x0)],
  [(0x7666656d6178, 0x666c6f6174), (0x76726d696e, 0x666c6f6174), (0x7461, 0x666c6f6174), (0x746472, 0x666c6f6174), (0x76746d756c74, 0x666c6f6174), (0x6b61, 0x666c6f6174), (0x6b6472, 0x666c6f6174), (0x736531, 0x666c6f6174), (0x6531, 0x666c6f6174), (0x76656d696e, 0x666c6f6174), (0x7465, 0x666c6f6174), (0x6b65, 0x666c6f6174), (0x736532, 0x666c6f6174), (0x7472, 0x666c6f6174), (0x6b6972, 0x666c6f6174), (0x6b7072, 0x666c6f6174), (0x76726d6178, 0x666c6f6174), (0x6b64, 0x666c6f6174), (0x6532, 0x666c6f6174), (0x6b63, 0x666c6f6174)],
  [],
  [],
  []⟩
def m_ExcAC8B : List RClass := d_ExcAC8B :: m_ExcitationSystem

/-- CIM14/IEC61970/Dynamics/ExcitationSystems/ExcBAS.py:23 -/
def d_ExcBAS : RClass := ⟨0x457863424153, 0x43494d31342e49454336313937302e44796e616d6963732e45786369746174696f6e53797374656d732e457863424153, 0x43494d31342e49454336313937302e44796e616d6963732e45786369746174696f6e53797374656d732e45786369746174696f6e53797374656d,
  [],
  [],
  [],
  [],
  [],
  [],
  []⟩
def m_ExcBAS : List RClass := d_ExcBAS :: m_ExcitationSystem

/-- CIM14/IEC61970/Dynamics/ExcitationSystems/ExcBBC.py:23 -/
def d_ExcBBC : RClass := ⟨0x457863424243, 0x43494d31342e49454336313937302e44796e616d6963732e45786369746174696f6e53797374656d732e457863424243, 0x43494d31342e49454336313937302e44796e616d6963732e45786369746174696f6e53797374656d732e45786369746174696f6e53797374656d,
  [],
  [],
  [],
  [],
  [],
  [],
  []⟩
def m_ExcBBC : List RClass := d_ExcBBC :: m_ExcitationSystem

/-- CIM14/IEC61970/Dynamics/ExcitationSystems/ExcCZ.py:23 -/
def d_ExcCZ : RClass := ⟨0x457863435a, 0x43494d31342e49454336313937302e44796e616d6963732e45786369746174696f6e53797374656d732e457863435a, 0x43494d31342e49454336313937302e44796e616d6963732e45786369746174696f6e53797374656d732e45786369746174696f6e53797374656d,
  [],
  [],
  [],
  [],
  [],
  [],
  []⟩
def m_ExcCZ : List RClass := d_ExcCZ :: m_ExcitationSystem

/-- CIM14/IEC61970/Dynamics/ExcitationSystems/ExcDC1A.py:23 -/
def d_ExcDC1A : RClass := ⟨0x45786344433141, 0x43494d31342e49454336313937302e44796e616d6963732e45786369746174696f6e53797374656d732e45786344433141, 0x43494d31342e49454336313937302e44796e616d6963732e45786369746174696f6e53797374656d732e45786369746174696f6e53797374656d,
  [(0x7461, .flt 0x0), (0x6b61, .flt 0x0), (0x6531, .flt 0x0), (0x7462, .flt 0x0), (0x736532, .flt 0x0), (0x7465, .flt 0x0), (0x6578636c696d, .flt 0x0), (0x6532, .flt 0x0), (0x7472, .flt 0x0), (0x75656c696e, .flt 0x0), (0x7466, .flt 0x0), (0x76726d6178, .flt 0x0), (0x6b66, .flt 0x0), (0x6b65, .flt 0x0), (0x736531, .flt 0x0), (0x76726d696e, .flt 0x0), (0x7463, .flt 0x0)],
  [0x7461, 0x6b61, 0x6531, 0x7462, 0x736532, 0x7465, 0x6578636c696d, 0x6532, 0x7472, 0x75656c696e, 0x7466, 0x76726d6178, 0x6b66, 0x6b65, 0x736531, 0x76726d696e, 0x7463],
  [(0x7461, .flt 0x0), (0x6b61, .flt 0x0), (0x6531, .flt 0x0), (0x7462, .flt 0x0), (0x736532, .flt 0x0), (0x7465, .flt 0x0), (0x6578636c696d, .flt 0x0), (0x6532, .flt 0x0), (0x7472, .flt 0x0), (0x75656c696e, .flt 0x0), (0x7466, .flt 0x0), (0x76726d6178, .flt 0x0), (0x6b66, .flt 0x0), (0x6b65, .flt 0x0), (0x736531, .flt 0x0), (0x76726d696e, .flt 0x0), (0x7463, .flt 0x0)],
  [(0x7461, 0x666c6f6174), (0x6b61, 0x666c6f6174), (0x6531, 0x666c6f6174), (0x7462, 0x666c6f6174), (0x736532, 0x666c6f6174), (0x7465, 0x666c6f6174), (0x6578636c696d, 0x666c6f6174), (0x6532, 0x666c6f6174), (0x7472, 0x666c6f6174), (0x75656c696e, 0x666c6f6174), (0x7466, 0x666c6f6174), (0x76726d6178, 0x666c6f6174), (0x6b66, 0x666c6f6174), (0x6b65, 0x666c6f6174), (0x736531, 0x666c6f6174), (0x76726d696e, 0x666c6f6174), (0x7463, 0x666c6f6174)],
  [],
  [],
  []⟩
def m_ExcDC1A : List RClass := d_ExcDC1A :: m_ExcitationSystem

/-- CIM14/IEC61970/Dynamics/ExcitationSystems/ExcDC2A.py:23 -/
def d_ExcDC2A : RClass := ⟨0x45786344433241, 0x43494d31342e49454336313937302e44796e616d6963732e45786369746174696f6e53797374656d732e45786344433241, 0x43494d31342e49454336313937302e44796e616d6963732e45786369746174696f6e53797374656d732e45786369746174696f6e53797374656d,
  [(0x7465, .flt 0x0), (0x6b65, .flt 0x0), (0x6531, .flt 0x0), (0x7463, .flt 0x0), (0x736532, .flt 0x0), (0x7462, .flt 0x0), (0x75656c696e, .flt 0x0), (0x6532, .flt 0x0), (0x7466, .flt 0x0), (0x6b66, .flt 0x0), (0x76726d6178, .flt 0x0), (0x736531, .flt 0x0), (0x7461, .flt 0x0), (0x6b61, .flt 0x0), (0x7472, .flt 0x0), (0x6578636c696d, .flt 0x0), (0x76726d696e, .flt 0x0)],
  [0x7465, 0x6b65, 0x6531, 0x7463, 0x736532, 0x7462, 0x75656c696e, 0x6532, 0x7466, 0x6b66, 0x76726d6178, 0x736531, 0x7461, 0x6b61, 0x7472, 0x6578636c696d, 0x76726d696e],
  [(0x7465, .flt 0x0), (0x6b65, .flt 0x0), (0x6531, .flt 0x0), (0x7463, .flt 0x0), (0x736532, .flt 0x0), (0x7462, .flt 0x0), (0x75656c696e, .flt 0x0), (0x6532, .flt 0x0), (0x7466, .flt 0x0), (0x6b66, .flt 0x0), (0x76726d6178, .flt 0x0), (0x736531, .flt 0x0), (0x7461, .flt 0x0), (0x6b61, .flt 0x0), (0x7472, .flt 0x0), (0x6578636c696d, .flt 0x0), (0x76726d696e, .flt 0x0)],
  [(0x7465, 0x666c6f6174), (0x6b65, 0x666c6f6174), (0x6531, 0x666c6f6174), (0x7463, 0x666c6f6174), (0x736532, 0x666c6f6174), (0x7462, 0x666c6f6174), (0x75656c696e, 0x666c6f6174), (0x6532, 0x666c6f6174), (0x7466, 0x666c6f6174), (0x6b66, 0x666c6f6174), (0x76726d6178, 0x666c6f6174), (0x736531, 0x666c6f6174), (0x7461, 0x666c6f6174), (0x6b61, 0x666c6f6174), (0x7472, 0x666c6f6174), (0x6578636c696d, 0x666c6f6174), (0x76726d696e, 0x666c6f6174)],
  [],
  [],
  []⟩
def m_ExcDC2A : List RClass := d_ExcDC2A :: m_ExcitationSystem

/-- CIM14/IEC61970/Dynamics/ExcitationSystems/ExcDC3A.py:23 -/
def d_ExcDC3A : RClass := ⟨0x45786344433341, 0x43494d31342e49454336313937302e44796e616d6963732e45786369746174696f6e53797374656d732e45786344433341, 0x43494d31342e49454336313937302e44796e616d6963732e45786369746174696f6e53797374656d732e45786369746174696f6e53797374656d,
  [(0x6531, .flt 0x0), (0x76726d6178, .flt 0x0), (0x7465, .flt 0x0), (0x6b65, .flt 0x0), (0x7472, .flt 0x0), (0x736532, .flt 0x0), (0x747268, .flt 0x0), (0x76726d696e, .flt 0x0), (0x6578636c696d, .flt 0x0), (0x6532, .flt 0x0), (0x6b76, .flt 0x0), (0x736531, .flt 0x0)],
  [0x6531, 0x76726d6178, 0x7465, 0x6b65, 0x7472, 0x736532, 0x747268, 0x76726d696e, 0x6578636c696d, 0x6532, 0x6b76, 0x736531],
  [(0x6531, .flt 0x0), (0x76726d6178, .flt 0x0), (0x7465, .flt 0x0), (0x6b65, .flt 0x0), (0x7472, .flt 0x0), (0x736532, .flt 0x0), (0x747268, .flt 0x0), (0x76726d696e, .flt 0x0), (0x6578636c696d, .flt 0x0), (0x6532, .flt 0x0), (0x6b76, .flt 0x0), (0x736531, .flt 0x0)],
  [(0x6531, 0x666c6f6174), (0x76726d6178, 0x666c6f6174), (0x7465, 0x666c6f6174), (0x6b65, 0x666c6f6174), (0x7472, 0x666c6f6174), (0x736532, 0x666c6f6174), (0x747268, 0x666c6f6174), (0x76726d696e, 0x666c6f6174), (0x6578636c696d, 0x666c6f6174), (0x6532, 0x666c6f6174), (0x6b76, 0x666c6f6174), (0x736531, 0x666c6f6174)],
  [],
  [],
  []⟩
def m_ExcDC3A : List RClass := d_ExcDC3A :: m_ExcitationSystem

/-- CIM14/IEC61970/Dynamics/ExcitationSystems/ExcDC4B.py:23 -/
def d_ExcDC4B : RClass := ⟨0x45786344433442, 0x43494d31342e49454336313937302e44796e616d6963732e45786369746174696f6e53797374656d732e45786344433442, 0x43494d31342e49454336313937302e44796e616d6963732e45786369746174696f6e53797374656d732e45786369746174696f6e53797374656d,
  [(0x6531, .flt 0x0), (0x736532, .flt 0x0), (0x7466, .flt 0x0), (0x6f656c696e, .flt 0x0), (0x6b69, .flt 0x0), (0x7461, .flt 0x0), (0x76726d6178, .flt 0x0), (0x7472, .flt 0x0), (0x6b66, .flt 0x0), (0x76726d696e, .flt 0x0), (0x7465, .flt 0x0), (0x6b61, .flt 0x0), (0x6b70, .flt 0x0), (0x7464, .flt 0x0), (0x6b64, .flt 0x0), (0x76656d696e, .flt 0x0), (0x6b65, .flt 0x0), (0x736531, .flt 0x0), (0x6532, .flt 0x0), (0x75656c696e, .flt 0x0)],
  [0x6531, 0x736532, 0x7466, 0x6f656c696e, 0x6b69, 0x7461, 0x76726d6178, 0x7472, 0x6b66, 0x76726d696e, 0x7465, 0x6b61, 0x6b70, 0x7464, 0x6b64, 0x76656d696e, 0x6b65, 0x736531, 0x6532, 0x75656c696e],
  [(0x6531, .flt 0x0), (0x736532, .flt 0x0), (0x7466, .flt 0x0), (0x6f656c696e, .flt 0x0), (0x6b69, .flt 0x0), (0x7461, .flt 0x0), (0x76726d6178, .flt 0x0), (0x7472, .flt 0x0), (0x6b66, .flt 0x0), (0x76726d696e, .flt 0x0), (0x7465, .flt 0x0), (0x6b61, .flt 0x0), (0x6b70, .flt 0x0), (0x7464, .flt 0x0), (0x6b64, .flt 0x0), (0x76656d696e, .flt 0x0), (0x6b65, .flt 0x0), (0x736531, .flt 0x0), (0x6532, .flt 0x0), (0x75656c696e, .flt 0x0)],
  [(0x6531, 0x666c6f6174), (0x736532, 0x666c6f6174), (0x7466, 0x666c6f6174), (0x6f656c696e, 0x666c6f6174), (0x6b69, 0x666c6f6174), (0x7461, 0x666c6f6174), (0x76726d6178, 0x666c6f6174), (0x7472, 0x666c6f6174), (0x6b66, 0x666c6f6174), (0x76726d696e, 0x666c6f6174), (0x7465, 0x666c6f6174), (0x6b61, 0x666c6f6174), (0x6b70, 0x666c6f6174), (0x7464, 0x666c6f6174), (0x6b64, 0x666c6f6174), (0x76656d696e, 0x666c6f6174), (0x6b65, 0x666c6f6174), (0x736531, 0x666c6f6174), (0x6532, 0x666c6f6174), (0x75656c696e, 0x666c6f6174)],
  [],
  [],
  []⟩
def m_ExcDC4B : List RClass := d_ExcDC4B :: m_ExcitationSystem

/-- CIM14/IEC61970/Dynamics/ExcitationSystems/ExcELIN1.py:23 -/
def d_ExcELIN1 : RClass := ⟨0x457863454c494e31, 0x43494d31342e49454336313937302e44796e616d6963732e45786369746174696f6e53797374656d732e457863454c494e31, 0x43494d31342e49454336313937302e44796e616d6963732e45786369746174696f6e53797374656d732e45786369746174696f6e53797374656d,
  [],
  [],
  [],
  [],
  [],
  [],
  []⟩
def m_ExcELIN1 : List RClass := d_ExcELIN1 :: m_ExcitationSystem

/-- CIM14/IEC61970/Dynamics/ExcitationSystems/ExcELIN2.py:23 -/
def d_ExcELIN2 : RClass := ⟨0x457863454c494e32, 0x43494d31342e49454336313937302e44796e616d6963732e45786369746174696f6e53797374656d732e457863454c494e32, 0x43494d31342e49454336313937302e44796e616d6963732e45786369746174696f6e53797374656d732e45786369746174696f6e53797374656d,
  [],
  [],
  [],
  [],
  [],
  [],
  []⟩
def m_ExcELIN2 : List RClass := d_ExcELIN2 :: m_ExcitationSystem

/-- CIM14/IEC61970/Dynamics/ExcitationSystems/ExcHU.py:23 -/
def d_ExcHU : RClass := ⟨0x4578634855, 0x43494d31342e49454336313937302e44796e616d6963732e45786369746174696f6e53797374656d732e4578634855, 0x43494d31342e49454336313937302e44796e616d6963732e45786369746174696f6e53797374656d732e45786369746174696f6e53797374656d,
  [],
  [],
  [],
  [],
  [],
  [],
  []⟩
def m_ExcHU : List RClass := d_ExcHU :: m_ExcitationSystem

/-- CIM14/IEC61970/Dynamics/ExcitationSystems/ExcPIC.py:23 -/
def d_ExcPIC : RClass := ⟨0x457863504943, 0x43494d31342e49454336313937302e44796e616d6963732e45786369746174696f6e53797374656d732e457863504943, 0x43494d31342e49454336313937302e44796e616d6963732e45786369746174696f6e53797374656d732e45786369746174696f6e53797374656d,
  [],
  [],
  [],
  [],
  [],
  [],
  []⟩
def m_ExcPIC : List RClass := d_ExcPIC :: m_ExcitationSystem

/-- CIM14/IEC61970/Dynamics/ExcitationSystems/ExcREXS.py:23 -/
def d_ExcREXS : RClass := ⟨0x45786352455853, 0x43494d31342e49454336313937302e44796e616d6963732e45786369746174696f6e53797374656d732e45786352455853, 0x43494d31342e49454336313937302e44796e616d6963732e45786369746174696f6e53797374656d732e45786369746174696f6e53797374656d,
  [],
  [],
  [],
  [],
  [],
  [],
  []⟩
def m_ExcREXS : List RClass := d_ExcREXS :: m_ExcitationSystem

/-- CIM14/IEC61970/Dynamics/ExcitationSystems/ExcSCRX.py:23 -/
def d_ExcSCRX : RClass := ⟨0x45786353435258, 0x43494d31342e49454336313937302e44796e616d6963732e45786369746174696f6e53797374656d732e45786353435258, 0x43494d31342e49454336313937302e44796e616d6963732e45786369746174696f6e53797374656d732e45786369746174696f6e53797374656d,
  [(0x7462, .flt 0x0), (0x63737769746368, .bool false), (0x656d696e, .flt 0x0), (0x6b, .flt 0x0), (0x7465, .flt 0x0), (0x656d6178, .flt 0x0), (0x74617462, .flt 0x0), (0x7263726664, .flt 0x0)],
  [0x7462, 0x63737769746368, 0x656d696e, 0x6b, 0x7465, 0x656d6178, 0x74617462, 0x7263726664],
  [(0x7462, .flt 0x0), (0x63737769746368, .bool false), (0x656d696e, .flt 0x0), (0x6b, .flt 0x0), (0x7465, .flt 0x0), (0x656d6178, .flt 0x0), (0x74617462, .flt 0x0), (0x7263726664, .flt 0x0)],
  [(0x7462, 0x666c6f6174), (0x63737769746368, 0x626f6f6c), (0x656d696e, 0x666c6f6174), (0x6b, 0x666c6f6174), (0x7465, 0x666c6f6174), (0x656d6178, 0x666c6f6174), (0x74617462, 0x666c6f6174), (0x7263726664, 0x666c6f6174)],
  [],
  [],
  []⟩
def m_ExcSCRX : List RClass := d_ExcSCRX :: m_ExcitationSystem

/-- CIM14/IEC61970/Dynamics/ExcitationSystems/ExcSEXS.py:23 -/
def d_ExcSEXS : RClass := ⟨0x45786353455853, 0x43494d31342e49454336313937302e44796e616d6963732e45786369746174696f6e53797374656d732e45786353455853, 0x43494d31342e49454336313937302e44796e616d6963732e45786369746174696f6e53797374656d732e45786369746174696f6e53797374656d,
  [(0x7462, .flt 0x0), (0x6b63, .flt 0x0), (0x656d6178, .flt 0x0), (0x74617462, .flt 0x0), (0x7463, .flt 0x0), (0x6566646d696e, .flt 0x0), (0x6566646d6178, .flt 0x0), (0x656d696e, .flt 0x0), (0x6b, .flt 0x0), (0x7465, .flt 0x0)],
  [0x7462, 0x6b63, 0x656d6178, 0x74617462, 0x7463, 0x6566646d696e, 0x6566646d6178, 0x656d696e, 0x6b, 0x7465],
  [(0x7462, .flt 0x0), (0x6b63, .flt 0x0), (0x656d6178, .flt 0x0), (0x74617462, .flt 0x0), (0x7463, .flt 0x0), (0x6566646d696e, .flt 0x0), (0x6566646d6178, .flt 0x0), (0x656d696e, .flt 0x0), (0x6b, .flt 0x0), (0x7465, .flt 0x0)],
  [(0x7462, 0x666c6f6174), (0x6b63, 0x666c6f6174), (0x656d6178, 0x666c6f6174), (0x74617462, 0x666c6f6174), (0x7463, 0x666c6f6174), (0x6566646d696e, 0x666c6f6174), (0x6566646d6178, 0x666c6f6174), (0x656d696e, 0x666c6f6174), (0x6b, 0x666c6f6174), (0x7465, 0x666c6f6174)],
  [],
  [],
  []⟩
def m_ExcSEXS : List RClass := d_ExcSEXS :: m_ExcitationSystem

/-- CIM14/IEC61970/Dynamics/ExcitationSystems/ExcSK.py:23 -/
def d_ExcSK : RClass := ⟨0x457863534b, 0x43494d31342e49454336313937302e44796e616d6963732e45786369746174696f6e53797374656d732e457863534b, 0x43494d31342e49454336313937302e44796e616d6963732e45786369746174696f6e53797374656d732e45786369746174696f6e53797374656d,
  [],
  [],
  [],
  [],
  [],
  [],
  []⟩
def m_ExcSK : List RClass := d_ExcSK :: m_ExcitationSystem

/-- CIM14/IEC61970/Dynamics/ExcitationSystems/ExcSK2.py:23 -/
def d_ExcSK2 : RClass := ⟨0x457863534b32, 0x43494d31342e49454336313937302e44796e616d6963732e45786369746174696f6e53797374656d732e457863534b32, 0x43494d31342e49454336313937302e44796e616d6963732e45786369746174696f6e53797374656d732e45786369746174696f6e53797374656d,
  [],
  [],
  [],
  [],
  [],
  [],
  []⟩
def m_ExcSK2 : List RClass := d_ExcSK2 :: m_ExcitationSystem

/-- CIM14/IEC61970/Dynamics/ExcitationSystems/ExcST1A.py:23 -/
def d_ExcST1A : RClass := ⟨0x45786353543141, 0x43494d31342e49454336313937302e44796e616d6963732e45786369746174696f6e53797374656d732e45786353543141, 0x43494d31342e49454336313937302e44796e616d6963732e45786369746174696f6e53797374656d732e45786369746174696f6e53797374656d,
  [(0x7461, .flt 0x0), (0x76696d696e, .flt 0x0), (0x76616d696e, .flt 0x0), (0x6b66, .flt 0x0), (0x76726d696e, .flt 0x0), (0x6b61, .flt 0x0), (0x7462, .flt 0x0), (0x76616d6178, .flt 0x0), (0x746231, .flt 0x0), (0x75656c696e, .flt 0x0), (0x6b63, .flt 0x0), (0x746331, .flt 0x0), (0x7466, .flt 0x0), (0x6b6c72, .flt 0x0), (0x76696d6178, .flt 0x0), (0x7463, .flt 0x0), (0x707373696e, .flt 0x0), (0x76726d6178, .flt 0x0), (0x7472, .flt 0x0), (0x696c72, .flt 0x0)],
  [0x7461, 0x76696d696e, 0x76616d696e, 0x6b66, 0x76726d696e, 0x6b61, 0x7462, 0x76616d6178, 0x746231, 0x75656c696e, 0x6b63, 0x746331, 0x7466, 0x6b6c72, 0x76696d6178, 0x7463, 0x707373696e, 0x76726d6178, 0x7472, 0x696c72],
  [(0x7461, .flt 0x0), (0x76696d696e, .flt 0x0), (0x76616d696e, .flt 0x0), (0x6b66, .flt 0x0), (0x76726d696e, .flt 0x0), (0x6b61, .flt 0x0), (0x7462, .flt 0x0), (0x76616d6178, .flt 0x0), (0x746231, .flt 0x0), (0x75656c696e, .flt 0x0), (0x6b63, .flt 0x0), (0x746331, .flt 0x0), (0x7466, .flt 0x0), (0x6b6c72, .flt 0x0), (0x76696d6178, .flt 0x0), (0x7463, .flt 0x0), (0x707373696e, .flt 0x0), (0x76726d6178, .flt 0x0), (0x7472, .flt 0x0), (0x696c72, .flt 0x0)],
  [(0x7461, 0x666c6f6174), (0x76696d696e, 0x666c6f6174), (0x76616d696e, 0x666c6f6174), (0x6b66, 0x666c6f6174), (0x76726d696e, 0x666c6f6174), (0x6b61, 0x666c6f6174), (0x7462, 0x666c6f6174), (0x76616d6178, 0x666c6f6174), (0x746231, 0x666c6f6174), (0x75656c696e, 0x666c6f6174), (0x6b63, 0x666c6f6174), (0x746331, 0x666c6f6174), (0x7466, 0x666c6f6174), (0x6b6c72, 0x666c6f6174), (0x76696d6178, 0x666c6f6174), (0x7463, 0x666c6f6174), (0x707373696e, 0x666c6f6174), (0x76726d6178, 0x666c6f6174), (0x7472, 0x666c6f6174), (0x696c72, 0x666c6f6174)],
  [],
  [],
  []⟩
def m_ExcST1A : List RClass := d_ExcST1A :: m_ExcitationSystem

/-- CIM14/IEC61970/Dynamics/ExcitationSystems/ExcST2A.py:23 -/
def d_ExcST2A : RClass := ⟨0x45786353543241, 0x43494d31342e49454336313937302e44796e616d6963732e45786369746174696f6e53797374656d732e45786353543241, 0x43494d31342e49454336313937302e44796e616d6963732e45786369746174696f6e53797374656d732e45786369746174696f6e53797374656d,
  [(0x7465, .flt 0x0), (0x6b61, .flt 0x0), (0x7462, .flt 0x0), (0x7466, .flt 0x0), (0x6b66, .flt 0x0), (0x6b65, .flt 0x0), (0x7472, .flt 0x0), (0x7463, .flt 0x0), (0x7461, .flt 0x0), (0x6b63, .flt 0x0), (0x6b69, .flt 0x0), (0x6b70, .flt 0x0), (0x75656c696e, .flt 0x0), (0x76726d6178, .flt 0x0), (0x6566646d6178, .flt 0x0), (0x76726d696e, .flt 0x0)],
  [0x7465, 0x6b61, 0x7462, 0x7466, 0x6b66, 0x6b65, 0x7472, 0x7463, 0x7461, 0x6b63, 0x6b69, 0x6b70, 0x75656c696e, 0x76726d6178, 0x6566646d6178, 0x76726d696e],
  [(0x7465, .flt 0x0), (0x6b61, .flt 0x0), (0x7462, .flt 0x0), (0x7466, .flt 0x0), (0x6b66, .flt 0x0), (0x6b65, .flt 0x0), (0x7472, .flt 0x0), (0x7463, .flt 0x0), (0x7461, .flt 0x0), (0x6b63, .flt 0x0), (0x6b69, .flt 0x0), (0x6b70, .flt 0x0), (0x75656c696e, .flt 0x0), (0x76726d6178, .flt 0x0), (0x6566646d6178, .flt 0x0), (0x76726d696e, .flt 0x0)],
  [(0x7465, 0x666c6f6174), (0x6b61, 0x666c6f6174), (0x7462, 0x666c6f6174), (0x7466, 0x666c6f6174), (0x6b66, 0x666c6f6174), (0x6b65, 0x666c6f6174), (0x7472, 0x666c6f6174), (0x7463, 0x666c6f6174), (0x7461, 0x666c6f6174), (0x6b63, 0x666c6f6174), (0x6b69, 0x666c6f6174), (0x6b70, 0x666c6f6174), (0x75656c696e, 0x666c6f6174), (0x76726d6178, 0x666c6f6174), (0x6566646d6178, 0x666c6f6174), (0x76726d696e, 0x666c6f6174)],
  [],
  [],
  []⟩
def m_ExcST2A : List RClass := d_ExcST2A :: m_ExcitationSystem

/-- CIM14/IEC61970/Dynamics/ExcitationSystems/ExcST3A.py:23 -/
def d_ExcST3A : RClass := ⟨0x45786353543341, 0x43494d31342e49454336313937302e44796e616d6963732e45786369746174696f6e53797374656d732e45786353543341, 0x43494d31342e49454336313937302e44796e616d6963732e45786369746174696f6e53797374656d732e45786369746174696f6e53797374656d,
  [(0x6b70, .flt 0x0), (0x616e6770, .flt 0x0), (0x786c, .flt 0x0), (0x7463, .flt 0x0), (0x7462, .flt 0x0), (0x6b69, .flt 0x0), (0x76626d6178, .flt 0x0), (0x6b63, .flt 0x0), (0x76726d6178, .flt 0x0), (0x76696d6178, .flt 0x0), (0x76676d6178, .flt 0x0), (0x6b6d, .flt 0x0), (0x766d6d6178, .flt 0x0), (0x6b61, .flt 0x0), (0x7472, .flt 0x0), (0x76726d696e, .flt 0x0), (0x6b67, .flt 0x0), (0x76696d696e, .flt 0x0), (0x766d6d696e, .flt 0x0), (0x746d, .flt 0x0), (0x7461, .flt 0x0)],
  [0x6b70, 0x616e6770, 0x786c, 0x7463, 0x7462, 0x6b69, 0x76626d6178, 0x6b63, 0x76726d6178, 0x76696d6178, 0x76676d6178, 0x6b6d, 0x766d6d6178, 0x6b61, 0x7472, 0x76726d696e, 0x6b67, 0x76696d696e, 0x766d6d696e, 0x746d, 0x7461],
  [(0x6b70, .flt 0x0), (0x616e6770, .flt 0x0), (0x786c, .flt 0x0), (0x7463, .flt 0x0), (0x7462, .flt 0x0), (0x6b69, .flt 0x0), (0x76626d6178, .flt 0x0), (0x6b63, .flt 0x0), (0x76726d6178, .flt 0x0), (0x76696d6178, .flt 0x0), (0x76676d6178, .flt 0x0), (0x6b6d, .flt 0x0), (0x766d6d6178, .flt 0x0), (0x6b61, .flt 0x0), (0x7472, .flt 0x0), (0x76726d696e, .flt 0x0), (0x6b67, .flt 0x0), (0x76696d696e, .flt 0x0), (0x766d6d696e, .flt 0x0), (0x746d, .flt 0x0), (0x7461, .flt 0x0)],
  [(0x6b70, 0x666c6f6174), (0x616e6770, 0x666c6f6174), (0x786c, 0x666c6f6174), (0x7463, 0x666c6f6174), (0x7462, 0x666c6f6174), (0x6b69, 0x666c6f6174), (0x76626d6178, 0x666c6f6174), (0x6b63, 0x666c6f6174), (0x76726d6178, 0x666c6f6174), (0x76696d6178, 0x666c6f6174), (0x76676d6178, 0x666c6f6174), (0x6b6d, 0x666c6f6174), (0x766d6d6178, 0x666c6f6174), (0x6b61, 0x666c6f6174), (0x7472, 0x666c6f6174), (0x76726d696e, 0x666c6f6174), (0x6b67, 0x666c6f6174), (0x76696d696e, 0x666c6f6174), (0x766d6d696e, 0x666c6f6174), (0x746d, 0x666c6f6174), (0x7461, 0x666c6f6174)],
  [],
  [],
  []⟩
def m_ExcST3A : List RClass := d_ExcST3A :: m_ExcitationSystem

/-- CIM14/IEC61970/Dynamics/ExcitationSystems/ExcST4B.py:23 -/
def d_ExcST4B : RClass := ⟨0x45786353543442, 0x43494d31342e49454336313937302e44796e616d6963732e45786369746174696f6e53797374656d732e45786353543442, 0x43494d31342e49454336313937302e44796e616d6963732e45786369746174696f6e53797374656d732e45786369746174696f6e53797374656d,
  [(0x6b70, .flt 0x0), (0x6b696d, .flt 0x0), (0x76626d6178, .flt 0x0), (0x6b63, .flt 0x0), (0x6b7072, .flt 0x0), (0x786c, .flt 0x0), (0x76676d6178, .flt 0x0), (0x766d6d696e, .flt 0x0), (0x6b67, .flt 0x0), (0x766d6d6178, .flt 0x0), (0x7472, .flt 0x0), (0x7461, .flt 0x0), (0x6b706d, .flt 0x0), (0x616e6770, .flt 0x0), (0x76726d696e, .flt 0x0), (0x6b6972, .flt 0x0), (0x76726d6178, .flt 0x0), (0x6b69, .flt 0x0)],
  [0x6b70, 0x6b696d, 0x76626d6178, 0x6b63, 0x6b7072, 0x786c, 0x76676d6178, 0x766d6d696e, 0x6b67, 0x766d6d6178, 0x7472, 0x7461, 0x6b706d, 0x616e6770, 0x76726d696e, 0x6b6972, 0x76726d6178, 0x6b69],
  [(0x6b70, .flt 0x0), (0x6b696d, .flt 0x0), (0x76626d6178, .flt 0x0), (0x6b63, .flt 0x0), (0x6b7072, .flt 0x0), (0x786c, .flt 0x0), (0x76676d6178, .flt 0x0), (0x766d6d696e, .flt 0x0), (0x6b67, .flt 0x0), (0x766d6d6178, .flt 0x0), (0x7472, .flt 0x0), (0x7461, .flt 0x0), (0x6b706d, .flt 0x0), (0x616e6770, .flt 0x0), (0x76726d696e, .flt 0x0), (0x6b6972, .flt 0x0), (0x76726d6178, .flt 0x0), (0x6b69, .flt 0x0)],
  [(0x6b70, 0x666c6f6174), (0x6b696d, 0x666c6f6174), (0x76626d6178, 0x666c6f6174), (0x6b63, 0x666c6f6174), (0x6b7072, 0x666c6f6174), (0x786c, 0x666c6f6174), (0x76676d6178, 0x666c6f6174), (0x766d6d696e, 0x666c6f6174), (0x6b67, 0x666c6f6174), (0x766d6d6178, 0x666c6f6174), (0x7472, 0x666c6f6174), (0x7461, 0x666c6f6174), (0x6b706d, 0x666c6f6174), (0x616e6770, 0x666c6f6174), (0x76726d696e, 0x666c6f6174), (0x6b6972, 0x666c6f6174), (0x76726d6178, 0x666c6f6174), (0x6b69, 0x666c6f6174)],
  [],
  [],
  []⟩
def m_ExcST4B : List RClass := d_ExcST4B :: m_ExcitationSystem

/-- CIM14/IEC61970/Dynamics/ExcitationSystems/ExcST5B.py:23 -/
def d_ExcST5B : RClass := ⟨0x45786353543542, 0x43494d31342e49454336313937302e44796e616d6963732e45786369746174696f6e53797374656d732e45786353543542, 0x43494d31342e49454336313937302e44796e616d6963732e45786369746174696f6e53797374656d732e45786369746174696f6e53797374656d,
  [(0x746232, .flt 0x0), (0x746231, .flt 0x0), (0x74756232, .flt 0x0), (0x74756331, .flt 0x0), (0x6b72, .flt 0x0), (0x746f6232, .flt 0x0), (0x746f6231, .flt 0x0), (0x746331, .flt 0x0), (0x746f6331, .flt 0x0), (0x74756231, .flt 0x0), (0x746332, .flt 0x0), (0x6b63, .flt 0x0), (0x76726d6178, .flt 0x0), (0x74756332, .flt 0x0), (0x746f6332, .flt 0x0), (0x7431, .flt 0x0), (0x7472, .flt 0x0), (0x76726d696e, .flt 0x0)],
  [0x746232, 0x746231, 0x74756232, 0x74756331, 0x6b72, 0x746f6232, 0x746f6231, 0x746331, 0x746f6331, 0x74756231, 0x746332, 0x6b63, 0x76726d6178, 0x74756332, 0x746f6332, 0x7431, 0x7472, 0x76726d696e],
  [(0x746232, .flt 0x0), (0x746231, .flt 0x0), (0x74756232, .flt 0x0), (0x74756331, .flt 0x0), (0x6b72, .flt 0x0), (0x746f6232, .flt 0x0), (0x746f6231, .flt 0x0), (0x746331, .flt 0x0), (0x746f6331, .flt 0x0), (0x74756231, .flt 0x0), (0x746332, .flt 0x0), (0x6b63, .flt 0x0), (0x76726d6178, .flt 0x0), (0x74756332, .flt 0x0), (0x746f6332, .flt 0x0), (0x7431, .flt 0x0), (0x7472, .flt 0x0), (0x76726d696e, .flt 0x0)],
  [(0x746232, 0x666c6f6174), (0x746231, 0x666c6f6174), (0x74756232, 0x666c6f6174), (0x74756331, 0x666c6f6174), (0x6b72, 0x666c6f6174), (0x746f6232, 0x666c6f6174), (0x746f6231, 0x666c6f6174), (0x746331, 0x666c6f6174), (0x746f6331, 0x666c6f6174), (0x74756231, 0x666c6f6174), (0x746332, 0x666c6f6174), (0x6b63, 0x666c6f6174), (0x76726d6178, 0x666c6f6174), (0x74756332, 0x666c6f6174), (0x746f6332, 0x666c6f6174), (0x7431, 0x666c6f6174), (0x7472, 0x666c6f6174), (0x76726d696e, 0x666c6f6174)],
  [],
  [],
  []⟩
def m_ExcST5B : List RClass := d_ExcST5B :: m_ExcitationSystem

/-- CIM14/IEC61970/Dynamics/ExcitationSystems/ExcST6B.py:23 -/
def d_ExcST6B : RClass := ⟨0x45786353543642, 0x43494d31342e49454336313937302e44796e616d6963732e45786369746174696f6e53797374656d732e45786353543642, 0x43494d31342e49454336313937302e44796e616d6963732e45786369746174696f6e53797374656d732e45786369746174696f6e53797374656d,
  [(0x7472, .flt 0x0), (0x696c72, .flt 0x0), (0x76726d696e, .flt 0x0), (0x766d756c74, .flt 0x0), (0x76726d6178, .flt 0x0), (0x6f656c696e, .flt 0x0), (0x6b6c72, .flt 0x0), (0x6b67, .flt 0x0), (0x6b7061, .flt 0x0), (0x76616d6178, .flt 0x0), (0x7473, .flt 0x0), (0x6b636c, .flt 0x0), (0x7467, .flt 0x0), (0x76616d696e, .flt 0x0), (0x6b6961, .flt 0x0), (0x6b6666, .flt 0x0), (0x6b6d, .flt 0x0)],
  [0x7472, 0x696c72, 0x76726d696e, 0x766d756c74, 0x76726d6178, 0x6f656c696e, 0x6b6c72, 0x6b67, 0x6b7061, 0x76616d6178, 0x7473, 0x6b636c, 0x7467, 0x76616d696e, 0x6b6961, 0x6b6666, 0x6b6d],
  [(0x7472, .flt 0x0), (0x696c72, .flt 0x0), (0x76726d696e, .flt 0x0), (0x766d756c74, .flt 0x0), (0x76726d6178, .flt 0x0), (0x6f656c696e, .flt 0x0), (0x6b6c72, .flt 0x0), (0x6b67, .flt 0x0), (0x6b7061, .flt 0x0), (0x76616d6178, .flt 0x0), (0x7473, .flt 0x0), (0x6b636c, .flt 0x0), (0x7467, .flt 0x0), (0x76616d696e, .flt 0x0), (0x6b6961, .flt 0x0), (0x6b6666, .flt 0x0), (0x6b6d, .flt 0x0)],
  [(0x7472, 0x666c6f6174), (0x696c72, 0x666c6f6174), (0x76726d696e, 0x666c6f6174), (0x766d756c74, 0x666c6f6174), (0x76726d6178, 0x666c6f6174), (0x6f656c696e, 0x666c6f6174), (0x6b6c72, 0x666c6f6174), (0x6b67, 0x666c6f6174), (0x6b7061, 0x666c6f6174), (0x76616d6178, 0x666c6f6174), (0x7473, 0x666c6f6174), (0x6b636c, 0x666c6f6174), (0x7467, 0x666c6f6174), (0x76616d696e, 0x666c6f6174), (0x6b6961, 0x666c6f6174), (0x6b6666, 0x666c6f6174), (0x6b6d, 0x666c6f6174)],
  [],
  [],
  []⟩
def m_ExcST6B : List RClass := d_ExcST6B :: m_ExcitationSystem

/-- CIM14/IEC61970/Dynamics/ExcitationSystems/ExcST7B.py:23 -/
def d_ExcST7B : RClass := ⟨0x45786353543742, 0x43494d31342e49454336313937302e44796e616d6963732e45786369746174696f6e53797374656d732e45786353543742, 0x43494d31342e49454336313937302e44796e616d6963732e45786369746174696f6e53797374656d732e45786369746174696f6e53797374656d,
  [(0x6f656c696e, .flt 0x0), (0x766d6178, .flt 0x0), (0x7462, .flt 0x0), (0x6b6961, .flt 0x0), (0x6b7061, .flt 0x0), (0x6b68, .flt 0x0), (0x76726d696e, .flt 0x0), (0x7473, .flt 0x0), (0x746961, .flt 0x0), (0x7467, .flt 0x0), (0x7472, .flt 0x0), (0x7466, .flt 0x0), (0x76726d6178, .flt 0x0), (0x75656c696e, .flt 0x0), (0x6b6c, .flt 0x0), (0x766d696e, .flt 0x0), (0x7463, .flt 0x0)],
  [0x6f656c696e, 0x766d6178, 0x7462, 0x6b6961, 0x6b7061, 0x6b68, 0x76726d696e, 0x7473, 0x746961, 0x7467, 0x7472, 0x7466, 0x76726d6178, 0x75656c696e, 0x6b6c, 0x766d696e, 0x7463],
  [(0x6f656c696e, .flt 0x0), (0x766d6178, .flt 0x0), (0x7462, .flt 0x0), (0x6b6961, .flt 0x0), (0x6b7061, .flt 0x0), (0x6b68, .flt 0x0), (0x76726d696e, .flt 0x0), (0x7473, .flt 0x0), (0x746961, .flt 0x0), (0x7467, .flt 0x0), (0x7472, .flt 0x0), (0x7466, .flt 0x0), (0x76726d6178, .flt 0x0), (0x75656c696e, .flt 0x0), (0x6b6c, .flt 0x0), (0x766d696e, .flt 0x0), (0x7463, .flt 0x0)],
  [(0x6f656c696e, 0x666c6f6174), (0x766d6178, 0x666c6f6174), (0x7462, 0x666c6f6174), (0x6b6961, 0x666c6f6174), (0x6b7061, 0x666c6f6174), (0x6b68, 0x666c6f6174), (0x76726d696e, 0x666c6f6174), (0x7473, 0x666c6f6174), (0x746961, 0x666c6f6174), (0x7467, 0x666c6f6174), (0x7472, 0x666c6f6174), (0x7466, 0x666c6f6174), (0x76726d6178, 0x666c6f6174), (0x75656c696e, 0x666c6f6174), (0x6b6c, 0x666c6f6174), (0x766d696e, 0x666c6f6174), (0x7463, 0x666c6f6174)],
  [],
  [],
  []⟩
def m_ExcST7B : List RClass := d_ExcST7B :: m_ExcitationSystem

/-- CIM14/IEC61970/Dynamics/ExcitationSystems/ExcWT2E.py:23 -/
def d_ExcWT2E : RClass := ⟨0x45786357543245, 0x43494d31342e49454336313937302e44796e616d6963732e45786369746174696f6e53797374656d732e45786357543245, 0x43494d31342e49454336313937302e44796e616d6963732e45786369746174696f6e53797374656d732e45786369746174696f6e53797374656d,
  [],
  [],
  [],
  [],
  [],
  [],
  []⟩
def m_ExcWT2E : List RClass := d_ExcWT2E :: m_ExcitationSystem

/-- CIM14/IEC61970/Dynamics/ExcitationSystems/ExcWT3E.py:23 -/
def d_ExcWT3E : RClass := ⟨0x45786357543345, 0x43494d31342e49454336313937302e44796e616d6963732e45786369746174696f6e53797374656d732e45786357543345, 0x43494d31342e49454336313937302e44796e616d6963732e45786369746174696f6e53797374656d732e45786369746174696f6e53797374656d,
  [],
  [],
  [],
  [],
  [],
  [],
  []⟩
def m_ExcWT3E : List RClass := d_ExcWT3E :: m_ExcitationSystem

/-- CIM14/IEC61970/Dynamics/ExcitationSystems/ExcWT4E.py:23 -/
def d_ExcWT4E : RClass := ⟨0x45786357543445, 0x43494d31342e49454336313937302e44796e616d6963732e45786369746174696f6e53797374656d732e45786357543445, 0x43494d31342e49454336313937302e44796e616d6963732e45786369746174696f6e53797374656d732e45786369746174696f6e53797374656d,
  [],
  [],
  [],
  [],
  [],
  [],
  []⟩
def m_ExcWT4E : List RClass := d_ExcWT4E :: m_ExcitationSystem

/-- CIM14/IEC61970/Dynamics/Loads/LoadMotor.py:23 -/
def d_LoadMotor : RClass := ⟨0x4c6f61644d6f746f72, 0x43494d31342e49454336313937302e44796e616d6963732e4c6f6164732e4c6f61644d6f746f72, 0x43494d31342e49454336313937302e44796e616d6963732e4c6f6164732e4167677265676174654c6f6164,
  [(0x7476, .flt 0x0), (0x7066726163, .flt 0x0), (0x7674, .flt 0x0), (0x64, .flt 0x0), (0x7261, .flt 0x0), (0x6c73, .flt 0x0), (0x6c666163, .flt 0x0), (0x74706f, .flt 0x0), (0x68, .flt 0x0), (0x6c70, .flt 0x0), (0x6c7070, .flt 0x0), (0x7470706f, .flt 0x0), (0x74626b72, .flt 0x0)],
  [0x7476, 0x7066726163, 0x7674, 0x64, 0x7261, 0x6c73, 0x6c666163, 0x74706f, 0x68, 0x6c70, 0x6c7070, 0x7470706f, 0x74626b72],
  [(0x7476, .flt 0x0), (0x7066726163, .flt 0x0), (0x7674, .flt 0x0), (0x64, .flt 0x0), (0x7261, .flt 0x0), (0x6c73, .flt 0x0), (0x6c666163, .flt 0x0), (0x74706f, .flt 0x0), (0x68, .flt 0x0), (0x6c70, .flt 0x0), (0x6c7070, .flt 0x0), (0x7470706f, .flt 0x0), (0x74626b72, .flt 0x0)],
  [(0x7476, 0x666c6f6174), (0x7066726163, 0x666c6f6174), (0x7674, 0x666c6f6174), (0x64, 0x666c6f6174), (0x7261, 0x666c6f6174), (0x6c73, 0x666c6f6174), (0x6c666163, 0x666c6f6174), (0x74706f, 0x666c6f6174), (0x68, 0x666c6f6174), (0x6c70, 0x666c6f6174), (0x6c7070, 0x666c6f6174), (0x7470706f, 0x666c6f6174), (0x74626b72, 0x666c6f6174)],
  [],
  [],
  []⟩
def m_LoadMotor : List RClass := d_LoadMotor :: m_AggregateLoad

/-- CIM14/IEC61970/Dynamics/Loads/LoadStatic.py:23 -/
def d_LoadStatic : RClass := ⟨0x4c6f6164537461746963, 0x43494d31342e49454336313937302e44796e616d6963732e4c6f6164732e4c6f6164537461746963, 0x43494d31342e49454336313937302e44796e616d6963732e4c6f6164732e4167677265676174654c6f6164,
  [(0x7374617469634c6f616454797065, .str 0x5a495031), (0x657031, .flt 0x0), (0x6b7033, .flt 0x0), (0x657133, .flt 0x0), (0x6b7032, .flt 0x0), (0x657132, .flt 0x0), (0x6b7166, .flt 0x0), (0x6b7134, .flt 0x0), (0x6b7132, .flt 0x0), (0x6b7031, .flt 0x0), (0x657032, .flt 0x0), (0x657131, .flt 0x0), (0x6b7066, .flt 0x0), (0x6b7034, .flt 0x0), (0x6b7133, .flt 0x0), (0x657033, .flt 0x0), (0x6b7131, .flt 0x0)],
  [0x7374617469634c6f616454797065, 0x657031, 0x6b7033, 0x657133, 0x6b7032, 0x657132, 0x6b7166, 0x6b7134, 0x6b7132, 0x6b7031, 0x657032, 0x657131, 0x6b7066, 0x6b7034, 0x6b7133, 0x657033, 0x6b7131],
  [(0x7374617469634c6f616454797065, .str 0x5a495031), (0x657031, .flt 0x0), (0x6b7033, .flt 0x0), (0x657133, .flt 0x0), (0x6b7032, .flt 0x0), (0x657132, .flt 0x0), (0x6b7166, .flt 0x0), (0x6b7134, .flt 0x0), (0x6b7132, .flt 0x0), (0x6b7031, .flt 0x0), (0x657032, .flt 0x0), (0x657131, .flt 0x0), (0x6b7066, .flt 0x0), (0x6b7034, .flt 0x0), (0x6b7133, .flt 0x0), (0x657033, .flt 0x0), (0x6b7131, .flt 0x0)],
  [(0x7374617469634c6f616454797065, 0x737472), (0x657031, 0x666c6f6174), (0x6b7033, 0x666c6f6174), (0x657133, 0x666c6f6174), (0x6b7032, 0x666c6f6174), (0x657132, 0x666c6f6174), (0x6b7166, 0x666c6f6174), (0x6b7134, 0x666c6f6174), (0x6b7132, 0x666c6f6174), (0x6b7031, 0x666c6f6174), (0x657032, 0x666c6f6174), (0x657131, 0x666c6f6174), (0x6b7066, 0x666c6f6174), (0x6b7034, 0x666c6f6174), (0x6b7133, 0x666c6f6174), (0x657033, 0x666c6f6174), (0x6b7131, 0x666c6f6174)],
  [(0x7374617469634c6f616454797065, 0x5374617469634c6f616454797065)],
  [],
  []⟩
def m_LoadStatic : List RClass := d_LoadStatic :: m_AggregateLoad

/-- CIM14/IEC61970/Dynamics/Motors/MechLoad1.py:23 -/
def d_MechLoad1 : RClass := ⟨0x4d6563684c6f616431, 0x43494d31342e49454336313937302e44796e616d6963732e4d6f746f72732e4d6563684c6f616431, 0x43494d31342e49454336313937302e44796e616d6963732e4d6f746f72732e4d656368616e6963616c4c6f6164,
  [(0x65, .flt 0x0), (0x62, .flt 0x0), (0x64, .flt 0x0), (0x61, .flt 0x0)],
  [0x65, 0x62, 0x64, 0x61],
  [(0x65, .flt 0x0), (0x62, .flt 0x0), (0x64, .flt 0x0), (0x61, .flt 0x0)],
  [(0x65, 0x666c6f6174), (0x62, 0x666c6f6174), (0x64, 0x666c6f6174), (0x61, 0x666c6f6174)],
  [],
  [],
  []⟩
def m_MechLoad1 : List RClass := d_MechLoad1 :: m_MechanicalLoad

/-- CIM14/IEC61970/Dynamics/PowerSystemStabilizers/PssIEEE1A.py:23 -/
def d_PssIEEE1A : RClass := ⟨0x507373494545453141, 0x43494d31342e49454336313937302e44796e616d6963732e506f77657253797374656d53746162696c697a6572732e507373494545453141, 0x43494d31342e49454336313937302e44796e616d6963732e506f77657253797374656d53746162696c697a6572732e506f77657253797374656d53746162696c697a6572,
  [],
  [],
  [],
  [],
  [],
  [],
  []⟩
def m_PssIEEE1A : List RClass := d_PssIEEE1A :: m_PowerSystemStabilizer

/-- CIM14/IEC61970/Dynamics/PowerSystemStabilizers/PssIEEE2B.py:23 -/
def d_PssIEEE2B : RClass := ⟨0x507373494545453242, 0x43494d31342e49454336313937302e44796e616d6963732e506f77657253797374656d53746162696c697a6572732e507373494545453242, 0x43494d31342e49454336313937302e44796e616d6963732e506f77657253797374656d53746162696c697a6572732e506f77657253797374656d53746162696c697a6572,
  [(0x743131, .flt 0x0), (0x767369316d6178, .flt 0x0), (0x7433, .flt 0x0), (0x747733, .flt 0x0), (0x7673746d6178, .flt 0x0), (0x7432, .flt 0x0), (0x6e, .int 0), (0x767369316d696e, .flt 0x0), (0x7439, .flt 0x0), (0x6b7332, .flt 0x0), (0x7673746d696e, .flt 0x0), (0x6a31, .int 0), (0x747731, .flt 0x0), (0x7462, .flt 0x0), (0x7437, .flt 0x0), (0x767369326d6178, .flt 0x0), (0x7436, .flt 0x0), (0x7431, .flt 0x0), (0x6d, .int 0), (0x767369326d696e, .flt 0x0), (0x61, .flt 0x0), (0x7434, .flt 0x0), (0x747734, .flt 0x0), (0x6b7334, .flt 0x0), (0x7461, .flt 0x0), (0x6b7333, .flt 0x0), (0x743130, .flt 0x0), (0x747732, .flt 0x0), (0x6a32, .int 0), (0x6b7331, .flt 0x0), (0x7438, .flt 0x0)],
  [0x743131, 0x767369316d6178, 0x7433, 0x747733, 0x7673746d6178, 0x7432, 0x6e, 0x767369316d696e, 0x7439, 0x6b7332, 0x7673746d696e, 0x6a31, 0x747731, 0x7462, 0x7437, 0x767369326d6178, 0x7436, 0x7431, 0x6d, 0x767369326d696e, 0x61, 0x7434, 0x747734, 0x6b7334, 0x7461, 0x6b7333, 0x743130, 0x747732, 0x6a32, 0x6b7331, 0x7438],
  [(0x743131, .flt 0x0), (0x767369316d6178, .flt 0x0), (0x7433, .flt 0x0), (0x747733, .flt 0x0), (0x7673746d6178, .flt 0x0), (0x7432, .flt 0x0), (0x6e, .int 0), (0x767369316d696e, .flt 0x0), (0x7439, .flt 0x0), (0x6b7332, .flt 0x0), (0x7673746d696e, .flt 0x0), (0x6a31, .int 0), (0x747731, .flt 0x0), (0x7462, .flt 0x0), (0x7437, .flt 0x0), (0x767369326d6178, .flt 0x0), (0x7436, .flt 0x0), (0x7431, .flt 0x0), (0x6d, .int 0), (0x767369326d696e, .flt 0x0), (0x61, .flt 0x0), (0x7434, .flt 0x0), (0x747734, .flt 0x0), (0x6b7334, .flt 0x0), (0x7461, .flt 0x0), (0x6b7333, .flt 0x0), (0x743130, .flt 0x0), (0x747732, .flt 0x0), (0x6a32, .int 0), (0x6b7331, .flt 0x0), (0x7438, .flt 0x0)],
  [(0x743131, 0x666c6f6174), (0x767369316d6178, 0x666c6f6174), (0x7433, 0x666c6f6174), (0x747733, 0x666c6f6174), (0x7673746d6178, 0x666c6f6174), (0x7432, 0x666c6f6174), (0x6e, 0x696e74), (0x767369316d696e, 0x666c6f6174), (0x7439, 0x666c6f6174), (0x6b7332, 0x666c6f6174), (0x7673746d696e, 0x666c6f6174), (0x6a31, 0x696e74), (0x747731, 0x666c6f6174), (0x7462, 0x666c6f6174), (0x7437, 0x666c6f6174), (0x767369326d6178, 0x666c6f6174), (0x7436, 0x666c6f6174), (0x7431, 0x666c6f6174), (0x6d, 0x696e74), (0x767369326d696e, 0x666c6f6174), (0x61, 0x666c6f6174), (0x7434, 0x666c6f6174), (0x747734, 0x666c6f6174), (0x6b7334, 0x666c6f6174), (0x7461, 0x666c6f6174), (0x6b7333, 0x666c6f6174), (0x743130, 0x666c6f6174), (0x747732, 0x666c6f6174), (0x6a32, 0x696e74), (0x6b7331, 0x666c6f6174), (0x7438, 0x666c6f6174)],
  [],
  [],
  []⟩
def m_PssIEEE2B : List RClass := d_PssIEEE2B :: m_PowerSystemStabilizer

/-- CIM14/IEC61970/Dynamics/PowerSystemStabilizers/PssIEEE3B.py:23 -/
def d_PssIEEE3B : RClass := ⟨0x507373494545453342, 0x43494d31342e49454336313937302e44796e616d6963732e506f77657253797374656d53746162696c697a6572732e507373494545453342, 0x43494d31342e49454336313937302e44796e616d6963732e506f77657253797374656d53746162696c697a6572732e506f77657253797374656d53746162696c697a6572,
  [],
  [],
  [],
  [],
  [],
  [],
  []⟩
def m_PssIEEE3B : List RClass := d_PssIEEE3B :: m_PowerSystemStabilizer

/-- CIM14/IEC61970/Dynamics/PowerSystemStabilizers/PssIEEE4B.py:23 -/
def d_PssIEEE4B : RClass := ⟨0x507373494545453442, 0x43494d31342e49454336313937302e44796e616d6963732e506f77657253797374656d53746162696c697a6572732e507373494545453442, 0x43494d31342e49454336313937302e44796e616d6963732e506f77657253797374656d53746162696c697a6572732e506f77657253797374656d53746162696c697a6572,
  [],
  [],
  [],
  [],
  [],
  [],
  []⟩
def m_PssIEEE4B : List RClass := d_PssIEEE4B :: m_PowerSystemStabilizer

/-- CIM14/IEC61970/Dynamics/PowerSystemStabilizers/PssPTIST1.py:23 -/
def d_PssPTIST1 : RClass := ⟨0x507373505449535431, 0x43494d31342e49454336313937302e44796e616d6963732e506f77657253797374656d53746162696c697a6572732e507373505449535431, 0x43494d31342e49454336313937302e44796e616d6963732e506f77657253797374656d53746162696c697a6572732e506f77657253797374656d53746162696c697a6572,
  [],
  [],
  [],
  [],
  [],
  [],
  []⟩
def m_PssPTIST1 : List RClass := d_PssPTIST1 :: m_PowerSystemStabilizer

/-- CIM14/IEC61970/Dynamics/PowerSystemStabilizers/PssPTIST3.py:23 -/
def d_PssPTIST3 : RClass := ⟨0x507373505449535433, 0x43494d31342e49454336313937302e44796e616d6963732e506f77657253797374656d53746162696c697a6572732e507373505449535433, 0x43494d31342e49454336313937302e44796e616d6963732e506f77657253797374656d53746162696c697a6572732e506f77657253797374656d53746162696c697a6572,
  [],
  [],
  [],
  [],
  [],
  [],
  []⟩
def m_PssPTIST3 : List RClass := d_PssPTIST3 :: m_PowerSystemStabilizer

/-- CIM14/IEC61970/Dynamics/PowerSystemStabilizers/PssSB.py:23 -/
def d_PssSB : RClass := ⟨0x5073735342, 0x43494d31342e49454336313937302e44796e616d6963732e506f77657253797374656d53746162696c697a6572732e5073735342, 0x43494d31342e49454336313937302e44796e616d6963732e506f77657253797374656d53746162696c697a6572732e506f77657253797374656d53746162696c697a6572,
  [],
  [],
  [],
  [],
  [],
  [],
  []⟩
def m_PssSB : List RClass := d_PssSB :: m_PowerSystemStabilizer

/-- CIM14/IEC61970/Dynamics/PowerSystemStabilizers/PssSB4.py:23 -/
def d_PssSB4 : RClass := ⟨0x507373534234, 0x43494d31342e49454336313937302e44796e616d6963732e506f77657253797374656d53746162696c697a6572732e507373534234, 0x43494d31342e49454336313937302e44796e616d6963732e506f77657253797374656d53746162696c697a6572732e506f77657253797374656d53746162696c697a6572,
  [],
  [],
  [],
  [],
  [],
  [],
  []⟩
def m_PssSB4 : List RClass := d_PssSB4 :: m_PowerSystemStabilizer

/-- CIM14/IEC61970/Dynamics/PowerSystemStabilizers/PssSH.py:23 -/
def d_PssSH : RClass := ⟨0x5073735348, 0x43494d31342e49454336313937302e44796e616d6963732e506f77657253797374656d53746162696c697a6572732e5073735348, 0x43494d31342e49454336313937302e44796e616d6963732e506f77657253797374656d53746162696c697a6572732e506f77657253797374656d53746162696c697a6572,
  [],
  [],
  [],
  [],
  [],
  [],
  []⟩
def m_PssSH : List RClass := d_PssSH :: m_PowerSystemStabilizer

/-- CIM14/IEC61970/Dynamics/PowerSystemStabilizers/PssSK.py:23 -/
def d_PssSK : RClass := ⟨0x507373534b, 0x43494d31342e49454336313937302e44796e616d6963732e506f77657253797374656d53746162696c697a6572732e507373534b, 0x43494d31342e49454336313937302e44796e616d6963732e506f77657253797374656d53746162696c697a6572732e506f77657253797374656d53746162696c697a6572,
  [],
  [],
  [],
  [],
  [],
  [],
  []⟩
def m_PssSK : List RClass := d_PssSK :: m_PowerSystemStabilizer

/-- CIM14/IEC61970/Dynamics/PowerSystemStabilizers/PssWSCC.py:23 -/
def d_PssWSCC : RClass := ⟨0x50737357534343, 0x43494d31342e49454336313937302e44796e616d6963732e506f77657253797374656d53746162696c697a6572732e50737357534343, 0x43494d31342e49454336313937302e44796e616d6963732e506f77657253797374656d53746162696c697a6572732e506f77657253797374656d53746162696c697a6572,
  [],
  [],
  [],
  [],
  [],
  [],
  []⟩
def m_PssWSCC : List RClass := d_PssWSCC :: m_PowerSystemStabilizer

/-- CIM14/IEC61970/Dynamics/TurbineGovernors/GovCT1.py:23 -/
def d_GovCT1 : RClass := ⟨0x476f76435431, 0x43494d31342e49454336313937302e44796e616d6963732e54757262696e65476f7665726e6f72732e476f76435431, 0x43494d31342e49454336313937302e44796e616d6963732e54757262696e65476f7665726e6f72732e54757262696e65476f7665726e6f72,
  [(0x7464676f76, .flt 0x0), (0x7462, .flt 0x0), (0x6b64676f76, .flt 0x0), (0x6462, .flt 0x0), (0x766d696e, .flt 0x0), (0x6b74757262, .flt 0x0), (0x74656e67, .flt 0x0), (0x6d696e657272, .flt 0x0), (0x61736574, .flt 0x0), (0x6d6178657272, .flt 0x0), (0x747361, .flt 0x0), (0x6d7762617365, .flt 0x0), (0x7766737064, .bool false), (0x6b696c6f6164, .flt 0x0), (0x6b70676f76, .flt 0x0), (0x6c64726566, .flt 0x0), (0x766d6178, .flt 0x0), (0x727570, .flt 0x0), (0x72, .flt 0x0), (0x7470656c6563, .flt 0x0), (0x7461, .flt 0x0), (0x726f70656e, .flt 0x0), (0x6b696d77, .flt 0x0), (0x6b61, .flt 0x0), (0x72646f776e, .flt 0x0), (0x72636c6f7365, .flt 0x0), (0x646d, .flt 0x0), (0x747362, .flt 0x0), (0x6b69676f76, .flt 0x0), (0x6b706c6f6164, .flt 0x0), (0x74666c6f6164, .flt 0x0), (0x74616374, .flt 0x0), (0x7463, .flt 0x0), (0x77666e6c, .flt 0x0), (0x706d77736574, .flt 0x0), (0x7273656c656374, .bool false)],
  [0x7464676f76, 0x7462, 0x6b64676f76, 0x6462, 0x766d696e, 0x6b74757262, 0x74656e67, 0x6d696e657272, 0x61736574, 0x6d6178657272, 0x747361, 0x6d7762617365, 0x7766737064, 0x6b696c6f6164, 0x6b70676f76, 0x6c64726566, 0x766d6178, 0x727570, 0x72, 0x7470656c6563, 0x7461, 0x726f70656e, 0x6b696d77, 0x6b61, 0x72646f776e, 0x72636c6f7365, 0x646d, 0x747362, 0x6b69676f76, 0x6b706c6f6164, 0x74666c6f6164, 0x74616374, 0x7463, 0x77666e6c, 0x706d77736574, 0x7273656c656374],
  [(0x7464676f76, .flt 0x0), (0x7462, .flt 0x0), (0x6b64676f76, .flt 0x0), (0x6462, .flt 0x0), (0x766d696e, .flt 0x0), (0x6b74757262, .flt 0x0), (0x74656e67, .flt 0x0), (0x6d696e657272, .flt 0x0), (0x61736574, .flt 0x0), (0x6d6178657272, .flt 0x0), (0x747361, .flt 0x0), (0x6d7762617365, .flt 0x0), (0x7766737064, .bool false), (0x6b696c6f6164, .flt 0x0), (0x6b70676f76, .flt 0x0), (0x6c64726566, .flt 0x0), (0x766d6178, .flt 0x0), (0x727570, .flt 0x0), (0x72, .flt 0x0), (0x7470656c6563, .flt 0x0), (0x7461, .flt 0x0), (0x726f70656e, .flt 0x0), (0x6b696d77, .flt 0x0), (0x6b61, .flt 0x0), (0x72646f776e, .flt 0x0), (0x72636c6f7365, .flt 0x0), (0x646d, .flt 0x0), (0x747362, .flt 0x0), (0x6b69676f76, .flt 0x0), (0x6b706c6f6164, .flt 0x0), (0x74666c6f6164, .flt 0x0), (0x74616374, .flt 0x0), (0x7463, .flt 0x0), (0x77666e6c, .flt 0x0), (0x706d77736574, .flt 0x0), (0x7273656c656374, .bool false)],
  [(0x7464676f76, 0x666c6f6174), (0x7462, 0x666c6f6174), (0x6b64676f76, 0x666c6f6174), (0x6462, 0x666c6f6174), (0x766d696e, 0x666c6f6174), (0x6b74757262, 0x666c6f6174), (0x74656e67, 0x666c6f6174), (0x6d696e657272, 0x666c6f6174), (0x61736574, 0x666c6f6174), (0x6d6178657272, 0x666c6f6174), (0x747361, 0x666c6f6174), (0x6d7762617365, 0x666c6f6174), (0x7766737064, 0x626f6f6c), (0x6b696c6f6164, 0x666c6f6174), (0x6b70676f76, 0x666c6f6174), (0x6c64726566, 0x666c6f6174), (0x766d6178, 0x666c6f6174), (0x727570, 0x666c6f6174), (0x72, 0x666c6f6174), (0x7470656c6563, 0x666c6f6174), (0x7461, 0x666c6f6174), (0x726f70656e, 0x666c6f6174), (0x6b696d77, 0x666c6f6174), (0x6b61, 0x666c6f6174), (0x72646f776e, 0x666c6f6174), (0x72636c6f7365, 0x666c6f6174), (0x646d, 0x666c6f6174), (0x747362, 0x666c6f6174), (0x6b69676f76, 0x666c6f6174), (0x6b706c6f6164, 0x666c6f6174), (0x74666c6f6164, 0x666c6f6174), (0x74616374, 0x666c6f6174), (0x7463, 0x666c6f6174), (0x77666e6c, 0x666c6f6174), (0x706d77736574, 0x666c6f6174), (0x7273656c656374, 0x626f6f6c)],
  [],
  [],
  []⟩
def m_GovCT1 : List RClass := d_GovCT1 :: m_TurbineGovernor

/-- CIM14/IEC61970/Dynamics/TurbineGovernors/GovCT2.py:23 -/
def d_GovCT2 : RClass := ⟨0x476f76435432, 0x43494d31342e49454336313937302e44796e616d6963732e54757262696e65476f7665726e6f72732e476f76435432, 0x43494d31342e49454336313937302e44796e616d6963732e54757262696e65476f7665726e6f72732e54757262696e65476f7665726e6f72,
  [],
  [],
  [],
  [],
  [],
  [],
  []⟩
def m_GovCT2 : List RClass := d_GovCT2 :: m_TurbineGovernor

/-- CIM14/IEC61970/Dynamics/TurbineGovernors/GovDUM.py:23 -/
def d_GovDUM : RClass := ⟨0x476f7644554d, 0x43494d31342e49454336313937302e44796e616d6963732e54757262696e65476f7665726e6f72732e476f7644554d, 0x43494d31342e49454336313937302e44796e616d6963732e54757262696e65476f7665726e6f72732e54757262696e65476f7665726e6f72,
  [],
  [],
  [],
  [],
  [],
  [],
  []⟩
def m_GovDUM : List RClass := d_GovDUM :: m_TurbineGovernor

/-- CIM14/IEC61970/Dynamics/TurbineGovernors/GovGASM.py:23 -/
def d_GovGASM : RClass := ⟨0x476f764741534d, 0x43494d31342e49454336313937302e44796e616d6963732e54757262696e65476f7665726e6f72732e476f764741534d, 0x43494d31342e49454336313937302e44796e616d6963732e54757262696e65476f7665726e6f72732e54757262696e65476f7665726e6f72,
  [],
  [],
  [],
  [],
  [],
  [],
  []⟩
def m_GovGASM : List RClass := d_GovGASM :: m_TurbineGovernor

/-- CIM14/IEC61970/Dynamics/TurbineGovernors/GovGAST.py:23 -/
def d_GovGAST : RClass := ⟨0x476f7647415354, 0x43494d31342e49454336313937302e44796e616d6963732e54757262696e65476f7665726e6f72732e476f7647415354, 0x43494d31342e49454336313937302e44796e616d6963732e54757262696e65476f7665726e6f72732e54757262696e65476f7665726e6f72,
  [],
  [],
  [],
  [],
  [],
  [],
  []⟩
def m_GovGAST : List RClass := d_GovGAST :: m_TurbineGovernor

/-- CIM14/IEC61970/Dynamics/TurbineGovernors/GovGAST2.py:23 -/
def d_GovGAST2 : RClass := ⟨0x476f764741535432, 0x43494d31342e49454336313937302e44796e616d6963732e54757262696e65476f7665726e6f72732e476f764741535432, 0x43494d31342e49454336313937302e44796e616d6963732e54757262696e65476f7665726e6f72732e54757262696e65476f7665726e6f72,
  [],
  [],
  [],
  [],
  [],
  [],
  []⟩
def m_GovGAST2 : List RClass := d_GovGAST2 :: m_TurbineGovernor

/-- CIM14/IEC61970/Dynamics/TurbineGovernors/GovGASTWD.py:23 -/
def d_GovGASTWD : RClass := ⟨0x476f76474153545744, 0x43494d31342e49454336313937302e44796e616d6963732e54757262696e65476f7665726e6f72732e476f76474153545744, 0x43494d31342e49454336313937302e44796e616d6963732e54757262696e65476f7665726e6f72732e54757262696e65476f7665726e6f72,
  [],
  [],
  [],
  [],
  [],
  [],
  []⟩
def m_GovGASTWD : List RClass := d_GovGASTWD :: m_TurbineGovernor

/-- CIM14/IEC61970/Dynamics/TurbineGovernors/GovHydro0.py:23 -/
def d_GovHydro0 : RClass := ⟨0x476f76487964726f30, 0x43494d31342e49454336313937302e44796e616d6963732e54757262696e65476f7665726e6f72732e476f76487964726f30, 0x43494d31342e49454336313937302e44796e616d6963732e54757262696e65476f7665726e6f72732e54757262696e65476f7665726e6f72,
  [],
  [],
  [],
  [],
  [],
  [],
  []⟩
def m_GovHydro0 : List RClass := d_GovHydro0 :: m_TurbineGovernor

/-- CIM14/IEC61970/Dynamics/TurbineGovernors/GovHydro1.py:23 -/
def d_GovHydro1 : RClass := ⟨0x476f76487964726f31, 0x43494d31342e49454336313937302e44796e616d6963732e54757262696e65476f7665726e6f72732e476f76487964726f31, 0x43494d31342e49454336313937302e44796e616d6963732e54757262696e65476f7665726e6f72732e54757262696e65476f7665726e6f72,
  [(0x7466, .flt 0x0), (0x76656c6d, .flt 0x0), (0x6d7762617365, .flt 0x0), (0x676d696e, .flt 0x0), (0x676d6178, .flt 0x0), (0x727065726d, .flt 0x0), (0x7472, .flt 0x0), (0x7274656d70, .flt 0x0), (0x716e6c, .flt 0x0), (0x7467, .flt 0x0), (0x6474757262, .flt 0x0), (0x6174, .flt 0x0), (0x7477, .flt 0x0)],
  [0x7466, 0x76656c6d, 0x6d7762617365, 0x676d696e, 0x676d6178, 0x727065726d, 0x7472, 0x7274656d70, 0x716e6c, 0x7467, 0x6474757262, 0x6174, 0x7477],
  [(0x7466, .flt 0x0), (0x76656c6d, .flt 0x0), (0x6d7762617365, .flt 0x0), (0x676d696e, .flt 0x0), (0x676d6178, .flt 0x0), (0x727065726d, .flt 0x0), (0x7472, .flt 0x0), (0x7274656d70, .flt 0x0), (0x716e6c, .flt 0x0), (0x7467, .flt 0x0), (0x6474757262, .flt 0x0), (0x6174, .flt 0x0), (0x7477, .flt 0x0)],
  [(0x7466, 0x666c6f6174), (0x76656c6d, 0x666c6f6174), (0x6d7762617365, 0x666c6f6174), (0x676d696e, 0x666c6f6174), (0x676d6178, 0x666c6f6174), (0x727065726d, 0x666c6f6174), (0x7472, 0x666c6f6174), (0x7274656d70, 0x666c6f6174), (0x716e6c, 0x666c6f6174), (0x7467, 0x666c6f6174), (0x6474757262, 0x666c6f6174), (0x6174, 0x666c6f6174), (0x7477, 0x666c6f6174)],
  [],
  [⟨0x487964726f54757262696e65, .one2one, 0x487964726f54757262696e65476f7665726e6f72, 0, false⟩, ⟨0x73796e6368726f6e6f75734d616368696e6530, .many2many, 0x676f76487964726f3130, 0, false⟩],
  [0x73796e6368726f6e6f75734d616368696e6530]⟩
def m_GovHydro1 : List RClass := d_GovHydro1 :: m_TurbineGovernor

/-- CIM14/IEC61970/Dynamics/TurbineGovernors/GovHydro2.py:23 -/
def d_GovHydro2 : RClass := ⟨0x476f76487964726f32, 0x43494d31342e49454336313937302e44796e616d6963732e54757262696e65476f7665726e6f72732e476f76487964726f32, 0x43494d31342e49454336313937302e44796e616d6963732e54757262696e65476f7665726e6f72732e54757262696e65476f7665726e6f72,
  [(0x7467, .flt 0x0), (0x7563, .flt 0x0), (0x677631, .flt 0x0), (0x646231, .flt 0x0), (0x706d6178, .flt 0x0), (0x70677634, .flt 0x0), (0x677635, .flt 0x0), (0x756f, .flt 0x0), (0x727065726d, .flt 0x0), (0x646232, .flt 0x0), (0x70677635, .flt 0x0), (0x7477, .flt 0x0), (0x70677632, .flt 0x0), (0x677633, .flt 0x0), (0x677632, .flt 0x0), (0x7274656d70, .flt 0x0), (0x6d7762617365, .flt 0x0), (0x6174757262, .flt 0x0), (0x6b74757262, .flt 0x0), (0x70677633, .flt 0x0), (0x706d696e, .flt 0x0), (0x7472, .flt 0x0), (0x657073, .flt 0x0), (0x677636, .flt 0x0), (0x70677631, .flt 0x0), (0x7470, .flt 0x0), (0x70677636, .flt 0x0), (0x677634, .flt 0x0), (0x6274757262, .flt 0x0)],
  [0x7467, 0x7563, 0x677631, 0x646231, 0x706d6178, 0x70677634, 0x677635, 0x756f, 0x727065726d, 0x646232, 0x70677635, 0x7477, 0x70677632, 0x677633, 0x677632, 0x7274656d70, 0x6d7762617365, 0x6174757262, 0x6b74757262, 0x70677633, 0x706d696e, 0x7472, 0x657073, 0x677636, 0x70677631, 0x7470, 0x70677636, 0x677634, 0x6274757262],
  [(0x7467, .flt 0x0), (0x7563, .flt 0x0), (0x677631, .flt 0x0), (0x646231, .flt 0x0), (0x706d6178, .flt 0x0), (0x70677634, .flt 0x0), (0x677635, .flt 0x0), (0x756f, .flt 0x0), (0x727065726d, .flt 0x0), (0x646232, .flt 0x0), (0x70677635, .flt 0x0), (0x7477, .flt 0x0), (0x70677632, .flt 0x0), (0x677633, .flt 0x0), (0x677632, .flt 0x0), (0x7274656d70, .flt 0x0), (0x6d7762617365, .flt 0x0), (0x6174757262, .flt 0x0), (0x6b74757262, .flt 0x0), (0x70677633, .flt 0x0), (0x706d696e, .flt 0x0), (0x7472, .flt 0x0), (0x657073, .flt 0x0), (0x677636, .flt 0x0), (0x70677631, .flt 0x0), (0x7470, .flt 0x0), (0x70677636, .flt 0x0), (0x677634, .flt 0x0), (0x6274757262, .flt 0x0)],
  [(0x7467, 0x666c6f6174), (0x7563, 0x666c6f6174), (0x677631, 0x666c6f6174), (0x646231, 0x666c6f6174), (0x706d6178, 0x666c6f6174), (0x70677634, 0x666c6f6174), (0x677635, 0x666c6f6174), (0x756f, 0x666c6f6174), (0x727065726d, 0x666c6f6174), (0x646232, 0x666c6f6174), (0x70677635, 0x666c6f6174), (0x7477, 0x666c6f6174), (0x70677632, 0x666c6f6174), (0x677633, 0x666c6f6174), (0x677632, 0x666c6f6174), (0x7274656d70, 0x666c6f6174), (0x6d7762617365, 0x666c6f6174), (0x6174757262, 0x666c6f6174), (0x6b74757262, 0x666c6f6174), (0x70677633, 0x666c6f6174), (0x706d696e, 0x666c6f6174), (0x7472, 0x666c6f6174), (0x657073, 0x666c6f6174), (0x677636, 0x666c6f6174), (0x70677631, 0x666c6f6174), (0x7470, 0x666c6f6174), (0x70677636, 0x666c6f6174), (0x677634, 0x666c6f6174), (0x6274757262, 0x666c6f6174)],
  [],
  [],
  []⟩
def m_GovHydro2 : List RClass := d_GovHydro2 :: m_TurbineGovernor

/-- CIM14/IEC61970/Dynamics/TurbineGovernors/GovHydro3.py:23 -/
def d_GovHydro3 : RClass := ⟨0x476f76487964726f33, 0x43494d31342e49454336313937302e44796e616d6963732e54757262696e65476f7665726e6f72732e476f76487964726f33, 0x43494d31342e49454336313937302e44796e616d6963732e54757262696e65476f7665726e6f72732e54757262696e65476f7665726e6f72,
  [],
  [],
  [],
  [],
  [],
  [],
  []⟩
def m_GovHydro3 : List RClass := d_GovHydro3 :: m_TurbineGovernor

/-- CIM14/IEC61970/Dynamics/TurbineGovernors/GovHydro4.py:23 -/
def d_GovHydro4 : RClass := ⟨0x476f76487964726f34, 0x43494d31342e49454336313937302e44796e616d6963732e54757262696e65476f7665726e6f72732e476f76487964726f34, 0x43494d31342e49454336313937302e44796e616d6963732e54757262696e65476f7665726e6f72732e54757262696e65476f7665726e6f72,
  [],
  [],
  [],
  [],
  [],
  [],
  []⟩
def m_GovHydro4 : List RClass := d_GovHydro4 :: m_TurbineGovernor

/-- CIM14/IEC61970/Dynamics/TurbineGovernors/GovHydroDD.py:23 -/
def d_GovHydroDD : RClass := ⟨0x476f76487964726f4444, 0x43494d31342e49454336313937302e44796e616d6963732e54757262696e65476f7665726e6f72732e476f76487964726f4444, 0x43494d31342e49454336313937302e44796e616d6963732e54757262696e65476f7665726e6f72732e54757262696e65476f7665726e6f72,
  [],
  [],
  [],
  [],
  [],
  [],
  []⟩
def m_GovHydroDD : List RClass := d_GovHydroDD :: m_TurbineGovernor

/-- CIM14/IEC61970/Dynamics/TurbineGovernors/GovHydroPID.py:23 -/
def d_GovHydroPID : RClass := ⟨0x476f76487964726f504944, 0x43494d31342e49454336313937302e44796e616d6963732e54757262696e65476f7665726e6f72732e476f76487964726f504944, 0x43494d31342e49454336313937302e44796e616d6963732e54757262696e65476f7665726e6f72732e54757262696e65476f7665726e6f72,
  [],
  [],
  [],
  [],
  [],
  [],
  []⟩
def m_GovHydroPID : List RClass := d_GovHydroPID :: m_TurbineGovernor

/-- CIM14/IEC61970/Dynamics/TurbineGovernors/GovHydroPID2.py:23 -/
def d_GovHydroPID2 : RClass := ⟨0x476f76487964726f50494432, 0x43494d31342e49454336313937302e44796e616d6963732e54757262696e65476f7665726e6f72732e476f76487964726f50494432, 0x43494d31342e49454336313937302e44796e616d6963732e54757262696e65476f7665726e6f72732e54757262696e65476f7665726e6f72,
  [],
  [],
  [],
  [],
  [],
  [],
  []⟩
def m_GovHydroPID2 : List RClass := d_GovHydroPID2 :: m_TurbineGovernor

/-- CIM14/IEC61970/Dynamics/TurbineGovernors/GovHydroR.py:23 -/
def d_GovHydroR : RClass := ⟨0x476f76487964726f52, 0x43494d31342e49454336313937302e44796e616d6963732e54757262696e65476f7665726e6f72732e476f76487964726f52, 0x43494d31342e49454336313937302e44796e616d6963732e54757262696e65476f7665726e6f72732e54757262696e65476f7665726e6f72,
  [],
  [],
  [],
  [],
  [],
  [],
  []⟩
def m_GovHydroR : List RClass := d_GovHydroR :: m_TurbineGovernor

/-- CIM14/IEC61970/Dynamics/TurbineGovernors/GovHydroWEH.py:23 -/
def d_GovHydroWEH : RClass := ⟨0x476f76487964726f574548, 0x43494d31342e49454336313937302e44796e616d6963732e54757262696e65476f7665726e6f72732e476f76487964726f574548, 0x43494d31342e49454336313937302e44796e616d6963732e54757262696e65476f7665726e6f72732e54757262696e65476f7665726e6f72,
  [],
  [],
  [],
  [],
  [],
  [],
  []⟩
def m_GovHydroWEH : List RClass := d_GovHydroWEH :: m_TurbineGovernor

/-- CIM14/IEC61970/Dynamics/TurbineGovernors/GovHydroWPID.py:23 -/
def d_GovHydroWPID : RClass := ⟨0x476f76487964726f57504944, 0x43494d31342e49454336313937302e44796e616d6963732e54757262696e65476f7665726e6f72732e476f76487964726f57504944, 0x43494d31342e49454336313937302e44796e616d6963732e54757262696e65476f7665726e6f72732e54757262696e65476f7665726e6f72,
  [],
  [],
  [],
  [],
  [],
  [],
  []⟩
def m_GovHydroWPID : List RClass := d_GovHydroWPID :: m_TurbineGovernor

/-- CIM14/IEC61970/Dynamics/TurbineGovernors/GovRAV.py:23 -/
def d_GovRAV : RClass := ⟨0x476f76524156, 0x43494d31342e49454336313937302e44796e616d6963732e54757262696e65476f7665726e6f72732e476f76524156, 0x43494d31342e49454336313937302e44796e616d6963732e54757262696e65476f7665726e6f72732e54757262696e65476f7665726e6f72,
  [],
  [],
  [],
  [],
  [],
  [],
  []⟩
def m_GovRAV : List RClass := d_GovRAV :: m_TurbineGovernor

/-- CIM14/IEC61970/Dynamics/TurbineGovernors/GovSteam0.py:23 -/
def d_GovSteam0 : RClass := ⟨0x476f76537465616d30, 0x43494d31342e49454336313937302e44796e616d6963732e54757262696e65476f7665726e6f72732e476f76537465616d30, 0x43494d31342e49454336313937302e44796e616d6963732e54757262696e65476f7665726e6f72732e54757262696e65476f7665726e6f72,
  [(0x7432, .flt 0x0), (0x7431, .flt 0x0), (0x766d696e, .flt 0x0), (0x6474, .flt 0x0), (0x766d6178, .flt 0x0), (0x6d7762617365, .flt 0x0), (0x72, .flt 0x0), (0x7433, .flt 0x0)],
  [0x7432, 0x7431, 0x766d696e, 0x6474, 0x766d6178, 0x6d7762617365, 0x72, 0x7433],
  [(0x7432, .flt 0x0), (0x7431, .flt 0x0), (0x766d696e, .flt 0x0), (0x6474, .flt 0x0), (0x766d6178, .flt 0x0), (0x6d7762617365, .flt 0x0), (0x72, .flt 0x0), (0x7433, .flt 0x0)],
  [(0x7432, 0x666c6f6174), (0x7431, 0x666c6f6174), (0x766d696e, 0x666c6f6174), (0x6474, 0x666c6f6174), (0x766d6178, 0x666c6f6174), (0x6d7762617365, 0x666c6f6174), (0x72, 0x666c6f6174), (0x7433, 0x666c6f6174)],
  [],
  [],
  []⟩
def m_GovSteam0 : List RClass := d_GovSteam0 :: m_TurbineGovernor

/-- CIM14/IEC61970/Dynamics/TurbineGovernors/GovSteam1.py:23 -/
def d_GovSteam1 : RClass := ⟨0x476f76537465616d31, 0x43494d31342e49454336313937302e44796e616d6963732e54757262696e65476f7665726e6f72732e476f76537465616d31, 0x43494d31342e49454336313937302e44796e616d6963732e54757262696e65476f7665726e6f72732e54757262696e65476f7665726e6f72,
  [(0x677631, .flt 0x0), (0x70677633, .flt 0x0), (0x756f, .flt 0x0), (0x6b31, .flt 0x0), (0x6d7762617365, .flt 0x0), (0x6b38, .flt 0x0), (0x7563, .flt 0x0), (0x677635, .flt 0x0), (0x6b37, .flt 0x0), (0x677634, .flt 0x0), (0x6b, .flt 0x0), (0x677632, .flt 0x0), (0x646232, .flt 0x0), (0x70677634, .flt 0x0), (0x7436, .flt 0x0), (0x6b32, .flt 0x0), (0x646231, .flt 0x0), (0x7435, .flt 0x0), (0x6b35, .flt 0x0), (0x70677632, .flt 0x0), (0x70677631, .flt 0x0), (0x7433, .flt 0x0), (0x7431, .flt 0x0), (0x6b36, .flt 0x0), (0x677633, .flt 0x0), (0x657073, .flt 0x0), (0x677636, .flt 0x0), (0x7434, .flt 0x0), (0x70677636, .flt 0x0), (0x706d696e, .flt 0x0), (0x6b34, .flt 0x0), (0x70677635, .flt 0x0), (0x706d6178, .flt 0x0), (0x7437, .flt 0x0), (0x6b33, .flt 0x0), (0x7432, .flt 0x0)],
  [0x677631, 0x70677633, 0x756f, 0x6b31, 0x6d7762617365, 0x6b38, 0x7563, 0x677635, 0x6b37, 0x677634, 0x6b, 0x677632, 0x646232, 0x70677634, 0x7436, 0x6b32, 0x646231, 0x7435, 0x6b35, 0x70677632, 0x70677631, 0x7433, 0x7431, 0x6b36, 0x677633, 0x657073, 0x677636, 0x7434, 0x70677636, 0x706d696e, 0x6b34, 0x70677635, 0x706d6178, 0x7437, 0x6b33, 0x7432],
  [(0x677631, .flt 0x0), (0x70677633, .flt 0x0), (0x756f, .flt 0x0), (0x6b31, .flt 0x0), (0x6d7762617365, .flt 0x0), (0x6b38, .flt 0x0), (0x7563, .flt 0x0), (0x677635, .flt 0x0), (0x6b37, .flt 0x0), (0x677634, .flt 0x0), (0x6b, .flt 0x0), (0x677632, .flt 0x0), (0x646232, .flt 0x0), (0x70677634, .flt 0x0), (0x7436, .flt 0x0), (0x6b32, .flt 0x0), (0x646231, .flt 0x0), (0x7435, .flt 0x0), (0x6b35, .flt 0x0), (0x70677632, .flt 0x0), (0x70677631, .flt 0x0), (0x7433, .flt 0x0), (0x7431, .flt 0x0), (0x6b36, .flt 0x0), (0x677633, .flt 0x0), (0x657073, .flt 0x0), (0x677636, .flt 0x0), (0x7434, .flt 0x0), (0x70677636, .flt 0x0), (0x706d696e, .flt 0x0), (0x6b34, .flt 0x0), (0x70677635, .flt 0x0), (0x706d6178, .flt 0x0), (0x7437, .flt 0x0), (0x6b33, .flt 0x0), (0x7432, .flt 0x0)],
  [(0x677631, 0x666c6f6174), (0x70677633, 0x666c6f6174), (0x756f, 0x666c6f6174), (0x6b31, 0x666c6f6174), (0x6d7762617365, 0x666c6f6174), (0x6b38, 0x666c6f6174), (0x7563, 0x666c6f6174), (0x677635, 0x666c6f6174), (0x6b37, 0x666c6f6174), (0x677634, 0x666c6f6174), (0x6b, 0x666c6f6174), (0x677632, 0x666c6f6174), (0x646232, 0x666c6f6174), (0x70677634, 0x666c6f6174), (0x7436, 0x666c6f6174), (0x6b32, 0x666c6f6174), (0x646231, 0x666c6f6174), (0x7435, 0x666c6f6174), (0x6b35, 0x666c6f6174), (0x70677632, 0x666c6f6174), (0x70677631, 0x666c6f6174), (0x7433, 0x666c6f6174), (0x7431, 0x666c6f6174), (0x6b36, 0x666c6f6174), (0x677633, 0x666c6f6174), (0x657073, 0x666c6f6174), (0x677636, 0x666c6f6174), (0x7434, 0x666c6f6174), (0x70677636, 0x666c6f6174), (0x706d696e, 0x666c6f6174), (0x6b34, 0x666c6f6174), (0x70677635, 0x666c6f6174), (0x706d6178, 0x666c6f6174), (0x7437, 0x666c6f6174), (0x6b33, 0x666c6f6174), (0x7432, 0x666c6f6174)],
  [],
  [],
  []⟩
def m_GovSteam1 : List RClass := d_GovSteam1 :: m_TurbineGovernor

/-- CIM14/IEC61970/Dynamics/TurbineGovernors/GovSteamCC.py:23 -/
def d_GovSteamCC : RClass := ⟨0x476f76537465616d4343, 0x43494d31342e49454336313937302e44796e616d6963732e54757262696e65476f7665726e6f72732e476f76537465616d4343, 0x43494d31342e49454336313937302e44796e616d6963732e54757262696e65476f7665726e6f72732e54757262696e65476f7665726e6f72,
  [],
  [],
  [],
  [],
  [],
  [],
  []⟩
def m_GovSteamCC : List RClass := d_GovSteamCC :: m_TurbineGovernor

/-- CIM14/IEC61970/Dynamics/TurbineGovernors/GovSteamEU.py:23 -/
def d_GovSteamEU : RClass := ⟨0x476f76537465616d4555, 0x43494d31342e49454336313937302e44796e616d6963732e54757262696e65476f7665726e6f72732e476f76537465616d4555, 0x43494d31342e49454336313937302e44796e616d6963732e54757262696e65476f7665726e6f72732e54757262696e65476f7665726e6f72,
  [],
  [],
  [],
  [],
  [],
  [],
  []⟩
def m_GovSteamEU : List RClass := d_GovSteamEU :: m_TurbineGovernor

/-- CIM14/IEC61970/Dynamics/TurbineGovernors/GovSteamFV2.py:23 -/
def d_GovSteamFV2 : RClass := ⟨0x476f76537465616d465632, 0x43494d31342e49454336313937302e44796e616d6963732e54757262696e65476f7665726e6f72732e476f76537465616d465632, 0x43494d31342e49454336313937302e44796e616d6963732e54757262696e65476f7665726e6f72732e54757262696e65476f7665726e6f72,
  [],
  [],
  [],
  [],
  [],
  [],
  []⟩
def m_GovSteamFV2 : List RClass := d_GovSteamFV2 :: m_TurbineGovernor

/-- CIM14/IEC61970/Dynamics/TurbineGovernors/GovSteamFV3.py:23 -/
def d_GovSteamFV3 : RClass := ⟨0x476f76537465616d465633, 0x43494d31342e49454336313937302e44796e616d6963732e54757262696e65476f7665726e6f72732e476f76537465616d465633, 0x43494d31342e49454336313937302e44796e616d6963732e54757262696e65476f7665726e6f72732e54757262696e65476f7665726e6f72,
  [],
  [],
  [],
  [],
  [],
  [],
  []⟩
def m_GovSteamFV3 : List RClass := d_GovSteamFV3 :: m_TurbineGovernor

/-- CIM14/IEC61970/Dynamics/TurbineGovernors/GovSteamSGO.py:23 -/
def d_GovSteamSGO : RClass := ⟨0x476f76537465616d53474f, 0x43494d31342e49454336313937302e44796e616d6963732e54757262696e65476f7665726e6f72732e476f76537465616d53474f, 0x43494d31342e49454336313937302e44796e616d6963732e54757262696e65476f7665726e6f72732e54757262696e65476f7665726e6f72,
  [],
  [],
  [],
  [],
  [],
  [],
  []⟩
def m_GovSteamSGO : List RClass := d_GovSteamSGO :: m_TurbineGovernor

/-- CIM14/IEC61970/Dynamics/TurbineGovernors/GovWT1P.py:23 -/
def d_GovWT1P : RClass := ⟨0x476f7657543150, 0x43494d31342e49454336313937302e44796e616d6963732e54757262696e65476f7665726e6f72732e476f7657543150, 0x43494d31342e49454336313937302e44796e616d6963732e54757262696e65476f7665726e6f72732e54757262696e65476f7665726e6f72,
  [],
  [],
  [],
  [],
  [],
  [],
  []⟩
def m_GovWT1P : List RClass := d_GovWT1P :: m_TurbineGovernor

/-- CIM14/IEC61970/Dynamics/TurbineGovernors/GovWT1T.py:23 -/
def d_GovWT1T : RClass := ⟨0x476f7657543154, 0x43494d31342e49454336313937302e44796e616d6963732e54757262696e65476f7665726e6f72732e476f7657543154, 0x43494d31342e49454336313937302e44796e616d6963732e54757262696e65476f7665726e6f72732e54757262696e65476f7665726e6f72,
  [],
  [],
  [],
  [],
  [],
  [],
  []⟩
def m_GovWT1T : List RClass := d_GovWT1T :: m_TurbineGovernor

/-- CIM14/IEC61970/Dynamics/TurbineGovernors/GovWT2P.py:23 -/
def d_GovWT2P : RClass := ⟨0x476f7657543250, 0x43494d31342e49454336313937302e44796e616d6963732e54757262696e65476f7665726e6f72732e476f7657543250, 0x43494d31342e49454336313937302e44796e616d6963732e54757262696e65476f7665726e6f72732e54757262696e65476f7665726e6f72,
  [],
  [],
  [],
  [],
  [],
  [],
  []⟩
def m_GovWT2P : List RClass := d_GovWT2P :: m_TurbineGovernor

/-- CIM14/IEC61970/Dynamics/TurbineGovernors/GovWT2T.py:23 -/
def d_GovWT2T : RClass := ⟨0x476f7657543254, 0x43494d31342e49454336313937302e44796e616d6963732e54757262696e65476f7665726e6f72732e476f7657543254, 0x43494d31342e49454336313937302e44796e616d6963732e54757262696e65476f7665726e6f72732e54757262696e65476f7665726e6f72,
  [],
  [],
  [],
  [],
  [],
  [],
  []⟩
def m_GovWT2T : List RClass := d_GovWT2T :: m_TurbineGovernor

/-- CIM14/IEC61970/Dynamics/TurbineGovernors/GovWT3P.py:23 -/
def d_GovWT3P : RClass := ⟨0x476f7657543350, 0x43494d31342e49454336313937302e44796e616d6963732e54757262696e65476f7665726e6f72732e476f7657543350, 0x43494d31342e49454336313937302e44796e616d6963732e54757262696e65476f7665726e6f72732e54757262696e65476f7665726e6f72,
  [],
  [],
  [],
  [],
  [],
  [],
  []⟩
def m_GovWT3P : List RClass := d_GovWT3P :: m_TurbineGovernor

/-- CIM14/IEC61970/Dynamics/TurbineGovernors/GovWT3T.py:23 -/
def d_GovWT3T : RClass := ⟨0x476f7657543354, 0x43494d31342e49454336313937302e44796e616d6963732e54757262696e65476f7665726e6f72732e476f7657543354, 0x43494d31342e49454336313937302e44796e616d6963732e54757262696e65476f7665726e6f72732e54757262696e65476f7665726e6f72,
  [],
  [],
  [],
  [],
  [],
  [],
  []⟩
def m_GovWT3T : List RClass := d_GovWT3T :: m_TurbineGovernor

/-- CIM14/IEC61970/Dynamics/TurbineGovernors/GovWT4P.py:23 -/
def d_GovWT4P : RClass := ⟨0x476f7657543450, 0x43494d31342e49454336313937302e44796e616d6963732e54757262696e65476f7665726e6f72732e476f7657543450, 0x43494d31342e49454336313937302e44796e616d6963732e54757262696e65476f7665726e6f72732e54757262696e65476f7665726e6f72,
  [],
  [],
  [],
  [],
  [],
  [],
  []⟩
def m_GovWT4P : List RClass := d_GovWT4P :: m_TurbineGovernor

/-- CIM14/IEC61970/Dynamics/TurbineGovernors/GovWT4T.py:23 -/
def d_GovWT4T : RClass := ⟨0x476f7657543454, 0x43494d31342e49454336313937302e44796e616d6963732e54757262696e65476f7665726e6f72732e476f7657543454, 0x43494d31342e49454336313937302e44796e616d6963732e54757262696e65476f7665726e6f72732e54757262696e65476f7665726e6f72,
  [],
  [],
  [],
  [],
  [],
  [],
  []⟩
def m_GovWT4T : List RClass := d_GovWT4T :: m_TurbineGovernor

/-- CIM14/IEC61970/Dynamics/TurbineGovernors/TLCFB1.py:23 -/
def d_TLCFB1 : RClass := ⟨0x544c43464231, 0x43494d31342e49454336313937302e44796e616d6963732e54757262696e65476f7665726e6f72732e544c43464231, 0x43494d31342e49454336313937302e44796e616d6963732e54757262696e65476f7665726e6f72732e54757262696e65476f7665726e6f72,
  [],
  [],
  [],
  [],
  [],
  [],
  []⟩
def m_TLCFB1 : List RClass := d_TLCFB1 :: m_TurbineGovernor

/-- CIM14/IEC61970/Dynamics/UserBlockParameter.py:23 -/
def d_UserBlockParameter : RClass := ⟨0x55736572426c6f636b506172616d65746572, 0x43494d31342e49454336313937302e44796e616d6963732e55736572426c6f636b506172616d65746572, 0x43494d31342e49454336313937302e44796e616d6963732e4d657461426c6f636b506172616d65746572,
  [],
  [],
  [],
  [],
  [],
  [⟨0x426c6f636b5573616765506172616d65746572, .many2one, 0x55736572426c6f636b506172616d65746572, 0, false⟩],
  [0x426c6f636b5573616765506172616d65746572]⟩
def m_UserBlockParameter : List RClass := d_UserBlockParameter :: m_MetaBlockParameter

/-- CIM14/IEC61970/Dynamics/VoltageCompensator/VcompCross.py:23 -/
def d_VcompCross : RClass := ⟨0x56636f6d7043726f7373, 0x43494d31342e49454336313937302e44796e616d6963732e566f6c74616765436f6d70656e7361746f722e56636f6d7043726f7373, 0x43494d31342e49454336313937302e44796e616d6963732e566f6c74616765436f6d70656e7361746f722e566f6c74616765436f6d70656e7361746f72,
  [(0x78636f6d7032, .flt 0x0), (0x72636f6d7032, .flt 0x0)],
  [0x78636f6d7032, 0x72636f6d7032],
  [(0x78636f6d7032, .flt 0x0), (0x72636f6d7032, .flt 0x0)],
  [(0x78636f6d7032, 0x666c6f6174), (0x72636f6d7032, 0x666c6f6174)],
  [],
  [],
  []⟩
def m_VcompCross : List RClass := d_VcompCross :: m_VoltageCompensator

/-- CIM14/IEC61970/Dynamics/VoltageCompensator/VcompIEEE.py:23 -/
def d_VcompIEEE : RClass := ⟨0x56636f6d7049454545, 0x43494d31342e49454336313937302e44796e616d6963732e566f6c74616765436f6d70656e7361746f722e56636f6d7049454545, 0x43494d31342e49454336313937302e44796e616d6963732e566f6c74616765436f6d70656e7361746f722e566f6c74616765436f6d70656e7361746f72,
  [(0x78636f6d70, .flt 0x0), (0x72636f6d70, .flt 0x0)],
  [0x78636f6d70, 0x72636f6d70],
  [(0x78636f6d70, .flt 0x0), (0x72636f6d70, .flt 0x0)],
  [(0x78636f6d70, 0x666c6f6174), (0x72636f6d70, 0x666c6f6174)],
  [],
  [],
  []⟩
def m_VcompIEEE : List RClass := d_VcompIEEE :: m_VoltageCompensator

/-- CIM14/IEC61970/Equivalents/EquivalentNetwork.py:23 -/
def d_EquivalentNetwork : RClass := ⟨0x4571756976616c656e744e6574776f726b, 0x43494d31342e49454336313937302e4571756976616c656e74732e4571756976616c656e744e6574776f726b, 0x43494d31342e49454336313937302e436f72652e436f6e6e65637469766974794e6f6465436f6e7461696e6572,
  [],
  [],
  [],
  [],
  [],
  [⟨0x4571756976616c656e7445717569706d656e7473, .many2one, 0x4571756976616c656e744e6574776f726b, 0, false⟩],
  [0x4571756976616c656e7445717569706d656e7473]⟩
def m_EquivalentNetwork : List RClass := d_EquivalentNetwork :: m_ConnectivityNodeContainer

/-- CIM14/IEC61970/Generation/GenerationDynamics/BWRSteamSupply.py:23 -/
def d_BWRSteamSupply : RClass := ⟨0x425752537465616d537570706c79, 0x43494d31342e49454336313937302e47656e65726174696f6e2e47656e65726174696f6e44796e616d6963732e425752537465616d537570706c79, 0x43494d31342e49454336313937302e47656e65726174696f6e2e47656e65726174696f6e44796e616d6963732e537465616d537570706c79,
  [(0x6c6f7765724c696d6974, .flt 0x0), (0x7072657373757265536574706f696e744741, .flt 0x0), (0x726641757838, .flt 0x0), (0x726641757833, .flt 0x0), (0x726641757832, .flt 0x0), (0x68696768506f7765724c696d6974, .flt 0x0), (0x726f645061747465726e, .flt 0x0), (0x726f645061747465726e436f6e7374616e74, .flt 0x0), (0x696e74656772616c4761696e, .flt 0x0), (0x726641757837, .flt 0x0), (0x70726f706f7274696f6e616c4761696e, .flt 0x0), (0x726641757836, .flt 0x0), (0x7072657373757265536574706f696e74544332, .flt 0x0), (0x726641757831, .flt 0x0), (0x7072657373757265536574706f696e74544331, .flt 0x0), (0x696e436f7265546865726d616c5443, .flt 0x0), (0x75707065724c696d6974, .flt 0x0), (0x726641757834, .flt 0x0), (0x70726573737572654c696d6974, .flt 0x0), (0x726641757835, .flt 0x0), (0x6c6f77506f7765724c696d6974, .flt 0x0)],
  [0x6c6f7765724c696d6974, 0x7072657373757265536574706f696e744741, 0x726641757838, 0x726641757833, 0x726641757832, 0x68696768506f7765724c696d6974, 0x726f645061747465726e, 0x726f645061747465726e436f6e7374616e74, 0x696e74656772616c4761696e, 0x726641757837, 0x70726f706f7274696f6e616c4761696e, 0x726641757836, 0x7072657373757265536574706f696e74544332, 0x726641757831, 0x7072657373757265536574706f696e74544331, 0x696e436f7265546865726d616c5443, 0x75707065724c696d6974, 0x726641757834, 0x70726573737572654c696d6974, 0x726641757835, 0x6c6f77506f7765724c696d6974],
  [(0x6c6f7765724c696d6974, .flt 0x0), (0x7072657373757265536574706f696e744741, .flt 0x0), (0x726641757838, .flt 0x0), (0x726641757833, .flt 0x0), (0x726641757832, .flt 0x0), (0x68696768506f7765724c696d6974, .flt 0x0), (0x726f645061747465726e, .flt 0x0), (0x726f645061747465726e436f6e7374616e74, .flt 0x0), (0x696e74656772616c4761696e, .flt 0x0), (0x726641757837, .flt 0x0), (0x70726f706f7274696f6e616c4761696e, .flt 0x0), (0x726641757836, .flt 0x0), (0x7072657373757265536574706f696e74544332, .flt 0x0), (0x726641757831, .flt 0x0), (0x7072657373757265536574706f696e74544331, .flt 0x0), (0x696e436f7265546865726d616c5443, .flt 0x0), (0x75707065724c696d6974, .flt 0x0), (0x726641757834, .flt 0x0), (0x70726573737572654c696d6974, .flt 0x0), (0x726641757835, .flt 0x0), (0x6c6f77506f7765724c696d6974, .flt 0x0)],
  [(0x6c6f7765724c696d6974, 0x666c6f6174), (0x7072657373757265536574706f696e744741, 0x666c6f6174), (0x726641757838, 0x666c6f6174), (0x726641757833, 0x666c6f6174), (0x726641757832, 0x666c6f6174), (0x68696768506f7765724c696d6974, 0x666c6f6174), (0x726f645061747465726e, 0x666c6f6174), (0x726f645061747465726e436f6e7374616e74, 0x666c6f6174), (0x696e74656772616c4761696e, 0x666c6f6174), (0x726641757837, 0x666c6f6174), (0x70726f706f7274696f6e616c4761696e, 0x666c6f6174), (0x726641757836, 0x666c6f6174), (0x7072657373757265536574706f696e74544332, 0x666c6f6174), (0x726641757831, 0x666c6f6174), (0x7072657373757265536574706f696e74544331, 0x666c6f6174), (0x696e436f7265546865726d616c5443, 0x666c6f6174), (0x75707065724c696d6974, 0x666c6f6174), (0x726641757834, 0x666c6f6174), (0x70726573737572654c696d6974, 0x666c6f6174), (0x726641757835, 0x666c6f6174), (0x6c6f77506f7765724c696d6974, 0x666c6f6174)],
  [],
  [],
  []⟩
def m_BWRSteamSupply : List RClass := d_BWRSteamSupply :: m_SteamSupply

/-- CIM14/IEC61970/Generation/GenerationDynamics/CombustionTurbine.py:23 -/
def d_CombustionTurbine : RClass := ⟨0x436f6d62757374696f6e54757262696e65, 0x43494d31342e49454336313937302e47656e65726174696f6e2e47656e65726174696f6e44796e616d6963732e436f6d62757374696f6e54757262696e65, 0x43494d31342e49454336313937302e47656e65726174696f6e2e47656e65726174696f6e44796e616d6963732e5072696d654d6f766572,
  [(0x6361706162696c6974795665727375734672657175656e6379, .flt 0x0), (0x686561745265636f76657279466c6167, .bool false), (0x74696d65436f6e7374616e74, .flt 0x0), (0x617578506f7765725665727375734672657175656e6379, .flt 0x0), (0x617578506f776572566572737573566f6c74616765, .flt 0x0), (0x7265666572656e636554656d70, .flt 0x0), (0x616d6269656e7454656d70, .flt 0x0), (0x706f776572566172696174696f6e427954656d70, .flt 0x0)],
  [0x6361706162696c6974795665727375734672657175656e6379, 0x686561745265636f76657279466c6167, 0x74696d65436f6e7374616e74, 0x617578506f7765725665727375734672657175656e6379, 0x617578506f776572566572737573566f6c74616765, 0x7265666572656e636554656d70, 0x616d6269656e7454656d70, 0x706f776572566172696174696f6e427954656d70],
  [(0x6361706162696c6974795665727375734672657175656e6379, .flt 0x0), (0x686561745265636f76657279466c6167, .bool false), (0x74696d65436f6e7374616e74, .flt 0x0), (0x617578506f7765725665727375734672657175656e6379, .flt 0x0), (0x617578506f776572566572737573566f6c74616765, .flt 0x0), (0x7265666572656e636554656d70, .flt 0x0), (0x616d6269656e7454656d70, .flt 0x0), (0x706f776572566172696174696f6e427954656d70, .flt 0x0)],
  [(0x6361706162696c6974795665727375734672657175656e6379, 0x666c6f6174), (0x686561745265636f76657279466c6167, 0x626f6f6c), (0x74696d65436f6e7374616e74, 0x666c6f6174), (0x617578506f7765725665727375734672657175656e6379, 0x666c6f6174), (0x617578506f776572566572737573566f6c74616765, 0x666c6f6174), (0x7265666572656e636554656d70, 0x666c6f6174), (0x616d6269656e7454656d70, 0x666c6f6174), (0x706f776572566172696174696f6e427954656d70, 0x666c6f6174)],
  [],
  [⟨0x486561745265636f76657279426f696c6572, .one2many, 0x436f6d62757374696f6e54757262696e6573, 0, false⟩, ⟨0x435454656d70416374697665506f7765724375727665, .one2one, 0x436f6d62757374696f6e54757262696e65, 0, false⟩, ⟨0x416972436f6d70726573736f72, .one2one, 0x436f6d62757374696f6e54757262696e65, 0, false⟩],
  []⟩
def m_CombustionTurbine : List RClass := d_CombustionTurbine :: m_PrimeMover

/-- CIM14/IEC61970/Generation/GenerationDynamics/FossilSteamSupply.py:23 -/
def d_FossilSteamSupply : RClass := ⟨0x466f7373696c537465616d537570706c79, 0x43494d31342e49454336313937302e47656e65726174696f6e2e47656e65726174696f6e44796e616d6963732e466f7373696c537465616d537570706c79, 0x43494d31342e49454336313937302e47656e65726174696f6e2e47656e65726174696f6e44796e616d6963732e537465616d537570706c79,
  [(0x626f696c6572436f6e74726f6c4d6f6465, .str 0x666f6c6c6f77696e67), (0x7375706572486561746572324361706163697479, .flt 0x0), (0x617578506f7765725665727375734672657175656e6379, .flt 0x0), (0x6665656457617465724947, .flt 0x0), (0x636f6e74726f6c504544, .flt 0x0), (0x7468726f74746c6550726573737572655350, .flt 0x0), (0x70726573737572654374726c4947, .flt 0x0), (0x6675656c537570706c7944656c6179, .flt 0x0), (0x636f6e74726f6c504542, .flt 0x0), (0x636f6e74726f6c5443, .flt 0x0), (0x7072657373757265466565646261636b, .int 0), (0x6665656457617465725047, .flt 0x0), (0x636f6e74726f6c4943, .flt 0x0), (0x636f6e74726f6c5043, .flt 0x0), (0x6d696e4572726f725261746550, .flt 0x0), (0x6675656c537570706c795443, .flt 0x0), (0x6675656c44656d616e644c696d6974, .flt 0x0), (0x6d656368506f77657253656e736f724c6167, .flt 0x0), (0x70726573737572654374726c4447, .flt 0x0), (0x6d61784572726f725261746550, .flt 0x0), (0x7375706572486561746572506970655044, .flt 0x0), (0x636f6e74726f6c4572726f724269617350, .flt 0x0), (0x6665656457617465725443, .flt 0x0), (0x7375706572486561746572314361706163697479, .flt 0x0), (0x617578506f776572566572737573566f6c74616765, .flt 0x0), (0x70726573737572654374726c5047, .flt 0x0)],
  [0x626f696c6572436f6e74726f6c4d6f6465, 0x7375706572486561746572324361706163697479, 0x617578506f7765725665727375734672657175656e6379, 0x6665656457617465724947, 0x636f6e74726f6c504544, 0x7468726f74746c6550726573737572655350, 0x70726573737572654374726c4947, 0x6675656c537570706c7944656c6179, 0x636f6e74726f6c504542, 0x636f6e74726f6c5443, 0x7072657373757265466565646261636b, 0x6665656457617465725047, 0x636f6e74726f6c4943, 0x636f6e74726f6c5043, 0x6d696e4572726f725261746550, 0x6675656c537570706c795443, 0x6675656c44656d616e644c696d6974, 0x6d656368506f77657253656e736f724c6167, 0x70726573737572654374726c4447, 0x6d61784572726f725261746550, 0x7375706572486561746572506970655044, 0x636f6e74726f6c4572726f724269617350, 0x6665656457617465725443, 0x7375706572486561746572314361706163697479, 0x617578506f776572566572737573566f6c74616765, 0x70726573737572654374726c5047],
  [(0x626f696c6572436f6e74726f6c4d6f6465, .str 0x666f6c6c6f77696e67), (0x7375706572486561746572324361706163697479, .flt 0x0), (0x617578506f7765725665727375734672657175656e6379, .flt 0x0), (0x6665656457617465724947, .flt 0x0), (0x636f6e74726f6c504544, .flt 0x0), (0x7468726f74746c6550726573737572655350, .flt 0x0), (0x70726573737572654374726c4947, .flt 0x0), (0x6675656c537570706c7944656c6179, .flt 0x0), (0x636f6e74726f6c504542, .flt 0x0), (0x636f6e74726f6c5443, .flt 0x0), (0x7072657373757265466565646261636b, .int 0), (0x6665656457617465725047, .flt 0x0), (0x636f6e74726f6c4943, .flt 0x0), (0x636f6e74726f6c5043, .flt 0x0), (0x6d696e4572726f725261746550, .flt 0x0), (0x6675656c537570706c795443, .flt 0x0), (0x6675656c44656d616e644c696d6974, .flt 0x0), (0x6d656368506f77657253656e736f724c6167, .flt 0x0), (0x70726573737572654374726c4447, .flt 0x0), (0x6d61784572726f725261746550, .flt 0x0), (0x7375706572486561746572506970655044, .flt 0x0), (0x636f6e74726f6c4572726f724269617350, .flt 0x0), (0x6665656457617465725443, .flt 0x0), (0x7375706572486561746572314361706163697479, .flt 0x0), (0x617578506f776572566572737573566f6c74616765, .flt 0x0), (0x70726573737572654374726c5047, .flt 0x0)],
  [(0x626f696c6572436f6e74726f6c4d6f6465, 0x737472), (0x7375706572486561746572324361706163697479, 0x666c6f6174), (0x617578506f7765725665727375734672657175656e6379, 0x666c6f6174), (0x6665656457617465724947, 0x666c6f6174), (0x636f6e74726f6c504544, 0x666c6f6174), (0x7468726f74746c6550726573737572655350, 0x666c6f6174), (0x70726573737572654374726c4947, 0x666c6f6174), (0x6675656c537570706c7944656c6179, 0x666c6f6174), (0x636f6e74726f6c504542, 0x666c6f6174), (0x636f6e74726f6c5443, 0x666c6f6174), (0x7072657373757265466565646261636b, 0x696e74), (0x6665656457617465725047, 0x666c6f6174), (0x636f6e74726f6c4943, 0x666c6f6174), (0x636f6e74726f6c5043, 0x666c6f6174), (0x6d696e4572726f725261746550, 0x666c6f6174), (0x6675656c537570706c795443, 0x666c6f6174), (0x6675656c44656d616e644c696d6974, 0x666c6f6174), (0x6d656368506f77657253656e736f724c6167, 0x666c6f6174), (0x70726573737572654374726c4447, 0x666c6f6174), (0x6d61784572726f725261746550, 0x666c6f6174), (0x7375706572486561746572506970655044, 0x666c6f6174), (0x636f6e74726f6c4572726f724269617350, 0x666c6f6174), (0x6665656457617465725443, 0x666c6f6174), (0x7375706572486561746572314361706163697479, 0x666c6f6174), (0x617578506f776572566572737573566f6c74616765, 0x666c6f6174), (0x70726573737572654374726c5047, 0x666c6f6174)],
  [(0x626f696c6572436f6e74726f6c4d6f6465, 0x426f696c6572436f6e74726f6c4d6f6465)],
  [],
  []⟩
def m_FossilSteamSupply : List RClass := d_FossilSteamSupply :: m_SteamSupply

/-- CIM14/IEC61970/Generation/GenerationDynamics/HydroTurbine.py:23 -/
def d_HydroTurbine : RClass := ⟨0x487964726f54757262696e65, 0x43494d31342e49454336313937302e47656e65726174696f6e2e47656e65726174696f6e44796e616d6963732e487964726f54757262696e65, 0x43494d31342e49454336313937302e47656e65726174696f6e2e47656e65726174696f6e44796e616d6963732e5072696d654d6f766572,
  [(0x74757262696e6554797065, .str 0x6672616e636973), (0x74757262696e65526174696e67, .flt 0x0), (0x6d6178486561644d617850, .flt 0x0), (0x7472616e7369656e7444726f6f7054696d65, .flt 0x0), (0x7370656564526567756c6174696f6e, .flt 0x0), (0x77617465725374617274696e6754696d65, .flt 0x0), (0x7370656564526174696e67, .flt 0x0), (0x7472616e7369656e74526567756c6174696f6e, .flt 0x0), (0x6761746555707065724c696d6974, .flt 0x0), (0x6d696e486561644d617850, .flt 0x0), (0x67617465526174654c696d6974, .flt 0x0)],
  [0x74757262696e6554797065, 0x74757262696e65526174696e67, 0x6d6178486561644d617850, 0x7472616e7369656e7444726f6f7054696d65, 0x7370656564526567756c6174696f6e, 0x77617465725374617274696e6754696d65, 0x7370656564526174696e67, 0x7472616e7369656e74526567756c6174696f6e, 0x6761746555707065724c696d6974, 0x6d696e486561644d617850, 0x67617465526174654c696d6974],
  [(0x74757262696e6554797065, .str 0x6672616e636973), (0x74757262696e65526174696e67, .flt 0x0), (0x6d6178486561644d617850, .flt 0x0), (0x7472616e7369656e7444726f6f7054696d65, .flt 0x0), (0x7370656564526567756c6174696f6e, .flt 0x0), (0x77617465725374617274696e6754696d65, .flt 0x0), (0x7370656564526174696e67, .flt 0x0), (0x7472616e7369656e74526567756c6174696f6e, .flt 0x0), (0x6761746555707065724c696d6974, .flt 0x0), (0x6d696e486561644d617850, .flt 0x0), (0x67617465526174654c696d6974, .flt 0x0)],
  [(0x74757262696e6554797065, 0x737472), (0x74757262696e65526174696e67, 0x666c6f6174), (0x6d6178486561644d617850, 0x666c6f6174), (0x7472616e7369656e7444726f6f7054696d65, 0x666c6f6174), (0x7370656564526567756c6174696f6e, 0x666c6f6174), (0x77617465725374617274696e6754696d65, 0x666c6f6174), (0x7370656564526174696e67, 0x666c6f6174), (0x7472616e7369656e74526567756c6174696f6e, 0x666c6f6174), (0x6761746555707065724c696d6974, 0x666c6f6174), (0x6d696e486561644d617850, 0x666c6f6174), (0x67617465526174654c696d6974, 0x666c6f6174)],
  [(0x74757262696e6554797065, 0x54757262696e6554797065)],
  [⟨0x487964726f54757262696e65476f7665726e6f72, .one2one, 0x487964726f54757262696e65, 0, false⟩],
  []⟩
def m_HydroTurbine : List RClass := d_HydroTurbine :: m_PrimeMover

/-- CIM14/IEC61970/Generation/GenerationDynamics/PWRSteamSupply.py:23 -/
def d_PWRSteamSupply : RClass := ⟨0x505752537465616d537570706c79, 0x43494d31342e49454336313937302e47656e65726174696f6e2e47656e65726174696f6e44796e616d6963732e505752537465616d537570706c79, 0x43494d31342e49454336313937302e47656e65726174696f6e2e47656e65726174696f6e44796e616d6963732e537465616d537570706c79,
  [(0x70726573737572654347, .flt 0x0), (0x7468726f74746c6550726573737572655350, .flt 0x0), (0x636f6c644c656746424c61675443, .flt 0x0), (0x686f744c6567537465616d4761696e, .flt 0x0), (0x636f726548544c6167544332, .flt 0x0), (0x636f726548544c6167544331, .flt 0x0), (0x636f72654e657574726f6e6963734854, .flt 0x0), (0x636f6c644c656746424c656164544331, .flt 0x0), (0x666565646261636b466163746f72, .flt 0x0), (0x636f72654e657574726f6e6963734566665443, .flt 0x0), (0x737465616d466c6f774647, .flt 0x0), (0x737465616d507265737375726544726f704c61675443, .flt 0x0), (0x737465616d50726573737572654647, .flt 0x0), (0x636f6c644c6567464731, .flt 0x0), (0x7468726f74746c655072657373757265466163746f72, .flt 0x0), (0x636f6c644c656746424c656164544332, .flt 0x0), (0x686f744c6567546f436f6c644c65674761696e, .flt 0x0), (0x636f6c644c6567464732, .flt 0x0), (0x686f744c65674c61675443, .flt 0x0), (0x636f6c644c65674c61675443, .flt 0x0)],
  [0x70726573737572654347, 0x7468726f74746c6550726573737572655350, 0x636f6c644c656746424c61675443, 0x686f744c6567537465616d4761696e, 0x636f726548544c6167544332, 0x636f726548544c6167544331, 0x636f72654e657574726f6e6963734854, 0x636f6c644c656746424c656164544331, 0x666565646261636b466163746f72, 0x636f72654e657574726f6e6963734566665443, 0x737465616d466c6f774647, 0x737465616d507265737375726544726f704c61675443, 0x737465616d50726573737572654647, 0x636f6c644c6567464731, 0x7468726f74746c655072657373757265466163746f72, 0x636f6c644c656746424c656164544332, 0x686f744c6567546f436f6c644c65674761696e, 0x636f6c644c6567464732, 0x686f744c65674c61675443, 0x636f6c644c65674c61675443],
  [(0x70726573737572654347, .flt 0x0), (0x7468726f74746c6550726573737572655350, .flt 0x0), (0x636f6c644c656746424c61675443, .flt 0x0), (0x686f744c6567537465616d4761696e, .flt 0x0), (0x636f726548544c6167544332, .flt 0x0), (0x636f726548544c6167544331, .flt 0x0), (0x636f72654e657574726f6e6963734854, .flt 0x0), (0x636f6c644c656746424c656164544331, .flt 0x0), (0x666565646261636b466163746f72, .flt 0x0), (0x636f72654e657574726f6e6963734566665443, .flt 0x0), (0x737465616d466c6f774647, .flt 0x0), (0x737465616d507265737375726544726f704c61675443, .flt 0x0), (0x737465616d50726573737572654647, .flt 0x0), (0x636f6c644c6567464731, .flt 0x0), (0x7468726f74746c655072657373757265466163746f72, .flt 0x0), (0x636f6c644c656746424c656164544332, .flt 0x0), (0x686f744c6567546f436f6c644c65674761696e, .flt 0x0), (0x636f6c644c6567464732, .flt 0x0), (0x686f744c65674c61675443, .flt 0x0), (0x636f6c644c65674c61675443, .flt 0x0)],
  [(0x70726573737572654347, 0x666c6f6174), (0x7468726f74746c6550726573737572655350, 0x666c6f6174), (0x636f6c644c656746424c61675443, 0x666c6f6174), (0x686f744c6567537465616d4761696e, 0x666c6f6174), (0x636f726548544c6167544332, 0x666c6f6174), (0x636f726548544c6167544331, 0x666c6f6174), (0x636f72654e657574726f6e6963734854, 0x666c6f6174), (0x636f6c644c656746424c656164544331, 0x666c6f6174), (0x666565646261636b466163746f72, 0x666c6f6174), (0x636f72654e657574726f6e6963734566665443, 0x666c6f6174), (0x737465616d466c6f774647, 0x666c6f6174), (0x737465616d507265737375726544726f704c61675443, 0x666c6f6174), (0x737465616d50726573737572654647, 0x666c6f6174), (0x636f6c644c6567464731, 0x666c6f6174), (0x7468726f74746c655072657373757265466163746f72, 0x666c6f6174), (0x636f6c644c656746424c656164544332, 0x666c6f6174), (0x686f744c6567546f436f6c644c65674761696e, 0x666c6f6174), (0x636f6c644c6567464732, 0x666c6f6174), (0x686f744c65674c61675443, 0x666c6f6174), (0x636f6c644c65674c61675443, 0x666c6f6174)],
  [],
  [],
  []⟩
def m_PWRSteamSupply : List RClass := d_PWRSteamSupply :: m_SteamSupply

/-- CIM14/IEC61970/Generation/GenerationDynamics/SteamTurbine.py:23 -/
def d_SteamTurbine : RClass := ⟨0x537465616d54757262696e65, 0x43494d31342e49454336313937302e47656e65726174696f6e2e47656e65726174696f6e44796e616d6963732e537465616d54757262696e65, 0x43494d31342e49454336313937302e47656e65726174696f6e2e47656e65726174696f6e44796e616d6963732e5072696d654d6f766572,
  [(0x7265686561746572325443, .flt 0x0), (0x736861667431506f7765724950, .flt 0x0), (0x736861667431506f7765724c5032, .flt 0x0), (0x7265686561746572315443, .flt 0x0), (0x737465616d43686573745443, .flt 0x0), (0x63726f73736f7665725443, .flt 0x0), (0x736861667432506f7765724850, .flt 0x0), (0x736861667432506f7765724c5032, .flt 0x0), (0x736861667432506f7765724950, .flt 0x0), (0x736861667431506f7765724850, .flt 0x0), (0x736861667431506f7765724c5031, .flt 0x0), (0x736861667432506f7765724c5031, .flt 0x0)],
  [0x7265686561746572325443, 0x736861667431506f7765724950, 0x736861667431506f7765724c5032, 0x7265686561746572315443, 0x737465616d43686573745443, 0x63726f73736f7665725443, 0x736861667432506f7765724850, 0x736861667432506f7765724c5032, 0x736861667432506f7765724950, 0x736861667431506f7765724850, 0x736861667431506f7765724c5031, 0x736861667432506f7765724c5031],
  [(0x7265686561746572325443, .flt 0x0), (0x736861667431506f7765724950, .flt 0x0), (0x736861667431506f7765724c5032, .flt 0x0), (0x7265686561746572315443, .flt 0x0), (0x737465616d43686573745443, .flt 0x0), (0x63726f73736f7665725443, .flt 0x0), (0x736861667432506f7765724850, .flt 0x0), (0x736861667432506f7765724c5032, .flt 0x0), (0x736861667432506f7765724950, .flt 0x0), (0x736861667431506f7765724850, .flt 0x0), (0x736861667431506f7765724c5031, .flt 0x0), (0x736861667432506f7765724c5031, .flt 0x0)],
  [(0x7265686561746572325443, 0x666c6f6174), (0x736861667431506f7765724950, 0x666c6f6174), (0x736861667431506f7765724c5032, 0x666c6f6174), (0x7265686561746572315443, 0x666c6f6174), (0x737465616d43686573745443, 0x666c6f6174), (0x63726f73736f7665725443, 0x666c6f6174), (0x736861667432506f7765724850, 0x666c6f6174), (0x736861667432506f7765724c5032, 0x666c6f6174), (0x736861667432506f7765724950, 0x666c6f6174), (0x736861667431506f7765724850, 0x666c6f6174), (0x736861667431506f7765724c5031, 0x666c6f6174), (0x736861667432506f7765724c5031, 0x666c6f6174)],
  [],
  [⟨0x537465616d537570706c7973, .many2many, 0x537465616d54757262696e6573, 0, false⟩],
  [0x537465616d537570706c7973]⟩
def m_SteamTurbine : List RClass := d_SteamTurbine :: m_PrimeMover

/-- CIM14/IEC61970/Generation/Production/GenUnitOpSchedule.py:23 -/
def d_GenUnitOpSchedule : RClass := ⟨0x47656e556e69744f705363686564756c65, 0x43494d31342e49454336313937302e47656e65726174696f6e2e50726f64756374696f6e2e47656e556e69744f705363686564756c65, 0x43494d31342e49454336313937302e436f72652e526567756c6172496e74657276616c5363686564756c65,
  [],
  [],
  [],
  [],
  [],
  [⟨0x47656e65726174696e67556e6974, .one2one, 0x47656e556e69744f705363686564756c65, 0, false⟩],
  []⟩
def m_GenUnitOpSchedule : List RClass := d_GenUnitOpSchedule :: m_RegularIntervalSchedule

/-- CIM14/IEC61970/Generation/Production/GeneratingUnit.py:23 -/
def d_GeneratingUnit : RClass := ⟨0x47656e65726174696e67556e6974, 0x43494d31342e49454336313937302e47656e65726174696f6e2e50726f64756374696f6e2e47656e65726174696e67556e6974, 0x43494d31342e49454336313937302e436f72652e45717569706d656e74,
  [(0x67656e436f6e74726f6c4d6f6465, .str 0x736574706f696e74), (0x67656e4f7065726174696e674d6f6465, .str 0x6669786564), (0x67656e436f6e74726f6c536f75726365, .str 0x756e617661696c61626c65), (0x7374617274757054696d65, .flt 0x0), (0x6d696e696d756d4f666654696d65, .flt 0x0), (0x7370696e5265736572766552616d70, .flt 0x0), (0x636f6e74726f6c4465616462616e64, .flt 0x0), (0x6d61784f7065726174696e6750, .flt 0x0), (0x666173745374617274466c6167, .bool false), (0x6c6f77436f6e74726f6c4c696d6974, .flt 0x0), (0x6261736550, .flt 0x0), (0x6d617845636f6e6f6d696350, .flt 0x0), (0x656666696369656e6379, .flt 0x0), (0x73686f72745046, .flt 0x0), (0x6c6f77657252616d7052617465, .flt 0x0), (0x737465704368616e6765, .flt 0x0), (0x70656e616c7479466163746f72, .flt 0x0), (0x6c6f6e675046, .flt 0x0), (0x726174656447726f73734d696e50, .flt 0x0), (0x726174656447726f73734d617850, .flt 0x0), (0x6469737052657365727665466c6167, .bool false), (0x7661726961626c65436f7374, .flt 0x0), (0x6d6f64656c44657461696c, .int 0), (0x656e657267794d696e50, .flt 0x0), (0x6d6178696d756d416c6c6f7761626c655370696e6e696e6752657365727665, .flt 0x0), (0x6675656c5072696f72697479, .int 0), (0x726169736552616d7052617465, .flt 0x0), (0x6e6f6d696e616c50, .flt 0x0), (0x6e6f726d616c5046, .flt 0x0), (0x676f7665726e6f724d504c, .flt 0x0), (0x72617465644e65744d617850, .flt 0x0), (0x636f6e74726f6c526573706f6e736552617465, .flt 0x0), (0x7469654c696e655046, .flt 0x0), (0x676f7665726e6f72534344, .flt 0x0), (0x636f6e74726f6c50756c73654c6f77, .flt 0x0), (0x68696768436f6e74726f6c4c696d6974, .flt 0x0), (0x696e697469616c50, .flt 0x0), (0x6d696e45636f6e6f6d696350, .flt 0x0), (0x6175746f436e74726c4d617267696e50, .flt 0x0), (0x616c6c6f635370696e52657350, .flt 0x0), (0x73746172747570436f7374, .flt 0x0), (0x6d696e4f7065726174696e6750, .flt 0x0), (0x636f6e74726f6c50756c736548696768, .flt 0x0)],
  [0x67656e436f6e74726f6c4d6f6465, 0x67656e4f7065726174696e674d6f6465, 0x67656e436f6e74726f6c536f75726365, 0x7374617274757054696d65, 0x6d696e696d756d4f666654696d65, 0x7370696e5265736572766552616d70, 0x636f6e74726f6c4465616462616e64, 0x6d61784f7065726174696e6750, 0x666173745374617274466c6167, 0x6c6f77436f6e74726f6c4c696d6974, 0x6261736550, 0x6d617845636f6e6f6d696350, 0x656666696369656e6379, 0x73686f72745046, 0x6c6f77657252616d7052617465, 0x737465704368616e6765, 0x70656e616c7479466163746f72, 0x6c6f6e675046, 0x726174656447726f73734d696e50, 0x726174656447726f73734d617850, 0x6469737052657365727665466c6167, 0x7661726961626c65436f7374, 0x6d6f64656c44657461696c, 0x656e657267794d696e50, 0x6d6178696d756d416c6c6f7761626c655370696e6e696e6752657365727665, 0x6675656c5072696f72697479, 0x726169736552616d7052617465, 0x6e6f6d696e616c50, 0x6e6f726d616c5046, 0x676f7665726e6f724d504c, 0x72617465644e65744d617850, 0x636f6e74726f6c526573706f6e736552617465, 0x7469654c696e655046, 0x676f7665726e6f72534344, 0x636f6e74726f6c50756c73654c6f77, 0x68696768436f6e74726f6c4c696d6974, 0x696e697469616c50, 0x6d696e45636f6e6f6d696350, 0x6175746f436e74726c4d617267696e50, 0x616c6c6f635370696e52657350, 0x73746172747570436f7374, 0x6d696e4f7065726174696e6750, 0x636f6e74726f6c50756c736548696768],
  [(0x67656e436f6e74726f6c4d6f6465, .str 0x736574706f696e74), (0x67656e4f7065726174696e674d6f6465, .str 0x6669786564), (0x67656e436f6e74726f6c536f75726365, .str 0x756e617661696c61626c65), (0x7374617274757054696d65, .flt 0x0), (0x6d696e696d756d4f666654696d65, .flt 0x0), (0x7370696e5265736572766552616d70, .flt 0x0), (0x636f6e74726f6c4465616462616e64, .flt 0x0), (0x6d61784f7065726174696e6750, .flt 0x0), (0x666173745374617274466c6167, .bool false), (0x6c6f77436f6e74726f6c4c696d6974, .flt 0x0), (0x6261736550, .flt 0x0), (0x6d617845636f6e6f6d696350, .flt 0x0), (0x656666696369656e6379, .flt 0x0), (0x73686f72745046, .flt 0x0), (0x6c6f77657252616d7052617465, .flt 0x0), (0x737465704368616e6765, .flt 0x0), (0x70656e616c7479466163746f72, .flt 0x0), (0x6c6f6e675046, .flt 0x0), (0x726174656447726f73734d696e50, .flt 0x0), (0x726174656447726f73734d617850, .flt 0x0), (0x6469737052657365727665466c6167, .bool false), (0x7661726961626c65436f7374, .flt 0x0), (0x6d6f64656c44657461696c, .int 0), (0x656e657267794d696e50, .flt 0x0), (0x6d6178696d756d416c6c6f7761626c655370696e6e696e6752657365727665, .flt 0x0), (0x6675656c5072696f72697479, .int 0), (0x726169736552616d7052617465, .flt 0x0), (0x6e6f6d696e616c50, .flt 0x0), (0x6e6f726d616c5046, .flt 0x0), (0x676f7665726e6f724d504c, .flt 0x0), (0x72617465644e65744d617850, .flt 0x0), (0x636f6e74726f6c526573706f6e736552617465, .flt 0x0), (0x7469654c696e655046, .flt 0x0), (0x676f7665726e6f72534344, .flt 0x0), (0x636f6e74726f6c50756c73654c6f77, .flt 0x0), (0x68696768436f6e74726f6c4c696d6974, .flt 0x0), (0x696e697469616c50, .flt 0x0), (0x6d696e45636f6e6f6d696350, .flt 0x0), (0x6175746f436e74726c4d617267696e50, .flt 0x0), (0x616c6c6f635370696e52657350, .flt 0x0), (0x73746172747570436f7374, .flt 0x0), (0x6d696e4f7065726174696e6750, .flt 0x0), (0x636f6e74726f6c50756c736548696768, .flt 0x0)],
  [(0x67656e436f6e74726f6c4d6f6465, 0x737472), (0x67656e4f7065726174696e674d6f6465, 0x737472), (0x67656e436f6e74726f6c536f75726365, 0x737472), (0x7374617274757054696d65, 0x666c6f6174), (0x6d696e696d756d4f666654696d65, 0x666c6f6174), (0x7370696e5265736572766552616d70, 0x666c6f6174), (0x636f6e74726f6c4465616462616e64, 0x666c6f6174), (0x6d61784f7065726174696e6750, 0x666c6f6174), (0x666173745374617274466c6167, 0x626f6f6c), (0x6c6f77436f6e74726f6c4c696d6974, 0x666c6f6174), (0x6261736550, 0x666c6f6174), (0x6d617845636f6e6f6d696350, 0x666c6f6174), (0x656666696369656e6379, 0x666c6f6174), (0x73686f72745046, 0x666c6f6174), (0x6c6f77657252616d7052617465, 0x666c6f6174), (0x737465704368616e6765, 0x666c6f6174), (0x70656e616c7479466163746f72, 0x666c6f6174), (0x6c6f6e675046, 0x666c6f6174), (0x726174656447726f73734d696e50, 0x666c6f6174), (0x726174656447726f73734d617850, 0x666c6f6174), (0x6469737052657365727665466c6167, 0x626f6f6c), (0x7661726961626c65436f7374, 0x666c6f6174), (0x6d6f64656c44657461696c, 0x696e74), (0x656e657267794d696e50, 0x666c6f6174), (0x6d6178696d756d416c6c6f7761626c655370696e6e696e6752657365727665, 0x666c6f6174), (0x6675656c5072696f72697479, 0x696e74), (0x726169736552616d7052617465, 0x666c6f6174), (0x6e6f6d696e616c50, 0x666c6f6174), (0x6e6f726d616c5046, 0x666c6f6174), (0x676f7665726e6f724d504c, 0x666c6f6174), (0x72617465644e65744d617850, 0x666c6f6174), (0x636f6e74726f6c526573706f6e736552617465, 0x666c6f6174), (0x7469654c696e655046, 0x666c6f6174), (0x676f7665726e6f72534344, 0x666c6f6174), (0x636f6e74726f6c50756c73654c6f77, 0x666c6f6174), (0x68696768436f6e74726f6c4c696d6974, 0x666c6f6174), (0x696e697469616c50, 0x666c6f6174), (0x6d696e45636f6e6f6d696350, 0x666c6f6174), (0x6175746f436e74726c4d617267696e50, 0x666c6f6174), (0x616c6c6f635370696e52657350, 0x666c6f6174), (0x73746172747570436f7374, 0x666c6f6174), (0x6d696e4f7065726174696e6750, 0x666c6f6174), (0x636f6e74726f6c50756c736548696768, 0x666c6f6174)],
  [(0x67656e436f6e74726f6c4d6f6465, 0x47656e657261746f72436f6e74726f6c4d6f6465), (0x67656e4f7065726174696e674d6f6465, 0x47656e657261746f724f7065726174696e674d6f6465), (0x67656e436f6e74726f6c536f75726365, 0x47656e657261746f72436f6e74726f6c536f75726365)],
  [⟨0x53796e6368726f6e6f75734d616368696e6573, .many2one, 0x47656e65726174696e67556e6974, 0, false⟩, ⟨0x47726f7373546f4e6574416374697665506f776572437572766573, .many2one, 0x47656e65726174696e67556e6974, 0, false⟩, ⟨0x47656e556e69744f70436f7374437572766573, .many2one, 0x47656e65726174696e67556e6974, 0, false⟩, ⟨0x47656e556e69744f705363686564756c65, .one2one, 0x47656e65726174696e67556e6974, 0, false⟩, ⟨0x436f6e74726f6c4172656147656e65726174696e67556e6974, .many2one, 0x47656e65726174696e67556e6974, 0, false⟩],
  [0x53796e6368726f6e6f75734d616368696e6573, 0x47726f7373546f4e6574416374697665506f776572437572766573, 0x47656e556e69744f70436f7374437572766573, 0x436f6e74726f6c4172656147656e65726174696e67556e6974]⟩
def m_GeneratingUnit : List RClass := d_GeneratingUnit :: m_Equipment

/-- CIM14/IEC61970/Generation/Production/HydroPumpOpSchedule.py:23 -/
def d_HydroPumpOpSchedule : RClass := ⟨0x487964726f50756d704f705363686564756c65, 0x43494d31342e49454336313937302e47656e65726174696f6e2e50726f64756374696f6e2e487964726f50756d704f705363686564756c65, 0x43494d31342e49454336313937302e436f72652e526567756c6172496e74657276616c5363686564756c65,
  [],
  [],
  [],
  [],
  [],
  [⟨0x487964726f50756d70, .one2one, 0x487964726f50756d704f705363686564756c65, 0, false⟩],
  []⟩
def m_HydroPumpOpSchedule : List RClass := d_HydroPumpOpSchedule :: m_RegularIntervalSchedule

/-- CIM14/IEC61970/Generation/Production/InflowForecast.py:23 -/
def d_InflowForecast : RClass := ⟨0x496e666c6f77466f726563617374, 0x43494d31342e49454336313937302e47656e65726174696f6e2e50726f64756374696f6e2e496e666c6f77466f726563617374, 0x43494d31342e49454336313937302e436f72652e526567756c6172496e74657276616c5363686564756c65,
  [],
  [],
  [],
  [],
  [],
  [⟨0x5265736572766f6972, .one2many, 0x496e666c6f77466f72656361737473, 0, false⟩],
  []⟩
def m_InflowForecast : List RClass := d_InflowForecast :: m_RegularIntervalSchedule

/-- CIM14/IEC61970/Generation/Production/SteamSendoutSchedule.py:23 -/
def d_SteamSendoutSchedule : RClass := ⟨0x537465616d53656e646f75745363686564756c65, 0x43494d31342e49454336313937302e47656e65726174696f6e2e50726f64756374696f6e2e537465616d53656e646f75745363686564756c65, 0x43494d31342e49454336313937302e436f72652e526567756c6172496e74657276616c5363686564756c65,
  [],
  [],
  [],
  [],
  [],
  [⟨0x436f67656e65726174696f6e506c616e74, .one2one, 0x537465616d53656e646f75745363686564756c65, 0, false⟩],
  []⟩
def m_SteamSendoutSchedule : List RClass := d_SteamSendoutSchedule :: m_RegularIntervalSchedule

/-- CIM14/IEC61970/LoadModel/SeasonDayTypeSchedule.py:23 -/
def d_SeasonDayTypeSchedule : RClass := ⟨0x536561736f6e446179547970655363686564756c65, 0x43494d31342e49454336313937302e4c6f61644d6f64656c2e536561736f6e446179547970655363686564756c65, 0x43494d31342e49454336313937302e436f72652e526567756c6172496e74657276616c5363686564756c65,
  [],
  [],
  [],
  [],
  [],
  [⟨0x536561736f6e, .one2many, 0x536561736f6e446179547970655363686564756c6573, 0, false⟩, ⟨0x44617954797065, .one2many, 0x536561736f6e446179547970655363686564756c6573, 0, false⟩],
  []⟩
def m_SeasonDayTypeSchedule : List RClass := d_SeasonDayTypeSchedule :: m_RegularIntervalSchedule

/-- CIM14/IEC61970/Meas/CurrentTransformer.py:23 -/
def d_CurrentTransformer : RClass := ⟨0x43757272656e745472616e73666f726d6572, 0x43494d31342e49454336313937302e4d6561732e43757272656e745472616e73666f726d6572, 0x43494d31342e49454336313937302e436f72652e45717569706d656e74,
  [(0x6d6178526174696f, .flt 0x0), (0x6163637572616379436c617373, .str 0), (0x636f7265436f756e74, .int 0), (0x6374436c617373, .str 0), (0x7573616765, .str 0), (0x61636375726163794c696d6974, .str 0)],
  [0x6d6178526174696f, 0x6163637572616379436c617373, 0x636f7265436f756e74, 0x6374436c617373, 0x7573616765, 0x61636375726163794c696d6974],
  [(0x6d6178526174696f, .flt 0x0), (0x6163637572616379436c617373, .str 0), (0x636f7265436f756e74, .int 0), (0x6374436c617373, .str 0), (0x7573616765, .str 0), (0x61636375726163794c696d6974, .str 0)],
  [(0x6d6178526174696f, 0x666c6f6174), (0x6163637572616379436c617373, 0x737472), (0x636f7265436f756e74, 0x696e74), (0x6374436c617373, 0x737472), (0x7573616765, 0x737472), (0x61636375726163794c696d6974, 0x737472)],
  [],
  [],
  []⟩
def m_CurrentTransformer : List RClass := d_CurrentTransformer :: m_Equipment

/-- CIM14/IEC61970/Meas/PotentialTransformer.py:23 -/
def d_PotentialTransformer : RClass := ⟨0x506f74656e7469616c5472616e73666f726d6572, 0x43494d31342e49454336313937302e4d6561732e506f74656e7469616c5472616e73666f726d6572, 0x43494d31342e49454336313937302e436f72652e45717569706d656e74,
  [(0x7074436c617373, .str 0), (0x6163637572616379436c617373, .str 0), (0x6e6f6d696e616c526174696f, .flt 0x0)],
  [0x7074436c617373, 0x6163637572616379436c617373, 0x6e6f6d696e616c526174696f],
  [(0x7074436c617373, .str 0), (0x6163637572616379436c617373, .str 0), (0x6e6f6d696e616c526174696f, .flt 0x0)],
  [(0x7074436c617373, 0x737472), (0x6163637572616379436c617373, 0x737472), (0x6e6f6d696e616c526174696f, 0x666c6f6174)],
  [],
  [],
  []⟩
def m_PotentialTransformer : List RClass := d_PotentialTransformer :: m_Equipment

/-- CIM14/IEC61970/Outage/OutageSchedule.py:23 -/
def d_OutageSchedule : RClass := ⟨0x4f75746167655363686564756c65, 0x43494d31342e49454336313937302e4f75746167652e4f75746167655363686564756c65, 0x43494d31342e49454336313937302e436f72652e4972726567756c6172496e74657276616c5363686564756c65,
  [],
  [],
  [],
  [],
  [],
  [⟨0x537769746368696e674f7065726174696f6e73, .many2one, 0x4f75746167655363686564756c65, 0, false⟩, ⟨0x506f77657253797374656d5265736f75726365, .one2one, 0x4f75746167655363686564756c65, 0, false⟩],
  [0x537769746368696e674f7065726174696f6e73]⟩
def m_OutageSchedule : List RClass := d_OutageSchedule :: m_IrregularIntervalSchedule

/-- CIM14/IEC61970/Protection/FaultIndicator.py:23 -/
def d_FaultIndicator : RClass := ⟨0x4661756c74496e64696361746f72, 0x43494d31342e49454336313937302e50726f74656374696f6e2e4661756c74496e64696361746f72, 0x43494d31342e49454336313937302e436f72652e45717569706d656e74,
  [],
  [],
  [],
  [],
  [],
  [],
  []⟩
def m_FaultIndicator : List RClass := d_FaultIndicator :: m_Equipment

/-- CIM14/IEC61970/Protection/ProtectionEquipment.py:23 -/
def d_ProtectionEquipment : RClass := ⟨0x50726f74656374696f6e45717569706d656e74, 0x43494d31342e49454336313937302e50726f74656374696f6e2e50726f74656374696f6e45717569706d656e74, 0x43494d31342e49454336313937302e436f72652e45717569706d656e74,
  [(0x6c6f774c696d6974, .flt 0x0), (0x706f776572446972656374696f6e466c6167, .bool false), (0x686967684c696d6974, .flt 0x0), (0x72656c617944656c617954696d65, .flt 0x0)],
  [0x6c6f774c696d6974, 0x706f776572446972656374696f6e466c6167, 0x686967684c696d6974, 0x72656c617944656c617954696d65],
  [(0x6c6f774c696d6974, .flt 0x0), (0x706f776572446972656374696f6e466c6167, .bool false), (0x686967684c696d6974, .flt 0x0), (0x72656c617944656c617954696d65, .flt 0x0)],
  [(0x6c6f774c696d6974, 0x666c6f6174), (0x706f776572446972656374696f6e466c6167, 0x626f6f6c), (0x686967684c696d6974, 0x666c6f6174), (0x72656c617944656c617954696d65, 0x666c6f6174)],
  [],
  [⟨0x50726f7465637465645377697463686573, .plainMany, 0, 0, false⟩, ⟨0x556e6974, .one2many, 0x50726f74656374696f6e45717569706d656e7473, 0, false⟩, ⟨0x436f6e64756374696e6745717569706d656e7473, .many2many, 0x50726f74656374696f6e45717569706d656e7473, 0, false⟩],
  [0x50726f7465637465645377697463686573, 0x436f6e64756374696e6745717569706d656e7473]⟩
def m_ProtectionEquipment : List RClass := d_ProtectionEquipment :: m_Equipment

/-- CIM14/IEC61970/Protection/SurgeProtector.py:23 -/
def d_SurgeProtector : RClass := ⟨0x537572676550726f746563746f72, 0x43494d31342e49454336313937302e50726f74656374696f6e2e537572676550726f746563746f72, 0x43494d31342e49454336313937302e436f72652e45717569706d656e74,
  [],
  [],
  [],
  [],
  [],
  [],
  []⟩
def m_SurgeProtector : List RClass := d_SurgeProtector :: m_Equipment

/-- CIM14/IEC61970/Wires/CompositeSwitch.py:23 -/
def d_CompositeSwitch : RClass := ⟨0x436f6d706f73697465537769746368, 0x43494d31342e49454336313937302e57697265732e436f6d706f73697465537769746368, 0x43494d31342e49454336313937302e436f72652e45717569706d656e74,
  [(0x636f6d706f7369746553776974636854797065, .str 0)],
  [0x636f6d706f7369746553776974636854797065],
  [(0x636f6d706f7369746553776974636854797065, .str 0)],
  [(0x636f6d706f7369746553776974636854797065, 0x737472)],
  [],
  [⟨0x5377697463686573, .many2one, 0x436f6d706f73697465537769746368, 0, false⟩],
  [0x5377697463686573]⟩
def m_CompositeSwitch : List RClass := d_CompositeSwitch :: m_Equipment

/-- CIM14/IEC61970/Wires/HeatExchanger.py:23 -/
def d_HeatExchanger : RClass := ⟨0x4865617445786368616e676572, 0x43494d31342e49454336313937302e57697265732e4865617445786368616e676572, 0x43494d31342e49454336313937302e436f72652e45717569706d656e74,
  [],
  [],
  [],
  [],
  [],
  [⟨0x506f7765725472616e73666f726d6572, .one2one, 0x4865617445786368616e676572, 0, false⟩],
  []⟩
def m_HeatExchanger : List RClass := d_HeatExchanger :: m_Equipment

/-- CIM14/IEC61970/Wires/PhaseTapChanger.py:23 -/
def d_PhaseTapChanger : RClass := ⟨0x50686173655461704368616e676572, 0x43494d31342e49454336313937302e57697265732e50686173655461704368616e676572, 0x43494d31342e49454336313937302e57697265732e5461704368616e676572,
  [(0x70686173655461704368616e67657254797065, .str 0x6173796d6d6574726963616c), (0x6e6f6d696e616c566f6c746167654f75744f665068617365, .flt 0x0), (0x78537465704d696e, .flt 0x0), (0x7374657050686173655368696674496e6372656d656e74, .flt 0x0), (0x77696e64696e67436f6e6e656374696f6e416e676c65, .flt 0x0), (0x78537465704d6178, .flt 0x0), (0x766f6c7461676553746570496e6372656d656e744f75744f665068617365, .flt 0x0)],
  [0x70686173655461704368616e67657254797065, 0x6e6f6d696e616c566f6c746167654f75744f665068617365, 0x78537465704d696e, 0x7374657050686173655368696674496e6372656d656e74, 0x77696e64696e67436f6e6e656374696f6e416e676c65, 0x78537465704d6178, 0x766f6c7461676553746570496e6372656d656e744f75744f665068617365],
  [(0x70686173655461704368616e67657254797065, .str 0x6173796d6d6574726963616c), (0x6e6f6d696e616c566f6c746167654f75744f665068617365, .flt 0x0), (0x78537465704d696e, .flt 0x0), (0x7374657050686173655368696674496e6372656d656e74, .flt 0x0), (0x77696e64696e67436f6e6e656374696f6e416e676c65, .flt 0x0), (0x78537465704d6178, .flt 0x0), (0x766f6c7461676553746570496e6372656d656e744f75744f665068617365, .flt 0x0)],
  [(0x70686173655461704368616e67657254797065, 0x737472), (0x6e6f6d696e616c566f6c746167654f75744f665068617365, 0x666c6f6174), (0x78537465704d696e, 0x666c6f6174), (0x7374657050686173655368696674496e6372656d656e74, 0x666c6f6174), (0x77696e64696e67436f6e6e656374696f6e416e676c65, 0x666c6f6174), (0x78537465704d6178, 0x666c6f6174), (0x766f6c7461676553746570496e6372656d656e744f75744f665068617365, 0x666c6f6174)],
  [(0x70686173655461704368616e67657254797065, 0x50686173655461704368616e6765724b696e64)],
  [⟨0x5068617365566172696174696f6e4375727665, .one2one, 0x50686173655461704368616e676572, 0, false⟩, ⟨0x57696e64696e67, .one2one, 0x50686173655461704368616e676572, 0, false⟩, ⟨0x5472616e73666f726d657257696e64696e67, .one2one, 0x50686173655461704368616e676572, 0, false⟩],
  []⟩
def m_PhaseTapChanger : List RClass := d_PhaseTapChanger :: m_TapChanger

/-- CIM14/IEC61970/Wires/PowerTransformer.py:23 -/
def d_PowerTransformer : RClass := ⟨0x506f7765725472616e73666f726d6572, 0x43494d31342e49454336313937302e57697265732e506f7765725472616e73666f726d6572, 0x43494d31342e49454336313937302e436f72652e45717569706d656e74,
  [(0x6d6167536174466c7578, .flt 0x0), (0x6d61674261736555, .flt 0x0), (0x626d6167536174, .flt 0x0)],
  [0x6d6167536174466c7578, 0x6d61674261736555, 0x626d6167536174],
  [(0x6d6167536174466c7578, .flt 0x0), (0x6d61674261736555, .flt 0x0), (0x626d6167536174, .flt 0x0)],
  [(0x6d6167536174466c7578, 0x666c6f6174), (0x6d61674261736555, 0x666c6f6174), (0x626d6167536174, 0x666c6f6174)],
  [],
  [⟨0x5472616e73666f726d657257696e64696e6773, .many2one, 0x506f7765725472616e73666f726d6572, 0, false⟩, ⟨0x4865617445786368616e676572, .one2one, 0x506f7765725472616e73666f726d6572, 0, false⟩],
  [0x5472616e73666f726d657257696e64696e6773]⟩
def m_PowerTransformer : List RClass := d_PowerTransformer :: m_Equipment

/-- CIM14/IEC61970/Wires/RatioTapChanger.py:23 -/
def d_RatioTapChanger : RClass := ⟨0x526174696f5461704368616e676572, 0x43494d31342e49454336313937302e57697265732e526174696f5461704368616e676572, 0x43494d31342e49454336313937302e57697265732e5461704368616e676572,
  [(0x7463756c436f6e74726f6c4d6f6465, .str 0x766f6c74)],
  [0x7463756c436f6e74726f6c4d6f6465],
  [(0x7463756c436f6e74726f6c4d6f6465, .str 0x766f6c74)],
  [(0x7463756c436f6e74726f6c4d6f6465, 0x737472)],
  [(0x7463756c436f6e74726f6c4d6f6465, 0x5472616e73666f726d6572436f6e74726f6c4d6f6465)],
  [⟨0x57696e64696e67, .one2one, 0x526174696f5461704368616e676572, 0, false⟩, ⟨0x5472616e73666f726d657257696e64696e67, .one2one, 0x526174696f5461704368616e676572, 0, false⟩, ⟨0x526174696f566172696174696f6e4375727665, .one2one, 0x526174696f5461704368616e676572, 0, false⟩],
  []⟩
def m_RatioTapChanger : List RClass := d_RatioTapChanger :: m_TapChanger

/-- CIM14/IEC61968/Metering/MeterAsset.py:23 -/
def d_MeterAsset : RClass := ⟨0x4d657465724173736574, 0x43494d31342e49454336313936382e4d65746572696e672e4d657465724173736574, 0x43494d31342e49454336313936382e4d65746572696e672e456e644465766963654173736574,
  [(0x6b48, .flt 0x0), (0x6b52, .flt 0x0), (0x666f726d4e756d626572, .str 0)],
  [0x6b48, 0x6b52, 0x666f726d4e756d626572],
  [(0x6b48, .flt 0x0), (0x6b52, .flt 0x0), (0x666f726d4e756d626572, .str 0)],
  [(0x6b48, 0x666c6f6174), (0x6b52, 0x666c6f6174), (0x666f726d4e756d626572, 0x737472)],
  [],
  [⟨0x4d657465725265706c6163656d656e74576f726b73, .many2one, 0x4f6c644d657465724173736574, 0, false⟩, ⟨0x4d6574657253657276696365576f726b73, .many2one, 0x4d657465724173736574, 0, false⟩, ⟨0x4d6574657252656164696e6773, .many2one, 0x4d657465724173736574, 0, false⟩, ⟨0x56656e64696e675472616e73616374696f6e73, .many2one, 0x4d657465724173736574, 0, false⟩],
  [0x4d657465725265706c6163656d656e74576f726b73, 0x4d6574657253657276696365576f726b73, 0x4d6574657252656164696e6773, 0x56656e64696e675472616e73616374696f6e73]⟩
def m_MeterAsset : List RClass := d_MeterAsset :: m_EndDeviceAsset

/-- CIM14/IEC61968/WiresExt/DistributionTapChanger.py:23 -/
def d_DistributionTapChanger : RClass := ⟨0x446973747269627574696f6e5461704368616e676572, 0x43494d31342e49454336313936382e57697265734578742e446973747269627574696f6e5461704368616e676572, 0x43494d31342e49454336313937302e57697265732e526174696f5461704368616e676572,
  [(0x6d6f6e69746f7265645068617365, .str 0x41), (0x7074526174696f, .flt 0x0), (0x726576657273654c696e6544726f7058, .flt 0x0), (0x6374526174696e67, .flt 0x0), (0x726576657273654c696e6544726f7052, .flt 0x0), (0x6c696e6544726f70436f6d70656e736174696f6e, .bool false), (0x6374526174696f, .flt 0x0), (0x746172676574566f6c74616765, .flt 0x0), (0x6c696d6974566f6c74616765, .flt 0x0), (0x6c696e6544726f7052, .flt 0x0), (0x6c696e6544726f7058, .flt 0x0), (0x62616e64566f6c74616765, .flt 0x0)],
  [0x6d6f6e69746f7265645068617365, 0x7074526174696f, 0x726576657273654c696e6544726f7058, 0x6374526174696e67, 0x726576657273654c696e6544726f7052, 0x6c696e6544726f70436f6d70656e736174696f6e, 0x6374526174696f, 0x746172676574566f6c74616765, 0x6c696d6974566f6c74616765, 0x6c696e6544726f7052, 0x6c696e6544726f7058, 0x62616e64566f6c74616765],
  [(0x6d6f6e69746f7265645068617365, .str 0x41), (0x7074526174696f, .flt 0x0), (0x726576657273654c696e6544726f7058, .flt 0x0), (0x6374526174696e67, .flt 0x0), (0x726576657273654c696e6544726f7052, .flt 0x0), (0x6c696e6544726f70436f6d70656e736174696f6e, .bool false), (0x6374526174696f, .flt 0x0), (0x746172676574566f6c74616765, .flt 0x0), (0x6c696d6974566f6c74616765, .flt 0x0), (0x6c696e6544726f7052, .flt 0x0), (0x6c696e6544726f7058, .flt 0x0), (0x62616e64566f6c74616765, .flt 0x0)],
  [(0x6d6f6e69746f7265645068617365, 0x737472), (0x7074526174696f, 0x666c6f6174), (0x726576657273654c696e6544726f7058, 0x666c6f6174), (0x6374526174696e67, 0x666c6f6174), (0x726576657273654c696e6544726f7052, 0x666c6f6174), (0x6c696e6544726f70436f6d70656e736174696f6e, 0x626f6f6c), (0x6374526174696f, 0x666c6f6174), (0x746172676574566f6c74616765, 0x666c6f6174), (0x6c696d6974566f6c74616765, 0x666c6f6174), (0x6c696e6544726f7052, 0x666c6f6174), (0x6c696e6544726f7058, 0x666c6f6174), (0x62616e64566f6c74616765, 0x666c6f6174)],
  [(0x6d6f6e69746f7265645068617365, 0x5068617365436f6465)],
  [],
  []⟩
def m_DistributionTapChanger : List RClass := d_DistributionTapChanger :: m_RatioTapChanger

/-- CIM14/IEC61968/WiresExt/DistributionTransformerWinding.py:23 -/
def d_DistributionTransformerWinding : RClass := ⟨0x446973747269627574696f6e5472616e73666f726d657257696e64696e67, 0x43494d31342e49454336313936382e57697265734578742e446973747269627574696f6e5472616e73666f726d657257696e64696e67, 0x43494d31342e49454336313937302e436f72652e436f6e64756374696e6745717569706d656e74,
  [(0x67726f756e646564, .bool false), (0x7867726f756e64, .flt 0x0), (0x7267726f756e64, .flt 0x0)],
  [0x67726f756e646564, 0x7867726f756e64, 0x7267726f756e64],
  [(0x67726f756e646564, .bool false), (0x7867726f756e64, .flt 0x0), (0x7267726f756e64, .flt 0x0)],
  [(0x67726f756e646564, 0x626f6f6c), (0x7867726f756e64, 0x666c6f6174), (0x7267726f756e64, 0x666c6f6174)],
  [],
  [⟨0x5472616e73666f726d6572, .one2many, 0x57696e64696e6773, 0, false⟩, ⟨0x57696e64696e67496e666f, .one2many, 0x57696e64696e6773, 0, false⟩, ⟨0x526174696f5461704368616e676572, .one2one, 0x57696e64696e67, 0, false⟩, ⟨0x5069496d706564616e6365, .one2many, 0x57696e64696e6773, 0, false⟩, ⟨0x50686173655461704368616e676572, .one2one, 0x57696e64696e67, 0, false⟩],
  []⟩
def m_DistributionTransformerWinding : List RClass := d_DistributionTransformerWinding :: m_ConductingEquipment

/-- CIM14/IEC61970/Core/Bay.py:23 -/
def d_Bay : RClass := ⟨0x426179, 0x43494d31342e49454336313937302e436f72652e426179, 0x43494d31342e49454336313937302e436f72652e45717569706d656e74436f6e7461696e6572,
  [(0x627573426172436f6e66696775726174696f6e, .str 0x6d61696e576974685472616e73666572), (0x627265616b6572436f6e66696775726174696f6e, .str 0x627265616b6572416e644148616c66), (0x626179506f7765724d656173466c6167, .bool false), (0x626179456e657267794d656173466c6167, .bool false)],
  [0x627573426172436f6e66696775726174696f6e, 0x627265616b6572436f6e66696775726174696f6e, 0x626179506f7765724d656173466c6167, 0x626179456e657267794d656173466c6167],
  [(0x627573426172436f6e66696775726174696f6e, .str 0x6d61696e576974685472616e73666572), (0x627265616b6572436f6e66696775726174696f6e, .str 0x627265616b6572416e644148616c66), (0x626179506f7765724d656173466c6167, .bool false), (0x626179456e657267794d656173466c6167, .bool false)],
  [(0x627573426172436f6e66696775726174696f6e, 0x737472), (0x627265616b6572436f6e66696775726174696f6e, 0x737472), (0x626179506f7765724d656173466c6167, 0x626f6f6c), (0x626179456e657267794d656173466c6167, 0x626f6f6c)],
  [(0x627573426172436f6e66696775726174696f6e, 0x427573626172436f6e66696775726174696f6e), (0x627265616b6572436f6e66696775726174696f6e, 0x427265616b6572436f6e66696775726174696f6e)],
  [⟨0x53756273746174696f6e, .one2many, 0x42617973, 0, false⟩, ⟨0x566f6c746167654c6576656c, .one2many, 0x42617973, 0, false⟩],
  []⟩
def m_Bay : List RClass := d_Bay :: m_EquipmentContainer

/-- CIM14/IEC61970/Core/Substation.py:23 -/
def d_Substation : RClass := ⟨0x53756273746174696f6e, 0x43494d31342e49454336313937302e436f72652e53756273746174696f6e, 0x43494d31342e49454336313937302e436f72652e45717569706d656e74436f6e7461696e6572,
  [],
  [],
  [],
  [],
  [],
  [⟨0x566f6c746167654c6576656c73, .many2one, 0x53756273746174696f6e, 0, false⟩, ⟨0x42617973, .many2one, 0x53756273746174696f6e, 0, false⟩, ⟨0x526567696f6e, .one2many, 0x53756273746174696f6e73, 0, false⟩],
  [0x566f6c746167654c6576656c73, 0x42617973]⟩
def m_Substation : List RClass := d_Substation :: m_EquipmentContainer

/-- CIM14/IEC61970/Core/VoltageLevel.py:23 -/
def d_VoltageLevel : RClass := ⟨0x566f6c746167654c6576656c, 0x43494d31342e49454336313937302e436f72652e566f6c746167654c6576656c, 0x43494d31342e49454336313937302e436f72652e45717569706d656e74436f6e7461696e6572,
  [(0x68696768566f6c746167654c696d6974, .flt 0x0), (0x6c6f77566f6c746167654c696d6974, .flt 0x0)],
  [0x68696768566f6c746167654c696d6974, 0x6c6f77566f6c746167654c696d6974],
  [(0x68696768566f6c746167654c696d6974, .flt 0x0), (0x6c6f77566f6c746167654c696d6974, .flt 0x0)],
  [(0x68696768566f6c746167654c696d6974, 0x666c6f6174), (0x6c6f77566f6c746167654c696d6974, 0x666c6f6174)],
  [],
  [⟨0x53756273746174696f6e, .one2many, 0x566f6c746167654c6576656c73, 0, false⟩, ⟨0x42617973, .many2one, 0x566f6c746167654c6576656c, 0, false⟩, ⟨0x42617365566f6c74616765, .one2many, 0x566f6c746167654c6576656c, 0, false⟩],
  [0x42617973]⟩
def m_VoltageLevel : List RClass := d_VoltageLevel :: m_EquipmentContainer

/-- CIM14/IEC61970/Dynamics/Loads/LoadStaticArea.py:23 -/
def d_LoadStaticArea : RClass := ⟨0x4c6f616453746174696341726561, 0x43494d31342e49454336313937302e44796e616d6963732e4c6f6164732e4c6f616453746174696341726561, 0x43494d31342e49454336313937302e44796e616d6963732e4c6f6164732e4c6f6164537461746963,
  [],
  [],
  [],
  [],
  [],
  [],
  []⟩
def m_LoadStaticArea : List RClass := d_LoadStaticArea :: m_LoadStatic

/-- CIM14/IEC61970/Dynamics/Loads/LoadStaticBus.py:23 -/
def d_LoadStaticBus : RClass := ⟨0x4c6f6164537461746963427573, 0x43494d31342e49454336313937302e44796e616d6963732e4c6f6164732e4c6f6164537461746963427573, 0x43494d31342e49454336313937302e44796e616d6963732e4c6f6164732e4c6f6164537461746963,
  [],
  [],
  [],
  [],
  [],
  [],
  []⟩
def m_LoadStaticBus : List RClass := d_LoadStaticBus :: m_LoadStatic

/-- CIM14/IEC61970/Dynamics/Loads/LoadStaticOwner.py:23 -/
def d_LoadStaticOwner : RClass := ⟨0x4c6f61645374617469634f776e6572, 0x43494d31342e49454336313937302e44796e616d6963732e4c6f6164732e4c6f61645374617469634f776e6572, 0x43494d31342e49454336313937302e44796e616d6963732e4c6f6164732e4c6f6164537461746963,
  [],
  [],
  [],
  [],
  [],
  [],
  []⟩
def m_LoadStaticOwner : List RClass := d_LoadStaticOwner :: m_LoadStatic

/-- CIM14/IEC61970/Dynamics/Loads/LoadStaticSystem.py:23 -/
def d_LoadStaticSystem : RClass := ⟨0x4c6f616453746174696353797374656d, 0x43494d31342e49454336313937302e44796e616d6963732e4c6f6164732e4c6f616453746174696353797374656d, 0x43494d31342e49454336313937302e44796e616d6963732e4c6f6164732e4c6f6164537461746963,
  [],
  [],
  [],
  [],
  [],
  [],
  []⟩
def m_LoadStaticSystem : List RClass := d_LoadStaticSystem :: m_LoadStatic

/-- CIM14/IEC61970/Dynamics/Loads/LoadStaticZone.py:23 -/
def d_LoadStaticZone : RClass := ⟨0x4c6f61645374617469635a6f6e65, 0x43494d31342e49454336313937302e44796e616d6963732e4c6f6164732e4c6f61645374617469635a6f6e65, 0x43494d31342e49454336313937302e44796e616d6963732e4c6f6164732e4c6f6164537461746963,
  [],
  [],
  [],
  [],
  [],
  [],
  []⟩
def m_LoadStaticZone : List RClass := d_LoadStaticZone :: m_LoadStatic

/-- CIM14/IEC61970/Equivalents/EquivalentEquipment.py:23 -/
def d_EquivalentEquipment : RClass := ⟨0x4571756976616c656e7445717569706d656e74, 0x43494d31342e49454336313937302e4571756976616c656e74732e4571756976616c656e7445717569706d656e74, 0x43494d31342e49454336313937302e436f72652e436f6e64756374696e6745717569706d656e74,
  [],
  [],
  [],
  [],
  [],
  [⟨0x4571756976616c656e744e6574776f726b, .one2many, 0x4571756976616c656e7445717569706d656e7473, 0, false⟩],
  []⟩
def m_EquivalentEquipment : List RClass := d_EquivalentEquipment :: m_ConductingEquipment

/-- CIM14/IEC61970/Generation/GenerationDynamics/DrumBoiler.py:23 -/
def d_DrumBoiler : RClass := ⟨0x4472756d426f696c6572, 0x43494d31342e49454336313937302e47656e65726174696f6e2e47656e65726174696f6e44796e616d6963732e4472756d426f696c6572, 0x43494d31342e49454336313937302e47656e65726174696f6e2e47656e65726174696f6e44796e616d6963732e466f7373696c537465616d537570706c79,
  [(0x6472756d426f696c6572526174696e67, .flt 0x0)],
  [0x6472756d426f696c6572526174696e67],
  [(0x6472756d426f696c6572526174696e67, .flt 0x0)],
  [(0x6472756d426f696c6572526174696e67, 0x666c6f6174)],
  [],
  [],
  []⟩
def m_DrumBoiler : List RClass := d_DrumBoiler :: m_FossilSteamSupply

/-- CIM14/IEC61970/Generation/GenerationDynamics/HeatRecoveryBoiler.py:23 -/
def d_HeatRecoveryBoiler : RClass := ⟨0x486561745265636f76657279426f696c6572, 0x43494d31342e49454336313937302e47656e65726174696f6e2e47656e65726174696f6e44796e616d6963732e486561745265636f76657279426f696c6572, 0x43494d31342e49454336313937302e47656e65726174696f6e2e47656e65726174696f6e44796e616d6963732e466f7373696c537465616d537570706c79,
  [(0x737465616d537570706c79526174696e6732, .flt 0x0)],
  [0x737465616d537570706c79526174696e6732],
  [(0x737465616d537570706c79526174696e6732, .flt 0x0)],
  [(0x737465616d537570706c79526174696e6732, 0x666c6f6174)],
  [],
  [⟨0x436f6d62757374696f6e54757262696e6573, .many2one, 0x486561745265636f76657279426f696c6572, 0, false⟩],
  [0x436f6d62757374696f6e54757262696e6573]⟩
def m_HeatRecoveryBoiler : List RClass := d_HeatRecoveryBoiler :: m_FossilSteamSupply

/-- CIM14/IEC61970/Generation/GenerationDynamics/Subcritical.py:23 -/
def d_Subcritical : RClass := ⟨0x537562637269746963616c, 0x43494d31342e49454336313937302e47656e65726174696f6e2e47656e65726174696f6e44796e616d6963732e537562637269746963616c, 0x43494d31342e49454336313937302e47656e65726174696f6e2e47656e65726174696f6e44796e616d6963732e466f7373696c537465616d537570706c79,
  [],
  [],
  [],
  [],
  [],
  [],
  []⟩
def m_Subcritical : List RClass := d_Subcritical :: m_FossilSteamSupply

/-- CIM14/IEC61970/Generation/GenerationDynamics/Supercritical.py:23 -/
def d_Supercritical : RClass := ⟨0x5375706572637269746963616c, 0x43494d31342e49454336313937302e47656e65726174696f6e2e47656e65726174696f6e44796e616d6963732e5375706572637269746963616c, 0x43494d31342e49454336313937302e47656e65726174696f6e2e47656e65726174696f6e44796e616d6963732e466f7373696c537465616d537570706c79,
  [],
  [],
  [],
  [],
  [],
  [],
  []⟩
def m_Supercritical : List RClass := d_Supercritical :: m_FossilSteamSupply

/-- CIM14/IEC61970/Generation/Production/HydroGeneratingUnit.py:23 -/
def d_HydroGeneratingUnit : RClass := ⟨0x487964726f47656e65726174696e67556e6974, 0x43494d31342e49454336313937302e47656e65726174696f6e2e50726f64756374696f6e2e487964726f47656e65726174696e67556e6974, 0x43494d31342e49454336313937302e47656e65726174696f6e2e50726f64756374696f6e2e47656e65726174696e67556e6974,
  [(0x656e65726779436f6e76657273696f6e4361706162696c697479, .str 0x67656e657261746f72), (0x687964726f556e69745761746572436f7374, .flt 0x0)],
  [0x656e65726779436f6e76657273696f6e4361706162696c697479, 0x687964726f556e69745761746572436f7374],
  [(0x656e65726779436f6e76657273696f6e4361706162696c697479, .str 0x67656e657261746f72), (0x687964726f556e69745761746572436f7374, .flt 0x0)],
  [(0x656e65726779436f6e76657273696f6e4361706162696c697479, 0x737472), (0x687964726f556e69745761746572436f7374, 0x666c6f6174)],
  [(0x656e65726779436f6e76657273696f6e4361706162696c697479, 0x487964726f456e65726779436f6e76657273696f6e4b696e64)],
  [⟨0x487964726f506f776572506c616e74, .one2many, 0x487964726f47656e65726174696e67556e697473, 0, false⟩, ⟨0x50656e73746f636b4c6f73734375727665, .one2one, 0x487964726f47656e65726174696e67556e6974, 0, false⟩, ⟨0x487964726f47656e65726174696e67456666696369656e6379437572766573, .many2one, 0x487964726f47656e65726174696e67556e6974, 0, false⟩, ⟨0x5461696c6261794c6f73734375727665, .many2one, 0x487964726f47656e65726174696e67556e6974, 0, false⟩],
  [0x487964726f47656e65726174696e67456666696369656e6379437572766573, 0x5461696c6261794c6f73734375727665]⟩
def m_HydroGeneratingUnit : List RClass := d_HydroGeneratingUnit :: m_GeneratingUnit

/-- CIM14/IEC61970/Generation/Production/NuclearGeneratingUnit.py:23 -/
def d_NuclearGeneratingUnit : RClass := ⟨0x4e75636c65617247656e65726174696e67556e6974, 0x43494d31342e49454336313937302e47656e65726174696f6e2e50726f64756374696f6e2e4e75636c65617247656e65726174696e67556e6974, 0x43494d31342e49454336313937302e47656e65726174696f6e2e50726f64756374696f6e2e47656e65726174696e67556e6974,
  [],
  [],
  [],
  [],
  [],
  [],
  []⟩
def m_NuclearGeneratingUnit : List RClass := d_NuclearGeneratingUnit :: m_GeneratingUnit

/-- CIM14/IEC61970/Generation/Production/ThermalGeneratingUnit.py:23 -/
def d_ThermalGeneratingUnit : RClass := ⟨0x546865726d616c47656e65726174696e67556e6974, 0x43494d31342e49454336313937302e47656e65726174696f6e2e50726f64756374696f6e2e546865726d616c47656e65726174696e67556e6974, 0x43494d31342e49454336313937302e47656e65726174696f6e2e50726f64756374696f6e2e47656e65726174696e67556e6974,
  [(0x6f4d436f7374, .flt 0x0)],
  [0x6f4d436f7374],
  [(0x6f4d436f7374, .flt 0x0)],
  [(0x6f4d436f7374, 0x666c6f6174)],
  [],
  [⟨0x537461727475704d6f64656c, .one2one, 0x546865726d616c47656e65726174696e67556e6974, 0, false⟩, ⟨0x456d6d697373696f6e4163636f756e7473, .many2one, 0x546865726d616c47656e65726174696e67556e6974, 0, false⟩, ⟨0x436f6d62696e65644379636c65506c616e74, .one2many, 0x546865726d616c47656e65726174696e67556e697473, 0, false⟩, ⟨0x436f67656e65726174696f6e506c616e74, .one2many, 0x546865726d616c47656e65726174696e67556e697473, 0, false⟩, ⟨0x456d697373696f6e437572766573, .many2one, 0x546865726d616c47656e65726174696e67556e6974, 0, false⟩, ⟨0x48656174526174654375727665, .one2one, 0x546865726d616c47656e65726174696e67556e6974, 0, false⟩, ⟨0x53687574646f776e4375727665, .one2one, 0x546865726d616c47656e65726174696e67556e6974, 0, false⟩, ⟨0x496e6372656d656e74616c48656174526174654375727665, .one2one, 0x546865726d616c47656e65726174696e67556e6974, 0, false⟩, ⟨0x4675656c416c6c6f636174696f6e5363686564756c6573, .many2one, 0x546865726d616c47656e65726174696e67556e6974, 0, false⟩, ⟨0x466f7373696c4675656c73, .many2one, 0x546865726d616c47656e65726174696e67556e6974, 0, false⟩, ⟨0x48656174496e7075744375727665, .one2one, 0x546865726d616c47656e65726174696e67556e6974, 0, false⟩, ⟨0x43414553506c616e74, .one2one, 0x546865726d616c47656e65726174696e67556e6974, 0, false⟩],
  [0x456d6d697373696f6e4163636f756e7473, 0x456d697373696f6e437572766573, 0x4675656c416c6c6f636174696f6e5363686564756c6573, 0x466f7373696c4675656c73]⟩
def m_ThermalGeneratingUnit : List RClass := d_ThermalGeneratingUnit :: m_GeneratingUnit

/-- CIM14/IEC61970/Generation/Production/WindGeneratingUnit.py:23 -/
def d_WindGeneratingUnit : RClass := ⟨0x57696e6447656e65726174696e67556e6974, 0x43494d31342e49454336313937302e47656e65726174696f6e2e50726f64756374696f6e2e57696e6447656e65726174696e67556e6974, 0x43494d31342e49454336313937302e47656e65726174696f6e2e50726f64756374696f6e2e47656e65726174696e67556e6974,
  [],
  [],
  [],
  [],
  [],
  [],
  []⟩
def m_WindGeneratingUnit : List RClass := d_WindGeneratingUnit :: m_GeneratingUnit

/-- CIM14/IEC61970/LoadModel/ConformLoadSchedule.py:23 -/
def d_ConformLoadSchedule : RClass := ⟨0x436f6e666f726d4c6f61645363686564756c65, 0x43494d31342e49454336313937302e4c6f61644d6f64656c2e436f6e666f726d4c6f61645363686564756c65, 0x43494d31342e49454336313937302e4c6f61644d6f64656c2e536561736f6e446179547970655363686564756c65,
  [],
  [],
  [],
  [],
  [],
  [⟨0x436f6e666f726d4c6f616447726f7570, .one2many, 0x436f6e666f726d4c6f61645363686564756c6573, 0, false⟩],
  []⟩
def m_ConformLoadSchedule : List RClass := d_ConformLoadSchedule :: m_SeasonDayTypeSchedule

/-- CIM14/IEC61970/LoadModel/NonConformLoadSchedule.py:23 -/
def d_NonConformLoadSchedule : RClass := ⟨0x4e6f6e436f6e666f726d4c6f61645363686564756c65, 0x43494d31342e49454336313937302e4c6f61644d6f64656c2e4e6f6e436f6e666f726d4c6f61645363686564756c65, 0x43494d31342e49454336313937302e4c6f61644d6f64656c2e536561736f6e446179547970655363686564756c65,
  [],
  [],
  [],
  [],
  [],
  [⟨0x4e6f6e436f6e666f726d4c6f616447726f7570, .one2many, 0x4e6f6e436f6e666f726d4c6f61645363686564756c6573, 0, false⟩],
  []⟩
def m_NonConformLoadSchedule : List RClass := d_NonConformLoadSchedule :: m_SeasonDayTypeSchedule

/-- CIM14/IEC61970/Protection/CurrentRelay.py:23 -/
def d_CurrentRelay : RClass := ⟨0x43757272656e7452656c6179, 0x43494d31342e49454336313937302e50726f74656374696f6e2e43757272656e7452656c6179, 0x43494d31342e49454336313937302e50726f74656374696f6e2e50726f74656374696f6e45717569706d656e74,
  [(0x63757272656e744c696d697431, .flt 0x0), (0x74696d6544656c617933, .flt 0x0), (0x74696d6544656c617932, .flt 0x0), (0x63757272656e744c696d697433, .flt 0x0), (0x63757272656e744c696d697432, .flt 0x0), (0x696e766572736554696d65466c6167, .bool false), (0x74696d6544656c617931, .flt 0x0)],
  [0x63757272656e744c696d697431, 0x74696d6544656c617933, 0x74696d6544656c617932, 0x63757272656e744c696d697433, 0x63757272656e744c696d697432, 0x696e766572736554696d65466c6167, 0x74696d6544656c617931],
  [(0x63757272656e744c696d697431, .flt 0x0), (0x74696d6544656c617933, .flt 0x0), (0x74696d6544656c617932, .flt 0x0), (0x63757272656e744c696d697433, .flt 0x0), (0x63757272656e744c696d697432, .flt 0x0), (0x696e766572736554696d65466c6167, .bool false), (0x74696d6544656c617931, .flt 0x0)],
  [(0x63757272656e744c696d697431, 0x666c6f6174), (0x74696d6544656c617933, 0x666c6f6174), (0x74696d6544656c617932, 0x666c6f6174), (0x63757272656e744c696d697433, 0x666c6f6174), (0x63757272656e744c696d697432, 0x666c6f6174), (0x696e766572736554696d65466c6167, 0x626f6f6c), (0x74696d6544656c617931, 0x666c6f6174)],
  [],
  [],
  []⟩
def m_CurrentRelay : List RClass := d_CurrentRelay :: m_ProtectionEquipment

/-- CIM14/IEC61970/Protection/SynchrocheckRelay.py:23 -/
def d_SynchrocheckRelay : RClass := ⟨0x53796e6368726f636865636b52656c6179, 0x43494d31342e49454336313937302e50726f74656374696f6e2e53796e6368726f636865636b52656c6179, 0x43494d31342e49454336313937302e50726f74656374696f6e2e50726f74656374696f6e45717569706d656e74,
  [(0x6d61784672657144696666, .flt 0x0), (0x6d6178566f6c7444696666, .flt 0x0), (0x6d6178416e676c6544696666, .flt 0x0)],
  [0x6d61784672657144696666, 0x6d6178566f6c7444696666, 0x6d6178416e676c6544696666],
  [(0x6d61784672657144696666, .flt 0x0), (0x6d6178566f6c7444696666, .flt 0x0), (0x6d6178416e676c6544696666, .flt 0x0)],
  [(0x6d61784672657144696666, 0x666c6f6174), (0x6d6178566f6c7444696666, 0x666c6f6174), (0x6d6178416e676c6544696666, 0x666c6f6174)],
  [],
  [],
  []⟩
def m_SynchrocheckRelay : List RClass := d_SynchrocheckRelay :: m_ProtectionEquipment

/-- CIM14/IEC61970/Wires/Conductor.py:23 -/
def d_Conductor : RClass := ⟨0x436f6e647563746f72, 0x43494d31342e49454336313937302e57697265732e436f6e647563746f72, 0x43494d31342e49454336313937302e436f72652e436f6e64756374696e6745717569706d656e74,
  [(0x6c656e677468, .flt 0x0)],
  [0x6c656e677468],
  [(0x6c656e677468, .flt 0x0)],
  [(0x6c656e677468, 0x666c6f6174)],
  [],
  [],
  []⟩
def m_Conductor : List RClass := d_Conductor :: m_ConductingEquipment

/-- CIM14/IEC61970/Wires/Connector.py:23 -/
def d_Connector : RClass := ⟨0x436f6e6e6563746f72, 0x43494d31342e49454336313937302e57697265732e436f6e6e6563746f72, 0x43494d31342e49454336313937302e436f72652e436f6e64756374696e6745717569706d656e74,
  [],
  [],
  [],
  [],
  [],
  [],
  []⟩
def m_Connector : List RClass := d_Connector :: m_ConductingEquipment

/-- CIM14/IEC61970/Wires/EnergyConsumer.py:23 -/
def d_EnergyConsumer : RClass := ⟨0x456e65726779436f6e73756d6572, 0x43494d31342e49454336313937302e57697265732e456e65726779436f6e73756d6572, 0x43494d31342e49454336313937302e436f72652e436f6e64756374696e6745717569706d656e74,
  [(0x637573746f6d6572436f756e74, .int 0), (0x716669786564506374, .flt 0x0), (0x706669786564, .flt 0x0), (0x706669786564506374, .flt 0x0), (0x716669786564, .flt 0x0)],
  [0x637573746f6d6572436f756e74, 0x716669786564506374, 0x706669786564, 0x706669786564506374, 0x716669786564],
  [(0x637573746f6d6572436f756e74, .int 0), (0x716669786564506374, .flt 0x0), (0x706669786564, .flt 0x0), (0x706669786564506374, .flt 0x0), (0x716669786564, .flt 0x0)],
  [(0x637573746f6d6572436f756e74, 0x696e74), (0x716669786564506374, 0x666c6f6174), (0x706669786564, 0x666c6f6174), (0x706669786564506374, 0x666c6f6174), (0x716669786564, 0x666c6f6174)],
  [],
  [⟨0x6167677265676174654c6f616430, .many2many, 0x656e65726779436f6e73756d657230, 0, false⟩, ⟨0x506f7765724375745a6f6e65, .one2many, 0x456e65726779436f6e73756d657273, 0, false⟩, ⟨0x5365727669636544656c6976657279506f696e7473, .many2one, 0x456e65726779436f6e73756d6572, 0, false⟩, ⟨0x4c6f6164526573706f6e7365, .one2many, 0x456e65726779436f6e73756d6572, 0, false⟩],
  [0x6167677265676174654c6f616430, 0x5365727669636544656c6976657279506f696e7473]⟩
def m_EnergyConsumer : List RClass := d_EnergyConsumer :: m_ConductingEquipment

/-- CIM14/IEC61970/Wires/EnergySource.py:23 -/
def d_EnergySource : RClass := ⟨0x456e65726779536f75726365, 0x43494d31342e49454336313937302e57697265732e456e65726779536f75726365, 0x43494d31342e49454336313937302e436f72652e436f6e64756374696e6745717569706d656e74,
  [(0x78, .flt 0x0), (0x616374697665506f776572, .flt 0x0), (0x72, .flt 0x0), (0x6e6f6d696e616c566f6c74616765, .flt 0x0), (0x766f6c746167654d61676e6974756465, .flt 0x0), (0x786e, .flt 0x0), (0x7830, .flt 0x0), (0x726e, .flt 0x0), (0x766f6c74616765416e676c65, .flt 0x0), (0x7230, .flt 0x0)],
  [0x78, 0x616374697665506f776572, 0x72, 0x6e6f6d696e616c566f6c74616765, 0x766f6c746167654d61676e6974756465, 0x786e, 0x7830, 0x726e, 0x766f6c74616765416e676c65, 0x7230],
  [(0x78, .flt 0x0), (0x616374697665506f776572, .flt 0x0), (0x72, .flt 0x0), (0x6e6f6d696e616c566f6c74616765, .flt 0x0), (0x766f6c746167654d61676e6974756465, .flt 0x0), (0x786e, .flt 0x0), (0x7830, .flt 0x0), (0x726e, .flt 0x0), (0x766f6c74616765416e676c65, .flt 0x0), (0x7230, .flt 0x0)],
  [(0x78, 0x666c6f6174), (0x616374697665506f776572, 0x666c6f6174), (0x72, 0x666c6f6174), (0x6e6f6d696e616c566f6c74616765, 0x666c6f6174), (0x766f6c746167654d61676e6974756465, 0x666c6f6174), (0x786e, 0x666c6f6174), (0x7830, 0x666c6f6174), (0x726e, 0x666c6f6174), (0x766f6c74616765416e676c65, 0x666c6f6174), (0x7230, 0x666c6f6174)],
  [],
  [],
  []⟩
def m_EnergySource : List RClass := d_EnergySource :: m_ConductingEquipment

/-- CIM14/IEC61970/Wires/Ground.py:23 -/
def d_Ground : RClass := ⟨0x47726f756e64, 0x43494d31342e49454336313937302e57697265732e47726f756e64, 0x43494d31342e49454336313937302e436f72652e436f6e64756374696e6745717569706d656e74,
  [],
  [],
  [],
  [],
  [],
  [],
  []⟩
def m_Ground : List RClass := d_Ground :: m_ConductingEquipment

/-- CIM14/IEC61970/Wires/Line.py:23 -/
def d_Line : RClass := ⟨0x4c696e65, 0x43494d31342e49454336313937302e57697265732e4c696e65, 0x43494d31342e49454336313937302e436f72652e45717569706d656e74436f6e7461696e6572,
  [],
  [],
  [],
  [],
  [],
  [⟨0x526567696f6e, .one2many, 0x4c696e6573, 0, false⟩],
  []⟩
def m_Line : List RClass := d_Line :: m_EquipmentContainer

/-- CIM14/IEC61970/Wires/Plant.py:23 -/
def d_Plant : RClass := ⟨0x506c616e74, 0x43494d31342e49454336313937302e57697265732e506c616e74, 0x43494d31342e49454336313937302e436f72652e45717569706d656e74436f6e7461696e6572,
  [],
  [],
  [],
  [],
  [],
  [],
  []⟩
def m_Plant : List RClass := d_Plant :: m_EquipmentContainer

/-- CIM14/IEC61970/Wires/RectifierInverter.py:23 -/
def d_RectifierInverter : RClass := ⟨0x526563746966696572496e766572746572, 0x43494d31342e49454336313937302e57697265732e526563746966696572496e766572746572, 0x43494d31342e49454336313937302e436f72652e436f6e64756374696e6745717569706d656e74,
  [(0x726174656455, .flt 0x0), (0x636f6d706f756e64526573697374616e6365, .flt 0x0), (0x6672657175656e6379, .flt 0x0), (0x6d696e436f6d706f756e64566f6c74616765, .flt 0x0), (0x6d696e50, .flt 0x0), (0x6d617850, .flt 0x0), (0x6f7065726174696e674d6f6465, .str 0), (0x636f6d6d75746174696e67526573697374616e6365, .flt 0x0), (0x62726964676573, .int 0), (0x6d617855, .flt 0x0), (0x636f6d6d75746174696e675265616374616e6365, .flt 0x0), (0x6d696e55, .flt 0x0)],
  [0x726174656455, 0x636f6d706f756e64526573697374616e6365, 0x6672657175656e6379, 0x6d696e436f6d706f756e64566f6c74616765, 0x6d696e50, 0x6d617850, 0x6f7065726174696e674d6f6465, 0x636f6d6d75746174696e67526573697374616e6365, 0x62726964676573, 0x6d617855, 0x636f6d6d75746174696e675265616374616e6365, 0x6d696e55],
  [(0x726174656455, .flt 0x0), (0x636f6d706f756e64526573697374616e6365, .flt 0x0), (0x6672657175656e6379, .flt 0x0), (0x6d696e436f6d706f756e64566f6c74616765, .flt 0x0), (0x6d696e50, .flt 0x0), (0x6d617850, .flt 0x0), (0x6f7065726174696e674d6f6465, .str 0), (0x636f6d6d75746174696e67526573697374616e6365, .flt 0x0), (0x62726964676573, .int 0), (0x6d617855, .flt 0x0), (0x636f6d6d75746174696e675265616374616e6365, .flt 0x0), (0x6d696e55, .flt 0x0)],
  [(0x726174656455, 0x666c6f6174), (0x636f6d706f756e64526573697374616e6365, 0x666c6f6174), (0x6672657175656e6379, 0x666c6f6174), (0x6d696e436f6d706f756e64566f6c74616765, 0x666c6f6174), (0x6d696e50, 0x666c6f6174), (0x6d617850, 0x666c6f6174), (0x6f7065726174696e674d6f6465, 0x737472), (0x636f6d6d75746174696e67526573697374616e6365, 0x666c6f6174), (0x62726964676573, 0x696e74), (0x6d617855, 0x666c6f6174), (0x636f6d6d75746174696e675265616374616e6365, 0x666c6f6174), (0x6d696e55, 0x666c6f6174)],
  [],
  [],
  []⟩
def m_RectifierInverter : List RClass := d_RectifierInverter :: m_ConductingEquipment

/-- CIM14/IEC61970/Wires/RegulatingCondEq.py:23 -/
def d_RegulatingCondEq : RClass := ⟨0x526567756c6174696e67436f6e644571, 0x43494d31342e49454336313937302e57697265732e526567756c6174696e67436f6e644571, 0x43494d31342e49454336313937302e436f72652e436f6e64756374696e6745717569706d656e74,
  [],
  [],
  [],
  [],
  [],
  [⟨0x436f6e74726f6c73, .many2one, 0x526567756c6174696e67436f6e644571, 0, false⟩, ⟨0x526567756c6174696e67436f6e74726f6c, .one2many, 0x526567756c6174696e67436f6e644571, 0, false⟩],
  [0x436f6e74726f6c73]⟩
def m_RegulatingCondEq : List RClass := d_RegulatingCondEq :: m_ConductingEquipment

/-- CIM14/IEC61970/Wires/RegulationSchedule.py:23 -/
def d_RegulationSchedule : RClass := ⟨0x526567756c6174696f6e5363686564756c65, 0x43494d31342e49454336313937302e57697265732e526567756c6174696f6e5363686564756c65, 0x43494d31342e49454336313937302e4c6f61644d6f64656c2e536561736f6e446179547970655363686564756c65,
  [(0x6c696e6544726f7058, .flt 0x0), (0x6c696e6544726f7052, .flt 0x0), (0x6c696e6544726f70436f6d70656e736174696f6e, .bool false)],
  [0x6c696e6544726f7058, 0x6c696e6544726f7052, 0x6c696e6544726f70436f6d70656e736174696f6e],
  [(0x6c696e6544726f7058, .flt 0x0), (0x6c696e6544726f7052, .flt 0x0), (0x6c696e6544726f70436f6d70656e736174696f6e, .bool false)],
  [(0x6c696e6544726f7058, 0x666c6f6174), (0x6c696e6544726f7052, 0x666c6f6174), (0x6c696e6544726f70436f6d70656e736174696f6e, 0x626f6f6c)],
  [],
  [⟨0x526567756c6174696e67436f6e74726f6c, .one2many, 0x526567756c6174696f6e5363686564756c65, 0, false⟩, ⟨0x566f6c74616765436f6e74726f6c5a6f6e6573, .many2one, 0x526567756c6174696f6e5363686564756c65, 0, false⟩],
  [0x566f6c74616765436f6e74726f6c5a6f6e6573]⟩
def m_RegulationSchedule : List RClass := d_RegulationSchedule :: m_SeasonDayTypeSchedule

/-- CIM14/IEC61970/Wires/Resistor.py:23 -/
def d_Resistor : RClass := ⟨0x5265736973746f72, 0x43494d31342e49454336313937302e57697265732e5265736973746f72, 0x43494d31342e49454336313937302e436f72652e436f6e64756374696e6745717569706d656e74,
  [],
  [],
  [],
  [],
  [],
  [],
  []⟩
def m_Resistor : List RClass := d_Resistor :: m_ConductingEquipment

/-- CIM14/IEC61970/Wires/SeriesCompensator.py:23 -/
def d_SeriesCompensator : RClass := ⟨0x536572696573436f6d70656e7361746f72, 0x43494d31342e49454336313937302e57697265732e536572696573436f6d70656e7361746f72, 0x43494d31342e49454336313937302e436f72652e436f6e64756374696e6745717569706d656e74,
  [(0x72, .flt 0x0), (0x78, .flt 0x0)],
  [0x72, 0x78],
  [(0x72, .flt 0x0), (0x78, .flt 0x0)],
  [(0x72, 0x666c6f6174), (0x78, 0x666c6f6174)],
  [],
  [],
  []⟩
def m_SeriesCompensator : List RClass := d_SeriesCompensator :: m_ConductingEquipment

/-- CIM14/IEC61970/Wires/Switch.py:23 -/
def d_Switch : RClass := ⟨0x537769746368, 0x43494d31342e49454336313937302e57697265732e537769746368, 0x43494d31342e49454336313937302e436f72652e436f6e64756374696e6745717569706d656e74,
  [(0x7377697463684f6e436f756e74, .int 0), (0x7377697463684f6e44617465, .str 0), (0x72657461696e6564, .bool false), (0x6e6f726d616c4f70656e, .bool false)],
  [0x7377697463684f6e436f756e74, 0x7377697463684f6e44617465, 0x72657461696e6564, 0x6e6f726d616c4f70656e],
  [(0x7377697463684f6e436f756e74, .int 0), (0x7377697463684f6e44617465, .str 0), (0x72657461696e6564, .bool false), (0x6e6f726d616c4f70656e, .bool false)],
  [(0x7377697463684f6e436f756e74, 0x696e74), (0x7377697463684f6e44617465, 0x737472), (0x72657461696e6564, 0x626f6f6c), (0x6e6f726d616c4f70656e, 0x626f6f6c)],
  [],
  [⟨0x537769746368696e674f7065726174696f6e73, .many2many, 0x5377697463686573, 0, false⟩, ⟨0x436f6d706f73697465537769746368, .one2many, 0x5377697463686573, 0, false⟩, ⟨0x436f6e6e656374446973636f6e6e65637446756e6374696f6e73, .many2many, 0x5377697463686573, 0, false⟩, ⟨0x5377697463685363686564756c6573, .many2one, 0x537769746368, 0, false⟩],
  [0x537769746368696e674f7065726174696f6e73, 0x436f6e6e656374446973636f6e6e65637446756e6374696f6e73, 0x5377697463685363686564756c6573]⟩
def m_Switch : List RClass := d_Switch :: m_ConductingEquipment

/-- CIM14/IEC61970/Wires/SwitchSchedule.py:23 -/
def d_SwitchSchedule : RClass := ⟨0x5377697463685363686564756c65, 0x43494d31342e49454336313937302e57697265732e5377697463685363686564756c65, 0x43494d31342e49454336313937302e4c6f61644d6f64656c2e536561736f6e446179547970655363686564756c65,
  [],
  [],
  [],
  [],
  [],
  [⟨0x537769746368, .one2many, 0x5377697463685363686564756c6573, 0, false⟩],
  []⟩
def m_SwitchSchedule : List RClass := d_SwitchSchedule :: m_SeasonDayTypeSchedule

/-- CIM14/IEC61970/Wires/TapSchedule.py:23 -/
def d_TapSchedule : RClass := ⟨0x5461705363686564756c65, 0x43494d31342e49454336313937302e57697265732e5461705363686564756c65, 0x43494d31342e49454336313937302e4c6f61644d6f64656c2e536561736f6e446179547970655363686564756c65,
  [(0x6c696e6544726f70436f6d70656e736174696f6e, .bool false), (0x6c696e6544726f7052, .flt 0x0), (0x6c696e6544726f7058, .flt 0x0)],
  [0x6c696e6544726f70436f6d70656e736174696f6e, 0x6c696e6544726f7052, 0x6c696e6544726f7058],
  [(0x6c696e6544726f70436f6d70656e736174696f6e, .bool false), (0x6c696e6544726f7052, .flt 0x0), (0x6c696e6544726f7058, .flt 0x0)],
  [(0x6c696e6544726f70436f6d70656e736174696f6e, 0x626f6f6c), (0x6c696e6544726f7052, 0x666c6f6174), (0x6c696e6544726f7058, 0x666c6f6174)],
  [],
  [⟨0x5461704368616e676572, .one2many, 0x5461705363686564756c6573, 0, false⟩],
  []⟩
def m_TapSchedule : List RClass := d_TapSchedule :: m_SeasonDayTypeSchedule

/-- CIM14/IEC61970/Wires/TransformerWinding.py:23 -/
def d_TransformerWinding : RClass := ⟨0x5472616e73666f726d657257696e64696e67, 0x43494d31342e49454336313937302e57697265732e5472616e73666f726d657257696e64696e67, 0x43494d31342e49454336313937302e436f72652e436f6e64756374696e6745717569706d656e74,
  [(0x636f6e6e656374696f6e54797065, .str 0x596e), (0x77696e64696e6754797065, .str 0x7072696d617279), (0x78, .flt 0x0), (0x67726f756e646564, .bool false), (0x67, .flt 0x0), (0x72, .flt 0x0), (0x7830, .flt 0x0), (0x726174656455, .flt 0x0), (0x726174656453, .flt 0x0), (0x656d657267656e637953, .flt 0x0), (0x7267726f756e64, .flt 0x0), (0x73686f72745465726d53, .flt 0x0), (0x7230, .flt 0x0), (0x6730, .flt 0x0), (0x696e73756c6174696f6e55, .flt 0x0), (0x62, .flt 0x0), (0x6230, .flt 0x0), (0x7867726f756e64, .flt 0x0)],
  [0x636f6e6e656374696f6e54797065, 0x77696e64696e6754797065, 0x78, 0x67726f756e646564, 0x67, 0x72, 0x7830, 0x726174656455, 0x726174656453, 0x656d657267656e637953, 0x7267726f756e64, 0x73686f72745465726d53, 0x7230, 0x6730, 0x696e73756c6174696f6e55, 0x62, 0x6230, 0x7867726f756e64],
  [(0x636f6e6e656374696f6e54797065, .str 0x596e), (0x77696e64696e6754797065, .str 0x7072696d617279), (0x78, .flt 0x0), (0x67726f756e646564, .bool false), (0x67, .flt 0x0), (0x72, .flt 0x0), (0x7830, .flt 0x0), (0x726174656455, .flt 0x0), (0x726174656453, .flt 0x0), (0x656d657267656e637953, .flt 0x0), (0x7267726f756e64, .flt 0x0), (0x73686f72745465726d53, .flt 0x0), (0x7230, .flt 0x0), (0x6730, .flt 0x0), (0x696e73756c6174696f6e55, .flt 0x0), (0x62, .flt 0x0), (0x6230, .flt 0x0), (0x7867726f756e64, .flt 0x0)],
  [(0x636f6e6e656374696f6e54797065, 0x737472), (0x77696e64696e6754797065, 0x737472), (0x78, 0x666c6f6174), (0x67726f756e646564, 0x626f6f6c), (0x67, 0x666c6f6174), (0x72, 0x666c6f6174), (0x7830, 0x666c6f6174), (0x726174656455, 0x666c6f6174), (0x726174656453, 0x666c6f6174), (0x656d657267656e637953, 0x666c6f6174), (0x7267726f756e64, 0x666c6f6174), (0x73686f72745465726d53, 0x666c6f6174), (0x7230, 0x666c6f6174), (0x6730, 0x666c6f6174), (0x696e73756c6174696f6e55, 0x666c6f6174), (0x62, 0x666c6f6174), (0x6230, 0x666c6f6174), (0x7867726f756e64, 0x666c6f6174)],
  [(0x636f6e6e656374696f6e54797065, 0x57696e64696e67436f6e6e656374696f6e), (0x77696e64696e6754797065, 0x57696e64696e6754797065)],
  [⟨0x46726f6d5f57696e64696e6754657374, .many2one, 0x46726f6d5f5472616e73666f726d657257696e64696e67, 0, false⟩, ⟨0x546f5f57696e64696e6754657374, .many2one, 0x546f5f5472616e73666f726d657257696e64696e67, 0, false⟩, ⟨0x526174696f5461704368616e676572, .one2one, 0x5472616e73666f726d657257696e64696e67, 0, false⟩, ⟨0x506f7765725472616e73666f726d6572, .one2many, 0x5472616e73666f726d657257696e64696e6773, 0, false⟩, ⟨0x50686173655461704368616e676572, .one2one, 0x5472616e73666f726d657257696e64696e67, 0, false⟩],
  [0x46726f6d5f57696e64696e6754657374, 0x546f5f57696e64696e6754657374]⟩
def m_TransformerWinding : List RClass := d_TransformerWinding :: m_ConductingEquipment

/-- CIM14/IEC61970/Dynamics/Generators/GenLoad.py:23 -/
def d_GenLoad : RClass := ⟨0x47656e4c6f6164, 0x43494d31342e49454336313937302e44796e616d6963732e47656e657261746f72732e47656e4c6f6164, 0x43494d31342e49454336313937302e57697265732e526567756c6174696e67436f6e644571,
  [],
  [],
  [],
  [],
  [],
  [⟨0x73796e6368726f6e6f75734d616368696e6530, .many2many, 0x67656e4c6f616430, 0, false⟩],
  [0x73796e6368726f6e6f75734d616368696e6530]⟩
def m_GenLoad : List RClass := d_GenLoad :: m_RegulatingCondEq

/-- CIM14/IEC61970/Dynamics/RotatingMachine.py:23 -/
def d_RotatingMachine : RClass := ⟨0x526f746174696e674d616368696e65, 0x43494d31342e49454336313937302e44796e616d6963732e526f746174696e674d616368696e65, 0x43494d31342e49454336313937302e57697265732e526567756c6174696e67436f6e644571,
  [(0x706172616d6574657273466f726d54797065, .str 0x74696d65436f6e7374616e745265616374616e6365), (0x64, .flt 0x0), (0x7273, .flt 0x0), (0x68, .flt 0x0), (0x733132, .flt 0x0), (0x726174656453, .flt 0x0), (0x7331, .flt 0x0), (0x786c73, .flt 0x0)],
  [0x706172616d6574657273466f726d54797065, 0x64, 0x7273, 0x68, 0x733132, 0x726174656453, 0x7331, 0x786c73],
  [(0x706172616d6574657273466f726d54797065, .str 0x74696d65436f6e7374616e745265616374616e6365), (0x64, .flt 0x0), (0x7273, .flt 0x0), (0x68, .flt 0x0), (0x733132, .flt 0x0), (0x726174656453, .flt 0x0), (0x7331, .flt 0x0), (0x786c73, .flt 0x0)],
  [(0x706172616d6574657273466f726d54797065, 0x737472), (0x64, 0x666c6f6174), (0x7273, 0x666c6f6174), (0x68, 0x666c6f6174), (0x733132, 0x666c6f6174), (0x726174656453, 0x666c6f6174), (0x7331, 0x666c6f6174), (0x786c73, 0x666c6f6174)],
  [(0x706172616d6574657273466f726d54797065, 0x506172616d6574657273466f726d54797065)],
  [⟨0x6d656368616e6963616c4c6f616430, .many2many, 0x726f746174696e674d616368696e6530, 0, false⟩],
  [0x6d656368616e6963616c4c6f616430]⟩
def m_RotatingMachine : List RClass := d_RotatingMachine :: m_RegulatingCondEq

/-- CIM14/IEC61970/Equivalents/EquivalentBranch.py:23 -/
def d_EquivalentBranch : RClass := ⟨0x4571756976616c656e744272616e6368, 0x43494d31342e49454336313937302e4571756976616c656e74732e4571756976616c656e744272616e6368, 0x43494d31342e49454336313937302e4571756976616c656e74732e4571756976616c656e7445717569706d656e74,
  [(0x78, .flt 0x0), (0x72, .flt 0x0)],
  [0x78, 0x72],
  [(0x78, .flt 0x0), (0x72, .flt 0x0)],
  [(0x78, 0x666c6f6174), (0x72, 0x666c6f6174)],
  [],
  [],
  []⟩
def m_EquivalentBranch : List RClass := d_EquivalentBranch :: m_EquivalentEquipment

/-- CIM14/IEC61970/Equivalents/EquivalentInjection.py:23 -/
def d_EquivalentInjection : RClass := ⟨0x4571756976616c656e74496e6a656374696f6e, 0x43494d31342e49454336313937302e4571756976616c656e74732e4571756976616c656e74496e6a656374696f6e, 0x43494d31342e49454336313937302e4571756976616c656e74732e4571756976616c656e7445717569706d656e74,
  [(0x6d617850, .flt 0x0), (0x726567756c6174696f6e4361706162696c697479, .bool false), (0x726567756c6174696f6e546172676574, .flt 0x0), (0x6d696e50, .flt 0x0), (0x726567756c6174696f6e537461747573, .bool false)],
  [0x6d617850, 0x726567756c6174696f6e4361706162696c697479, 0x726567756c6174696f6e546172676574, 0x6d696e50, 0x726567756c6174696f6e537461747573],
  [(0x6d617850, .flt 0x0), (0x726567756c6174696f6e4361706162696c697479, .bool false), (0x726567756c6174696f6e546172676574, .flt 0x0), (0x6d696e50, .flt 0x0), (0x726567756c6174696f6e537461747573, .bool false)],
  [(0x6d617850, 0x666c6f6174), (0x726567756c6174696f6e4361706162696c697479, 0x626f6f6c), (0x726567756c6174696f6e546172676574, 0x666c6f6174), (0x6d696e50, 0x666c6f6174), (0x726567756c6174696f6e537461747573, 0x626f6f6c)],
  [],
  [],
  []⟩
def m_EquivalentInjection : List RClass := d_EquivalentInjection :: m_EquivalentEquipment

/-- CIM14/IEC61970/Equivalents/EquivalentShunt.py:23 -/
def d_EquivalentShunt : RClass := ⟨0x4571756976616c656e745368756e74, 0x43494d31342e49454336313937302e4571756976616c656e74732e4571756976616c656e745368756e74, 0x43494d31342e49454336313937302e4571756976616c656e74732e4571756976616c656e7445717569706d656e74,
  [(0x62, .flt 0x0), (0x67, .flt 0x0)],
  [0x62, 0x67],
  [(0x62, .flt 0x0), (0x67, .flt 0x0)],
  [(0x62, 0x666c6f6174), (0x67, 0x666c6f6174)],
  [],
  [],
  []⟩
def m_EquivalentShunt : List RClass := d_EquivalentShunt :: m_EquivalentEquipment

/-- CIM14/IEC61970/LoadModel/ConformLoad.py:23 -/
def d_ConformLoad : RClass := ⟨0x436f6e666f726d4c6f6164, 0x43494d31342e49454336313937302e4c6f61644d6f64656c2e436f6e666f726d4c6f6164, 0x43494d31342e49454336313937302e57697265732e456e65726779436f6e73756d6572,
  [],
  [],
  [],
  [],
  [],
  [⟨0x4c6f616447726f7570, .one2many, 0x456e65726779436f6e73756d657273, 0, false⟩],
  []⟩
def m_ConformLoad : List RClass := d_ConformLoad :: m_EnergyConsumer

/-- CIM14/IEC61970/LoadModel/NonConformLoad.py:23 -/
def d_NonConformLoad : RClass := ⟨0x4e6f6e436f6e666f726d4c6f6164, 0x43494d31342e49454336313937302e4c6f61644d6f64656c2e4e6f6e436f6e666f726d4c6f6164, 0x43494d31342e49454336313937302e57697265732e456e65726779436f6e73756d6572,
  [],
  [],
  [],
  [],
  [],
  [⟨0x4c6f616447726f7570, .one2many, 0x456e65726779436f6e73756d657273, 0, false⟩],
  []⟩
def m_NonConformLoad : List RClass := d_NonConformLoad :: m_EnergyConsumer

/-- CIM14/IEC61970/LoadModel/StationSupply.py:23 -/
def d_StationSupply : RClass := ⟨0x53746174696f6e537570706c79, 0x43494d31342e49454336313937302e4c6f61644d6f64656c2e53746174696f6e537570706c79, 0x43494d31342e49454336313937302e57697265732e456e65726779436f6e73756d6572,
  [],
  [],
  [],
  [],
  [],
  [],
  []⟩
def m_StationSupply : List RClass := d_StationSupply :: m_EnergyConsumer

/-- CIM14/IEC61970/Wires/ACLineSegment.py:23 -/
def d_ACLineSegment : RClass := ⟨0x41434c696e655365676d656e74, 0x43494d31342e49454336313937302e57697265732e41434c696e655365676d656e74, 0x43494d31342e49454336313937302e57697265732e436f6e647563746f72,
  [(0x676368, .flt 0x0), (0x72, .flt 0x0), (0x7830, .flt 0x0), (0x626368, .flt 0x0), (0x78, .flt 0x0), (0x7230, .flt 0x0), (0x67306368, .flt 0x0), (0x62306368, .flt 0x0)],
  [0x676368, 0x72, 0x7830, 0x626368, 0x78, 0x7230, 0x67306368, 0x62306368],
  [(0x676368, .flt 0x0), (0x72, .flt 0x0), (0x7830, .flt 0x0), (0x626368, .flt 0x0), (0x78, .flt 0x0), (0x7230, .flt 0x0), (0x67306368, .flt 0x0), (0x62306368, .flt 0x0)],
  [(0x676368, 0x666c6f6174), (0x72, 0x666c6f6174), (0x7830, 0x666c6f6174), (0x626368, 0x666c6f6174), (0x78, 0x666c6f6174), (0x7230, 0x666c6f6174), (0x67306368, 0x666c6f6174), (0x62306368, 0x666c6f6174)],
  [],
  [],
  []⟩
def m_ACLineSegment : List RClass := d_ACLineSegment :: m_Conductor

/-- CIM14/IEC61970/Wires/BusbarSection.py:23 -/
def d_BusbarSection : RClass := ⟨0x42757362617253656374696f6e, 0x43494d31342e49454336313937302e57697265732e42757362617253656374696f6e, 0x43494d31342e49454336313937302e57697265732e436f6e6e6563746f72,
  [],
  [],
  [],
  [],
  [],
  [⟨0x566f6c74616765436f6e74726f6c5a6f6e65, .one2one, 0x42757362617253656374696f6e, 0, false⟩],
  []⟩
def m_BusbarSection : List RClass := d_BusbarSection :: m_Connector

/-- CIM14/IEC61970/Wires/DCLineSegment.py:23 -/
def d_DCLineSegment : RClass := ⟨0x44434c696e655365676d656e74, 0x43494d31342e49454336313937302e57697265732e44434c696e655365676d656e74, 0x43494d31342e49454336313937302e57697265732e436f6e647563746f72,
  [(0x64635365676d656e74496e64756374616e6365, .flt 0x0), (0x64635365676d656e74526573697374616e6365, .flt 0x0)],
  [0x64635365676d656e74496e64756374616e6365, 0x64635365676d656e74526573697374616e6365],
  [(0x64635365676d656e74496e64756374616e6365, .flt 0x0), (0x64635365676d656e74526573697374616e6365, .flt 0x0)],
  [(0x64635365676d656e74496e64756374616e6365, 0x666c6f6174), (0x64635365676d656e74526573697374616e6365, 0x666c6f6174)],
  [],
  [],
  []⟩
def m_DCLineSegment : List RClass := d_DCLineSegment :: m_Conductor

/-- CIM14/IEC61970/Wires/Disconnector.py:23 -/
def d_Disconnector : RClass := ⟨0x446973636f6e6e6563746f72, 0x43494d31342e49454336313937302e57697265732e446973636f6e6e6563746f72, 0x43494d31342e49454336313937302e57697265732e537769746368,
  [],
  [],
  [],
  [],
  [],
  [],
  []⟩
def m_Disconnector : List RClass := d_Disconnector :: m_Switch

/-- CIM14/IEC61970/Wires/FrequencyConverter.py:23 -/
def d_FrequencyConverter : RClass := ⟨0x4672657175656e6379436f6e766572746572, 0x43494d31342e49454336313937302e57697265732e4672657175656e6379436f6e766572746572, 0x43494d31342e49454336313937302e57697265732e526567756c6174696e67436f6e644571,
  [(0x6d696e55, .flt 0x0), (0x6d617855, .flt 0x0), (0x6d617850, .flt 0x0), (0x6d696e50, .flt 0x0), (0x6672657175656e6379, .flt 0x0), (0x6f7065726174696e674d6f6465, .str 0)],
  [0x6d696e55, 0x6d617855, 0x6d617850, 0x6d696e50, 0x6672657175656e6379, 0x6f7065726174696e674d6f6465],
  [(0x6d696e55, .flt 0x0), (0x6d617855, .flt 0x0), (0x6d617850, .flt 0x0), (0x6d696e50, .flt 0x0), (0x6672657175656e6379, .flt 0x0), (0x6f7065726174696e674d6f6465, .str 0)],
  [(0x6d696e55, 0x666c6f6174), (0x6d617855, 0x666c6f6174), (0x6d617850, 0x666c6f6174), (0x6d696e50, 0x666c6f6174), (0x6672657175656e6379, 0x666c6f6174), (0x6f7065726174696e674d6f6465, 0x737472)],
  [],
  [],
  []⟩
def m_FrequencyConverter : List RClass := d_FrequencyConverter :: m_RegulatingCondEq

/-- CIM14/IEC61970/Wires/Fuse.py:23 -/
def d_Fuse : RClass := ⟨0x46757365, 0x43494d31342e49454336313937302e57697265732e46757365, 0x43494d31342e49454336313937302e57697265732e537769746368,
  [(0x726174696e6743757272656e74, .flt 0x0)],
  [0x726174696e6743757272656e74],
  [(0x726174696e6743757272656e74, .flt 0x0)],
  [(0x726174696e6743757272656e74, 0x666c6f6174)],
  [],
  [],
  []⟩
def m_Fuse : List RClass := d_Fuse :: m_Switch

/-- CIM14/IEC61970/Wires/GroundDisconnector.py:23 -/
def d_GroundDisconnector : RClass := ⟨0x47726f756e64446973636f6e6e6563746f72, 0x43494d31342e49454336313937302e57697265732e47726f756e64446973636f6e6e6563746f72, 0x43494d31342e49454336313937302e57697265732e537769746368,
  [],
  [],
  [],
  [],
  [],
  [],
  []⟩
def m_GroundDisconnector : List RClass := d_GroundDisconnector :: m_Switch

/-- CIM14/IEC61970/Wires/Jumper.py:23 -/
def d_Jumper : RClass := ⟨0x4a756d706572, 0x43494d31342e49454336313937302e57697265732e4a756d706572, 0x43494d31342e49454336313937302e57697265732e537769746368,
  [],
  [],
  [],
  [],
  [],
  [],
  []⟩
def m_Jumper : List RClass := d_Jumper :: m_Switch

/-- CIM14/IEC61970/Wires/Junction.py:23 -/
def d_Junction : RClass := ⟨0x4a756e6374696f6e, 0x43494d31342e49454336313937302e57697265732e4a756e6374696f6e, 0x43494d31342e49454336313937302e57697265732e436f6e6e6563746f72,
  [],
  [],
  [],
  [],
  [],
  [],
  []⟩
def m_Junction : List RClass := d_Junction :: m_Connector

/-- CIM14/IEC61970/Wires/ProtectedSwitch.py:23 -/
def d_ProtectedSwitch : RClass := ⟨0x50726f746563746564537769746368, 0x43494d31342e49454336313937302e57697265732e50726f746563746564537769746368, 0x43494d31342e49454336313937302e57697265732e537769746368,
  [],
  [],
  [],
  [],
  [],
  [⟨0x5265636c6f736553657175656e636573, .many2one, 0x50726f746563746564537769746368, 0, false⟩],
  [0x5265636c6f736553657175656e636573]⟩
def m_ProtectedSwitch : List RClass := d_ProtectedSwitch :: m_Switch

/-- CIM14/IEC61970/Wires/ShuntCompensator.py:23 -/
def d_ShuntCompensator : RClass := ⟨0x5368756e74436f6d70656e7361746f72, 0x43494d31342e49454336313937302e57697265732e5368756e74436f6d70656e7361746f72, 0x43494d31342e49454336313937302e57697265732e526567756c6174696e67436f6e644571,
  [(0x6d617855, .flt 0x0), (0x726561637469766550657253656374696f6e, .flt 0x0), (0x61565244656c6179, .flt 0x0), (0x766f6c7461676553656e7369746976697479, .flt 0x0), (0x6e6f726d616c53656374696f6e73, .int 0), (0x673050657253656374696f6e, .flt 0x0), (0x6d6178696d756d53656374696f6e73, .int 0), (0x6250657253656374696f6e, .flt 0x0), (0x6e6f6d51, .flt 0x0), (0x7377697463684f6e436f756e74, .int 0), (0x6d696e55, .flt 0x0), (0x623050657253656374696f6e, .flt 0x0), (0x7377697463684f6e44617465, .str 0), (0x6e6f6d55, .flt 0x0), (0x6750657253656374696f6e, .flt 0x0)],
  [0x6d617855, 0x726561637469766550657253656374696f6e, 0x61565244656c6179, 0x766f6c7461676553656e7369746976697479, 0x6e6f726d616c53656374696f6e73, 0x673050657253656374696f6e, 0x6d6178696d756d53656374696f6e73, 0x6250657253656374696f6e, 0x6e6f6d51, 0x7377697463684f6e436f756e74, 0x6d696e55, 0x623050657253656374696f6e, 0x7377697463684f6e44617465, 0x6e6f6d55, 0x6750657253656374696f6e],
  [(0x6d617855, .flt 0x0), (0x726561637469766550657253656374696f6e, .flt 0x0), (0x61565244656c6179, .flt 0x0), (0x766f6c7461676553656e7369746976697479, .flt 0x0), (0x6e6f726d616c53656374696f6e73, .int 0), (0x673050657253656374696f6e, .flt 0x0), (0x6d6178696d756d53656374696f6e73, .int 0), (0x6250657253656374696f6e, .flt 0x0), (0x6e6f6d51, .flt 0x0), (0x7377697463684f6e436f756e74, .int 0), (0x6d696e55, .flt 0x0), (0x623050657253656374696f6e, .flt 0x0), (0x7377697463684f6e44617465, .str 0), (0x6e6f6d55, .flt 0x0), (0x6750657253656374696f6e, .flt 0x0)],
  [(0x6d617855, 0x666c6f6174), (0x726561637469766550657253656374696f6e, 0x666c6f6174), (0x61565244656c6179, 0x666c6f6174), (0x766f6c7461676553656e7369746976697479, 0x666c6f6174), (0x6e6f726d616c53656374696f6e73, 0x696e74), (0x673050657253656374696f6e, 0x666c6f6174), (0x6d6178696d756d53656374696f6e73, 0x696e74), (0x6250657253656374696f6e, 0x666c6f6174), (0x6e6f6d51, 0x666c6f6174), (0x7377697463684f6e436f756e74, 0x696e74), (0x6d696e55, 0x666c6f6174), (0x623050657253656374696f6e, 0x666c6f6174), (0x7377697463684f6e44617465, 0x737472), (0x6e6f6d55, 0x666c6f6174), (0x6750657253656374696f6e, 0x666c6f6174)],
  [],
  [⟨0x53765368756e74436f6d70656e7361746f7253656374696f6e73, .one2one, 0x5368756e74436f6d70656e7361746f72, 0, false⟩],
  []⟩
def m_ShuntCompensator : List RClass := d_ShuntCompensator :: m_RegulatingCondEq

/-- CIM14/IEC61970/Wires/StaticVarCompensator.py:23 -/
def d_StaticVarCompensator : RClass := ⟨0x537461746963566172436f6d70656e7361746f72, 0x43494d31342e49454336313937302e57697265732e537461746963566172436f6d70656e7361746f72, 0x43494d31342e49454336313937302e57697265732e526567756c6174696e67436f6e644571,
  [(0x735643436f6e74726f6c4d6f6465, .str 0x7265616374697665506f776572), (0x766f6c74616765536574506f696e74, .flt 0x0), (0x63617061636974697665526174696e67, .flt 0x0), (0x696e64756374697665526174696e67, .flt 0x0), (0x736c6f7065, .flt 0x0)],
  [0x735643436f6e74726f6c4d6f6465, 0x766f6c74616765536574506f696e74, 0x63617061636974697665526174696e67, 0x696e64756374697665526174696e67, 0x736c6f7065],
  [(0x735643436f6e74726f6c4d6f6465, .str 0x7265616374697665506f776572), (0x766f6c74616765536574506f696e74, .flt 0x0), (0x63617061636974697665526174696e67, .flt 0x0), (0x696e64756374697665526174696e67, .flt 0x0), (0x736c6f7065, .flt 0x0)],
  [(0x735643436f6e74726f6c4d6f6465, 0x737472), (0x766f6c74616765536574506f696e74, 0x666c6f6174), (0x63617061636974697665526174696e67, 0x666c6f6174), (0x696e64756374697665526174696e67, 0x666c6f6174), (0x736c6f7065, 0x666c6f6174)],
  [(0x735643436f6e74726f6c4d6f6465, 0x535643436f6e74726f6c4d6f6465)],
  [],
  []⟩
def m_StaticVarCompensator : List RClass := d_StaticVarCompensator :: m_RegulatingCondEq

/-- CIM14/IEC61968/WiresExt/DistributionLineSegment.py:23 -/
def d_DistributionLineSegment : RClass := ⟨0x446973747269627574696f6e4c696e655365676d656e74, 0x43494d31342e49454336313936382e57697265734578742e446973747269627574696f6e4c696e655365676d656e74, 0x43494d31342e49454336313937302e57697265732e41434c696e655365676d656e74,
  [],
  [],
  [],
  [],
  [],
  [⟨0x436f6e647563746f72496e666f, .one2many, 0x436f6e647563746f725365676d656e7473, 0, false⟩, ⟨0x5068617365496d706564616e6365, .one2many, 0x436f6e647563746f725365676d656e7473, 0, false⟩, ⟨0x53657175656e6365496d706564616e6365, .one2many, 0x436f6e647563746f725365676d656e7473, 0, false⟩],
  []⟩
def m_DistributionLineSegment : List RClass := d_DistributionLineSegment :: m_ACLineSegment

/-- CIM14/IEC61970/Dynamics/AsynchronousMachine.py:23 -/
def d_AsynchronousMachine : RClass := ⟨0x4173796e6368726f6e6f75734d616368696e65, 0x43494d31342e49454336313937302e44796e616d6963732e4173796e6368726f6e6f75734d616368696e65, 0x43494d31342e49454336313937302e44796e616d6963732e526f746174696e674d616368696e65,
  [(0x786d, .flt 0x0), (0x7873, .flt 0x0), (0x787070, .flt 0x0), (0x786c7232, .flt 0x0), (0x727232, .flt 0x0), (0x74706f, .flt 0x0), (0x727231, .flt 0x0), (0x7870, .flt 0x0), (0x7470706f, .flt 0x0), (0x786c7231, .flt 0x0)],
  [0x786d, 0x7873, 0x787070, 0x786c7232, 0x727232, 0x74706f, 0x727231, 0x7870, 0x7470706f, 0x786c7231],
  [(0x786d, .flt 0x0), (0x7873, .flt 0x0), (0x787070, .flt 0x0), (0x786c7232, .flt 0x0), (0x727232, .flt 0x0), (0x74706f, .flt 0x0), (0x727231, .flt 0x0), (0x7870, .flt 0x0), (0x7470706f, .flt 0x0), (0x786c7231, .flt 0x0)],
  [(0x786d, 0x666c6f6174), (0x7873, 0x666c6f6174), (0x787070, 0x666c6f6174), (0x786c7232, 0x666c6f6174), (0x727232, 0x666c6f6174), (0x74706f, 0x666c6f6174), (0x727231, 0x666c6f6174), (0x7870, 0x666c6f6174), (0x7470706f, 0x666c6f6174), (0x786c7231, 0x666c6f6174)],
  [],
  [],
  []⟩
def m_AsynchronousMachine : List RClass := d_AsynchronousMachine :: m_RotatingMachine

/-- CIM14/IEC61970/Dynamics/Generators/GenEquiv.py:23 -/
def d_GenEquiv : RClass := ⟨0x47656e4571756976, 0x43494d31342e49454336313937302e44796e616d6963732e47656e657261746f72732e47656e4571756976, 0x43494d31342e49454336313937302e44796e616d6963732e526f746174696e674d616368696e65,
  [(0x7870, .flt 0x0)],
  [0x7870],
  [(0x7870, .flt 0x0)],
  [(0x7870, 0x666c6f6174)],
  [],
  [⟨0x73796e6368726f6e6f75734d616368696e6530, .many2many, 0x67656e457175697630, 0, false⟩],
  [0x73796e6368726f6e6f75734d616368696e6530]⟩
def m_GenEquiv : List RClass := d_GenEquiv :: m_RotatingMachine

/-- CIM14/IEC61970/Wires/Breaker.py:23 -/
def d_Breaker : RClass := ⟨0x427265616b6572, 0x43494d31342e49454336313937302e57697265732e427265616b6572, 0x43494d31342e49454336313937302e57697265732e50726f746563746564537769746368,
  [(0x696e5472616e73697454696d65, .flt 0x0), (0x726174656443757272656e74, .flt 0x0)],
  [0x696e5472616e73697454696d65, 0x726174656443757272656e74],
  [(0x696e5472616e73697454696d65, .flt 0x0), (0x726174656443757272656e74, .flt 0x0)],
  [(0x696e5472616e73697454696d65, 0x666c6f6174), (0x726174656443757272656e74, 0x666c6f6174)],
  [],
  [],
  []⟩
def m_Breaker : List RClass := d_Breaker :: m_ProtectedSwitch

/-- CIM14/IEC61970/Wires/LoadBreakSwitch.py:23 -/
def d_LoadBreakSwitch : RClass := ⟨0x4c6f6164427265616b537769746368, 0x43494d31342e49454336313937302e57697265732e4c6f6164427265616b537769746368, 0x43494d31342e49454336313937302e57697265732e50726f746563746564537769746368,
  [(0x726174656443757272656e74, .flt 0x0)],
  [0x726174656443757272656e74],
  [(0x726174656443757272656e74, .flt 0x0)],
  [(0x726174656443757272656e74, 0x666c6f6174)],
  [],
  [],
  []⟩
def m_LoadBreakSwitch : List RClass := d_LoadBreakSwitch :: m_ProtectedSwitch

/-- CIM14/IEC61970/Wires/SynchronousMachine.py:23 -/
def d_SynchronousMachine : RClass := ⟨0x53796e6368726f6e6f75734d616368696e65, 0x43494d31342e49454336313937302e57697265732e53796e6368726f6e6f75734d616368696e65, 0x43494d31342e49454336313937302e44796e616d6963732e526f746174696e674d616368696e65,
  [(0x6f7065726174696e674d6f6465, .str 0x636f6e64656e736572), (0x74797065, .str 0x67656e657261746f725f6f725f636f6e64656e736572), (0x636f6f6c616e7454797065, .str 0x616972), (0x78517561645472616e73, .flt 0x0), (0x636f6e64656e73657250, .flt 0x0), (0x7265666572656e63655072696f72697479, .int 0), (0x64616d70696e67, .flt 0x0), (0x7830, .flt 0x0), (0x7232, .flt 0x0), (0x6d696e51, .flt 0x0), (0x7844697265637453796e63, .flt 0x0), (0x6d617851, .flt 0x0), (0x7230, .flt 0x0), (0x615652546f4d616e75616c4c656164, .flt 0x0), (0x78, .flt 0x0), (0x696e6572746961, .flt 0x0), (0x636f6f6c616e74436f6e646974696f6e, .flt 0x0), (0x6d616e75616c546f415652, .flt 0x0), (0x72, .flt 0x0), (0x6d617855, .flt 0x0), (0x785175616453796e63, .flt 0x0), (0x7150657263656e74, .flt 0x0), (0x78517561645375627472616e73, .flt 0x0), (0x6d696e55, .flt 0x0), (0x615652546f4d616e75616c4c6167, .flt 0x0), (0x6261736551, .flt 0x0), (0x784469726563745472616e73, .flt 0x0), (0x7832, .flt 0x0), (0x784469726563745375627472616e73, .flt 0x0)],
  [0x6f7065726174696e674d6f6465, 0x74797065, 0x636f6f6c616e7454797065, 0x78517561645472616e73, 0x636f6e64656e73657250, 0x7265666572656e63655072696f72697479, 0x64616d70696e67, 0x7830, 0x7232, 0x6d696e51, 0x7844697265637453796e63, 0x6d617851, 0x7230, 0x615652546f4d616e75616c4c656164, 0x78, 0x696e6572746961, 0x636f6f6c616e74436f6e646974696f6e, 0x6d616e75616c546f415652, 0x72, 0x6d617855, 0x785175616453796e63, 0x7150657263656e74, 0x78517561645375627472616e73, 0x6d696e55, 0x615652546f4d616e75616c4c6167, 0x6261736551, 0x784469726563745472616e73, 0x7832, 0x784469726563745375627472616e73],
  [(0x6f7065726174696e674d6f6465, .str 0x636f6e64656e736572), (0x74797065, .str 0x67656e657261746f725f6f725f636f6e64656e736572), (0x636f6f6c616e7454797065, .str 0x616972), (0x78517561645472616e73, .flt 0x0), (0x636f6e64656e73657250, .flt 0x0), (0x7265666572656e63655072696f72697479, .int 0), (0x64616d70696e67, .flt 0x0), (0x7830, .flt 0x0), (0x7232, .flt 0x0), (0x6d696e51, .flt 0x0), (0x7844697265637453796e63, .flt 0x0), (0x6d617851, .flt 0x0), (0x7230, .flt 0x0), (0x615652546f4d616e75616c4c656164, .flt 0x0), (0x78, .flt 0x0), (0x696e6572746961, .flt 0x0), (0x636f6f6c616e74436f6e646974696f6e, .flt 0x0), (0x6d616e75616c546f415652, .flt 0x0), (0x72, .flt 0x0), (0x6d617855, .flt 0x0), (0x785175616453796e63, .flt 0x0), (0x7150657263656e74, .flt 0x0), (0x78517561645375627472616e73, .flt 0x0), (0x6d696e55, .flt 0x0), (0x615652546f4d616e75616c4c6167, .flt 0x0), (0x6261736551, .flt 0x0), (0x784469726563745472616e73, .flt 0x0), (0x7832, .flt 0x0), (0x784469726563745375627472616e73, .flt 0x0)],
  [(0x6f7065726174696e674d6f6465, 0x737472), (0x74797065, 0x737472), (0x636f6f6c616e7454797065, 0x737472), (0x78517561645472616e73, 0x666c6f6174), (0x636f6e64656e73657250, 0x666c6f6174), (0x7265666572656e63655072696f72697479, 0x696e74), (0x64616d70696e67, 0x666c6f6174), (0x7830, 0x666c6f6174), (0x7232, 0x666c6f6174), (0x6d696e51, 0x666c6f6174), (0x7844697265637453796e63, 0x666c6f6174), (0x6d617851, 0x666c6f6174), (0x7230, 0x666c6f6174), (0x615652546f4d616e75616c4c656164, 0x666c6f6174), (0x78, 0x666c6f6174), (0x696e6572746961, 0x666c6f6174), (0x636f6f6c616e74436f6e646974696f6e, 0x666c6f6174), (0x6d616e75616c546f415652, 0x666c6f6174), (0x72, 0x666c6f6174), (0x6d617855, 0x666c6f6174), (0x785175616453796e63, 0x666c6f6174), (0x7150657263656e74, 0x666c6f6174), (0x78517561645375627472616e73, 0x666c6f6174), (0x6d696e55, 0x666c6f6174), (0x615652546f4d616e75616c4c6167, 0x666c6f6174), (0x6261736551, 0x666c6f6174), (0x784469726563745472616e73, 0x666c6f6174), (0x7832, 0x666c6f6174), (0x784469726563745375627472616e73, 0x666c6f6174)],
  [(0x6f7065726174696e674d6f6465, 0x53796e6368726f6e6f75734d616368696e654f7065726174696e674d6f6465), (0x74797065, 0x53796e6368726f6e6f75734d616368696e6554797065), (0x636f6f6c616e7454797065, 0x436f6f6c616e7454797065)],
  [⟨0x67656e4c6f616430, .many2many, 0x73796e6368726f6e6f75734d616368696e6530, 0, false⟩, ⟨0x487964726f50756d70, .one2one, 0x53796e6368726f6e6f75734d616368696e65, 0, false⟩, ⟨0x47656e65726174696e67556e6974, .one2many, 0x53796e6368726f6e6f75734d616368696e6573, 0, false⟩, ⟨0x676f76487964726f3130, .many2many, 0x73796e6368726f6e6f75734d616368696e6530, 0, false⟩, ⟨0x5072696d654d6f76657273, .many2many, 0x53796e6368726f6e6f75734d616368696e6573, 0, false⟩, ⟨0x496e697469616c52656163746976654361706162696c6974794375727665, .one2many, 0x496e697469616c6c7955736564427953796e6368726f6e6f75734d616368696e6573, 0, false⟩, ⟨0x67656e457175697630, .many2many, 0x73796e6368726f6e6f75734d616368696e6530, 0, false⟩, ⟨0x52656163746976654361706162696c697479437572766573, .many2many, 0x53796e6368726f6e6f75734d616368696e6573, 0, false⟩],
  [0x67656e4c6f616430, 0x676f76487964726f3130, 0x5072696d654d6f76657273, 0x67656e457175697630, 0x52656163746976654361706162696c697479437572766573]⟩
def m_SynchronousMachine : List RClass := d_SynchronousMachine :: m_RotatingMachine

/-- CIM14/IEC61970/Dynamics/Generators/GenAsync.py:23 -/
def d_GenAsync : RClass := ⟨0x47656e4173796e63, 0x43494d31342e49454336313937302e44796e616d6963732e47656e657261746f72732e47656e4173796e63, 0x43494d31342e49454336313937302e44796e616d6963732e4173796e6368726f6e6f75734d616368696e65,
  [],
  [],
  [],
  [],
  [],
  [],
  []⟩
def m_GenAsync : List RClass := d_GenAsync :: m_AsynchronousMachine

/-- CIM14/IEC61970/Dynamics/Motors/MotorAsync.py:23 -/
def d_MotorAsync : RClass := ⟨0x4d6f746f724173796e63, 0x43494d31342e49454336313937302e44796e616d6963732e4d6f746f72732e4d6f746f724173796e63, 0x43494d31342e49454336313937302e44796e616d6963732e4173796e6368726f6e6f75734d616368696e65,
  [],
  [],
  [],
  [],
  [],
  [],
  []⟩
def m_MotorAsync : List RClass := d_MotorAsync :: m_AsynchronousMachine

/-- CIM14/IEC61970/Dynamics/Motors/MotorSync.py:23 -/
def d_MotorSync : RClass := ⟨0x4d6f746f7253796e63, 0x43494d31342e49454336313937302e44796e616d6963732e4d6f746f72732e4d6f746f7253796e63, 0x43494d31342e49454336313937302e57697265732e53796e6368726f6e6f75734d616368696e65,
  [(0x73796e6368726f6e6f75734d6f746f7254797065, .str 0x73616c69656e74506f6c65)],
  [0x73796e6368726f6e6f75734d6f746f7254797065],
  [(0x73796e6368726f6e6f75734d6f746f7254797065, .str 0x73616c69656e74506f6c65)],
  [(0x73796e6368726f6e6f75734d6f746f7254797065, 0x737472)],
  [(0x73796e6368726f6e6f75734d6f746f7254797065, 0x53796e6368726f6e6f75734d6f746f7254797065)],
  [],
  []⟩
def m_MotorSync : List RClass := d_MotorSync :: m_SynchronousMachine

def classes : List (List RClass) := [
  m_CombinedVersion,
  m_Element,
  m_AssetModel,
  m_CableInfo,
  m_ConcentricNeutralCableInfo,
  m_ConductorInfo,
  m_DistributionWindingTest,
  m_EndDeviceModel,
  m_OpenCircuitTest,
  m_OverheadConductorInfo,
  m_ShortCircuitTest,
  m_TapeShieldCableInfo,
  m_ToWindingSpec,
  m_TransformerInfo,
  m_WindingInfo,
  m_WireArrangement,
  m_WireType,
  m_AcceptanceTest,
  m_Asset,
  m_AssetContainer,
  m_AssetFunction,
  m_ComMediaAsset,
  m_Seal,
  m_ActivityRecord,
  m_Agreement,
  m_CoordinateSystem,
  m_DateTimeInterval,
  m_Document,
  m_ElectronicAddress,
  m_Location,
  m_Organisation,
  m_PositionPoint,
  m_PostalAddress,
  m_Status,
  m_StreetAddress,
  m_StreetDetail,
  m_TelephoneNumber,
  m_TimePoint,
  m_TimeSchedule,
  m_TownDetail,
  m_UserAttribute,
  m_Customer,
  m_CustomerAccount,
  m_CustomerAgreement,
  m_PricingStructure,
  m_ServiceCategory,
  m_ServiceLocation,
  m_Tariff,
  m_IEC61968CIMVersion,
  m_ConnectDisconnectFunction,
  m_RemoteConnectDisconnectInfo,
  m_ComFunction,
  m_DemandResponseProgram,
  m_DeviceFunction,
  m_DynamicDemand,
  m_ElectricMeteringFunction,
  m_EndDeviceAsset,
  m_EndDeviceControl,
  m_EndDeviceEvent,
  m_EndDeviceGroup,
  m_IntervalBlock,
  m_IntervalReading,
  m_MeterAsset,
  m_MeterReading,
  m_MeterServiceWork,
  m_Pending,
  m_Reading,
  m_ReadingQuality,
  m_ReadingType,
  m_Register,
  m_SDPLocation,
  m_ServiceDeliveryPoint,
  m_AccountMovement,
  m_AccountingUnit,
  m_AuxiliaryAccount,
  m_AuxiliaryAgreement,
  m_BankAccountDetail,
  m_Card,
  m_Cashier,
  m_CashierShift,
  m_Charge,
  m_Cheque,
  m_ConsumptionTariffInterval,
  m_Due,
  m_LineDetail,
  m_MerchantAccount,
  m_MerchantAgreement,
  m_PointOfSale,
  m_Receipt,
  m_ServiceSupplier,
  m_Shift,
  m_TariffProfile,
  m_Tender,
  m_TimeTariffInterval,
  m_Transaction,
  m_Transactor,
  m_Vendor,
  m_VendorShift,
  m_DistributionLineSegment,
  m_DistributionTapChanger,
  m_DistributionTransformer,
  m_DistributionTransformerWinding,
  m_PerLengthPhaseImpedance,
  m_PerLengthSequenceImpedance,
  m_PhaseImpedanceData,
  m_TransformerBank,
  m_WindingPiImpedance,
  m_Work,
  m_Contingency,
  m_ContingencyElement,
  m_ContingencyEquipment,
  m_AltGeneratingUnitMeas,
  m_AltTieMeas,
  m_ControlArea,
  m_ControlAreaGeneratingUnit,
  m_TieFlow,
  m_BasePower,
  m_BaseVoltage,
  m_BasicIntervalSchedule,
  m_Bay,
  m_ConductingEquipment,
  m_ConnectivityNode,
  m_ConnectivityNodeContainer,
  m_Curve,
  m_CurveData,
  m_Equipment,
  m_EquipmentContainer,
  m_GeographicalRegion,
  m_IdentifiedObject,
  m_IrregularIntervalSchedule,
  m_IrregularTimePoint,
  m_OperatingParticipant,
  m_OperatingShare,
  m_PSRType,
  m_PowerSystemResource,
  m_PsrList,
  m_RegularIntervalSchedule,
  m_RegularTimePoint,
  m_ReportingGroup,
  m_ReportingSuperGroup,
  m_SubGeographicalRegion,
  m_Substation,
  m_Terminal,
  m_Unit,
  m_VoltageLevel,
  m_AsynchronousMachine,
  m_AttributeBlockParameter,
  m_Block,
  m_BlockConnection,
  m_BlockConnectivity,
  m_BlockConstant,
  m_BlockInputReference,
  m_BlockInputType,
  m_BlockOutputReference,
  m_BlockOutputType,
  m_BlockParameter,
  m_BlockType,
  m_BlockUsageInputReference,
  m_BlockUsageOutputReference,
  m_CompositeModel,
  m_ConnectionFrame,
  m_ExcitationSystemLimiter,
  m_ExcAC1A,
  m_ExcAC2A,
  m_ExcAC3A,
  m_ExcAC4A,
  m_ExcAC5A,
  m_ExcAC6A,
  m_ExcAC7B,
  m_ExcAC8B,
  m_ExcBAS,
  m_ExcBBC,
  m_ExcCZ,
  m_ExcDC1A,
  m_ExcDC2A,
  m_ExcDC3A,
  m_ExcDC4B,
  m_ExcELIN1,
  m_ExcELIN2,
  m_ExcHU,
  m_ExcPIC,
  m_ExcREXS,
  m_ExcSCRX,
  m_ExcSEXS,
  m_ExcSK,
  m_ExcSK2,
  m_ExcST1A,
  m_ExcST2A,
  m_ExcST3A,
  m_ExcST4B,
  m_ExcST5B,
  m_ExcST6B,
  m_ExcST7B,
  m_ExcWT2E,
  m_ExcWT3E,
  m_ExcWT4E,
  m_ExcitationSystem,
  m_GenAsync,
  m_GenEquiv,
  m_GenLoad,
  m_AggregateLoad,
  m_LoadMotor,
  m_LoadStatic,
  m_LoadStaticArea,
  m_LoadStaticBus,
  m_LoadStaticOwner,
  m_LoadStaticSystem,
  m_LoadStaticZone,
  m_MetaBlock,
  m_MetaBlockConInput,
  m_MetaBlockConOutput,
  m_MetaBlockConSignal,
  m_MetaBlockConnectable,
  m_MetaBlockConnection,
  m_MetaBlockConnectivity,
  m_MetaBlockInput,
  m_MetaBlockInputReference,
  m_MetaBlockOutput,
  m_MetaBlockOutputReference,
  m_MetaBlockParameter,
  m_MetaBlockParameterReference,
  m_MetaBlockReference,
  m_MetaBlockSignal,
  m_MetaBlockState,
  m_MetaBlockStateReference,
  m_MechLoad1,
  m_MechanicalLoad,
  m_MotorAsync,
  m_MotorSync,
  m_PowerSystemStabilizer,
  m_PssIEEE1A,
  m_PssIEEE2B,
  m_PssIEEE3B,
  m_PssIEEE4B,
  m_PssPTIST1,
  m_PssPTIST3,
  m_PssSB,
  m_PssSB4,
  m_PssSH,
  m_PssSK,
  m_PssWSCC,
  m_ProtectiveDevice,
  m_RotatingMachine,
  m_Slot,
  m_SlotConnection,
  m_SlotInput,
  m_SlotOutput,
  m_SlotReference,
  m_SourceModels,
  m_StaticVarDevice,
  m_TieToMeasurement,
  m_Class1,
  m_GovCT1,
  m_GovCT2,
  m_GovDUM,
  m_GovGASM,
  m_GovGAST,
  m_GovGAST2,
  m_GovGASTWD,
  m_GovHydro0,
  m_GovHydro1,
  m_GovHydro2,
  m_GovHydro3,
  m_GovHydro4,
  m_GovHydroDD,
  m_GovHydroPID,
  m_GovHydroPID2,
  m_GovHydroR,
  m_GovHydroWEH,
  m_GovHydroWPID,
  m_GovRAV,
  m_GovSteam0,
  m_GovSteam1,
  m_GovSteamCC,
  m_GovSteamEU,
  m_GovSteamFV2,
  m_GovSteamFV3,
  m_GovSteamSGO,
  m_GovWT1P,
  m_GovWT1T,
  m_GovWT2P,
  m_GovWT2T,
  m_GovWT3P,
  m_GovWT3T,
  m_GovWT4P,
  m_GovWT4T,
  m_TLCFB1,
  m_TurbineGovernor,
  m_UserBlockParameter,
  m_VcompCross,
  m_VcompIEEE,
  m_VoltageCompensator,
  m_EquivalentBranch,
  m_EquivalentEquipment,
  m_EquivalentInjection,
  m_EquivalentNetwork,
  m_EquivalentShunt,
  m_BWRSteamSupply,
  m_CTTempActivePowerCurve,
  m_CombustionTurbine,
  m_DrumBoiler,
  m_FossilSteamSupply,
  m_HeatRecoveryBoiler,
  m_HydroTurbine,
  m_PWRSteamSupply,
  m_PrimeMover,
  m_SteamSupply,
  m_SteamTurbine,
  m_Subcritical,
  m_Supercritical,
  m_AirCompressor,
  m_CAESPlant,
  m_CogenerationPlant,
  m_CombinedCyclePlant,
  m_EmissionAccount,
  m_EmissionCurve,
  m_FossilFuel,
  m_FuelAllocationSchedule,
  m_GenUnitOpCostCurve,
  m_GenUnitOpSchedule,
  m_GeneratingUnit,
  m_GrossToNetActivePowerCurve,
  m_HeatInputCurve,
  m_HeatRateCurve,
  m_HydroGeneratingEfficiencyCurve,
  m_HydroGeneratingUnit,
  m_HydroPowerPlant,
  m_HydroPump,
  m_HydroPumpOpSchedule,
  m_IncrementalHeatRateCurve,
  m_InflowForecast,
  m_LevelVsVolumeCurve,
  m_NuclearGeneratingUnit,
  m_PenstockLossCurve,
  m_Reservoir,
  m_ShutdownCurve,
  m_StartIgnFuelCurve,
  m_StartMainFuelCurve,
  m_StartRampCurve,
  m_StartupModel,
  m_SteamSendoutSchedule,
  m_TailbayLossCurve,
  m_TargetLevelSchedule,
  m_ThermalGeneratingUnit,
  m_WindGeneratingUnit,
  m_IEC61970CIMVersion,
  m_ModelingAuthority,
  m_ModelingAuthoritySet,
  m_ConformLoad,
  m_ConformLoadGroup,
  m_ConformLoadSchedule,
  m_DayType,
  m_EnergyArea,
  m_LoadArea,
  m_LoadGroup,
  m_LoadResponseCharacteristic,
  m_NonConformLoad,
  m_NonConformLoadGroup,
  m_NonConformLoadSchedule,
  m_PowerCutZone,
  m_Season,
  m_SeasonDayTypeSchedule,
  m_StationSupply,
  m_SubLoadArea,
  m_Accumulator,
  m_AccumulatorLimit,
  m_AccumulatorLimitSet,
  m_AccumulatorValue,
  m_Analog,
  m_AnalogLimit,
  m_AnalogLimitSet,
  m_AnalogValue,
  m_Command,
  m_Control,
  m_ControlType,
  m_CurrentTransformer,
  m_Discrete,
  m_DiscreteValue,
  m_Limit,
  m_LimitSet,
  m_Measurement,
  m_MeasurementValue,
  m_MeasurementValueQuality,
  m_MeasurementValueSource,
  m_PotentialTransformer,
  m_Quality61850,
  m_SetPoint,
  m_StringMeasurement,
  m_StringMeasurementValue,
  m_ValueAliasSet,
  m_ValueToAlias,
  m_ActivePowerLimit,
  m_ApparentPowerLimit,
  m_BranchGroup,
  m_BranchGroupTerminal,
  m_CurrentLimit,
  m_OperationalLimit,
  m_OperationalLimitSet,
  m_OperationalLimitType,
  m_VoltageLimit,
  m_ClearanceTag,
  m_ClearanceTagType,
  m_OutageSchedule,
  m_SwitchingOperation,
  m_CurrentRelay,
  m_FaultIndicator,
  m_ProtectionEquipment,
  m_RecloseSequence,
  m_SurgeProtector,
  m_SynchrocheckRelay,
  m_CommunicationLink,
  m_RemoteControl,
  m_RemotePoint,
  m_RemoteSource,
  m_RemoteUnit,
  m_StateVariable,
  m_SvInjection,
  m_SvPowerFlow,
  m_SvShortCircuit,
  m_SvShuntCompensatorSections,
  m_SvStatus,
  m_SvTapStep,
  m_SvVoltage,
  m_TopologicalIsland,
  m_BusNameMarker,
  m_TopologicalNode,
  m_ACLineSegment,
  m_Breaker,
  m_BusbarSection,
  m_CompositeSwitch,
  m_Conductor,
  m_Connector,
  m_DCLineSegment,
  m_Disconnector,
  m_EnergyConsumer,
  m_EnergySource,
  m_FrequencyConverter,
  m_Fuse,
  m_Ground,
  m_GroundDisconnector,
  m_HeatExchanger,
  m_ImpedanceVariationCurve,
  m_Jumper,
  m_Junction,
  m_Line,
  m_LoadBreakSwitch,
  m_MutualCoupling,
  m_PhaseTapChanger,
  m_PhaseVariationCurve,
  m_Plant,
  m_PowerTransformer,
  m_ProtectedSwitch,
  m_RatioTapChanger,
  m_RatioVariationCurve,
  m_ReactiveCapabilityCurve,
  m_RectifierInverter,
  m_RegulatingCondEq,
  m_RegulatingControl,
  m_RegulationSchedule,
  m_Resistor,
  m_SeriesCompensator,
  m_ShuntCompensator,
  m_StaticVarCompensator,
  m_Switch,
  m_SwitchSchedule,
  m_SynchronousMachine,
  m_TapChanger,
  m_TapSchedule,
  m_TransformerWinding,
  m_VoltageControlZone,
  m_WindingTest]

/-- `packageMap` of CIM14/__init__.py -/
def pmap : List (Nat × Nat) := [
  (0x436f6d62696e656456657273696f6e, 0x43494d3134),
  (0x456c656d656e74, 0x43494d3134),
  (0x494543363139373043494d56657273696f6e, 0x43494d31342e4945433631393730),
  (0x4964656e7469666965644f626a656374, 0x43494d31342e49454336313937302e436f7265),
  (0x506f77657253797374656d5265736f75726365, 0x43494d31342e49454336313937302e436f7265),
  (0x45717569706d656e74, 0x43494d31342e49454336313937302e436f7265),
  (0x436f6e64756374696e6745717569706d656e74, 0x43494d31342e49454336313937302e436f7265),
  (0x4375727665, 0x43494d31342e49454336313937302e436f7265),
  (0x4261736963496e74657276616c5363686564756c65, 0x43494d31342e49454336313937302e436f7265),
  (0x4972726567756c6172496e74657276616c5363686564756c65, 0x43494d31342e49454336313937302e436f7265),
  (0x526567756c6172496e74657276616c5363686564756c65, 0x43494d31342e49454336313937302e436f7265),
  (0x436f6e6e65637469766974794e6f6465436f6e7461696e6572, 0x43494d31342e49454336313937302e436f7265),
  (0x45717569706d656e74436f6e7461696e6572, 0x43494d31342e49454336313937302e436f7265),
  (0x437572766544617461, 0x43494d31342e49454336313937302e436f7265),
  (0x426179, 0x43494d31342e49454336313937302e436f7265),
  (0x50535254797065, 0x43494d31342e49454336313937302e436f7265),
  (0x47656f67726170686963616c526567696f6e, 0x43494d31342e49454336313937302e436f7265),
  (0x5465726d696e616c, 0x43494d31342e49454336313937302e436f7265),
  (0x4f7065726174696e675061727469636970616e74, 0x43494d31342e49454336313937302e436f7265),
  (0x566f6c746167654c6576656c, 0x43494d31342e49454336313937302e436f7265),
  (0x436f6e6e65637469766974794e6f6465, 0x43494d31342e49454336313937302e436f7265),
  (0x42617365506f776572, 0x43494d31342e49454336313937302e436f7265),
  (0x556e6974, 0x43494d31342e49454336313937302e436f7265),
  (0x42617365566f6c74616765, 0x43494d31342e49454336313937302e436f7265),
  (0x53756247656f67726170686963616c526567696f6e, 0x43494d31342e49454336313937302e436f7265),
  (0x5073724c697374, 0x43494d31342e49454336313937302e436f7265),
  (0x53756273746174696f6e, 0x43494d31342e49454336313937302e436f7265),
  (0x5265706f7274696e6747726f7570, 0x43494d31342e49454336313937302e436f7265),
  (0x5265706f7274696e67537570657247726f7570, 0x43494d31342e49454336313937302e436f7265),
  (0x526567756c617254696d65506f696e74, 0x43494d31342e49454336313937302e436f7265),
  (0x4972726567756c617254696d65506f696e74, 0x43494d31342e49454336313937302e436f7265),
  (0x4f7065726174696e675368617265, 0x43494d31342e49454336313937302e436f7265),
  (0x506f7765725472616e73666f726d6572, 0x43494d31342e49454336313937302e5769726573),
  (0x526567756c6174696e67436f6e644571, 0x43494d31342e49454336313937302e5769726573),
  (0x4672657175656e6379436f6e766572746572, 0x43494d31342e49454336313937302e5769726573),
  (0x5368756e74436f6d70656e7361746f72, 0x43494d31342e49454336313937302e5769726573),
  (0x4865617445786368616e676572, 0x43494d31342e49454336313937302e5769726573),
  (0x526567756c6174696e67436f6e74726f6c, 0x43494d31342e49454336313937302e5769726573),
  (0x52656163746976654361706162696c6974794375727665, 0x43494d31342e49454336313937302e5769726573),
  (0x4c696e65, 0x43494d31342e49454336313937302e5769726573),
  (0x436f6e6e6563746f72, 0x43494d31342e49454336313937302e5769726573),
  (0x4a756e6374696f6e, 0x43494d31342e49454336313937302e5769726573),
  (0x47726f756e64, 0x43494d31342e49454336313937302e5769726573),
  (0x436f6e647563746f72, 0x43494d31342e49454336313937302e5769726573),
  (0x5472616e73666f726d657257696e64696e67, 0x43494d31342e49454336313937302e5769726573),
  (0x53796e6368726f6e6f75734d616368696e65, 0x43494d31342e49454336313937302e5769726573),
  (0x456e65726779436f6e73756d6572, 0x43494d31342e49454336313937302e5769726573),
  (0x5461704368616e676572, 0x43494d31342e49454336313937302e5769726573),
  (0x526174696f5461704368616e676572, 0x43494d31342e49454336313937302e5769726573),
  (0x537769746368, 0x43494d31342e49454336313937302e5769726573),
  (0x50726f746563746564537769746368, 0x43494d31342e49454336313937302e5769726573),
  (0x4c6f6164427265616b537769746368, 0x43494d31342e49454336313937302e5769726573),
  (0x41434c696e655365676d656e74, 0x43494d31342e49454336313937302e5769726573),
  (0x506c616e74, 0x43494d31342e49454336313937302e5769726573),
  (0x526567756c6174696f6e5363686564756c65, 0x43494d31342e49454336313937302e5769726573),
  (0x57696e64696e6754657374, 0x43494d31342e49454336313937302e5769726573),
  (0x5068617365566172696174696f6e4375727665, 0x43494d31342e49454336313937302e5769726573),
  (0x4d757475616c436f75706c696e67, 0x43494d31342e49454336313937302e5769726573),
  (0x446973636f6e6e6563746f72, 0x43494d31342e49454336313937302e5769726573),
  (0x536572696573436f6d70656e7361746f72, 0x43494d31342e49454336313937302e5769726573),
  (0x47726f756e64446973636f6e6e6563746f72, 0x43494d31342e49454336313937302e5769726573),
  (0x526174696f566172696174696f6e4375727665, 0x43494d31342e49454336313937302e5769726573),
  (0x5265736973746f72, 0x43494d31342e49454336313937302e5769726573),
  (0x436f6d706f73697465537769746368, 0x43494d31342e49454336313937302e5769726573),
  (0x50686173655461704368616e676572, 0x43494d31342e49454336313937302e5769726573),
  (0x526563746966696572496e766572746572, 0x43494d31342e49454336313937302e5769726573),
  (0x537461746963566172436f6d70656e7361746f72, 0x43494d31342e49454336313937302e5769726573),
  (0x5461705363686564756c65, 0x43494d31342e49454336313937302e5769726573),
  (0x566f6c74616765436f6e74726f6c5a6f6e65, 0x43494d31342e49454336313937302e5769726573),
  (0x456e65726779536f75726365, 0x43494d31342e49454336313937302e5769726573),
  (0x46757365, 0x43494d31342e49454336313937302e5769726573),
  (0x4a756d706572, 0x43494d31342e49454336313937302e5769726573),
  (0x496d706564616e6365566172696174696f6e4375727665, 0x43494d31342e49454336313937302e5769726573),
  (0x44434c696e655365676d656e74, 0x43494d31342e49454336313937302e5769726573),
  (0x5377697463685363686564756c65, 0x43494d31342e49454336313937302e5769726573),
  (0x427265616b6572, 0x43494d31342e49454336313937302e5769726573),
  (0x42757362617253656374696f6e, 0x43494d31342e49454336313937302e5769726573),
  (0x546f706f6c6f676963616c49736c616e64, 0x43494d31342e49454336313937302e53746174655661726961626c6573),
  (0x53746174655661726961626c65, 0x43494d31342e49454336313937302e53746174655661726961626c6573),
  (0x5376566f6c74616765, 0x43494d31342e49454336313937302e53746174655661726961626c6573),
  (0x537653686f727443697263756974, 0x43494d31342e49454336313937302e53746174655661726961626c6573),
  (0x53765368756e74436f6d70656e7361746f7253656374696f6e73, 0x43494d31342e49454336313937302e53746174655661726961626c6573),
  (0x5376506f776572466c6f77, 0x43494d31342e49454336313937302e53746174655661726961626c6573),
  (0x5376537461747573, 0x43494d31342e49454336313937302e53746174655661726961626c6573),
  (0x537654617053746570, 0x43494d31342e49454336313937302e53746174655661726961626c6573),
  (0x5376496e6a656374696f6e, 0x43494d31342e49454336313937302e53746174655661726961626c6573),
  (0x436c656172616e6365546167, 0x43494d31342e49454336313937302e4f7574616765),
  (0x436c656172616e636554616754797065, 0x43494d31342e49454336313937302e4f7574616765),
  (0x4f75746167655363686564756c65, 0x43494d31342e49454336313937302e4f7574616765),
  (0x537769746368696e674f7065726174696f6e, 0x43494d31342e49454336313937302e4f7574616765),
  (0x537465616d537570706c79, 0x43494d31342e49454336313937302e47656e65726174696f6e2e47656e65726174696f6e44796e616d696373),
  (0x466f7373696c537465616d537570706c79, 0x43494d31342e49454336313937302e47656e65726174696f6e2e47656e65726174696f6e44796e616d696373),
  (0x486561745265636f76657279426f696c6572, 0x43494d31342e49454336313937302e47656e65726174696f6e2e47656e65726174696f6e44796e616d696373),
  (0x505752537465616d537570706c79, 0x43494d31342e49454336313937302e47656e65726174696f6e2e47656e65726174696f6e44796e616d696373),
  (0x5072696d654d6f766572, 0x43494d31342e49454336313937302e47656e65726174696f6e2e47656e65726174696f6e44796e616d696373),
  (0x5375706572637269746963616c, 0x43494d31342e49454336313937302e47656e65726174696f6e2e47656e65726174696f6e44796e616d696373),
  (0x436f6d62757374696f6e54757262696e65, 0x43494d31342e49454336313937302e47656e65726174696f6e2e47656e65726174696f6e44796e616d696373),
  (0x487964726f54757262696e65, 0x43494d31342e49454336313937302e47656e65726174696f6e2e47656e65726174696f6e44796e616d696373),
  (0x537562637269746963616c, 0x43494d31342e49454336313937302e47656e65726174696f6e2e47656e65726174696f6e44796e616d696373),
  (0x435454656d70416374697665506f7765724375727665, 0x43494d31342e49454336313937302e47656e65726174696f6e2e47656e65726174696f6e44796e616d696373),
  (0x537465616d54757262696e65, 0x43494d31342e49454336313937302e47656e65726174696f6e2e47656e65726174696f6e44796e616d696373),
  (0x4472756d426f696c6572, 0x43494d31342e49454336313937302e47656e65726174696f6e2e47656e65726174696f6e44796e616d696373),
  (0x425752537465616d537570706c79, 0x43494d31342e49454336313937302e47656e65726174696f6e2e47656e65726174696f6e44796e616d696373),
  (0x4c6576656c5673566f6c756d654375727665, 0x43494d31342e49454336313937302e47656e65726174696f6e2e50726f64756374696f6e),
  (0x466f7373696c4675656c, 0x43494d31342e49454336313937302e47656e65726174696f6e2e50726f64756374696f6e),
  (0x537465616d53656e646f75745363686564756c65, 0x43494d31342e49454336313937302e47656e65726174696f6e2e50726f64756374696f6e),
  (0x456d697373696f6e4375727665, 0x43494d31342e49454336313937302e47656e65726174696f6e2e50726f64756374696f6e),
  (0x436f6d62696e65644379636c65506c616e74, 0x43494d31342e49454336313937302e47656e65726174696f6e2e50726f64756374696f6e),
  (0x537461727449676e4675656c4375727665, 0x43494d31342e49454336313937302e47656e65726174696f6e2e50726f64756374696f6e),
  (0x487964726f47656e65726174696e67456666696369656e63794375727665, 0x43494d31342e49454336313937302e47656e65726174696f6e2e50726f64756374696f6e),
  (0x537461727452616d704375727665, 0x43494d31342e49454336313937302e47656e65726174696f6e2e50726f64756374696f6e),
  (0x47656e65726174696e67556e6974, 0x43494d31342e49454336313937302e47656e65726174696f6e2e50726f64756374696f6e),
  (0x4e75636c65617247656e65726174696e67556e6974, 0x43494d31342e49454336313937302e47656e65726174696f6e2e50726f64756374696f6e),
  (0x57696e6447656e65726174696e67556e6974, 0x43494d31342e49454336313937302e47656e65726174696f6e2e50726f64756374696f6e),
  (0x53746172744d61696e4675656c4375727665, 0x43494d31342e49454336313937302e47656e65726174696f6e2e50726f64756374696f6e),
  (0x537461727475704d6f64656c, 0x43494d31342e49454336313937302e47656e65726174696f6e2e50726f64756374696f6e),
  (0x416972436f6d70726573736f72, 0x43494d31342e49454336313937302e47656e65726174696f6e2e50726f64756374696f6e),
  (0x48656174496e7075744375727665, 0x43494d31342e49454336313937302e47656e65726174696f6e2e50726f64756374696f6e),
  (0x436f67656e65726174696f6e506c616e74, 0x43494d31342e49454336313937302e47656e65726174696f6e2e50726f64756374696f6e),
  (0x53687574646f776e4375727665, 0x43494d31342e49454336313937302e47656e65726174696f6e2e50726f64756374696f6e),
  (0x496e666c6f77466f726563617374, 0x43494d31342e49454336313937302e47656e65726174696f6e2e50726f64756374696f6e),
  (0x487964726f47656e65726174696e67556e6974, 0x43494d31342e49454336313937302e47656e65726174696f6e2e50726f64756374696f6e),
  (0x5461726765744c6576656c5363686564756c65, 0x43494d31342e49454336313937302e47656e65726174696f6e2e50726f64756374696f6e),
  (0x456d697373696f6e4163636f756e74, 0x43494d31342e49454336313937302e47656e65726174696f6e2e50726f64756374696f6e),
  (0x47726f7373546f4e6574416374697665506f7765724375727665, 0x43494d31342e49454336313937302e47656e65726174696f6e2e50726f64756374696f6e),
  (0x487964726f50756d704f705363686564756c65, 0x43494d31342e49454336313937302e47656e65726174696f6e2e50726f64756374696f6e),
  (0x5265736572766f6972, 0x43494d31342e49454336313937302e47656e65726174696f6e2e50726f64756374696f6e),
  (0x43414553506c616e74, 0x43494d31342e49454336313937302e47656e65726174696f6e2e50726f64756374696f6e),
  (0x47656e556e69744f70436f73744375727665, 0x43494d31342e49454336313937302e47656e65726174696f6e2e50726f64756374696f6e),
  (0x50656e73746f636b4c6f73734375727665, 0x43494d31342e49454336313937302e47656e65726174696f6e2e50726f64756374696f6e),
  (0x487964726f50756d70, 0x43494d31342e49454336313937302e47656e65726174696f6e2e50726f64756374696f6e),
  (0x47656e556e69744f705363686564756c65, 0x43494d31342e49454336313937302e47656e65726174696f6e2e50726f64756374696f6e),
  (0x4675656c416c6c6f636174696f6e5363686564756c65, 0x43494d31342e49454336313937302e47656e65726174696f6e2e50726f64756374696f6e),
  (0x48656174526174654375727665, 0x43494d31342e49454336313937302e47656e65726174696f6e2e50726f64756374696f6e),
  (0x496e6372656d656e74616c48656174526174654375727665, 0x43494d31342e49454336313937302e47656e65726174696f6e2e50726f64756374696f6e),
  (0x546865726d616c47656e65726174696e67556e6974, 0x43494d31342e49454336313937302e47656e65726174696f6e2e50726f64756374696f6e),
  (0x5461696c6261794c6f73734375727665, 0x43494d31342e49454336313937302e47656e65726174696f6e2e50726f64756374696f6e),
  (0x487964726f506f776572506c616e74, 0x43494d31342e49454336313937302e47656e65726174696f6e2e50726f64756374696f6e),
  (0x506f7765724375745a6f6e65, 0x43494d31342e49454336313937302e4c6f61644d6f64656c),
  (0x4c6f6164526573706f6e73654368617261637465726973746963, 0x43494d31342e49454336313937302e4c6f61644d6f64656c),
  (0x456e6572677941726561, 0x43494d31342e49454336313937302e4c6f61644d6f64656c),
  (0x4c6f616441726561, 0x43494d31342e49454336313937302e4c6f61644d6f64656c),
  (0x53746174696f6e537570706c79, 0x43494d31342e49454336313937302e4c6f61644d6f64656c),
  (0x5375624c6f616441726561, 0x43494d31342e49454336313937302e4c6f61644d6f64656c),
  (0x4c6f616447726f7570, 0x43494d31342e49454336313937302e4c6f61644d6f64656c),
  (0x4e6f6e436f6e666f726d4c6f616447726f7570, 0x43494d31342e49454336313937302e4c6f61644d6f64656c),
  (0x536561736f6e446179547970655363686564756c65, 0x43494d31342e49454336313937302e4c6f61644d6f64656c),
  (0x536561736f6e, 0x43494d31342e49454336313937302e4c6f61644d6f64656c),
  (0x436f6e666f726d4c6f61645363686564756c65, 0x43494d31342e49454336313937302e4c6f61644d6f64656c),
  (0x4e6f6e436f6e666f726d4c6f6164, 0x43494d31342e49454336313937302e4c6f61644d6f64656c),
  (0x436f6e666f726d4c6f6164, 0x43494d31342e49454336313937302e4c6f61644d6f64656c),
  (0x4e6f6e436f6e666f726d4c6f61645363686564756c65, 0x43494d31342e49454336313937302e4c6f61644d6f64656c),
  (0x44617954797065, 0x43494d31342e49454336313937302e4c6f61644d6f64656c),
  (0x436f6e666f726d4c6f616447726f7570, 0x43494d31342e49454336313937302e4c6f61644d6f64656c),
  (0x4f7065726174696f6e616c4c696d6974, 0x43494d31342e49454336313937302e4f7065726174696f6e616c4c696d697473),
  (0x43757272656e744c696d6974, 0x43494d31342e49454336313937302e4f7065726174696f6e616c4c696d697473),
  (0x4272616e636847726f7570, 0x43494d31342e49454336313937302e4f7065726174696f6e616c4c696d697473),
  (0x4272616e636847726f75705465726d696e616c, 0x43494d31342e49454336313937302e4f7065726174696f6e616c4c696d697473),
  (0x4170706172656e74506f7765724c696d6974, 0x43494d31342e49454336313937302e4f7065726174696f6e616c4c696d697473),
  (0x4f7065726174696f6e616c4c696d6974536574, 0x43494d31342e49454336313937302e4f7065726174696f6e616c4c696d697473),
  (0x566f6c746167654c696d6974, 0x43494d31342e49454336313937302e4f7065726174696f6e616c4c696d697473),
  (0x416374697665506f7765724c696d6974, 0x43494d31342e49454336313937302e4f7065726174696f6e616c4c696d697473),
  (0x4f7065726174696f6e616c4c696d697454797065, 0x43494d31342e49454336313937302e4f7065726174696f6e616c4c696d697473),
  (0x4d6561737572656d656e7456616c7565, 0x43494d31342e49454336313937302e4d656173),
  (0x436f6e74726f6c, 0x43494d31342e49454336313937302e4d656173),
  (0x4d6561737572656d656e74, 0x43494d31342e49454336313937302e4d656173),
  (0x537472696e674d6561737572656d656e74, 0x43494d31342e49454336313937302e4d656173),
  (0x4469736372657465, 0x43494d31342e49454336313937302e4d656173),
  (0x43757272656e745472616e73666f726d6572, 0x43494d31342e49454336313937302e4d656173),
  (0x56616c7565416c696173536574, 0x43494d31342e49454336313937302e4d656173),
  (0x446973637265746556616c7565, 0x43494d31342e49454336313937302e4d656173),
  (0x4c696d6974, 0x43494d31342e49454336313937302e4d656173),
  (0x416e616c6f674c696d6974, 0x43494d31342e49454336313937302e4d656173),
  (0x4c696d6974536574, 0x43494d31342e49454336313937302e4d656173),
  (0x416363756d756c61746f724c696d6974536574, 0x43494d31342e49454336313937302e4d656173),
  (0x536574506f696e74, 0x43494d31342e49454336313937302e4d656173),
  (0x436f6d6d616e64, 0x43494d31342e49454336313937302e4d656173),
  (0x537472696e674d6561737572656d656e7456616c7565, 0x43494d31342e49454336313937302e4d656173),
  (0x506f74656e7469616c5472616e73666f726d6572, 0x43494d31342e49454336313937302e4d656173),
  (0x56616c7565546f416c696173, 0x43494d31342e49454336313937302e4d656173),
  (0x436f6e74726f6c54797065, 0x43494d31342e49454336313937302e4d656173),
  (0x416363756d756c61746f72, 0x43494d31342e49454336313937302e4d656173),
  (0x416e616c6f674c696d6974536574, 0x43494d31342e49454336313937302e4d656173),
  (0x416363756d756c61746f724c696d6974, 0x43494d31342e49454336313937302e4d656173),
  (0x4d6561737572656d656e7456616c7565536f75726365, 0x43494d31342e49454336313937302e4d656173),
  (0x416e616c6f6756616c7565, 0x43494d31342e49454336313937302e4d656173),
  (0x416e616c6f67, 0x43494d31342e49454336313937302e4d656173),
  (0x5175616c6974793631383530, 0x43494d31342e49454336313937302e4d656173),
  (0x4d6561737572656d656e7456616c75655175616c697479, 0x43494d31342e49454336313937302e4d656173),
  (0x416363756d756c61746f7256616c7565, 0x43494d31342e49454336313937302e4d656173),
  (0x52656d6f7465506f696e74, 0x43494d31342e49454336313937302e5343414441),
  (0x52656d6f7465436f6e74726f6c, 0x43494d31342e49454336313937302e5343414441),
  (0x52656d6f7465556e6974, 0x43494d31342e49454336313937302e5343414441),
  (0x436f6d6d756e69636174696f6e4c696e6b, 0x43494d31342e49454336313937302e5343414441),
  (0x52656d6f7465536f75726365, 0x43494d31342e49454336313937302e5343414441),
  (0x4571756976616c656e7445717569706d656e74, 0x43494d31342e49454336313937302e4571756976616c656e7473),
  (0x4571756976616c656e745368756e74, 0x43494d31342e49454336313937302e4571756976616c656e7473),
  (0x4571756976616c656e744272616e6368, 0x43494d31342e49454336313937302e4571756976616c656e7473),
  (0x4571756976616c656e74496e6a656374696f6e, 0x43494d31342e49454336313937302e4571756976616c656e7473),
  (0x4571756976616c656e744e6574776f726b, 0x43494d31342e49454336313937302e4571756976616c656e7473),
  (0x436f6e74696e67656e6379456c656d656e74, 0x43494d31342e49454336313937302e436f6e74696e67656e6379),
  (0x436f6e74696e67656e637945717569706d656e74, 0x43494d31342e49454336313937302e436f6e74696e67656e6379),
  (0x436f6e74696e67656e6379, 0x43494d31342e49454336313937302e436f6e74696e67656e6379),
  (0x5265636c6f736553657175656e6365, 0x43494d31342e49454336313937302e50726f74656374696f6e),
  (0x50726f74656374696f6e45717569706d656e74, 0x43494d31342e49454336313937302e50726f74656374696f6e),
  (0x43757272656e7452656c6179, 0x43494d31342e49454336313937302e50726f74656374696f6e),
  (0x537572676550726f746563746f72, 0x43494d31342e49454336313937302e50726f74656374696f6e),
  (0x4661756c74496e64696361746f72, 0x43494d31342e49454336313937302e50726f74656374696f6e),
  (0x53796e6368726f636865636b52656c6179, 0x43494d31342e49454336313937302e50726f74656374696f6e),
  (0x416c745469654d656173, 0x43494d31342e49454336313937302e436f6e74726f6c41726561),
  (0x416c7447656e65726174696e67556e69744d656173, 0x43494d31342e49454336313937302e436f6e74726f6c41726561),
  (0x436f6e74726f6c41726561, 0x43494d31342e49454336313937302e436f6e74726f6c41726561),
  (0x546965466c6f77, 0x43494d31342e49454336313937302e436f6e74726f6c41726561),
  (0x436f6e74726f6c4172656147656e65726174696e67556e6974, 0x43494d31342e49454336313937302e436f6e74726f6c41726561),
  (0x4d6f64656c696e67417574686f72697479, 0x43494d31342e49454336313937302e496e666f726d61746976652e496e66436f7265),
  (0x4d6f64656c696e67417574686f72697479536574, 0x43494d31342e49454336313937302e496e666f726d61746976652e496e66436f7265),
  (0x546f706f6c6f676963616c4e6f6465, 0x43494d31342e49454336313937302e546f706f6c6f6779),
  (0x4275734e616d654d61726b6572, 0x43494d31342e49454336313937302e546f706f6c6f6779),
  (0x426c6f636b436f6e6e656374696f6e, 0x43494d31342e49454336313937302e44796e616d696373),
  (0x526f746174696e674d616368696e65, 0x43494d31342e49454336313937302e44796e616d696373),
  (0x4173796e6368726f6e6f75734d616368696e65, 0x43494d31342e49454336313937302e44796e616d696373),
  (0x426c6f636b5573616765496e7075745265666572656e6365, 0x43494d31342e49454336313937302e44796e616d696373),
  (0x4d657461426c6f636b436f6e6e65637461626c65, 0x43494d31342e49454336313937302e44796e616d696373),
  (0x4d657461426c6f636b4f7574707574, 0x43494d31342e49454336313937302e44796e616d696373),
  (0x4d657461426c6f636b436f6e4f7574707574, 0x43494d31342e49454336313937302e44796e616d696373),
  (0x4d657461426c6f636b, 0x43494d31342e49454336313937302e44796e616d696373),
  (0x4d657461426c6f636b496e707574, 0x43494d31342e49454336313937302e44796e616d696373),
  (0x536c6f745265666572656e6365, 0x43494d31342e49454336313937302e44796e616d696373),
  (0x4d657461426c6f636b496e7075745265666572656e6365, 0x43494d31342e49454336313937302e44796e616d696373),
  (0x4d657461426c6f636b506172616d65746572, 0x43494d31342e49454336313937302e44796e616d696373),
  (0x4d657461426c6f636b506172616d657465725265666572656e6365, 0x43494d31342e49454336313937302e44796e616d696373),
  (0x436f6d706f736974654d6f64656c, 0x43494d31342e49454336313937302e44796e616d696373),
  (0x426c6f636b496e70757454797065, 0x43494d31342e49454336313937302e44796e616d696373),
  (0x426c6f636b436f6e6e6563746976697479, 0x43494d31342e49454336313937302e44796e616d696373),
  (0x536c6f74496e707574, 0x43494d31342e49454336313937302e44796e616d696373),
  (0x4d657461426c6f636b5369676e616c, 0x43494d31342e49454336313937302e44796e616d696373),
  (0x4d657461426c6f636b53746174655265666572656e6365, 0x43494d31342e49454336313937302e44796e616d696373),
  (0x426c6f636b436f6e7374616e74, 0x43494d31342e49454336313937302e44796e616d696373),
  (0x536f757263654d6f64656c73, 0x43494d31342e49454336313937302e44796e616d696373),
  (0x536c6f74436f6e6e656374696f6e, 0x43494d31342e49454336313937302e44796e616d696373),
  (0x426c6f636b, 0x43494d31342e49454336313937302e44796e616d696373),
  (0x436f6e6e656374696f6e4672616d65, 0x43494d31342e49454336313937302e44796e616d696373),
  (0x4d657461426c6f636b436f6e496e707574, 0x43494d31342e49454336313937302e44796e616d696373),
  (0x537461746963566172446576696365, 0x43494d31342e49454336313937302e44796e616d696373),
  (0x417474726962757465426c6f636b506172616d65746572, 0x43494d31342e49454336313937302e44796e616d696373),
  (0x55736572426c6f636b506172616d65746572, 0x43494d31342e49454336313937302e44796e616d696373),
  (0x4d657461426c6f636b436f6e6e656374696f6e, 0x43494d31342e49454336313937302e44796e616d696373),
  (0x536c6f74, 0x43494d31342e49454336313937302e44796e616d696373),
  (0x4d657461426c6f636b5265666572656e6365, 0x43494d31342e49454336313937302e44796e616d696373),
  (0x426c6f636b496e7075745265666572656e6365, 0x43494d31342e49454336313937302e44796e616d696373),
  (0x426c6f636b506172616d65746572, 0x43494d31342e49454336313937302e44796e616d696373),
  (0x4d657461426c6f636b436f6e5369676e616c, 0x43494d31342e49454336313937302e44796e616d696373),
  (0x426c6f636b4f75747075745265666572656e6365, 0x43494d31342e49454336313937302e44796e616d696373),
  (0x45786369746174696f6e53797374656d4c696d69746572, 0x43494d31342e49454336313937302e44796e616d696373),
  (0x426c6f636b54797065, 0x43494d31342e49454336313937302e44796e616d696373),
  (0x536c6f744f7574707574, 0x43494d31342e49454336313937302e44796e616d696373),
  (0x50726f74656374697665446576696365, 0x43494d31342e49454336313937302e44796e616d696373),
  (0x4d657461426c6f636b5374617465, 0x43494d31342e49454336313937302e44796e616d696373),
  (0x426c6f636b55736167654f75747075745265666572656e6365, 0x43494d31342e49454336313937302e44796e616d696373),
  (0x546965546f4d6561737572656d656e74, 0x43494d31342e49454336313937302e44796e616d696373),
  (0x4d657461426c6f636b436f6e6e6563746976697479, 0x43494d31342e49454336313937302e44796e616d696373),
  (0x4d657461426c6f636b4f75747075745265666572656e6365, 0x43494d31342e49454336313937302e44796e616d696373),
  (0x426c6f636b4f757470757454797065, 0x43494d31342e49454336313937302e44796e616d696373),
  (0x4d656368616e6963616c4c6f6164, 0x43494d31342e49454336313937302e44796e616d6963732e4d6f746f7273),
  (0x4d6f746f7253796e63, 0x43494d31342e49454336313937302e44796e616d6963732e4d6f746f7273),
  (0x4d6563684c6f616431, 0x43494d31342e49454336313937302e44796e616d6963732e4d6f746f7273),
  (0x4d6f746f724173796e63, 0x43494d31342e49454336313937302e44796e616d6963732e4d6f746f7273),
  (0x45786369746174696f6e53797374656d, 0x43494d31342e49454336313937302e44796e616d6963732e45786369746174696f6e53797374656d73),
  (0x45786344433442, 0x43494d31342e49454336313937302e44796e616d6963732e45786369746174696f6e53797374656d73),
  (0x45786341433141, 0x43494d31342e49454336313937302e44796e616d6963732e45786369746174696f6e53797374656d73),
  (0x45786353455853, 0x43494d31342e49454336313937302e44796e616d6963732e45786369746174696f6e53797374656d73),
  (0x45786341433641, 0x43494d31342e49454336313937302e44796e616d6963732e45786369746174696f6e53797374656d73),
  (0x45786344433341, 0x43494d31342e49454336313937302e44796e616d6963732e45786369746174696f6e53797374656d73),
  (0x457863424243, 0x43494d31342e49454336313937302e44796e616d6963732e45786369746174696f6e53797374656d73),
  (0x45786353543742, 0x43494d31342e49454336313937302e44796e616d6963732e45786369746174696f6e53797374656d73),
  (0x45786353435258, 0x43494d31342e49454336313937302e44796e616d6963732e45786369746174696f6e53797374656d73),
  (0x45786341433541, 0x43494d31342e49454336313937302e44796e616d6963732e45786369746174696f6e53797374656d73),
  (0x45786352455853, 0x43494d31342e49454336313937302e44796e616d6963732e45786369746174696f6e53797374656d73),
  (0x457863454c494e31, 0x43494d31342e49454336313937302e44796e616d6963732e45786369746174696f6e53797374656d73),
  (0x45786353543341, 0x43494d31342e49454336313937302e44796e616d6963732e45786369746174696f6e53797374656d73),
  (0x457863534b32, 0x43494d31342e49454336313937302e44796e616d6963732e45786369746174696f6e53797374656d73),
  (0x457863504943, 0x43494d31342e49454336313937302e44796e616d6963732e45786369746174696f6e53797374656d73),
  (0x45786353543542, 0x43494d31342e49454336313937302e44796e616d6963732e45786369746174696f6e53797374656d73),
  (0x457863435a, 0x43494d31342e49454336313937302e44796e616d6963732e45786369746174696f6e53797374656d73),
  (0x45786353543141, 0x43494d31342e49454336313937302e44796e616d6963732e45786369746174696f6e53797374656d73),
  (0x45786344433141, 0x43494d31342e49454336313937302e44796e616d6963732e45786369746174696f6e53797374656d73),
  (0x45786341433341, 0x43494d31342e49454336313937302e44796e616d6963732e45786369746174696f6e53797374656d73),
  (0x45786341433441, 0x43494d31342e49454336313937302e44796e616d6963732e45786369746174696f6e53797374656d73),
  (0x45786341433241, 0x43494d31342e49454336313937302e44796e616d6963732e45786369746174696f6e53797374656d73),
  (0x45786357543245, 0x43494d31342e49454336313937302e44796e616d6963732e45786369746174696f6e53797374656d73),
  (0x45786344433241, 0x43494d31342e49454336313937302e44796e616d6963732e45786369746174696f6e53797374656d73),
  (0x45786341433842, 0x43494d31342e49454336313937302e44796e616d6963732e45786369746174696f6e53797374656d73),
  (0x45786353543241, 0x43494d31342e49454336313937302e44796e616d6963732e45786369746174696f6e53797374656d73),
  (0x4578634855, 0x43494d31342e49454336313937302e44796e616d6963732e45786369746174696f6e53797374656d73),
  (0x457863424153, 0x43494d31342e49454336313937302e44796e616d6963732e45786369746174696f6e53797374656d73),
  (0x457863534b, 0x43494d31342e49454336313937302e44796e616d6963732e45786369746174696f6e53797374656d73),
  (0x45786357543345, 0x43494d31342e49454336313937302e44796e616d6963732e45786369746174696f6e53797374656d73),
  (0x45786353543642, 0x43494d31342e49454336313937302e44796e616d6963732e45786369746174696f6e53797374656d73),
  (0x457863454c494e32, 0x43494d31342e49454336313937302e44796e616d6963732e45786369746174696f6e53797374656d73),
  (0x45786353543442, 0x43494d31342e49454336313937302e44796e616d6963732e45786369746174696f6e53797374656d73),
  (0x45786341433742, 0x43494d31342e49454336313937302e44796e616d6963732e45786369746174696f6e53797374656d73),
  (0x45786357543445, 0x43494d31342e49454336313937302e44796e616d6963732e45786369746174696f6e53797374656d73),
  (0x54757262696e65476f7665726e6f72, 0x43494d31342e49454336313937302e44796e616d6963732e54757262696e65476f7665726e6f7273),
  (0x476f76537465616d465632, 0x43494d31342e49454336313937302e44796e616d6963732e54757262696e65476f7665726e6f7273),
  (0x476f7657543350, 0x43494d31342e49454336313937302e44796e616d6963732e54757262696e65476f7665726e6f7273),
  (0x476f76537465616d53474f, 0x43494d31342e49454336313937302e44796e616d6963732e54757262696e65476f7665726e6f7273),
  (0x476f764741534d, 0x43494d31342e49454336313937302e44796e616d6963732e54757262696e65476f7665726e6f7273),
  (0x476f76487964726f52, 0x43494d31342e49454336313937302e44796e616d6963732e54757262696e65476f7665726e6f7273),
  (0x476f7657543454, 0x43494d31342e49454336313937302e44796e616d6963732e54757262696e65476f7665726e6f7273),
  (0x476f764741535432, 0x43494d31342e49454336313937302e44796e616d6963732e54757262696e65476f7665726e6f7273),
  (0x476f76537465616d4343, 0x43494d31342e49454336313937302e44796e616d6963732e54757262696e65476f7665726e6f7273),
  (0x476f76524156, 0x43494d31342e49454336313937302e44796e616d6963732e54757262696e65476f7665726e6f7273),
  (0x476f76537465616d31, 0x43494d31342e49454336313937302e44796e616d6963732e54757262696e65476f7665726e6f7273),
  (0x544c43464231, 0x43494d31342e49454336313937302e44796e616d6963732e54757262696e65476f7665726e6f7273),
  (0x476f76487964726f34, 0x43494d31342e49454336313937302e44796e616d6963732e54757262696e65476f7665726e6f7273),
  (0x476f76435432, 0x43494d31342e49454336313937302e44796e616d6963732e54757262696e65476f7665726e6f7273),
  (0x476f76487964726f31, 0x43494d31342e49454336313937302e44796e616d6963732e54757262696e65476f7665726e6f7273),
  (0x476f7647415354, 0x43494d31342e49454336313937302e44796e616d6963732e54757262696e65476f7665726e6f7273),
  (0x476f7657543354, 0x43494d31342e49454336313937302e44796e616d6963732e54757262696e65476f7665726e6f7273),
  (0x476f76487964726f57504944, 0x43494d31342e49454336313937302e44796e616d6963732e54757262696e65476f7665726e6f7273),
  (0x476f7657543154, 0x43494d31342e49454336313937302e44796e616d6963732e54757262696e65476f7665726e6f7273),
  (0x476f7657543254, 0x43494d31342e49454336313937302e44796e616d6963732e54757262696e65476f7665726e6f7273),
  (0x436c61737331, 0x43494d31342e49454336313937302e44796e616d6963732e54757262696e65476f7665726e6f7273),
  (0x476f7657543450, 0x43494d31342e49454336313937302e44796e616d6963732e54757262696e65476f7665726e6f7273),
  (0x476f76487964726f504944, 0x43494d31342e49454336313937302e44796e616d6963732e54757262696e65476f7665726e6f7273),
  (0x476f76487964726f574548, 0x43494d31342e49454336313937302e44796e616d6963732e54757262696e65476f7665726e6f7273),
  (0x476f76487964726f4444, 0x43494d31342e49454336313937302e44796e616d6963732e54757262696e65476f7665726e6f7273),
  (0x476f7657543150, 0x43494d31342e49454336313937302e44796e616d6963732e54757262696e65476f7665726e6f7273),
  (0x476f7657543250, 0x43494d31342e49454336313937302e44796e616d6963732e54757262696e65476f7665726e6f7273),
  (0x476f76537465616d4555, 0x43494d31342e49454336313937302e44796e616d6963732e54757262696e65476f7665726e6f7273),
  (0x476f76487964726f33, 0x43494d31342e49454336313937302e44796e616d6963732e54757262696e65476f7665726e6f7273),
  (0x476f76537465616d30, 0x43494d31342e49454336313937302e44796e616d6963732e54757262696e65476f7665726e6f7273),
  (0x476f76487964726f50494432, 0x43494d31342e49454336313937302e44796e616d6963732e54757262696e65476f7665726e6f7273),
  (0x476f76487964726f32, 0x43494d31342e49454336313937302e44796e616d6963732e54757262696e65476f7665726e6f7273),
  (0x476f76435431, 0x43494d31342e49454336313937302e44796e616d6963732e54757262696e65476f7665726e6f7273),
  (0x476f76487964726f30, 0x43494d31342e49454336313937302e44796e616d6963732e54757262696e65476f7665726e6f7273),
  (0x476f76474153545744, 0x43494d31342e49454336313937302e44796e616d6963732e54757262696e65476f7665726e6f7273),
  (0x476f76537465616d465633, 0x43494d31342e49454336313937302e44796e616d6963732e54757262696e65476f7665726e6f7273),
  (0x476f7644554d, 0x43494d31342e49454336313937302e44796e616d6963732e54757262696e65476f7665726e6f7273),
  (0x47656e4c6f6164, 0x43494d31342e49454336313937302e44796e616d6963732e47656e657261746f7273),
  (0x47656e4571756976, 0x43494d31342e49454336313937302e44796e616d6963732e47656e657261746f7273),
  (0x47656e4173796e63, 0x43494d31342e49454336313937302e44796e616d6963732e47656e657261746f7273),
  (0x506f77657253797374656d53746162696c697a6572, 0x43494d31342e49454336313937302e44796e616d6963732e506f77657253797374656d53746162696c697a657273),
  (0x507373494545453342, 0x43494d31342e49454336313937302e44796e616d6963732e506f77657253797374656d53746162696c697a657273),
  (0x507373534b, 0x43494d31342e49454336313937302e44796e616d6963732e506f77657253797374656d53746162696c697a657273),
  (0x507373494545453442, 0x43494d31342e49454336313937302e44796e616d6963732e506f77657253797374656d53746162696c697a657273),
  (0x507373494545453141, 0x43494d31342e49454336313937302e44796e616d6963732e506f77657253797374656d53746162696c697a657273),
  (0x507373505449535431, 0x43494d31342e49454336313937302e44796e616d6963732e506f77657253797374656d53746162696c697a657273),
  (0x507373494545453242, 0x43494d31342e49454336313937302e44796e616d6963732e506f77657253797374656d53746162696c697a657273),
  (0x5073735342, 0x43494d31342e49454336313937302e44796e616d6963732e506f77657253797374656d53746162696c697a657273),
  (0x507373534234, 0x43494d31342e49454336313937302e44796e616d6963732e506f77657253797374656d53746162696c697a657273),
  (0x5073735348, 0x43494d31342e49454336313937302e44796e616d6963732e506f77657253797374656d53746162696c697a657273),
  (0x507373505449535433, 0x43494d31342e49454336313937302e44796e616d6963732e506f77657253797374656d53746162696c697a657273),
  (0x50737357534343, 0x43494d31342e49454336313937302e44796e616d6963732e506f77657253797374656d53746162696c697a657273),
  (0x4167677265676174654c6f6164, 0x43494d31342e49454336313937302e44796e616d6963732e4c6f616473),
  (0x4c6f6164537461746963, 0x43494d31342e49454336313937302e44796e616d6963732e4c6f616473),
  (0x4c6f616453746174696353797374656d, 0x43494d31342e49454336313937302e44796e616d6963732e4c6f616473),
  (0x4c6f61645374617469634f776e6572, 0x43494d31342e49454336313937302e44796e616d6963732e4c6f616473),
  (0x4c6f61645374617469635a6f6e65, 0x43494d31342e49454336313937302e44796e616d6963732e4c6f616473),
  (0x4c6f6164537461746963427573, 0x43494d31342e49454336313937302e44796e616d6963732e4c6f616473),
  (0x4c6f616453746174696341726561, 0x43494d31342e49454336313937302e44796e616d6963732e4c6f616473),
  (0x4c6f61644d6f746f72, 0x43494d31342e49454336313937302e44796e616d6963732e4c6f616473),
  (0x566f6c74616765436f6d70656e7361746f72, 0x43494d31342e49454336313937302e44796e616d6963732e566f6c74616765436f6d70656e7361746f72),
  (0x56636f6d7043726f7373, 0x43494d31342e49454336313937302e44796e616d6963732e566f6c74616765436f6d70656e7361746f72),
  (0x56636f6d7049454545, 0x43494d31342e49454336313937302e44796e616d6963732e566f6c74616765436f6d70656e7361746f72),
  (0x494543363139363843494d56657273696f6e, 0x43494d31342e4945433631393638),
  (0x417373657446756e6374696f6e, 0x43494d31342e49454336313936382e417373657473),
  (0x4173736574, 0x43494d31342e49454336313936382e417373657473),
  (0x4173736574436f6e7461696e6572, 0x43494d31342e49454336313936382e417373657473),
  (0x416363657074616e636554657374, 0x43494d31342e49454336313936382e417373657473),
  (0x5365616c, 0x43494d31342e49454336313936382e417373657473),
  (0x436f6d4d656469614173736574, 0x43494d31342e49454336313936382e417373657473),
  (0x44657669636546756e6374696f6e, 0x43494d31342e49454336313936382e4d65746572696e67),
  (0x436f6d46756e6374696f6e, 0x43494d31342e49454336313936382e4d65746572696e67),
  (0x5265676973746572, 0x43494d31342e49454336313936382e4d65746572696e67),
  (0x456e64446576696365436f6e74726f6c, 0x43494d31342e49454336313936382e4d65746572696e67),
  (0x52656164696e67, 0x43494d31342e49454336313936382e4d65746572696e67),
  (0x456e644465766963654173736574, 0x43494d31342e49454336313936382e4d65746572696e67),
  (0x4d657465724173736574, 0x43494d31342e49454336313936382e4d65746572696e67),
  (0x456c6563747269634d65746572696e6746756e6374696f6e, 0x43494d31342e49454336313936382e4d65746572696e67),
  (0x456e6444657669636547726f7570, 0x43494d31342e49454336313936382e4d65746572696e67),
  (0x50656e64696e67, 0x43494d31342e49454336313936382e4d65746572696e67),
  (0x496e74657276616c52656164696e67, 0x43494d31342e49454336313936382e4d65746572696e67),
  (0x4d6574657252656164696e67, 0x43494d31342e49454336313936382e4d65746572696e67),
  (0x44656d616e64526573706f6e736550726f6772616d, 0x43494d31342e49454336313936382e4d65746572696e67),
  (0x456e644465766963654576656e74, 0x43494d31342e49454336313936382e4d65746572696e67),
  (0x44796e616d696344656d616e64, 0x43494d31342e49454336313936382e4d65746572696e67),
  (0x4d6574657253657276696365576f726b, 0x43494d31342e49454336313936382e4d65746572696e67),
  (0x5365727669636544656c6976657279506f696e74, 0x43494d31342e49454336313936382e4d65746572696e67),
  (0x52656164696e6754797065, 0x43494d31342e49454336313936382e4d65746572696e67),
  (0x5344504c6f636174696f6e, 0x43494d31342e49454336313936382e4d65746572696e67),
  (0x52656164696e675175616c697479, 0x43494d31342e49454336313936382e4d65746572696e67),
  (0x496e74657276616c426c6f636b, 0x43494d31342e49454336313936382e4d65746572696e67),
  (0x41737365744d6f64656c, 0x43494d31342e49454336313936382e41737365744d6f64656c73),
  (0x456e644465766963654d6f64656c, 0x43494d31342e49454336313936382e41737365744d6f64656c73),
  (0x57697265417272616e67656d656e74, 0x43494d31342e49454336313936382e41737365744d6f64656c73),
  (0x446973747269627574696f6e57696e64696e6754657374, 0x43494d31342e49454336313936382e41737365744d6f64656c73),
  (0x53686f72744369726375697454657374, 0x43494d31342e49454336313936382e41737365744d6f64656c73),
  (0x5472616e73666f726d6572496e666f, 0x43494d31342e49454336313936382e41737365744d6f64656c73),
  (0x5769726554797065, 0x43494d31342e49454336313936382e41737365744d6f64656c73),
  (0x4f70656e4369726375697454657374, 0x43494d31342e49454336313936382e41737365744d6f64656c73),
  (0x436f6e647563746f72496e666f, 0x43494d31342e49454336313936382e41737365744d6f64656c73),
  (0x4f76657268656164436f6e647563746f72496e666f, 0x43494d31342e49454336313936382e41737365744d6f64656c73),
  (0x4361626c65496e666f, 0x43494d31342e49454336313936382e41737365744d6f64656c73),
  (0x54617065536869656c644361626c65496e666f, 0x43494d31342e49454336313936382e41737365744d6f64656c73),
  (0x57696e64696e67496e666f, 0x43494d31342e49454336313936382e41737365744d6f64656c73),
  (0x546f57696e64696e6753706563, 0x43494d31342e49454336313936382e41737365744d6f64656c73),
  (0x436f6e63656e747269634e65757472616c4361626c65496e666f, 0x43494d31342e49454336313936382e41737365744d6f64656c73),
  (0x4f7267616e69736174696f6e, 0x43494d31342e49454336313936382e436f6d6d6f6e),
  (0x537461747573, 0x43494d31342e49454336313936382e436f6d6d6f6e),
  (0x446f63756d656e74, 0x43494d31342e49454336313936382e436f6d6d6f6e),
  (0x54696d655363686564756c65, 0x43494d31342e49454336313936382e436f6d6d6f6e),
  (0x546f776e44657461696c, 0x43494d31342e49454336313936382e436f6d6d6f6e),
  (0x4c6f636174696f6e, 0x43494d31342e49454336313936382e436f6d6d6f6e),
  (0x506f7374616c41646472657373, 0x43494d31342e49454336313936382e436f6d6d6f6e),
  (0x506f736974696f6e506f696e74, 0x43494d31342e49454336313936382e436f6d6d6f6e),
  (0x41637469766974795265636f7264, 0x43494d31342e49454336313936382e436f6d6d6f6e),
  (0x53747265657441646472657373, 0x43494d31342e49454336313936382e436f6d6d6f6e),
  (0x54696d65506f696e74, 0x43494d31342e49454336313936382e436f6d6d6f6e),
  (0x41677265656d656e74, 0x43494d31342e49454336313936382e436f6d6d6f6e),
  (0x4461746554696d65496e74657276616c, 0x43494d31342e49454336313936382e436f6d6d6f6e),
  (0x53747265657444657461696c, 0x43494d31342e49454336313936382e436f6d6d6f6e),
  (0x456c656374726f6e696341646472657373, 0x43494d31342e49454336313936382e436f6d6d6f6e),
  (0x54656c6570686f6e654e756d626572, 0x43494d31342e49454336313936382e436f6d6d6f6e),
  (0x55736572417474726962757465, 0x43494d31342e49454336313936382e436f6d6d6f6e),
  (0x436f6f7264696e61746553797374656d, 0x43494d31342e49454336313936382e436f6d6d6f6e),
  (0x53657276696365537570706c696572, 0x43494d31342e49454336313936382e5061796d656e744d65746572696e67),
  (0x5368696674, 0x43494d31342e49454336313936382e5061796d656e744d65746572696e67),
  (0x54656e646572, 0x43494d31342e49454336313936382e5061796d656e744d65746572696e67),
  (0x54617269666650726f66696c65, 0x43494d31342e49454336313936382e5061796d656e744d65746572696e67),
  (0x436f6e73756d7074696f6e546172696666496e74657276616c, 0x43494d31342e49454336313936382e5061796d656e744d65746572696e67),
  (0x42616e6b4163636f756e7444657461696c, 0x43494d31342e49454336313936382e5061796d656e744d65746572696e67),
  (0x436865717565, 0x43494d31342e49454336313936382e5061796d656e744d65746572696e67),
  (0x436173686965725368696674, 0x43494d31342e49454336313936382e5061796d656e744d65746572696e67),
  (0x447565, 0x43494d31342e49454336313936382e5061796d656e744d65746572696e67),
  (0x4163636f756e74696e67556e6974, 0x43494d31342e49454336313936382e5061796d656e744d65746572696e67),
  (0x43617264, 0x43494d31342e49454336313936382e5061796d656e744d65746572696e67),
  (0x417578696c696172794163636f756e74, 0x43494d31342e49454336313936382e5061796d656e744d65746572696e67),
  (0x4d65726368616e7441677265656d656e74, 0x43494d31342e49454336313936382e5061796d656e744d65746572696e67),
  (0x4c696e6544657461696c, 0x43494d31342e49454336313936382e5061796d656e744d65746572696e67),
  (0x5472616e736163746f72, 0x43494d31342e49454336313936382e5061796d656e744d65746572696e67),
  (0x4d65726368616e744163636f756e74, 0x43494d31342e49454336313936382e5061796d656e744d65746572696e67),
  (0x56656e646f72, 0x43494d31342e49454336313936382e5061796d656e744d65746572696e67),
  (0x5472616e73616374696f6e, 0x43494d31342e49454336313936382e5061796d656e744d65746572696e67),
  (0x436861726765, 0x43494d31342e49454336313936382e5061796d656e744d65746572696e67),
  (0x56656e646f725368696674, 0x43494d31342e49454336313936382e5061796d656e744d65746572696e67),
  (0x54696d65546172696666496e74657276616c, 0x43494d31342e49454336313936382e5061796d656e744d65746572696e67),
  (0x43617368696572, 0x43494d31342e49454336313936382e5061796d656e744d65746572696e67),
  (0x506f696e744f6653616c65, 0x43494d31342e49454336313936382e5061796d656e744d65746572696e67),
  (0x52656365697074, 0x43494d31342e49454336313936382e5061796d656e744d65746572696e67),
  (0x417578696c6961727941677265656d656e74, 0x43494d31342e49454336313936382e5061796d656e744d65746572696e67),
  (0x4163636f756e744d6f76656d656e74, 0x43494d31342e49454336313936382e5061796d656e744d65746572696e67),
  (0x5472616e73666f726d657242616e6b, 0x43494d31342e49454336313936382e5769726573457874),
  (0x5068617365496d706564616e636544617461, 0x43494d31342e49454336313936382e5769726573457874),
  (0x446973747269627574696f6e5461704368616e676572, 0x43494d31342e49454336313936382e5769726573457874),
  (0x5065724c656e6774685068617365496d706564616e6365, 0x43494d31342e49454336313936382e5769726573457874),
  (0x5065724c656e67746853657175656e6365496d706564616e6365, 0x43494d31342e49454336313936382e5769726573457874),
  (0x57696e64696e675069496d706564616e6365, 0x43494d31342e49454336313936382e5769726573457874),
  (0x446973747269627574696f6e4c696e655365676d656e74, 0x43494d31342e49454336313936382e5769726573457874),
  (0x446973747269627574696f6e5472616e73666f726d6572, 0x43494d31342e49454336313936382e5769726573457874),
  (0x446973747269627574696f6e5472616e73666f726d657257696e64696e67, 0x43494d31342e49454336313936382e5769726573457874),
  (0x437573746f6d6572, 0x43494d31342e49454336313936382e437573746f6d657273),
  (0x437573746f6d65724163636f756e74, 0x43494d31342e49454336313936382e437573746f6d657273),
  (0x5365727669636543617465676f7279, 0x43494d31342e49454336313936382e437573746f6d657273),
  (0x50726963696e67537472756374757265, 0x43494d31342e49454336313936382e437573746f6d657273),
  (0x536572766963654c6f636174696f6e, 0x43494d31342e49454336313936382e437573746f6d657273),
  (0x437573746f6d657241677265656d656e74, 0x43494d31342e49454336313936382e437573746f6d657273),
  (0x546172696666, 0x43494d31342e49454336313936382e437573746f6d657273),
  (0x576f726b, 0x43494d31342e49454336313936382e576f726b),
  (0x52656d6f7465436f6e6e656374446973636f6e6e656374496e666f, 0x43494d31342e49454336313936382e4c6f6164436f6e74726f6c),
  (0x436f6e6e656374446973636f6e6e65637446756e6374696f6e, 0x43494d31342e49454336313936382e4c6f6164436f6e74726f6c)]

/-- Names bound by `from m import C` in the `__init__.py` files of the packages occurring in `pmap`: (package, C, m). -/
def exports : List (Nat × Nat × Nat) := [
  (0x43494d3134, 0x436f6d62696e656456657273696f6e, 0x43494d31342e436f6d62696e656456657273696f6e),
  (0x43494d3134, 0x456c656d656e74, 0x43494d31342e456c656d656e74),
  (0x43494d31342e4945433631393638, 0x494543363139363843494d56657273696f6e, 0x43494d31342e49454336313936382e494543363139363843494d56657273696f6e),
  (0x43494d31342e49454336313936382e41737365744d6f64656c73, 0x41737365744d6f64656c, 0x43494d31342e49454336313936382e41737365744d6f64656c732e41737365744d6f64656c),
  (0x43494d31342e49454336313936382e41737365744d6f64656c73, 0x456e644465766963654d6f64656c, 0x43494d31342e49454336313936382e41737365744d6f64656c732e456e644465766963654d6f64656c),
  (0x43494d31342e49454336313936382e41737365744d6f64656c73, 0x57697265417272616e67656d656e74, 0x43494d31342e49454336313936382e41737365744d6f64656c732e57697265417272616e67656d656e74),
  (0x43494d31342e49454336313936382e41737365744d6f64656c73, 0x446973747269627574696f6e57696e64696e6754657374, 0x43494d31342e49454336313936382e41737365744d6f64656c732e446973747269627574696f6e57696e64696e6754657374),
  (0x43494d31342e49454336313936382e41737365744d6f64656c73, 0x53686f72744369726375697454657374, 0x43494d31342e49454336313936382e41737365744d6f64656c732e53686f72744369726375697454657374),
  (0x43494d31342e49454336313936382e41737365744d6f64656c73, 0x5472616e73666f726d6572496e666f, 0x43494d31342e49454336313936382e41737365744d6f64656c732e5472616e73666f726d6572496e666f),
  (0x43494d31342e49454336313936382e41737365744d6f64656c73, 0x5769726554797065, 0x43494d31342e49454336313936382e41737365744d6f64656c732e5769726554797065),
  (0x43494d31342e49454336313936382e41737365744d6f64656c73, 0x4f70656e4369726375697454657374, 0x43494d31342e49454336313936382e41737365744d6f64656c732e4f70656e4369726375697454657374),
  (0x43494d31342e49454336313936382e41737365744d6f64656c73, 0x436f6e647563746f72496e666f, 0x43494d31342e49454336313936382e41737365744d6f64656c732e436f6e647563746f72496e666f),
  (0x43494d31342e49454336313936382e41737365744d6f64656c73, 0x4f76657268656164436f6e647563746f72496e666f, 0x43494d31342e49454336313936382e41737365744d6f64656c732e4f76657268656164436f6e647563746f72496e666f),
  (0x43494d31342e49454336313936382e41737365744d6f64656c73, 0x4361626c65496e666f, 0x43494d31342e49454336313936382e41737365744d6f64656c732e4361626c65496e666f),
  (0x43494d31342e49454336313936382e41737365744d6f64656c73, 0x54617065536869656c644361626c65496e666f, 0x43494d31342e49454336313936382e41737365744d6f64656c732e54617065536869656c644361626c65496e666f),
  (0x43494d31342e49454336313936382e41737365744d6f64656c73, 0x57696e64696e67496e666f, 0x43494d31342e49454336313936382e41737365744d6f64656c732e57696e64696e67496e666f),
  (0x43494d31342e49454336313936382e41737365744d6f64656c73, 0x546f57696e64696e6753706563, 0x43494d31342e49454336313936382e41737365744d6f64656c732e546f57696e64696e6753706563),
  (0x43494d31342e49454336313936382e41737365744d6f64656c73, 0x436f6e63656e747269634e65757472616c4361626c65496e666f, 0x43494d31342e49454336313936382e41737365744d6f64656c732e436f6e63656e747269634e65757472616c4361626c65496e666f),
  (0x43494d31342e49454336313936382e417373657473, 0x417373657446756e6374696f6e, 0x43494d31342e49454336313936382e4173736574732e417373657446756e6374696f6e),
  (0x43494d31342e49454336313936382e417373657473, 0x4173736574, 0x43494d31342e49454336313936382e4173736574732e4173736574),
  (0x43494d31342e49454336313936382e417373657473, 0x4173736574436f6e7461696e6572, 0x43494d31342e49454336313936382e4173736574732e4173736574436f6e7461696e6572),
  (0x43494d31342e49454336313936382e417373657473, 0x416363657074616e636554657374, 0x43494d31342e49454336313936382e4173736574732e416363657074616e636554657374),
  (0x43494d31342e49454336313936382e417373657473, 0x5365616c, 0x43494d31342e49454336313936382e4173736574732e5365616c),
  (0x43494d31342e49454336313936382e417373657473, 0x436f6d4d656469614173736574, 0x43494d31342e49454336313936382e4173736574732e436f6d4d656469614173736574),
  (0x43494d31342e49454336313936382e436f6d6d6f6e, 0x4f7267616e69736174696f6e, 0x43494d31342e49454336313936382e436f6d6d6f6e2e4f7267616e69736174696f6e),
  (0x43494d31342e49454336313936382e436f6d6d6f6e, 0x537461747573, 0x43494d31342e49454336313936382e436f6d6d6f6e2e537461747573),
  (0x43494d31342e49454336313936382e436f6d6d6f6e, 0x446f63756d656e74, 0x43494d31342e49454336313936382e436f6d6d6f6e2e446f63756d656e74),
  (0x43494d31342e49454336313936382e436f6d6d6f6e, 0x54696d655363686564756c65, 0x43494d31342e49454336313936382e436f6d6d6f6e2e54696d655363686564756c65),
  (0x43494d31342e49454336313936382e436f6d6d6f6e, 0x546f776e44657461696c, 0x43494d31342e49454336313936382e436f6d6d6f6e2e546f776e44657461696c),
  (0x43494d31342e49454336313936382e436f6d6d6f6e, 0x4c6f636174696f6e, 0x43494d31342e49454336313936382e436f6d6d6f6e2e4c6f636174696f6e),
  (0x43494d31342e49454336313936382e436f6d6d6f6e, 0x506f7374616c41646472657373, 0x43494d31342e49454336313936382e436f6d6d6f6e2e506f7374616c41646472657373),
  (0x43494d31342e49454336313936382e436f6d6d6f6e, 0x506f736974696f6e506f696e74, 0x43494d31342e49454336313936382e436f6d6d6f6e2e506f736974696f6e506f696e74),
  (0x43494d31342e49454336313936382e436f6d6d6f6e, 0x41637469766974795265636f7264, 0x43494d31342e49454336313936382e436f6d6d6f6e2e41637469766974795265636f7264),
  (0x43494d31342e49454336313936382e436f6d6d6f6e, 0x53747265657441646472657373, 0x43494d31342e49454336313936382e436f6d6d6f6e2e53747265657441646472657373),
  (0x43494d31342e49454336313936382e436f6d6d6f6e, 0x54696d65506f696e74, 0x43494d31342e49454336313936382e436f6d6d6f6e2e54696d65506f696e74),
  (0x43494d31342e49454336313936382e436f6d6d6f6e, 0x41677265656d656e74, 0x43494d31342e49454336313936382e436f6d6d6f6e2e41677265656d656e74),
  (0x43494d31342e49454336313936382e436f6d6d6f6e, 0x4461746554696d65496e74657276616c, 0x43494d31342e49454336313936382e436f6d6d6f6e2e4461746554696d65496e74657276616c),
  (0x43494d31342e49454336313936382e436f6d6d6f6e, 0x53747265657444657461696c, 0x43494d31342e49454336313936382e436f6d6d6f6e2e53747265657444657461696c),
  (0x43494d31342e49454336313936382e436f6d6d6f6e, 0x456c656374726f6e696341646472657373, 0x43494d31342e49454336313936382e436f6d6d6f6e2e456c656374726f6e696341646472657373),
  (0x43494d31342e49454336313936382e436f6d6d6f6e, 0x54656c6570686f6e654e756d626572, 0x43494d31342e49454336313936382e436f6d6d6f6e2e54656c6570686f6e654e756d626572),
  (0x43494d31342e49454336313936382e436f6d6d6f6e, 0x55736572417474726962757465, 0x43494d31342e49454336313936382e436f6d6d6f6e2e55736572417474726962757465),
  (0x43494d31342e49454336313936382e436f6d6d6f6e, 0x436f6f7264696e61746553797374656d, 0x43494d31342e49454336313936382e436f6d6d6f6e2e436f6f7264696e61746553797374656d),
  (0x43494d31342e49454336313936382e437573746f6d657273, 0x437573746f6d6572, 0x43494d31342e49454336313936382e437573746f6d6572732e437573746f6d6572),
  (0x43494d31342e49454336313936382e437573746f6d657273, 0x437573746f6d65724163636f756e74, 0x43494d31342e49454336313936382e437573746f6d6572732e437573746f6d65724163636f756e74),
  (0x43494d31342e49454336313936382e437573746f6d657273, 0x5365727669636543617465676f7279, 0x43494d31342e49454336313936382e437573746f6d6572732e5365727669636543617465676f7279),
  (0x43494d31342e49454336313936382e437573746f6d657273, 0x50726963696e67537472756374757265, 0x43494d31342e49454336313936382e437573746f6d6572732e50726963696e67537472756374757265),
  (0x43494d31342e49454336313936382e437573746f6d657273, 0x536572766963654c6f636174696f6e, 0x43494d31342e49454336313936382e437573746f6d6572732e536572766963654c6f636174696f6e),
  (0x43494d31342e49454336313936382e437573746f6d657273, 0x437573746f6d657241677265656d656e74, 0x43494d31342e49454336313936382e437573746f6d6572732e437573746f6d657241677265656d656e74),
  (0x43494d31342e49454336313936382e437573746f6d657273, 0x546172696666, 0x43494d31342e49454336313936382e437573746f6d6572732e546172696666),
  (0x43494d31342e49454336313936382e4c6f6164436f6e74726f6c, 0x52656d6f7465436f6e6e656374446973636f6e6e656374496e666f, 0x43494d31342e49454336313936382e4c6f6164436f6e74726f6c2e52656d6f7465436f6e6e656374446973636f6e6e656374496e666f),
  (0x43494d31342e49454336313936382e4c6f6164436f6e74726f6c, 0x436f6e6e656374446973636f6e6e65637446756e6374696f6e, 0x43494d31342e49454336313936382e4c6f6164436f6e74726f6c2e436f6e6e656374446973636f6e6e65637446756e6374696f6e),
  (0x43494d31342e49454336313936382e4d65746572696e67, 0x44657669636546756e6374696f6e, 0x43494d31342e49454336313936382e4d65746572696e672e44657669636546756e6374696f6e),
  (0x43494d31342e49454336313936382e4d65746572696e67, 0x436f6d46756e6374696f6e, 0x43494d31342e49454336313936382e4d65746572696e672e436f6d46756e6374696f6e),
  (0x43494d31342e49454336313936382e4d65746572696e67, 0x5265676973746572, 0x43494d31342e49454336313936382e4d65746572696e672e5265676973746572),
  (0x43494d31342e49454336313936382e4d65746572696e67, 0x456e64446576696365436f6e74726f6c, 0x43494d31342e49454336313936382e4d65746572696e672e456e64446576696365436f6e74726f6c),
  (0x43494d31342e49454336313936382e4d65746572696e67, 0x52656164696e67, 0x43494d31342e49454336313936382e4d65746572696e672e52656164696e67),
  (0x43494d31342e49454336313936382e4d65746572696e67, 0x456e644465766963654173736574, 0x43494d31342e49454336313936382e4d65746572696e672e456e644465766963654173736574),
  (0x43494d31342e49454336313936382e4d65746572696e67, 0x4d657465724173736574, 0x43494d31342e49454336313936382e4d65746572696e672e4d657465724173736574),
  (0x43494d31342e49454336313936382e4d65746572696e67, 0x456c6563747269634d65746572696e6746756e6374696f6e, 0x43494d31342e49454336313936382e4d65746572696e672e456c6563747269634d65746572696e6746756e6374696f6e),
  (0x43494d31342e49454336313936382e4d65746572696e67, 0x456e6444657669636547726f7570, 0x43494d31342e49454336313936382e4d65746572696e672e456e6444657669636547726f7570),
  (0x43494d31342e49454336313936382e4d65746572696e67, 0x50656e64696e67, 0x43494d31342e49454336313936382e4d65746572696e672e50656e64696e67),
  (0x43494d31342e49454336313936382e4d65746572696e67, 0x496e74657276616c52656164696e67, 0x43494d31342e49454336313936382e4d65746572696e672e496e74657276616c52656164696e67),
  (0x43494d31342e49454336313936382e4d65746572696e67, 0x4d6574657252656164696e67, 0x43494d31342e49454336313936382e4d65746572696e672e4d6574657252656164696e67),
  (0x43494d31342e49454336313936382e4d65746572696e67, 0x44656d616e64526573706f6e736550726f6772616d, 0x43494d31342e49454336313936382e4d65746572696e672e44656d616e64526573706f6e736550726f6772616d),
  (0x43494d31342e49454336313936382e4d65746572696e67, 0x456e644465766963654576656e74, 0x43494d31342e49454336313936382e4d65746572696e672e456e644465766963654576656e74),
  (0x43494d31342e49454336313936382e4d65746572696e67, 0x44796e616d696344656d616e64, 0x43494d31342e49454336313936382e4d65746572696e672e44796e616d696344656d616e64),
  (0x43494d31342e49454336313936382e4d65746572696e67, 0x4d6574657253657276696365576f726b, 0x43494d31342e49454336313936382e4d65746572696e672e4d6574657253657276696365576f726b),
  (0x43494d31342e49454336313936382e4d65746572696e67, 0x5365727669636544656c6976657279506f696e74, 0x43494d31342e49454336313936382e4d65746572696e672e5365727669636544656c6976657279506f696e74),
  (0x43494d31342e49454336313936382e4d65746572696e67, 0x52656164696e6754797065, 0x43494d31342e49454336313936382e4d65746572696e672e52656164696e6754797065),
  (0x43494d31342e49454336313936382e4d65746572696e67, 0x5344504c6f636174696f6e, 0x43494d31342e49454336313936382e4d65746572696e672e5344504c6f636174696f6e),
  (0x43494d31342e49454336313936382e4d65746572696e67, 0x52656164696e675175616c697479, 0x43494d31342e49454336313936382e4d65746572696e672e52656164696e675175616c697479),
  (0x43494d31342e49454336313936382e4d65746572696e67, 0x496e74657276616c426c6f636b, 0x43494d31342e49454336313936382e4d65746572696e672e496e74657276616c426c6f636b),
  (0x43494d31342e49454336313936382e5061796d656e744d65746572696e67, 0x53657276696365537570706c696572, 0x43494d31342e49454336313936382e5061796d656e744d65746572696e672e53657276696365537570706c696572),
  (0x43494d31342e49454336313936382e5061796d656e744d65746572696e67, 0x5368696674, 0x43494d31342e49454336313936382e5061796d656e744d65746572696e672e5368696674),
  (0x43494d31342e49454336313936382e5061796d656e744d65746572696e67, 0x54656e646572, 0x43494d31342e49454336313936382e5061796d656e744d65746572696e672e54656e646572),
  (0x43494d31342e49454336313936382e5061796d656e744d65746572696e67, 0x54617269666650726f66696c65, 0x43494d31342e49454336313936382e5061796d656e744d65746572696e672e54617269666650726f66696c65),
  (0x43494d31342e49454336313936382e5061796d656e744d65746572696e67, 0x436f6e73756d7074696f6e546172696666496e74657276616c, 0x43494d31342e49454336313936382e5061796d656e744d65746572696e672e436f6e73756d7074696f6e546172696666496e74657276616c),
  (0x43494d31342e49454336313936382e5061796d656e744d65746572696e67, 0x42616e6b4163636f756e7444657461696c, 0x43494d31342e49454336313936382e5061796d656e744d65746572696e672e42616e6b4163636f756e7444657461696c),
  (0x43494d31342e49454336313936382e5061796d656e744d65746572696e67, 0x436865717565, 0x43494d31342e49454336313936382e5061796d656e744d65746572696e672e436865717565),
  (0x43494d31342e49454336313936382e5061796d656e744d65746572696e67, 0x436173686965725368696674, 0x43494d31342e49454336313936382e5061796d656e744d65746572696e672e436173686965725368696674),
  (0x43494d31342e49454336313936382e5061796d656e744d65746572696e67, 0x447565, 0x43494d31342e49454336313936382e5061796d656e744d65746572696e672e447565),
  (0x43494d31342e49454336313936382e5061796d656e744d65746572696e67, 0x4163636f756e74696e67556e6974, 0x43494d31342e49454336313936382e5061796d656e744d65746572696e672e4163636f756e74696e67556e6974),
  (0x43494d31342e49454336313936382e5061796d656e744d65746572696e67, 0x43617264, 0x43494d31342e49454336313936382e5061796d656e744d65746572696e672e43617264),
  (0x43494d31342e49454336313936382e5061796d656e744d65746572696e67, 0x417578696c696172794163636f756e74, 0x43494d31342e49454336313936382e5061796d656e744d65746572696e672e417578696c696172794163636f756e74),
  (0x43494d31342e49454336313936382e5061796d656e744d65746572696e67, 0x4d65726368616e7441677265656d656e74, 0x43494d31342e49454336313936382e5061796d656e744d65746572696e672e4d65726368616e7441677265656d656e74),
  (0x43494d31342e49454336313936382e5061796d656e744d65746572696e67, 0x4c696e6544657461696c, 0x43494d31342e49454336313936382e5061796d656e744d65746572696e672e4c696e6544657461696c),
  (0x43494d31342e49454336313936382e5061796d656e744d65746572696e67, 0x5472616e736163746f72, 0x43494d31342e49454336313936382e5061796d656e744d65746572696e672e5472616e736163746f72),
  (0x43494d31342e49454336313936382e5061796d656e744d65746572696e67, 0x4d65726368616e744163636f756e74, 0x43494d31342e49454336313936382e5061796d656e744d65746572696e672e4d65726368616e744163636f756e74),
  (0x43494d31342e49454336313936382e5061796d656e744d65746572696e67, 0x56656e646f72, 0x43494d31342e49454336313936382e5061796d656e744d65746572696e672e56656e646f72),
  (0x43494d31342e49454336313936382e5061796d656e744d65746572696e67, 0x5472616e73616374696f6e, 0x43494d31342e49454336313936382e5061796d656e744d65746572696e672e5472616e73616374696f6e),
  (0x43494d31342e49454336313936382e5061796d656e744d65746572696e67, 0x436861726765, 0x43494d31342e49454336313936382e5061796d656e744d65746572696e672e436861726765),
  (0x43494d31342e49454336313936382e5061796d656e744d65746572696e67, 0x56656e646f725368696674, 0x43494d31342e49454336313936382e5061796d656e744d65746572696e672e56656e646f725368696674),
  (0x43494d31342e49454336313936382e5061796d656e744d65746572696e67, 0x54696d65546172696666496e74657276616c, 0x43494d31342e49454336313936382e5061796d656e744d65746572696e672e54696d65546172696666496e74657276616c),
  (0x43494d31342e49454336313936382e5061796d656e744d65746572696e67, 0x43617368696572, 0x43494d31342e49454336313936382e5061796d656e744d65746572696e672e43617368696572),
  (0x43494d31342e49454336313936382e5061796d656e744d65746572696e67, 0x506f696e744f6653616c65, 0x43494d31342e49454336313936382e5061796d656e744d65746572696e672e506f696e744f6653616c65),
  (0x43494d31342e49454336313936382e5061796d656e744d65746572696e67, 0x52656365697074, 0x43494d31342e49454336313936382e5061796d656e744d65746572696e672e52656365697074),
  (0x43494d31342e49454336313936382e5061796d656e744d65746572696e67, 0x417578696c6961727941677265656d656e74, 0x43494d31342e49454336313936382e5061796d656e744d65746572696e672e417578696c6961727941677265656d656e74),
  (0x43494d31342e49454336313936382e5061796d656e744d65746572696e67, 0x4163636f756e744d6f76656d656e74, 0x43494d31342e49454336313936382e5061796d656e744d65746572696e672e4163636f756e744d6f76656d656e74),
  (0x43494d31342e49454336313936382e5769726573457874, 0x5472616e73666f726d657242616e6b, 0x43494d31342e49454336313936382e57697265734578742e5472616e73666f726d657242616e6b),
  (0x43494d31342e49454336313936382e5769726573457874, 0x5068617365496d706564616e636544617461, 0x43494d31342e49454336313936382e57697265734578742e5068617365496d706564616e636544617461),
  (0x43494d31342e49454336313936382e5769726573457874, 0x446973747269627574696f6e5461704368616e676572, 0x43494d31342e49454336313936382e57697265734578742e446973747269627574696f6e5461704368616e676572),
  (0x43494d31342e49454336313936382e5769726573457874, 0x5065724c656e6774685068617365496d706564616e6365, 0x43494d31342e49454336313936382e57697265734578742e5065724c656e6774685068617365496d706564616e6365),
  (0x43494d31342e49454336313936382e5769726573457874, 0x5065724c656e67746853657175656e6365496d706564616e6365, 0x43494d31342e49454336313936382e57697265734578742e5065724c656e67746853657175656e6365496d706564616e6365),
  (0x43494d31342e49454336313936382e5769726573457874, 0x57696e64696e675069496d706564616e6365, 0x43494d31342e49454336313936382e57697265734578742e57696e64696e675069496d706564616e6365),
  (0x43494d31342e49454336313936382e5769726573457874, 0x446973747269627574696f6e4c696e655365676d656e74, 0x43494d31342e49454336313936382e57697265734578742e446973747269627574696f6e4c696e655365676d656e74),
  (0x43494d31342e49454336313936382e5769726573457874, 0x446973747269627574696f6e5472616e73666f726d6572, 0x43494d31342e49454336313936382e57697265734578742e446973747269627574696f6e5472616e73666f726d6572),
  (0x43494d31342e49454336313936382e5769726573457874, 0x446973747269627574696f6e5472616e73666f726d657257696e64696e67, 0x43494d31342e49454336313936382e57697265734578742e446973747269627574696f6e5472616e73666f726d657257696e64696e67),
  (0x43494d31342e49454336313936382e576f726b, 0x576f726b, 0x43494d31342e49454336313936382e576f726b2e576f726b),
  (0x43494d31342e4945433631393730, 0x494543363139373043494d56657273696f6e, 0x43494d31342e49454336313937302e494543363139373043494d56657273696f6e),
  (0x43494d31342e49454336313937302e436f6e74696e67656e6379, 0x436f6e74696e67656e6379456c656d656e74, 0x43494d31342e49454336313937302e436f6e74696e67656e63792e436f6e74696e67656e6379456c656d656e74),
  (0x43494d31342e49454336313937302e436f6e74696e67656e6379, 0x436f6e74696e67656e637945717569706d656e74, 0x43494d31342e49454336313937302e436f6e74696e67656e63792e436f6e74696e67656e637945717569706d656e74),
  (0x43494d31342e49454336313937302e436f6e74696e67656e6379, 0x436f6e74696e67656e6379, 0x43494d31342e49454336313937302e436f6e74696e67656e63792e436f6e74696e67656e6379),
  (0x43494d31342e49454336313937302e436f6e74726f6c41726561, 0x416c745469654d656173, 0x43494d31342e49454336313937302e436f6e74726f6c417265612e416c745469654d656173),
  (0x43494d31342e49454336313937302e436f6e74726f6c41726561, 0x416c7447656e65726174696e67556e69744d656173, 0x43494d31342e49454336313937302e436f6e74726f6c417265612e416c7447656e65726174696e67556e69744d656173),
  (0x43494d31342e49454336313937302e436f6e74726f6c41726561, 0x436f6e74726f6c41726561, 0x43494d31342e49454336313937302e436f6e74726f6c417265612e436f6e74726f6c41726561),
  (0x43494d31342e49454336313937302e436f6e74726f6c41726561, 0x546965466c6f77, 0x43494d31342e49454336313937302e436f6e74726f6c417265612e546965466c6f77),
  (0x43494d31342e49454336313937302e436f6e74726f6c41726561, 0x436f6e74726f6c4172656147656e65726174696e67556e6974, 0x43494d31342e49454336313937302e436f6e74726f6c417265612e436f6e74726f6c4172656147656e65726174696e67556e6974),
  (0x43494d31342e49454336313937302e436f7265, 0x4964656e7469666965644f626a656374, 0x43494d31342e49454336313937302e436f72652e4964656e7469666965644f626a656374),
  (0x43494d31342e49454336313937302e436f7265, 0x506f77657253797374656d5265736f75726365, 0x43494d31342e49454336313937302e436f72652e506f77657253797374656d5265736f75726365),
  (0x43494d31342e49454336313937302e436f7265, 0x45717569706d656e74, 0x43494d31342e49454336313937302e436f72652e45717569706d656e74),
  (0x43494d31342e49454336313937302e436f7265, 0x436f6e64756374696e6745717569706d656e74, 0x43494d31342e49454336313937302e436f72652e436f6e64756374696e6745717569706d656e74),
  (0x43494d31342e49454336313937302e436f7265, 0x4375727665, 0x43494d31342e49454336313937302e436f72652e4375727665),
  (0x43494d31342e49454336313937302e436f7265, 0x4261736963496e74657276616c5363686564756c65, 0x43494d31342e49454336313937302e436f72652e4261736963496e74657276616c5363686564756c65),
  (0x43494d31342e49454336313937302e436f7265, 0x4972726567756c6172496e74657276616c5363686564756c65, 0x43494d31342e49454336313937302e436f72652e4972726567756c6172496e74657276616c5363686564756c65),
  (0x43494d31342e49454336313937302e436f7265, 0x526567756c6172496e74657276616c5363686564756c65, 0x43494d31342e49454336313937302e436f72652e526567756c6172496e74657276616c5363686564756c65),
  (0x43494d31342e49454336313937302e436f7265, 0x436f6e6e65637469766974794e6f6465436f6e7461696e6572, 0x43494d31342e49454336313937302e436f72652e436f6e6e65637469766974794e6f6465436f6e7461696e6572),
  (0x43494d31342e49454336313937302e436f7265, 0x45717569706d656e74436f6e7461696e6572, 0x43494d31342e49454336313937302e436f72652e45717569706d656e74436f6e7461696e6572),
  (0x43494d31342e49454336313937302e436f7265, 0x437572766544617461, 0x43494d31342e49454336313937302e436f72652e437572766544617461),
  (0x43494d31342e49454336313937302e436f7265, 0x426179, 0x43494d31342e49454336313937302e436f72652e426179),
  (0x43494d31342e49454336313937302e436f7265, 0x50535254797065, 0x43494d31342e49454336313937302e436f72652e50535254797065),
  (0x43494d31342e49454336313937302e436f7265, 0x47656f67726170686963616c526567696f6e, 0x43494d31342e49454336313937302e436f72652e47656f67726170686963616c526567696f6e),
  (0x43494d31342e49454336313937302e436f7265, 0x5465726d696e616c, 0x43494d31342e49454336313937302e436f72652e5465726d696e616c),
  (0x43494d31342e49454336313937302e436f7265, 0x4f7065726174696e675061727469636970616e74, 0x43494d31342e49454336313937302e436f72652e4f7065726174696e675061727469636970616e74),
  (0x43494d31342e49454336313937302e436f7265, 0x566f6c746167654c6576656c, 0x43494d31342e49454336313937302e436f72652e566f6c746167654c6576656c),
  (0x43494d31342e49454336313937302e436f7265, 0x436f6e6e65637469766974794e6f6465, 0x43494d31342e49454336313937302e436f72652e436f6e6e65637469766974794e6f6465),
  (0x43494d31342e49454336313937302e436f7265, 0x42617365506f776572, 0x43494d31342e49454336313937302e436f72652e42617365506f776572),
  (0x43494d31342e49454336313937302e436f7265, 0x556e6974, 0x43494d31342e49454336313937302e436f72652e556e6974),
  (0x43494d31342e49454336313937302e436f7265, 0x42617365566f6c74616765, 0x43494d31342e49454336313937302e436f72652e42617365566f6c74616765),
  (0x43494d31342e49454336313937302e436f7265, 0x53756247656f67726170686963616c526567696f6e, 0x43494d31342e49454336313937302e436f72652e53756247656f67726170686963616c526567696f6e),
  (0x43494d31342e49454336313937302e436f7265, 0x5073724c697374, 0x43494d31342e49454336313937302e436f72652e5073724c697374),
  (0x43494d31342e49454336313937302e436f7265, 0x53756273746174696f6e, 0x43494d31342e49454336313937302e436f72652e53756273746174696f6e),
  (0x43494d31342e49454336313937302e436f7265, 0x5265706f7274696e6747726f7570, 0x43494d31342e49454336313937302e436f72652e5265706f7274696e6747726f7570),
  (0x43494d31342e49454336313937302e436f7265, 0x5265706f7274696e67537570657247726f7570, 0x43494d31342e49454336313937302e436f72652e5265706f7274696e67537570657247726f7570),
  (0x43494d31342e49454336313937302e436f7265, 0x526567756c617254696d65506f696e74, 0x43494d31342e49454336313937302e436f72652e526567756c617254696d65506f696e74),
  (0x43494d31342e49454336313937302e436f7265, 0x4972726567756c617254696d65506f696e74, 0x43494d31342e49454336313937302e436f72652e4972726567756c617254696d65506f696e74),
  (0x43494d31342e49454336313937302e436f7265, 0x4f7065726174696e675368617265, 0x43494d31342e49454336313937302e436f72652e4f7065726174696e675368617265),
  (0x43494d31342e49454336313937302e44796e616d696373, 0x426c6f636b436f6e6e656374696f6e, 0x43494d31342e49454336313937302e44796e616d6963732e426c6f636b436f6e6e656374696f6e),
  (0x43494d31342e49454336313937302e44796e616d696373, 0x526f746174696e674d616368696e65, 0x43494d31342e49454336313937302e44796e616d6963732e526f746174696e674d616368696e65),
  (0x43494d31342e49454336313937302e44796e616d696373, 0x4173796e6368726f6e6f75734d616368696e65, 0x43494d31342e49454336313937302e44796e616d6963732e4173796e6368726f6e6f75734d616368696e65),
  (0x43494d31342e49454336313937302e44796e616d696373, 0x426c6f636b5573616765496e7075745265666572656e6365, 0x43494d31342e49454336313937302e44796e616d6963732e426c6f636b5573616765496e7075745265666572656e6365),
  (0x43494d31342e49454336313937302e44796e616d696373, 0x4d657461426c6f636b436f6e6e65637461626c65, 0x43494d31342e49454336313937302e44796e616d6963732e4d657461426c6f636b436f6e6e65637461626c65),
  (0x43494d31342e49454336313937302e44796e616d696373, 0x4d657461426c6f636b4f7574707574, 0x43494d31342e49454336313937302e44796e616d6963732e4d657461426c6f636b4f7574707574),
  (0x43494d31342e49454336313937302e44796e616d696373, 0x4d657461426c6f636b436f6e4f7574707574, 0x43494d31342e49454336313937302e44796e616d6963732e4d657461426c6f636b436f6e4f7574707574),
  (0x43494d31342e49454336313937302e44796e616d696373, 0x4d657461426c6f636b, 0x43494d31342e49454336313937302e44796e616d6963732e4d657461426c6f636b),
  (0x43494d31342e49454336313937302e44796e616d696373, 0x4d657461426c6f636b496e707574, 0x43494d31342e49454336313937302e44796e616d6963732e4d657461426c6f636b496e707574),
  (0x43494d31342e49454336313937302e44796e616d696373, 0x536c6f745265666572656e6365, 0x43494d31342e49454336313937302e44796e616d6963732e536c6f745265666572656e6365),
  (0x43494d31342e49454336313937302e44796e616d696373, 0x4d657461426c6f636b496e7075745265666572656e6365, 0x43494d31342e49454336313937302e44796e616d6963732e4d657461426c6f636b496e7075745265666572656e6365),
  (0x43494d31342e49454336313937302e44796e616d696373, 0x4d657461426c6f636b506172616d65746572, 0x43494d31342e49454336313937302e44796e616d6963732e4d657461426c6f636b506172616d65746572),
  (0x43494d31342e49454336313937302e44796e616d696373, 0x4d657461426c6f636b506172616d657465725265666572656e6365, 0x43494d31342e49454336313937302e44796e616d6963732e4d657461426c6f636b506172616d657465725265666572656e6365),
  (0x43494d31342e49454336313937302e44796e616d696373, 0x436f6d706f736974654d6f64656c, 0x43494d31342e49454336313937302e44796e616d6963732e436f6d706f736974654d6f64656c),
  (0x43494d31342e49454336313937302e44796e616d696373, 0x426c6f636b496e70757454797065, 0x43494d31342e49454336313937302e44796e616d6963732e426c6f636b496e70757454797065),
  (0x43494d31342e49454336313937302e44796e616d696373, 0x426c6f636b436f6e6e6563746976697479, 0x43494d31342e49454336313937302e44796e616d6963732e426c6f636b436f6e6e6563746976697479),
  (0x43494d31342e49454336313937302e44796e616d696373, 0x536c6f74496e707574, 0x43494d31342e49454336313937302e44796e616d6963732e536c6f74496e707574),
  (0x43494d31342e49454336313937302e44796e616d696373, 0x4d657461426c6f636b5369676e616c, 0x43494d31342e49454336313937302e44796e616d6963732e4d657461426c6f636b5369676e616c),
  (0x43494d31342e49454336313937302e44796e616d696373, 0x4d657461426c6f636b53746174655265666572656e6365, 0x43494d31342e49454336313937302e44796e616d6963732e4d657461426c6f636b53746174655265666572656e6365),
  (0x43494d31342e49454336313937302e44796e616d696373, 0x426c6f636b436f6e7374616e74, 0x43494d31342e49454336313937302e44796e616d6963732e426c6f636b436f6e7374616e74),
  (0x43494d31342e49454336313937302e44796e616d696373, 0x536f757263654d6f64656c73, 0x43494d31342e49454336313937302e44796e616d6963732e536f757263654d6f64656c73),
  (0x43494d31342e49454336313937302e44796e616d696373, 0x536c6f74436f6e6e656374696f6e, 0x43494d31342e49454336313937302e44796e616d6963732e536c6f74436f6e6e656374696f6e),
  (0x43494d31342e49454336313937302e44796e616d696373, 0x426c6f636b, 0x43494d31342e49454336313937302e44796e616d6963732e426c6f636b),
  (0x43494d31342e49454336313937302e44796e616d696373, 0x436f6e6e656374696f6e4672616d65, 0x43494d31342e49454336313937302e44796e616d6963732e436f6e6e656374696f6e4672616d65),
  (0x43494d31342e49454336313937302e44796e616d696373, 0x4d657461426c6f636b436f6e496e707574, 0x43494d31342e49454336313937302e44796e616d6963732e4d657461426c6f636b436f6e496e707574),
  (0x43494d31342e49454336313937302e44796e616d696373, 0x537461746963566172446576696365, 0x43494d31342e49454336313937302e44796e616d6963732e537461746963566172446576696365),
  (0x43494d31342e49454336313937302e44796e616d696373, 0x417474726962757465426c6f636b506172616d65746572, 0x43494d31342e49454336313937302e44796e616d6963732e417474726962757465426c6f636b506172616d65746572),
  (0x43494d31342e49454336313937302e44796e616d696373, 0x55736572426c6f636b506172616d65746572, 0x43494d31342e49454336313937302e44796e616d6963732e55736572426c6f636b506172616d65746572),
  (0x43494d31342e49454336313937302e44796e616d696373, 0x4d657461426c6f636b436f6e6e656374696f6e, 0x43494d31342e49454336313937302e44796e616d6963732e4d657461426c6f636b436f6e6e656374696f6e),
  (0x43494d31342e49454336313937302e44796e616d696373, 0x536c6f74, 0x43494d31342e49454336313937302e44796e616d6963732e536c6f74),
  (0x43494d31342e49454336313937302e44796e616d696373, 0x4d657461426c6f636b5265666572656e6365, 0x43494d31342e49454336313937302e44796e616d6963732e4d657461426c6f636b5265666572656e6365),
  (0x43494d31342e49454336313937302e44796e616d696373, 0x426c6f636b496e7075745265666572656e6365, 0x43494d31342e49454336313937302e44796e616d6963732e426c6f636b496e7075745265666572656e6365),
  (0x43494d31342e49454336313937302e44796e616d696373, 0x426c6f636b506172616d65746572, 0x43494d31342e49454336313937302e44796e616d6963732e426c6f636b506172616d65746572),
  (0x43494d31342e49454336313937302e44796e616d696373, 0x4d657461426c6f636b436f6e5369676e616c, 0x43494d31342e49454336313937302e44796e616d6963732e4d657461426c6f636b436f6e5369676e616c),
  (0x43494d31342e49454336313937302e44796e616d696373, 0x426c6f636b4f75747075745265666572656e6365, 0x43494d31342e49454336313937302e44796e616d6963732e426c6f636b4f75747075745265666572656e6365),
  (0x43494d31342e49454336313937302e44796e616d696373, 0x45786369746174696f6e53797374656d4c696d69746572, 0x43494d31342e49454336313937302e44796e616d6963732e45786369746174696f6e53797374656d4c696d69746572),
  (0x43494d31342e49454336313937302e44796e616d696373, 0x426c6f636b54797065, 0x43494d31342e49454336313937302e44796e616d6963732e426c6f636b54797065),
  (0x43494d31342e49454336313937302e44796e616d696373, 0x536c6f744f7574707574, 0x43494d31342e49454336313937302e44796e616d6963732e536c6f744f7574707574),
  (0x43494d31342e49454336313937302e44796e616d696373, 0x50726f74656374697665446576696365, 0x43494d31342e49454336313937302e44796e616d6963732e50726f74656374697665446576696365),
  (0x43494d31342e49454336313937302e44796e616d696373, 0x4d657461426c6f636b5374617465, 0x43494d31342e49454336313937302e44796e616d6963732e4d657461426c6f636b5374617465),
  (0x43494d31342e49454336313937302e44796e616d696373, 0x426c6f636b55736167654f75747075745265666572656e6365, 0x43494d31342e49454336313937302e44796e616d6963732e426c6f636b55736167654f75747075745265666572656e6365),
  (0x43494d31342e49454336313937302e44796e616d696373, 0x546965546f4d6561737572656d656e74, 0x43494d31342e49454336313937302e44796e616d6963732e546965546f4d6561737572656d656e74),
  (0x43494d31342e49454336313937302e44796e616d696373, 0x4d657461426c6f636b436f6e6e6563746976697479, 0x43494d31342e49454336313937302e44796e616d6963732e4d657461426c6f636b436f6e6e6563746976697479),
  (0x43494d31342e49454336313937302e44796e616d696373, 0x4d657461426c6f636b4f75747075745265666572656e6365, 0x43494d31342e49454336313937302e44796e616d6963732e4d657461426c6f636b4f75747075745265666572656e6365),
  (0x43494d31342e49454336313937302e44796e616d696373, 0x426c6f636b4f757470757454797065, 0x43494d31342e49454336313937302e44796e616d6963732e426c6f636b4f757470757454797065),
  (0x43494d31342e49454336313937302e44796e616d6963732e45786369746174696f6e53797374656d73, 0x45786369746174696f6e53797374656d, 0x43494d31342e49454336313937302e44796e616d6963732e45786369746174696f6e53797374656d732e45786369746174696f6e53797374656d),
  (0x43494d31342e49454336313937302e44796e616d6963732e45786369746174696f6e53797374656d73, 0x45786344433442, 0x43494d31342e49454336313937302e44796e616d6963732e45786369746174696f6e53797374656d732e45786344433442),
  (0x43494d31342e49454336313937302e44796e616d6963732e45786369746174696f6e53797374656d73, 0x45786341433141, 0x43494d31342e49454336313937302e44796e616d6963732e45786369746174696f6e53797374656d732e45786341433141),
  (0x43494d31342e49454336313937302e44796e616d6963732e45786369746174696f6e53797374656d73, 0x45786353455853, 0x43494d31342e49454336313937302e44796e616d6963732e45786369746174696f6e53797374656d732e45786353455853),
  (0x43494d31342e49454336313937302e44796e616d6963732e45786369746174696f6e53797374656d73, 0x45786341433641, 0x43494d31342e49454336313937302e44796e616d6963732e45786369746174696f6e53797374656d732e45786341433641),
  (0x43494d31342e49454336313937302e44796e616d6963732e45786369746174696f6e53797374656d73, 0x45786344433341, 0x43494d31342e49454336313937302e44796e616d6963732e45786369746174696f6e53797374656d732e45786344433341),
  (0x43494d31342e49454336313937302e44796e616d6963732e45786369746174696f6e53797374656d73, 0x457863424243, 0x43494d31342e49454336313937302e44796e616d6963732e45786369746174696f6e53797374656d732e457863424243),
  (0x43494d31342e49454336313937302e44796e616d6963732e45786369746174696f6e53797374656d73, 0x45786353543742, 0x43494d31342e49454336313937302e44796e616d6963732e45786369746174696f6e53797374656d732e45786353543742),
  (0x43494d31342e49454336313937302e44796e616d6963732e45786369746174696f6e53797374656d73, 0x45786353435258, 0x43494d31342e49454336313937302e44796e616d6963732e45786369746174696f6e53797374656d732e45786353435258),
  (0x43494d31342e49454336313937302e44796e616d6963732e45786369746174696f6e53797374656d73, 0x45786341433541, 0x43494d31342e49454336313937302e44796e616d6963732e45786369746174696f6e53797374656d732e45786341433541),
  (0x43494d31342e49454336313937302e44796e616d6963732e45786369746174696f6e53797374656d73, 0x45786352455853, 0x43494d31342e49454336313937302e44796e616d6963732e45786369746174696f6e53797374656d732e45786352455853),
  (0x43494d31342e49454336313937302e44796e616d6963732e45786369746174696f6e53797374656d73, 0x457863454c494e31, 0x43494d31342e49454336313937302e44796e616d6963732e45786369746174696f6e53797374656d732e457863454c494e31),
  (0x43494d31342e49454336313937302e44796e616d6963732e45786369746174696f6e53797374656d73, 0x45786353543341, 0x43494d31342e49454336313937302e44796e616d6963732e45786369746174696f6e53797374656d732e45786353543341),
  (0x43494d31342e49454336313937302e44796e616d6963732e45786369746174696f6e53797374656d73, 0x457863534b32, 0x43494d31342e49454336313937302e44796e616d6963732e45786369746174696f6e53797374656d732e457863534b32),
  (0x43494d31342e49454336313937302e44796e616d6963732e45786369746174696f6e53797374656d73, 0x457863504943, 0x43494d31342e49454336313937302e44796e616d6963732e45786369746174696f6e53797374656d732e457863504943),
  (0x43494d31342e49454336313937302e44796e616d6963732e45786369746174696f6e53797374656d73, 0x45786353543542, 0x43494d31342e49454336313937302e44796e616d6963732e45786369746174696f6e53797374656d732e45786353543542),
  (0x43494d31342e49454336313937302e44796e616d6963732e45786369746174696f6e53797374656d73, 0x457863435a, 0x43494d31342e49454336313937302e44796e616d6963732e45786369746174696f6e53797374656d732e457863435a),
  (0x43494d31342e49454336313937302e44796e616d6963732e45786369746174696f6e53797374656d73, 0x45786353543141, 0x43494d31342e49454336313937302e44796e616d6963732e45786369746174696f6e53797374656d732e45786353543141),
  (0x43494d31342e49454336313937302e44796e616d6963732e45786369746174696f6e53797374656d73, 0x45786344433141, 0x43494d31342e49454336313937302e44796e616d6963732e45786369746174696f6e53797374656d732e45786344433141),
  (0x43494d31342e49454336313937302e44796e616d6963732e45786369746174696f6e53797374656d73, 0x45786341433341, 0x43494d31342e49454336313937302e44796e616d6963732e45786369746174696f6e53797374656d732e45786341433341),
  (0x43494d31342e49454336313937302e44796e616d6963732e45786369746174696f6e53797374656d73, 0x45786341433441, 0x43494d31342e49454336313937302e44796e616d6963732e45786369746174696f6e53797374656d732e45786341433441),
  (0x43494d31342e49454336313937302e44796e616d6963732e45786369746174696f6e53797374656d73, 0x45786341433241, 0x43494d31342e49454336313937302e44796e616d6963732e45786369746174696f6e53797374656d732e45786341433241),
  (0x43494d31342e49454336313937302e44796e616d6963732e45786369746174696f6e53797374656d73, 0x45786357543245, 0x43494d31342e49454336313937302e44796e616d6963732e45786369746174696f6e53797374656d732e45786357543245),
  (0x43494d31342e49454336313937302e44796e616d6963732e45786369746174696f6e53797374656d73, 0x45786344433241, 0x43494d31342e49454336313937302e44796e616d6963732e45786369746174696f6e53797374656d732e45786344433241),
  (0x43494d31342e49454336313937302e44796e616d6963732e45786369746174696f6e53797374656d73, 0x45786341433842, 0x43494d31342e49454336313937302e44796e616d6963732e45786369746174696f6e53797374656d732e45786341433842),
  (0x43494d31342e49454336313937302e44796e616d6963732e45786369746174696f6e53797374656d73, 0x45786353543241, 0x43494d31342e49454336313937302e44796e616d6963732e45786369746174696f6e53797374656d732e45786353543241),
  (0x43494d31342e49454336313937302e44796e616d6963732e45786369746174696f6e53797374656d73, 0x4578634855, 0x43494d31342e49454336313937302e44796e616d6963732e45786369746174696f6e53797374656d732e4578634855),
  (0x43494d31342e49454336313937302e44796e616d6963732e45786369746174696f6e53797374656d73, 0x457863424153, 0x43494d31342e49454336313937302e44796e616d6963732e45786369746174696f6e53797374656d732e457863424153),
  (0x43494d31342e49454336313937302e44796e616d6963732e45786369746174696f6e53797374656d73, 0x457863534b, 0x43494d31342e49454336313937302e44796e616d6963732e45786369746174696f6e53797374656d732e457863534b),
  (0x43494d31342e49454336313937302e44796e616d6963732e45786369746174696f6e53797374656d73, 0x45786357543345, 0x43494d31342e49454336313937302e44796e616d6963732e45786369746174696f6e53797374656d732e45786357543345),
  (0x43494d31342e49454336313937302e44796e616d6963732e45786369746174696f6e53797374656d73, 0x45786353543642, 0x43494d31342e49454336313937302e44796e616d6963732e45786369746174696f6e53797374656d732e45786353543642),
  (0x43494d31342e49454336313937302e44796e616d6963732e45786369746174696f6e53797374656d73, 0x457863454c494e32, 0x43494d31342e49454336313937302e44796e616d6963732e45786369746174696f6e53797374656d732e457863454c494e32),
  (0x43494d31342e49454336313937302e44796e616d6963732e45786369746174696f6e53797374656d73, 0x45786353543442, 0x43494d31342e49454336313937302e44796e616d6963732e45786369746174696f6e53797374656d732e45786353543442),
  (0x43494d31342e49454336313937302e44796e616d6963732e45786369746174696f6e53797374656d73, 0x45786341433742, 0x43494d31342e49454336313937302e44796e616d6963732e45786369746174696f6e53797374656d732e45786341433742),
  (0x43494d31342e49454336313937302e44796e616d6963732e45786369746174696f6e53797374656d73, 0x45786357543445, 0x43494d31342e49454336313937302e44796e616d6963732e45786369746174696f6e53797374656d732e45786357543445),
  (0x43494d31342e49454336313937302e44796e616d6963732e47656e657261746f7273, 0x47656e4c6f6164, 0x43494d31342e49454336313937302e44796e616d6963732e47656e657261746f72732e47656e4c6f6164),
  (0x43494d31342e49454336313937302e44796e616d6963732e47656e657261746f7273, 0x47656e4571756976, 0x43494d31342e49454336313937302e44796e616d6963732e47656e657261746f72732e47656e4571756976),
  (0x43494d31342e49454336313937302e44796e616d6963732e47656e657261746f7273, 0x47656e4173796e63, 0x43494d31342e49454336313937302e44796e616d6963732e47656e657261746f72732e47656e4173796e63),
  (0x43494d31342e49454336313937302e44796e616d6963732e4c6f616473, 0x4167677265676174654c6f6164, 0x43494d31342e49454336313937302e44796e616d6963732e4c6f6164732e4167677265676174654c6f6164),
  (0x43494d31342e49454336313937302e44796e616d6963732e4c6f616473, 0x4c6f6164537461746963, 0x43494d31342e49454336313937302e44796e616d6963732e4c6f6164732e4c6f6164537461746963),
  (0x43494d31342e49454336313937302e44796e616d6963732e4c6f616473, 0x4c6f616453746174696353797374656d, 0x43494d31342e49454336313937302e44796e616d6963732e4c6f6164732e4c6f616453746174696353797374656d),
  (0x43494d31342e49454336313937302e44796e616d6963732e4c6f616473, 0x4c6f61645374617469634f776e6572, 0x43494d31342e49454336313937302e44796e616d6963732e4c6f6164732e4c6f61645374617469634f776e6572),
  (0x43494d31342e49454336313937302e44796e616d6963732e4c6f616473, 0x4c6f61645374617469635a6f6e65, 0x43494d31342e49454336313937302e44796e616d6963732e4c6f6164732e4c6f61645374617469635a6f6e65),
  (0x43494d31342e49454336313937302e44796e616d6963732e4c6f616473, 0x4c6f6164537461746963427573, 0x43494d31342e49454336313937302e44796e616d6963732e4c6f6164732e4c6f6164537461746963427573),
  (0x43494d31342e49454336313937302e44796e616d6963732e4c6f616473, 0x4c6f616453746174696341726561, 0x43494d31342e49454336313937302e44796e616d6963732e4c6f6164732e4c6f616453746174696341726561),
  (0x43494d31342e49454336313937302e44796e616d6963732e4c6f616473, 0x4c6f61644d6f746f72, 0x43494d31342e49454336313937302e44796e616d6963732e4c6f6164732e4c6f61644d6f746f72),
  (0x43494d31342e49454336313937302e44796e616d6963732e4d6f746f7273, 0x4d656368616e6963616c4c6f6164, 0x43494d31342e49454336313937302e44796e616d6963732e4d6f746f72732e4d656368616e6963616c4c6f6164),
  (0x43494d31342e49454336313937302e44796e616d6963732e4d6f746f7273, 0x4d6f746f7253796e63, 0x43494d31342e49454336313937302e44796e616d6963732e4d6f746f72732e4d6f746f7253796e63),
  (0x43494d31342e49454336313937302e44796e616d6963732e4d6f746f7273, 0x4d6563684c6f616431, 0x43494d31342e49454336313937302e44796e616d6963732e4d6f746f72732e4d6563684c6f616431),
  (0x43494d31342e49454336313937302e44796e616d6963732e4d6f746f7273, 0x4d6f746f724173796e63, 0x43494d31342e49454336313937302e44796e616d6963732e4d6f746f72732e4d6f746f724173796e63),
  (0x43494d31342e49454336313937302e44796e616d6963732e506f77657253797374656d53746162696c697a657273, 0x506f77657253797374656d53746162696c697a6572, 0x43494d31342e49454336313937302e44796e616d6963732e506f77657253797374656d53746162696c697a6572732e506f77657253797374656d53746162696c697a6572),
  (0x43494d31342e49454336313937302e44796e616d6963732e506f77657253797374656d53746162696c697a657273, 0x507373494545453342, 0x43494d31342e49454336313937302e44796e616d6963732e506f77657253797374656d53746162696c697a6572732e507373494545453342),
  (0x43494d31342e49454336313937302e44796e616d6963732e506f77657253797374656d53746162696c697a657273, 0x507373534b, 0x43494d31342e49454336313937302e44796e616d6963732e506f77657253797374656d53746162696c697a6572732e507373534b),
  (0x43494d31342e49454336313937302e44796e616d6963732e506f77657253797374656d53746162696c697a657273, 0x507373494545453442, 0x43494d31342e49454336313937302e44796e616d6963732e506f77657253797374656d53746162696c697a6572732e507373494545453442),
  (0x43494d31342e49454336313937302e44796e616d6963732e506f77657253797374656d53746162696c697a657273, 0x507373494545453141, 0x43494d31342e49454336313937302e44796e616d6963732e506f77657253797374656d53746162696c697a6572732e507373494545453141),
  (0x43494d31342e49454336313937302e44796e616d6963732e506f77657253797374656d53746162696c697a657273, 0x507373505449535431, 0x43494d31342e49454336313937302e44796e616d6963732e506f77657253797374656d53746162696c697a6572732e507373505449535431),
  (0x43494d31342e49454336313937302e44796e616d6963732e506f77657253797374656d53746162696c697a657273, 0x507373494545453242, 0x43494d31342e49454336313937302e44796e616d6963732e506f77657253797374656d53746162696c697a6572732e507373494545453242),
  (0x43494d31342e49454336313937302e44796e616d6963732e506f77657253797374656d53746162696c697a657273, 0x5073735342, 0x43494d31342e49454336313937302e44796e616d6963732e506f77657253797374656d53746162696c697a6572732e5073735342),
  (0x43494d31342e49454336313937302e44796e616d6963732e506f77657253797374656d53746162696c697a657273, 0x507373534234, 0x43494d31342e49454336313937302e44796e616d6963732e506f77657253797374656d53746162696c697a6572732e507373534234),
  (0x43494d31342e49454336313937302e44796e616d6963732e506f77657253797374656d53746162696c697a657273, 0x5073735348, 0x43494d31342e49454336313937302e44796e616d6963732e506f77657253797374656d53746162696c697a6572732e5073735348),
  (0x43494d31342e49454336313937302e44796e616d6963732e506f77657253797374656d53746162696c697a657273, 0x507373505449535433, 0x43494d31342e49454336313937302e44796e616d6963732e506f77657253797374656d53746162696c697a6572732e507373505449535433),
  (0x43494d31342e49454336313937302e44796e616d6963732e506f77657253797374656d53746162696c697a657273, 0x50737357534343, 0x43494d31342e49454336313937302e44796e616d6963732e506f77657253797374656d53746162696c697a6572732e50737357534343),
  (0x43494d31342e49454336313937302e44796e616d6963732e54757262696e65476f7665726e6f7273, 0x54757262696e65476f7665726e6f72, 0x43494d31342e49454336313937302e44796e616d6963732e54757262696e65476f7665726e6f72732e54757262696e65476f7665726e6f72),
  (0x43494d31342e49454336313937302e44796e616d6963732e54757262696e65476f7665726e6f7273, 0x476f76537465616d465632, 0x43494d31342e49454336313937302e44796e616d6963732e54757262696e65476f7665726e6f72732e476f76537465616d465632),
  (0x43494d31342e49454336313937302e44796e616d6963732e54757262696e65476f7665726e6f7273, 0x476f7657543350, 0x43494d31342e49454336313937302e44796e616d6963732e54757262696e65476f7665726e6f72732e476f7657543350),
  (0x43494d31342e49454336313937302e44796e616d6963732e54757262696e65476f7665726e6f7273, 0x476f76537465616d53474f, 0x43494d31342e49454336313937302e44796e616d6963732e54757262696e65476f7665726e6f72732e476f76537465616d53474f),
  (0x43494d31342e49454336313937302e44796e616d6963732e54757262696e65476f7665726e6f7273, 0x476f764741534d, 0x43494d31342e49454336313937302e44796e616d6963732e54757262696e65476f7665726e6f72732e476f764741534d),
  (0x43494d31342e49454336313937302e44796e616d6963732e54757262696e65476f7665726e6f7273, 0x476f76487964726f52, 0x43494d31342e49454336313937302e44796e616d6963732e54757262696e65476f7665726e6f72732e476f76487964726f52),
  (0x43494d31342e49454336313937302e44796e616d6963732e54757262696e65476f7665726e6f7273, 0x476f7657543454, 0x43494d31342e49454336313937302e44796e616d6963732e54757262696e65476f7665726e6f72732e476f7657543454),
  (0x43494d31342e49454336313937302e44796e616d6963732e54757262696e65476f7665726e6f7273, 0x476f764741535432, 0x43494d31342e49454336313937302e44796e616d6963732e54757262696e65476f7665726e6f72732e476f764741535432),
  (0x43494d31342e49454336313937302e44796e616d6963732e54757262696e65476f7665726e6f7273, 0x476f76537465616d4343, 0x43494d31342e49454336313937302e44796e616d6963732e54757262696e65476f7665726e6f72732e476f76537465616d4343),
  (0x43494d31342e49454336313937302e44796e616d6963732e54757262696e65476f7665726e6f7273, 0x476f76524156, 0x43494d31342e49454336313937302e44796e616d6963732e54757262696e65476f7665726e6f72732e476f76524156),
  (0x43494d31342e49454336313937302e44796e616d6963732e54757262696e65476f7665726e6f7273, 0x476f76537465616d31, 0x43494d31342e49454336313937302e44796e616d6963732e54757262696e65476f7665726e6f72732e476f76537465616d31),
  (0x43494d31342e49454336313937302e44796e616d6963732e54757262696e65476f7665726e6f7273, 0x544c43464231, 0x43494d31342e49454336313937302e44796e616d6963732e54757262696e65476f7665726e6f72732e544c43464231),
  (0x43494d31342e49454336313937302e44796e616d6963732e54757262696e65476f7665726e6f7273, 0x476f76487964726f34, 0x43494d31342e49454336313937302e44796e616d6963732e54757262696e65476f7665726e6f72732e476f76487964726f34),
  (0x43494d31342e49454336313937302e44796e616d6963732e54757262696e65476f7665726e6f7273, 0x476f76435432, 0x43494d31342e49454336313937302e44796e616d6963732e54757262696e65476f7665726e6f72732e476f76435432),
  (0x43494d31342e49454336313937302e44796e616d6963732e54757262696e65476f7665726e6f7273, 0x476f76487964726f31, 0x43494d31342e49454336313937302e44796e616d6963732e54757262696e65476f7665726e6f72732e476f76487964726f31),
  (0x43494d31342e49454336313937302e44796e616d6963732e54757262696e65476f7665726e6f7273, 0x476f7647415354, 0x43494d31342e49454336313937302e44796e616d6963732e54757262696e65476f7665726e6f72732e476f7647415354),
  (0x43494d31342e49454336313937302e44796e616d6963732e54757262696e65476f7665726e6f7273, 0x476f7657543354, 0x43494d31342e49454336313937302e44796e616d6963732e54757262696e65476f7665726e6f72732e476f7657543354),
  (0x43494d31342e49454336313937302e44796e616d6963732e54757262696e65476f7665726e6f7273, 0x476f76487964726f57504944, 0x43494d31342e49454336313937302e44796e616d6963732e54757262696e65476f7665726e6f72732e476f76487964726f57504944),
  (0x43494d31342e49454336313937302e44796e616d6963732e54757262696e65476f7665726e6f7273, 0x476f7657543154, 0x43494d31342e49454336313937302e44796e616d6963732e54757262696e65476f7665726e6f72732e476f7657543154),
  (0x43494d31342e49454336313937302e44796e616d6963732e54757262696e65476f7665726e6f7273, 0x476f7657543254, 0x43494d31342e49454336313937302e44796e616d6963732e54757262696e65476f7665726e6f72732e476f7657543254),
  (0x43494d31342e49454336313937302e44796e616d6963732e54757262696e65476f7665726e6f7273, 0x436c61737331, 0x43494d31342e49454336313937302e44796e616d6963732e54757262696e65476f7665726e6f72732e436c61737331),
  (0x43494d31342e49454336313937302e44796e616d6963732e54757262696e65476f7665726e6f7273, 0x476f7657543450, 0x43494d31342e49454336313937302e44796e616d6963732e54757262696e65476f7665726e6f72732e476f7657543450),
  (0x43494d31342e49454336313937302e44796e616d6963732e54757262696e65476f7665726e6f7273, 0x476f76487964726f504944, 0x43494d31342e49454336313937302e44796e616d6963732e54757262696e65476f7665726e6f72732e476f76487964726f504944),
  (0x43494d31342e49454336313937302e44796e616d6963732e54757262696e65476f7665726e6f7273, 0x476f76487964726f574548, 0x43494d31342e49454336313937302e44796e616d6963732e54757262696e65476f7665726e6f72732e476f76487964726f574548),
  (0x43494d31342e49454336313937302e44796e616d6963732e54757262696e65476f7665726e6f7273, 0x476f76487964726f4444, 0x43494d31342e49454336313937302e44796e616d6963732e54757262696e65476f7665726e6f72732e476f76487964726f4444),
  (0x43494d31342e49454336313937302e44796e616d6963732e54757262696e65476f7665726e6f7273, 0x476f7657543150, 0x43494d31342e49454336313937302e44796e616d6963732e54757262696e65476f7665726e6f72732e476f7657543150),
  (0x43494d31342e49454336313937302e44796e616d6963732e54757262696e65476f7665726e6f7273, 0x476f7657543250, 0x43494d31342e49454336313937302e44796e616d6963732e54757262696e65476f7665726e6f72732e476f7657543250),
  (0x43494d31342e49454336313937302e44796e616d6963732e54757262696e65476f7665726e6f7273, 0x476f76537465616d4555, 0x43494d31342e49454336313937302e44796e616d6963732e54757262696e65476f7665726e6f72732e476f76537465616d4555),
  (0x43494d31342e49454336313937302e44796e616d6963732e54757262696e65476f7665726e6f7273, 0x476f76487964726f33, 0x43494d31342e49454336313937302e44796e616d6963732e54757262696e65476f7665726e6f72732e476f76487964726f33),
  (0x43494d31342e49454336313937302e44796e616d6963732e54757262696e65476f7665726e6f7273, 0x476f76537465616d30, 0x43494d31342e49454336313937302e44796e616d6963732e54757262696e65476f7665726e6f72732e476f76537465616d30),
  (0x43494d31342e49454336313937302e44796e616d6963732e54757262696e65476f7665726e6f7273, 0x476f76487964726f50494432, 0x43494d31342e49454336313937302e44796e616d6963732e54757262696e65476f7665726e6f72732e476f76487964726f50494432),
  (0x43494d31342e49454336313937302e44796e616d6963732e54757262696e65476f7665726e6f7273, 0x476f76487964726f32, 0x43494d31342e49454336313937302e44796e616d6963732e54757262696e65476f7665726e6f72732e476f76487964726f32),
  (0x43494d31342e49454336313937302e44796e616d6963732e54757262696e65476f7665726e6f7273, 0x476f76435431, 0x43494d31342e49454336313937302e44796e616d6963732e54757262696e65476f7665726e6f72732e476f76435431),
  (0x43494d31342e49454336313937302e44796e616d6963732e54757262696e65476f7665726e6f7273, 0x476f76487964726f30, 0x43494d31342e49454336313937302e44796e616d6963732e54757262696e65476f7665726e6f72732e476f76487964726f30),
  (0x43494d31342e49454336313937302e44796e616d6963732e54757262696e65476f7665726e6f7273, 0x476f76474153545744, 0x43494d31342e49454336313937302e44796e616d6963732e54757262696e65476f7665726e6f72732e476f76474153545744),
  (0x43494d31342e49454336313937302e44796e616d6963732e54757262696e65476f7665726e6f7273, 0x476f76537465616d465633, 0x43494d31342e49454336313937302e44796e616d6963732e54757262696e65476f7665726e6f72732e476f76537465616d465633),
  (0x43494d31342e49454336313937302e44796e616d6963732e54757262696e65476f7665726e6f7273, 0x476f7644554d, 0x43494d31342e49454336313937302e44796e616d6963732e54757262696e65476f7665726e6f72732e476f7644554d),
  (0x43494d31342e49454336313937302e44796e616d6963732e566f6c74616765436f6d70656e7361746f72, 0x566f6c74616765436f6d70656e7361746f72, 0x43494d31342e49454336313937302e44796e616d6963732e566f6c74616765436f6d70656e7361746f722e566f6c74616765436f6d70656e7361746f72),
  (0x43494d31342e49454336313937302e44796e616d6963732e566f6c74616765436f6d70656e7361746f72, 0x56636f6d7043726f7373, 0x43494d31342e49454336313937302e44796e616d6963732e566f6c74616765436f6d70656e7361746f722e56636f6d7043726f7373),
  (0x43494d31342e49454336313937302e44796e616d6963732e566f6c74616765436f6d70656e7361746f72, 0x56636f6d7049454545, 0x43494d31342e49454336313937302e44796e616d6963732e566f6c74616765436f6d70656e7361746f722e56636f6d7049454545),
  (0x43494d31342e49454336313937302e4571756976616c656e7473, 0x4571756976616c656e7445717569706d656e74, 0x43494d31342e49454336313937302e4571756976616c656e74732e4571756976616c656e7445717569706d656e74),
  (0x43494d31342e49454336313937302e4571756976616c656e7473, 0x4571756976616c656e745368756e74, 0x43494d31342e49454336313937302e4571756976616c656e74732e4571756976616c656e745368756e74),
  (0x43494d31342e49454336313937302e4571756976616c656e7473, 0x4571756976616c656e744272616e6368, 0x43494d31342e49454336313937302e4571756976616c656e74732e4571756976616c656e744272616e6368),
  (0x43494d31342e49454336313937302e4571756976616c656e7473, 0x4571756976616c656e74496e6a656374696f6e, 0x43494d31342e49454336313937302e4571756976616c656e74732e4571756976616c656e74496e6a656374696f6e),
  (0x43494d31342e49454336313937302e4571756976616c656e7473, 0x4571756976616c656e744e6574776f726b, 0x43494d31342e49454336313937302e4571756976616c656e74732e4571756976616c656e744e6574776f726b),
  (0x43494d31342e49454336313937302e47656e65726174696f6e2e47656e65726174696f6e44796e616d696373, 0x537465616d537570706c79, 0x43494d31342e49454336313937302e47656e65726174696f6e2e47656e65726174696f6e44796e616d6963732e537465616d537570706c79),
  (0x43494d31342e49454336313937302e47656e65726174696f6e2e47656e65726174696f6e44796e616d696373, 0x466f7373696c537465616d537570706c79, 0x43494d31342e49454336313937302e47656e65726174696f6e2e47656e65726174696f6e44796e616d6963732e466f7373696c537465616d537570706c79),
  (0x43494d31342e49454336313937302e47656e65726174696f6e2e47656e65726174696f6e44796e616d696373, 0x486561745265636f76657279426f696c6572, 0x43494d31342e49454336313937302e47656e65726174696f6e2e47656e65726174696f6e44796e616d6963732e486561745265636f76657279426f696c6572),
  (0x43494d31342e49454336313937302e47656e65726174696f6e2e47656e65726174696f6e44796e616d696373, 0x505752537465616d537570706c79, 0x43494d31342e49454336313937302e47656e65726174696f6e2e47656e65726174696f6e44796e616d6963732e505752537465616d537570706c79),
  (0x43494d31342e49454336313937302e47656e65726174696f6e2e47656e65726174696f6e44796e616d696373, 0x5072696d654d6f766572, 0x43494d31342e49454336313937302e47656e65726174696f6e2e47656e65726174696f6e44796e616d6963732e5072696d654d6f766572),
  (0x43494d31342e49454336313937302e47656e65726174696f6e2e47656e65726174696f6e44796e616d696373, 0x5375706572637269746963616c, 0x43494d31342e49454336313937302e47656e65726174696f6e2e47656e65726174696f6e44796e616d6963732e5375706572637269746963616c),
  (0x43494d31342e49454336313937302e47656e65726174696f6e2e47656e65726174696f6e44796e616d696373, 0x436f6d62757374696f6e54757262696e65, 0x43494d31342e49454336313937302e47656e65726174696f6e2e47656e65726174696f6e44796e616d6963732e436f6d62757374696f6e54757262696e65),
  (0x43494d31342e49454336313937302e47656e65726174696f6e2e47656e65726174696f6e44796e616d696373, 0x487964726f54757262696e65, 0x43494d31342e49454336313937302e47656e65726174696f6e2e47656e65726174696f6e44796e616d6963732e487964726f54757262696e65),
  (0x43494d31342e49454336313937302e47656e65726174696f6e2e47656e65726174696f6e44796e616d696373, 0x537562637269746963616c, 0x43494d31342e49454336313937302e47656e65726174696f6e2e47656e65726174696f6e44796e616d6963732e537562637269746963616c),
  (0x43494d31342e49454336313937302e47656e65726174696f6e2e47656e65726174696f6e44796e616d696373, 0x435454656d70416374697665506f7765724375727665, 0x43494d31342e49454336313937302e47656e65726174696f6e2e47656e65726174696f6e44796e616d6963732e435454656d70416374697665506f7765724375727665),
  (0x43494d31342e49454336313937302e47656e65726174696f6e2e47656e65726174696f6e44796e616d696373, 0x537465616d54757262696e65, 0x43494d31342e49454336313937302e47656e65726174696f6e2e47656e65726174696f6e44796e616d6963732e537465616d54757262696e65),
  (0x43494d31342e49454336313937302e47656e65726174696f6e2e47656e65726174696f6e44796e616d696373, 0x4472756d426f696c6572, 0x43494d31342e49454336313937302e47656e65726174696f6e2e47656e65726174696f6e44796e616d6963732e4472756d426f696c6572),
  (0x43494d31342e49454336313937302e47656e65726174696f6e2e47656e65726174696f6e44796e616d696373, 0x425752537465616d537570706c79, 0x43494d31342e49454336313937302e47656e65726174696f6e2e47656e65726174696f6e44796e616d6963732e425752537465616d537570706c79),
  (0x43494d31342e49454336313937302e47656e65726174696f6e2e50726f64756374696f6e, 0x4c6576656c5673566f6c756d654375727665, 0x43494d31342e49454336313937302e47656e65726174696f6e2e50726f64756374696f6e2e4c6576656c5673566f6c756d654375727665),
  (0x43494d31342e49454336313937302e47656e65726174696f6e2e50726f64756374696f6e, 0x466f7373696c4675656c, 0x43494d31342e49454336313937302e47656e65726174696f6e2e50726f64756374696f6e2e466f7373696c4675656c),
  (0x43494d31342e49454336313937302e47656e65726174696f6e2e50726f64756374696f6e, 0x537465616d53656e646f75745363686564756c65, 0x43494d31342e49454336313937302e47656e65726174696f6e2e50726f64756374696f6e2e537465616d53656e646f75745363686564756c65),
  (0x43494d31342e49454336313937302e47656e65726174696f6e2e50726f64756374696f6e, 0x456d697373696f6e4375727665, 0x43494d31342e49454336313937302e47656e65726174696f6e2e50726f64756374696f6e2e456d697373696f6e4375727665),
  (0x43494d31342e49454336313937302e47656e65726174696f6e2e50726f64756374696f6e, 0x436f6d62696e65644379636c65506c616e74, 0x43494d31342e49454336313937302e47656e65726174696f6e2e50726f64756374696f6e2e436f6d62696e65644379636c65506c616e74),
  (0x43494d31342e49454336313937302e47656e65726174696f6e2e50726f64756374696f6e, 0x537461727449676e4675656c4375727665, 0x43494d31342e49454336313937302e47656e65726174696f6e2e50726f64756374696f6e2e537461727449676e4675656c4375727665),
  (0x43494d31342e49454336313937302e47656e65726174696f6e2e50726f64756374696f6e, 0x487964726f47656e65726174696e67456666696369656e63794375727665, 0x43494d31342e49454336313937302e47656e65726174696f6e2e50726f64756374696f6e2e487964726f47656e65726174696e67456666696369656e63794375727665),
  (0x43494d31342e49454336313937302e47656e65726174696f6e2e50726f64756374696f6e, 0x537461727452616d704375727665, 0x43494d31342e49454336313937302e47656e65726174696f6e2e50726f64756374696f6e2e537461727452616d704375727665),
  (0x43494d31342e49454336313937302e47656e65726174696f6e2e50726f64756374696f6e, 0x47656e65726174696e67556e6974, 0x43494d31342e49454336313937302e47656e65726174696f6e2e50726f64756374696f6e2e47656e65726174696e67556e6974),
  (0x43494d31342e49454336313937302e47656e65726174696f6e2e50726f64756374696f6e, 0x4e75636c65617247656e65726174696e67556e6974, 0x43494d31342e49454336313937302e47656e65726174696f6e2e50726f64756374696f6e2e4e75636c65617247656e65726174696e67556e6974),
  (0x43494d31342e49454336313937302e47656e65726174696f6e2e50726f64756374696f6e, 0x57696e6447656e65726174696e67556e6974, 0x43494d31342e49454336313937302e47656e65726174696f6e2e50726f64756374696f6e2e57696e6447656e65726174696e67556e6974),
  (0x43494d31342e49454336313937302e47656e65726174696f6e2e50726f64756374696f6e, 0x53746172744d61696e4675656c4375727665, 0x43494d31342e49454336313937302e47656e65726174696f6e2e50726f64756374696f6e2e53746172744d61696e4675656c4375727665),
  (0x43494d31342e49454336313937302e47656e65726174696f6e2e50726f64756374696f6e, 0x537461727475704d6f64656c, 0x43494d31342e49454336313937302e47656e65726174696f6e2e50726f64756374696f6e2e537461727475704d6f64656c),
  (0x43494d31342e49454336313937302e47656e65726174696f6e2e50726f64756374696f6e, 0x416972436f6d70726573736f72, 0x43494d31342e49454336313937302e47656e65726174696f6e2e50726f64756374696f6e2e416972436f6d70726573736f72),
  (0x43494d31342e49454336313937302e47656e65726174696f6e2e50726f64756374696f6e, 0x48656174496e7075744375727665, 0x43494d31342e49454336313937302e47656e65726174696f6e2e50726f64756374696f6e2e48656174496e7075744375727665),
  (0x43494d31342e49454336313937302e47656e65726174696f6e2e50726f64756374696f6e, 0x436f67656e65726174696f6e506c616e74, 0x43494d31342e49454336313937302e47656e65726174696f6e2e50726f64756374696f6e2e436f67656e65726174696f6e506c616e74),
  (0x43494d31342e49454336313937302e47656e65726174696f6e2e50726f64756374696f6e, 0x53687574646f776e4375727665, 0x43494d31342e49454336313937302e47656e65726174696f6e2e50726f64756374696f6e2e53687574646f776e4375727665),
  (0x43494d31342e49454336313937302e47656e65726174696f6e2e50726f64756374696f6e, 0x496e666c6f77466f726563617374, 0x43494d31342e49454336313937302e47656e65726174696f6e2e50726f64756374696f6e2e496e666c6f77466f726563617374),
  (0x43494d31342e49454336313937302e47656e65726174696f6e2e50726f64756374696f6e, 0x487964726f47656e65726174696e67556e6974, 0x43494d31342e49454336313937302e47656e65726174696f6e2e50726f64756374696f6e2e487964726f47656e65726174696e67556e6974),
  (0x43494d31342e49454336313937302e47656e65726174696f6e2e50726f64756374696f6e, 0x5461726765744c6576656c5363686564756c65, 0x43494d31342e49454336313937302e47656e65726174696f6e2e50726f64756374696f6e2e5461726765744c6576656c5363686564756c65),
  (0x43494d31342e49454336313937302e47656e65726174696f6e2e50726f64756374696f6e, 0x456d697373696f6e4163636f756e74, 0x43494d31342e49454336313937302e47656e65726174696f6e2e50726f64756374696f6e2e456d697373696f6e4163636f756e74),
  (0x43494d31342e49454336313937302e47656e65726174696f6e2e50726f64756374696f6e, 0x47726f7373546f4e6574416374697665506f7765724375727665, 0x43494d31342e49454336313937302e47656e65726174696f6e2e50726f64756374696f6e2e47726f7373546f4e6574416374697665506f7765724375727665),
  (0x43494d31342e49454336313937302e47656e65726174696f6e2e50726f64756374696f6e, 0x487964726f50756d704f705363686564756c65, 0x43494d31342e49454336313937302e47656e65726174696f6e2e50726f64756374696f6e2e487964726f50756d704f705363686564756c65),
  (0x43494d31342e49454336313937302e47656e65726174696f6e2e50726f64756374696f6e, 0x5265736572766f6972, 0x43494d31342e49454336313937302e47656e65726174696f6e2e50726f64756374696f6e2e5265736572766f6972),
  (0x43494d31342e49454336313937302e47656e65726174696f6e2e50726f64756374696f6e, 0x43414553506c616e74, 0x43494d31342e49454336313937302e47656e65726174696f6e2e50726f64756374696f6e2e43414553506c616e74),
  (0x43494d31342e49454336313937302e47656e65726174696f6e2e50726f64756374696f6e, 0x47656e556e69744f70436f73744375727665, 0x43494d31342e49454336313937302e47656e65726174696f6e2e50726f64756374696f6e2e47656e556e69744f70436f73744375727665),
  (0x43494d31342e49454336313937302e47656e65726174696f6e2e50726f64756374696f6e, 0x50656e73746f636b4c6f73734375727665, 0x43494d31342e49454336313937302e47656e65726174696f6e2e50726f64756374696f6e2e50656e73746f636b4c6f73734375727665),
  (0x43494d31342e49454336313937302e47656e65726174696f6e2e50726f64756374696f6e, 0x487964726f50756d70, 0x43494d31342e49454336313937302e47656e65726174696f6e2e50726f64756374696f6e2e487964726f50756d70),
  (0x43494d31342e49454336313937302e47656e65726174696f6e2e50726f64756374696f6e, 0x47656e556e69744f705363686564756c65, 0x43494d31342e49454336313937302e47656e65726174696f6e2e50726f64756374696f6e2e47656e556e69744f705363686564756c65),
  (0x43494d31342e49454336313937302e47656e65726174696f6e2e50726f64756374696f6e, 0x4675656c416c6c6f636174696f6e5363686564756c65, 0x43494d31342e49454336313937302e47656e65726174696f6e2e50726f64756374696f6e2e4675656c416c6c6f636174696f6e5363686564756c65),
  (0x43494d31342e49454336313937302e47656e65726174696f6e2e50726f64756374696f6e, 0x48656174526174654375727665, 0x43494d31342e49454336313937302e47656e65726174696f6e2e50726f64756374696f6e2e48656174526174654375727665),
  (0x43494d31342e49454336313937302e47656e65726174696f6e2e50726f64756374696f6e, 0x496e6372656d656e74616c48656174526174654375727665, 0x43494d31342e49454336313937302e47656e65726174696f6e2e50726f64756374696f6e2e496e6372656d656e74616c48656174526174654375727665),
  (0x43494d31342e49454336313937302e47656e65726174696f6e2e50726f64756374696f6e, 0x546865726d616c47656e65726174696e67556e6974, 0x43494d31342e49454336313937302e47656e65726174696f6e2e50726f64756374696f6e2e546865726d616c47656e65726174696e67556e6974),
  (0x43494d31342e49454336313937302e47656e65726174696f6e2e50726f64756374696f6e, 0x5461696c6261794c6f73734375727665, 0x43494d31342e49454336313937302e47656e65726174696f6e2e50726f64756374696f6e2e5461696c6261794c6f73734375727665),
  (0x43494d31342e49454336313937302e47656e65726174696f6e2e50726f64756374696f6e, 0x487964726f506f776572506c616e74, 0x43494d31342e49454336313937302e47656e65726174696f6e2e50726f64756374696f6e2e487964726f506f776572506c616e74),
  (0x43494d31342e49454336313937302e496e666f726d61746976652e496e66436f7265, 0x4d6f64656c696e67417574686f72697479, 0x43494d31342e49454336313937302e496e666f726d61746976652e496e66436f72652e4d6f64656c696e67417574686f72697479),
  (0x43494d31342e49454336313937302e496e666f726d61746976652e496e66436f7265, 0x4d6f64656c696e67417574686f72697479536574, 0x43494d31342e49454336313937302e496e666f726d61746976652e496e66436f72652e4d6f64656c696e67417574686f72697479536574),
  (0x43494d31342e49454336313937302e4c6f61644d6f64656c, 0x506f7765724375745a6f6e65, 0x43494d31342e49454336313937302e4c6f61644d6f64656c2e506f7765724375745a6f6e65),
  (0x43494d31342e49454336313937302e4c6f61644d6f64656c, 0x4c6f6164526573706f6e73654368617261637465726973746963, 0x43494d31342e49454336313937302e4c6f61644d6f64656c2e4c6f6164526573706f6e73654368617261637465726973746963),
  (0x43494d31342e49454336313937302e4c6f61644d6f64656c, 0x456e6572677941726561, 0x43494d31342e49454336313937302e4c6f61644d6f64656c2e456e6572677941726561),
  (0x43494d31342e49454336313937302e4c6f61644d6f64656c, 0x4c6f616441726561, 0x43494d31342e49454336313937302e4c6f61644d6f64656c2e4c6f616441726561),
  (0x43494d31342e49454336313937302e4c6f61644d6f64656c, 0x53746174696f6e537570706c79, 0x43494d31342e49454336313937302e4c6f61644d6f64656c2e53746174696f6e537570706c79),
  (0x43494d31342e49454336313937302e4c6f61644d6f64656c, 0x5375624c6f616441726561, 0x43494d31342e49454336313937302e4c6f61644d6f64656c2e5375624c6f616441726561),
  (0x43494d31342e49454336313937302e4c6f61644d6f64656c, 0x4c6f616447726f7570, 0x43494d31342e49454336313937302e4c6f61644d6f64656c2e4c6f616447726f7570),
  (0x43494d31342e49454336313937302e4c6f61644d6f64656c, 0x4e6f6e436f6e666f726d4c6f616447726f7570, 0x43494d31342e49454336313937302e4c6f61644d6f64656c2e4e6f6e436f6e666f726d4c6f616447726f7570),
  (0x43494d31342e49454336313937302e4c6f61644d6f64656c, 0x536561736f6e446179547970655363686564756c65, 0x43494d31342e49454336313937302e4c6f61644d6f64656c2e536561736f6e446179547970655363686564756c65),
  (0x43494d31342e49454336313937302e4c6f61644d6f64656c, 0x536561736f6e, 0x43494d31342e49454336313937302e4c6f61644d6f64656c2e536561736f6e),
  (0x43494d31342e49454336313937302e4c6f61644d6f64656c, 0x436f6e666f726d4c6f61645363686564756c65, 0x43494d31342e49454336313937302e4c6f61644d6f64656c2e436f6e666f726d4c6f61645363686564756c65),
  (0x43494d31342e49454336313937302e4c6f61644d6f64656c, 0x4e6f6e436f6e666f726d4c6f6164, 0x43494d31342e49454336313937302e4c6f61644d6f64656c2e4e6f6e436f6e666f726d4c6f6164),
  (0x43494d31342e49454336313937302e4c6f61644d6f64656c, 0x436f6e666f726d4c6f6164, 0x43494d31342e49454336313937302e4c6f61644d6f64656c2e436f6e666f726d4c6f6164),
  (0x43494d31342e49454336313937302e4c6f61644d6f64656c, 0x4e6f6e436f6e666f726d4c6f61645363686564756c65, 0x43494d31342e49454336313937302e4c6f61644d6f64656c2e4e6f6e436f6e666f726d4c6f61645363686564756c65),
  (0x43494d31342e49454336313937302e4c6f61644d6f64656c, 0x44617954797065, 0x43494d31342e49454336313937302e4c6f61644d6f64656c2e44617954797065),
  (0x43494d31342e49454336313937302e4c6f61644d6f64656c, 0x436f6e666f726d4c6f616447726f7570, 0x43494d31342e49454336313937302e4c6f61644d6f64656c2e436f6e666f726d4c6f616447726f7570),
  (0x43494d31342e49454336313937302e4d656173, 0x4d6561737572656d656e7456616c7565, 0x43494d31342e49454336313937302e4d6561732e4d6561737572656d656e7456616c7565),
  (0x43494d31342e49454336313937302e4d656173, 0x436f6e74726f6c, 0x43494d31342e49454336313937302e4d6561732e436f6e74726f6c),
  (0x43494d31342e49454336313937302e4d656173, 0x4d6561737572656d656e74, 0x43494d31342e49454336313937302e4d6561732e4d6561737572656d656e74),
  (0x43494d31342e49454336313937302e4d656173, 0x537472696e674d6561737572656d656e74, 0x43494d31342e49454336313937302e4d6561732e537472696e674d6561737572656d656e74),
  (0x43494d31342e49454336313937302e4d656173, 0x4469736372657465, 0x43494d31342e49454336313937302e4d6561732e4469736372657465),
  (0x43494d31342e49454336313937302e4d656173, 0x43757272656e745472616e73666f726d6572, 0x43494d31342e49454336313937302e4d6561732e43757272656e745472616e73666f726d6572),
  (0x43494d31342e49454336313937302e4d656173, 0x56616c7565416c696173536574, 0x43494d31342e49454336313937302e4d6561732e56616c7565416c696173536574),
  (0x43494d31342e49454336313937302e4d656173, 0x446973637265746556616c7565, 0x43494d31342e49454336313937302e4d6561732e446973637265746556616c7565),
  (0x43494d31342e49454336313937302e4d656173, 0x4c696d6974, 0x43494d31342e49454336313937302e4d6561732e4c696d6974),
  (0x43494d31342e49454336313937302e4d656173, 0x416e616c6f674c696d6974, 0x43494d31342e49454336313937302e4d6561732e416e616c6f674c696d6974),
  (0x43494d31342e49454336313937302e4d656173, 0x4c696d6974536574, 0x43494d31342e49454336313937302e4d6561732e4c696d6974536574),
  (0x43494d31342e49454336313937302e4d656173, 0x416363756d756c61746f724c696d6974536574, 0x43494d31342e49454336313937302e4d6561732e416363756d756c61746f724c696d6974536574),
  (0x43494d31342e49454336313937302e4d656173, 0x536574506f696e74, 0x43494d31342e49454336313937302e4d6561732e536574506f696e74),
  (0x43494d31342e49454336313937302e4d656173, 0x436f6d6d616e64, 0x43494d31342e49454336313937302e4d6561732e436f6d6d616e64),
  (0x43494d31342e49454336313937302e4d656173, 0x537472696e674d6561737572656d656e7456616c7565, 0x43494d31342e49454336313937302e4d6561732e537472696e674d6561737572656d656e7456616c7565),
  (0x43494d31342e49454336313937302e4d656173, 0x506f74656e7469616c5472616e73666f726d6572, 0x43494d31342e49454336313937302e4d6561732e506f74656e7469616c5472616e73666f726d6572),
  (0x43494d31342e49454336313937302e4d656173, 0x56616c7565546f416c696173, 0x43494d31342e49454336313937302e4d6561732e56616c7565546f416c696173),
  (0x43494d31342e49454336313937302e4d656173, 0x436f6e74726f6c54797065, 0x43494d31342e49454336313937302e4d6561732e436f6e74726f6c54797065),
  (0x43494d31342e49454336313937302e4d656173, 0x416363756d756c61746f72, 0x43494d31342e49454336313937302e4d6561732e416363756d756c61746f72),
  (0x43494d31342e49454336313937302e4d656173, 0x416e616c6f674c696d6974536574, 0x43494d31342e49454336313937302e4d6561732e416e616c6f674c696d6974536574),
  (0x43494d31342e49454336313937302e4d656173, 0x416363756d756c61746f724c696d6974, 0x43494d31342e49454336313937302e4d6561732e416363756d756c61746f724c696d6974),
  (0x43494d31342e49454336313937302e4d656173, 0x4d6561737572656d656e7456616c7565536f75726365, 0x43494d31342e49454336313937302e4d6561732e4d6561737572656d656e7456616c7565536f75726365),
  (0x43494d31342e49454336313937302e4d656173, 0x416e616c6f6756616c7565, 0x43494d31342e49454336313937302e4d6561732e416e616c6f6756616c7565),
  (0x43494d31342e49454336313937302e4d656173, 0x416e616c6f67, 0x43494d31342e49454336313937302e4d6561732e416e616c6f67),
  (0x43494d31342e49454336313937302e4d656173, 0x5175616c6974793631383530, 0x43494d31342e49454336313937302e4d6561732e5175616c6974793631383530),
  (0x43494d31342e49454336313937302e4d656173, 0x4d6561737572656d656e7456616c75655175616c697479, 0x43494d31342e49454336313937302e4d6561732e4d6561737572656d656e7456616c75655175616c697479),
  (0x43494d31342e49454336313937302e4d656173, 0x416363756d756c61746f7256616c7565, 0x43494d31342e49454336313937302e4d6561732e416363756d756c61746f7256616c7565),
  (0x43494d31342e49454336313937302e4f7065726174696f6e616c4c696d697473, 0x4f7065726174696f6e616c4c696d6974, 0x43494d31342e49454336313937302e4f7065726174696f6e616c4c696d6974732e4f7065726174696f6e616c4c696d6974),
  (0x43494d31342e49454336313937302e4f7065726174696f6e616c4c696d697473, 0x43757272656e744c696d6974, 0x43494d31342e49454336313937302e4f7065726174696f6e616c4c696d6974732e43757272656e744c696d6974),
  (0x43494d31342e49454336313937302e4f7065726174696f6e616c4c696d697473, 0x4272616e636847726f7570, 0x43494d31342e49454336313937302e4f7065726174696f6e616c4c696d6974732e4272616e636847726f7570),
  (0x43494d31342e49454336313937302e4f7065726174696f6e616c4c696d697473, 0x4272616e636847726f75705465726d696e616c, 0x43494d31342e49454336313937302e4f7065726174696f6e616c4c696d6974732e4272616e636847726f75705465726d696e616c),
  (0x43494d31342e49454336313937302e4f7065726174696f6e616c4c696d697473, 0x4170706172656e74506f7765724c696d6974, 0x43494d31342e49454336313937302e4f7065726174696f6e616c4c696d6974732e4170706172656e74506f7765724c696d6974),
  (0x43494d31342e49454336313937302e4f7065726174696f6e616c4c696d697473, 0x4f7065726174696f6e616c4c696d6974536574, 0x43494d31342e49454336313937302e4f7065726174696f6e616c4c696d6974732e4f7065726174696f6e616c4c696d6974536574),
  (0x43494d31342e49454336313937302e4f7065726174696f6e616c4c696d697473, 0x566f6c746167654c696d6974, 0x43494d31342e49454336313937302e4f7065726174696f6e616c4c696d6974732e566f6c746167654c696d6974),
  (0x43494d31342e49454336313937302e4f7065726174696f6e616c4c696d697473, 0x416374697665506f7765724c696d6974, 0x43494d31342e49454336313937302e4f7065726174696f6e616c4c696d6974732e416374697665506f7765724c696d6974),
  (0x43494d31342e49454336313937302e4f7065726174696f6e616c4c696d697473, 0x4f7065726174696f6e616c4c696d697454797065, 0x43494d31342e49454336313937302e4f7065726174696f6e616c4c696d6974732e4f7065726174696f6e616c4c696d697454797065),
  (0x43494d31342e49454336313937302e4f7574616765, 0x436c656172616e6365546167, 0x43494d31342e49454336313937302e4f75746167652e436c656172616e6365546167),
  (0x43494d31342e49454336313937302e4f7574616765, 0x436c656172616e636554616754797065, 0x43494d31342e49454336313937302e4f75746167652e436c656172616e636554616754797065),
  (0x43494d31342e49454336313937302e4f7574616765, 0x4f75746167655363686564756c65, 0x43494d31342e49454336313937302e4f75746167652e4f75746167655363686564756c65),
  (0x43494d31342e49454336313937302e4f7574616765, 0x537769746368696e674f7065726174696f6e, 0x43494d31342e49454336313937302e4f75746167652e537769746368696e674f7065726174696f6e),
  (0x43494d31342e49454336313937302e50726f74656374696f6e, 0x5265636c6f736553657175656e6365, 0x43494d31342e49454336313937302e50726f74656374696f6e2e5265636c6f736553657175656e6365),
  (0x43494d31342e49454336313937302e50726f74656374696f6e, 0x50726f74656374696f6e45717569706d656e74, 0x43494d31342e49454336313937302e50726f74656374696f6e2e50726f74656374696f6e45717569706d656e74),
  (0x43494d31342e49454336313937302e50726f74656374696f6e, 0x43757272656e7452656c6179, 0x43494d31342e49454336313937302e50726f74656374696f6e2e43757272656e7452656c6179),
  (0x43494d31342e49454336313937302e50726f74656374696f6e, 0x537572676550726f746563746f72, 0x43494d31342e49454336313937302e50726f74656374696f6e2e537572676550726f746563746f72),
  (0x43494d31342e49454336313937302e50726f74656374696f6e, 0x4661756c74496e64696361746f72, 0x43494d31342e49454336313937302e50726f74656374696f6e2e4661756c74496e64696361746f72),
  (0x43494d31342e49454336313937302e50726f74656374696f6e, 0x53796e6368726f636865636b52656c6179, 0x43494d31342e49454336313937302e50726f74656374696f6e2e53796e6368726f636865636b52656c6179),
  (0x43494d31342e49454336313937302e5343414441, 0x52656d6f7465506f696e74, 0x43494d31342e49454336313937302e53434144412e52656d6f7465506f696e74),
  (0x43494d31342e49454336313937302e5343414441, 0x52656d6f7465436f6e74726f6c, 0x43494d31342e49454336313937302e53434144412e52656d6f7465436f6e74726f6c),
  (0x43494d31342e49454336313937302e5343414441, 0x52656d6f7465556e6974, 0x43494d31342e49454336313937302e53434144412e52656d6f7465556e6974),
  (0x43494d31342e49454336313937302e5343414441, 0x436f6d6d756e69636174696f6e4c696e6b, 0x43494d31342e49454336313937302e53434144412e436f6d6d756e69636174696f6e4c696e6b),
  (0x43494d31342e49454336313937302e5343414441, 0x52656d6f7465536f75726365, 0x43494d31342e49454336313937302e53434144412e52656d6f7465536f75726365),
  (0x43494d31342e49454336313937302e53746174655661726961626c6573, 0x546f706f6c6f676963616c49736c616e64, 0x43494d31342e49454336313937302e53746174655661726961626c65732e546f706f6c6f676963616c49736c616e64),
  (0x43494d31342e49454336313937302e53746174655661726961626c6573, 0x53746174655661726961626c65, 0x43494d31342e49454336313937302e53746174655661726961626c65732e53746174655661726961626c65),
  (0x43494d31342e49454336313937302e53746174655661726961626c6573, 0x5376566f6c74616765, 0x43494d31342e49454336313937302e53746174655661726961626c65732e5376566f6c74616765),
  (0x43494d31342e49454336313937302e53746174655661726961626c6573, 0x537653686f727443697263756974, 0x43494d31342e49454336313937302e53746174655661726961626c65732e537653686f727443697263756974),
  (0x43494d31342e49454336313937302e53746174655661726961626c6573, 0x53765368756e74436f6d70656e7361746f7253656374696f6e73, 0x43494d31342e49454336313937302e53746174655661726961626c65732e53765368756e74436f6d70656e7361746f7253656374696f6e73),
  (0x43494d31342e49454336313937302e53746174655661726961626c6573, 0x5376506f776572466c6f77, 0x43494d31342e49454336313937302e53746174655661726961626c65732e5376506f776572466c6f77),
  (0x43494d31342e49454336313937302e53746174655661726961626c6573, 0x5376537461747573, 0x43494d31342e49454336313937302e53746174655661726961626c65732e5376537461747573),
  (0x43494d31342e49454336313937302e53746174655661726961626c6573, 0x537654617053746570, 0x43494d31342e49454336313937302e53746174655661726961626c65732e537654617053746570),
  (0x43494d31342e49454336313937302e53746174655661726961626c6573, 0x5376496e6a656374696f6e, 0x43494d31342e49454336313937302e53746174655661726961626c65732e5376496e6a656374696f6e),
  (0x43494d31342e49454336313937302e546f706f6c6f6779, 0x546f706f6c6f676963616c4e6f6465, 0x43494d31342e49454336313937302e546f706f6c6f67792e546f706f6c6f676963616c4e6f6465),
  (0x43494d31342e49454336313937302e546f706f6c6f6779, 0x4275734e616d654d61726b6572, 0x43494d31342e49454336313937302e546f706f6c6f67792e4275734e616d654d61726b6572),
  (0x43494d31342e49454336313937302e5769726573, 0x506f7765725472616e73666f726d6572, 0x43494d31342e49454336313937302e57697265732e506f7765725472616e73666f726d6572),
  (0x43494d31342e49454336313937302e5769726573, 0x526567756c6174696e67436f6e644571, 0x43494d31342e49454336313937302e57697265732e526567756c6174696e67436f6e644571),
  (0x43494d31342e49454336313937302e5769726573, 0x4672657175656e6379436f6e766572746572, 0x43494d31342e49454336313937302e57697265732e4672657175656e6379436f6e766572746572),
  (0x43494d31342e49454336313937302e5769726573, 0x5368756e74436f6d70656e7361746f72, 0x43494d31342e49454336313937302e57697265732e5368756e74436f6d70656e7361746f72),
  (0x43494d31342e49454336313937302e5769726573, 0x4865617445786368616e676572, 0x43494d31342e49454336313937302e57697265732e4865617445786368616e676572),
  (0x43494d31342e49454336313937302e5769726573, 0x526567756c6174696e67436f6e74726f6c, 0x43494d31342e49454336313937302e57697265732e526567756c6174696e67436f6e74726f6c),
  (0x43494d31342e49454336313937302e5769726573, 0x52656163746976654361706162696c6974794375727665, 0x43494d31342e49454336313937302e57697265732e52656163746976654361706162696c6974794375727665),
  (0x43494d31342e49454336313937302e5769726573, 0x4c696e65, 0x43494d31342e49454336313937302e57697265732e4c696e65),
  (0x43494d31342e49454336313937302e5769726573, 0x436f6e6e6563746f72, 0x43494d31342e49454336313937302e57697265732e436f6e6e6563746f72),
  (0x43494d31342e49454336313937302e5769726573, 0x4a756e6374696f6e, 0x43494d31342e49454336313937302e57697265732e4a756e6374696f6e),
  (0x43494d31342e49454336313937302e5769726573, 0x47726f756e64, 0x43494d31342e49454336313937302e57697265732e47726f756e64),
  (0x43494d31342e49454336313937302e5769726573, 0x436f6e647563746f72, 0x43494d31342e49454336313937302e57697265732e436f6e647563746f72),
  (0x43494d31342e49454336313937302e5769726573, 0x5472616e73666f726d657257696e64696e67, 0x43494d31342e49454336313937302e57697265732e5472616e73666f726d657257696e64696e67),
  (0x43494d31342e49454336313937302e5769726573, 0x53796e6368726f6e6f75734d616368696e65, 0x43494d31342e49454336313937302e57697265732e53796e6368726f6e6f75734d616368696e65),
  (0x43494d31342e49454336313937302e5769726573, 0x456e65726779436f6e73756d6572, 0x43494d31342e49454336313937302e57697265732e456e65726779436f6e73756d6572),
  (0x43494d31342e49454336313937302e5769726573, 0x5461704368616e676572, 0x43494d31342e49454336313937302e57697265732e5461704368616e676572),
  (0x43494d31342e49454336313937302e5769726573, 0x526174696f5461704368616e676572, 0x43494d31342e49454336313937302e57697265732e526174696f5461704368616e676572),
  (0x43494d31342e49454336313937302e5769726573, 0x537769746368, 0x43494d31342e49454336313937302e57697265732e537769746368),
  (0x43494d31342e49454336313937302e5769726573, 0x50726f746563746564537769746368, 0x43494d31342e49454336313937302e57697265732e50726f746563746564537769746368),
  (0x43494d31342e49454336313937302e5769726573, 0x4c6f6164427265616b537769746368, 0x43494d31342e49454336313937302e57697265732e4c6f6164427265616b537769746368),
  (0x43494d31342e49454336313937302e5769726573, 0x41434c696e655365676d656e74, 0x43494d31342e49454336313937302e57697265732e41434c696e655365676d656e74),
  (0x43494d31342e49454336313937302e5769726573, 0x506c616e74, 0x43494d31342e49454336313937302e57697265732e506c616e74),
  (0x43494d31342e49454336313937302e5769726573, 0x526567756c6174696f6e5363686564756c65, 0x43494d31342e49454336313937302e57697265732e526567756c6174696f6e5363686564756c65),
  (0x43494d31342e49454336313937302e5769726573, 0x57696e64696e6754657374, 0x43494d31342e49454336313937302e57697265732e57696e64696e6754657374),
  (0x43494d31342e49454336313937302e5769726573, 0x5068617365566172696174696f6e4375727665, 0x43494d31342e49454336313937302e57697265732e5068617365566172696174696f6e4375727665),
  (0x43494d31342e49454336313937302e5769726573, 0x4d757475616c436f75706c696e67, 0x43494d31342e49454336313937302e57697265732e4d757475616c436f75706c696e67),
  (0x43494d31342e49454336313937302e5769726573, 0x446973636f6e6e6563746f72, 0x43494d31342e49454336313937302e57697265732e446973636f6e6e6563746f72),
  (0x43494d31342e49454336313937302e5769726573, 0x536572696573436f6d70656e7361746f72, 0x43494d31342e49454336313937302e57697265732e536572696573436f6d70656e7361746f72),
  (0x43494d31342e49454336313937302e5769726573, 0x47726f756e64446973636f6e6e6563746f72, 0x43494d31342e49454336313937302e57697265732e47726f756e64446973636f6e6e6563746f72),
  (0x43494d31342e49454336313937302e5769726573, 0x526174696f566172696174696f6e4375727665, 0x43494d31342e49454336313937302e57697265732e526174696f566172696174696f6e4375727665),
  (0x43494d31342e49454336313937302e5769726573, 0x5265736973746f72, 0x43494d31342e49454336313937302e57697265732e5265736973746f72),
  (0x43494d31342e49454336313937302e5769726573, 0x436f6d706f73697465537769746368, 0x43494d31342e49454336313937302e57697265732e436f6d706f73697465537769746368),
  (0x43494d31342e49454336313937302e5769726573, 0x50686173655461704368616e676572, 0x43494d31342e49454336313937302e57697265732e50686173655461704368616e676572),
  (0x43494d31342e49454336313937302e5769726573, 0x526563746966696572496e766572746572, 0x43494d31342e49454336313937302e57697265732e526563746966696572496e766572746572),
  (0x43494d31342e49454336313937302e5769726573, 0x537461746963566172436f6d70656e7361746f72, 0x43494d31342e49454336313937302e57697265732e537461746963566172436f6d70656e7361746f72),
  (0x43494d31342e49454336313937302e5769726573, 0x5461705363686564756c65, 0x43494d31342e49454336313937302e57697265732e5461705363686564756c65),
  (0x43494d31342e49454336313937302e5769726573, 0x566f6c74616765436f6e74726f6c5a6f6e65, 0x43494d31342e49454336313937302e57697265732e566f6c74616765436f6e74726f6c5a6f6e65),
  (0x43494d31342e49454336313937302e5769726573, 0x456e65726779536f75726365, 0x43494d31342e49454336313937302e57697265732e456e65726779536f75726365),
  (0x43494d31342e49454336313937302e5769726573, 0x46757365, 0x43494d31342e49454336313937302e57697265732e46757365),
  (0x43494d31342e49454336313937302e5769726573, 0x4a756d706572, 0x43494d31342e49454336313937302e57697265732e4a756d706572),
  (0x43494d31342e49454336313937302e5769726573, 0x496d706564616e6365566172696174696f6e4375727665, 0x43494d31342e49454336313937302e57697265732e496d706564616e6365566172696174696f6e4375727665),
  (0x43494d31342e49454336313937302e5769726573, 0x44434c696e655365676d656e74, 0x43494d31342e49454336313937302e57697265732e44434c696e655365676d656e74),
  (0x43494d31342e49454336313937302e5769726573, 0x5377697463685363686564756c65, 0x43494d31342e49454336313937302e57697265732e5377697463685363686564756c65),
  (0x43494d31342e49454336313937302e5769726573, 0x427265616b6572, 0x43494d31342e49454336313937302e57697265732e427265616b6572),
  (0x43494d31342e49454336313937302e5769726573, 0x42757362617253656374696f6e, 0x43494d31342e49454336313937302e57697265732e42757362617253656374696f6e)]

def pkg : RPkg := ⟨0x43494d3134, classes, pmap, exports⟩

end Verif.Gen.CIM14
