import Verif.Gen.Types
/-! Generated by tools/gen.py from /repo/CIM15: do not edit. -/
namespace Verif.Gen.CIM15
set_option maxRecDepth 10000

/-- CIM15/Element.py:22 -/
def d_Element : RClass := ⟨0x456c656d656e74, 0x43494d31352e456c656d656e74, 0,
  [(0x55554944, .str 0)],
  [0x55554944],
  [(0x55554944, .str 0)],
  [(0x55554944, 0x737472)],
  [],
  [],
  []⟩
def m_Element : List RClass := d_Element :: []

/-- CIM15/IEC61968/Assets/AcceptanceTest.py:22 -/
def d_AcceptanceTest : RClass := ⟨0x416363657074616e636554657374, 0x43494d31352e49454336313936382e4173736574732e416363657074616e636554657374, 0,
  [(0x73756363657373, .bool false), (0x6461746554696d65, .str 0), (0x74797065, .str 0)],
  [0x73756363657373, 0x6461746554696d65, 0x74797065],
  [(0x73756363657373, .bool false), (0x6461746554696d65, .str 0), (0x74797065, .str 0)],
  [(0x73756363657373, 0x626f6f6c), (0x6461746554696d65, 0x737472), (0x74797065, 0x737472)],
  [],
  [],
  []⟩
def m_AcceptanceTest : List RClass := d_AcceptanceTest :: []

/-- CIM15/IEC61968/Common/ElectronicAddress.py:22 -/
def d_ElectronicAddress : RClass := ⟨0x456c656374726f6e696341646472657373, 0x43494d31352e49454336313936382e436f6d6d6f6e2e456c656374726f6e696341646472657373, 0,
  [(0x726164696f, .str 0), (0x70617373776f7264, .str 0), (0x6c616e, .str 0), (0x757365724944, .str 0), (0x656d61696c, .str 0), (0x776562, .str 0)],
  [0x726164696f, 0x70617373776f7264, 0x6c616e, 0x757365724944, 0x656d61696c, 0x776562],
  [(0x726164696f, .str 0), (0x70617373776f7264, .str 0), (0x6c616e, .str 0), (0x757365724944, .str 0), (0x656d61696c, .str 0), (0x776562, .str 0)],
  [(0x726164696f, 0x737472), (0x70617373776f7264, 0x737472), (0x6c616e, 0x737472), (0x757365724944, 0x737472), (0x656d61696c, 0x737472), (0x776562, 0x737472)],
  [],
  [⟨0x737461747573, .plainOne, 0, 0, false⟩],
  []⟩
def m_ElectronicAddress : List RClass := d_ElectronicAddress :: []

/-- CIM15/IEC61968/Common/PostalAddress.py:22 -/
def d_PostalAddress : RClass := ⟨0x506f7374616c41646472657373, 0x43494d31352e49454336313936382e436f6d6d6f6e2e506f7374616c41646472657373, 0,
  [(0x706f426f78, .str 0), (0x706f7374616c436f6465, .str 0)],
  [0x706f426f78, 0x706f7374616c436f6465],
  [(0x706f426f78, .str 0), (0x706f7374616c436f6465, .str 0)],
  [(0x706f426f78, 0x737472), (0x706f7374616c436f6465, 0x737472)],
  [],
  [⟨0x73747265657444657461696c, .plainOne, 0, 0, false⟩, ⟨0x746f776e44657461696c, .plainOne, 0, 0, false⟩],
  []⟩
def m_PostalAddress : List RClass := d_PostalAddress :: []

/-- CIM15/IEC61968/Common/Status.py:22 -/
def d_Status : RClass := ⟨0x537461747573, 0x43494d31352e49454336313936382e436f6d6d6f6e2e537461747573, 0,
  [(0x726561736f6e, .str 0), (0x6461746554696d65, .str 0), (0x76616c7565, .str 0), (0x72656d61726b, .str 0)],
  [0x726561736f6e, 0x6461746554696d65, 0x76616c7565, 0x72656d61726b],
  [(0x726561736f6e, .str 0), (0x6461746554696d65, .str 0), (0x76616c7565, .str 0), (0x72656d61726b, .str 0)],
  [(0x726561736f6e, 0x737472), (0x6461746554696d65, 0x737472), (0x76616c7565, 0x737472), (0x72656d61726b, 0x737472)],
  [],
  [],
  []⟩
def m_Status : List RClass := d_Status :: []

/-- CIM15/IEC61968/Common/StreetAddress.py:22 -/
def d_StreetAddress : RClass := ⟨0x53747265657441646472657373, 0x43494d31352e49454336313936382e436f6d6d6f6e2e53747265657441646472657373, 0,
  [],
  [],
  [],
  [],
  [],
  [⟨0x737461747573, .plainOne, 0, 0, false⟩, ⟨0x73747265657444657461696c, .plainOne, 0, 0, false⟩, ⟨0x746f776e44657461696c, .plainOne, 0, 0, false⟩],
  []⟩
def m_StreetAddress : List RClass := d_StreetAddress :: []

/-- CIM15/IEC61968/Common/StreetDetail.py:22 -/
def d_StreetDetail : RClass := ⟨0x53747265657444657461696c, 0x43494d31352e49454336313936382e436f6d6d6f6e2e53747265657444657461696c, 0,
  [(0x77697468696e546f776e4c696d697473, .bool false), (0x6e616d65, .str 0), (0x74797065, .str 0), (0x707265666978, .str 0), (0x6275696c64696e674e616d65, .str 0), (0x73756974654e756d626572, .str 0), (0x737566666978, .str 0), (0x6164647265737347656e6572616c, .str 0), (0x636f6465, .str 0), (0x6e756d626572, .str 0)],
  [0x77697468696e546f776e4c696d697473, 0x6e616d65, 0x74797065, 0x707265666978, 0x6275696c64696e674e616d65, 0x73756974654e756d626572, 0x737566666978, 0x6164647265737347656e6572616c, 0x636f6465, 0x6e756d626572],
  [(0x77697468696e546f776e4c696d697473, .bool false), (0x6e616d65, .str 0), (0x74797065, .str 0), (0x707265666978, .str 0), (0x6275696c64696e674e616d65, .str 0), (0x73756974654e756d626572, .str 0), (0x737566666978, .str 0), (0x6164647265737347656e6572616c, .str 0), (0x636f6465, .str 0), (0x6e756d626572, .str 0)],
  [(0x77697468696e546f776e4c696d697473, 0x626f6f6c), (0x6e616d65, 0x737472), (0x74797065, 0x737472), (0x707265666978, 0x737472), (0x6275696c64696e674e616d65, 0x737472), (0x73756974654e756d626572, 0x737472), (0x737566666978, 0x737472), (0x6164647265737347656e6572616c, 0x737472), (0x636f6465, 0x737472), (0x6e756d626572, 0x737472)],
  [],
  [],
  []⟩
def m_StreetDetail : List RClass := d_StreetDetail :: []

/-- CIM15/IEC61968/Common/TelephoneNumber.py:22 -/
def d_TelephoneNumber : RClass := ⟨0x54656c6570686f6e654e756d626572, 0x43494d31352e49454336313936382e436f6d6d6f6e2e54656c6570686f6e654e756d626572, 0,
  [(0x63697479436f6465, .str 0), (0x6c6f63616c4e756d626572, .str 0), (0x657874656e73696f6e, .str 0), (0x61726561436f6465, .str 0), (0x636f756e747279436f6465, .str 0)],
  [0x63697479436f6465, 0x6c6f63616c4e756d626572, 0x657874656e73696f6e, 0x61726561436f6465, 0x636f756e747279436f6465],
  [(0x63697479436f6465, .str 0), (0x6c6f63616c4e756d626572, .str 0), (0x657874656e73696f6e, .str 0), (0x61726561436f6465, .str 0), (0x636f756e747279436f6465, .str 0)],
  [(0x63697479436f6465, 0x737472), (0x6c6f63616c4e756d626572, 0x737472), (0x657874656e73696f6e, 0x737472), (0x61726561436f6465, 0x737472), (0x636f756e747279436f6465, 0x737472)],
  [],
  [],
  []⟩
def m_TelephoneNumber : List RClass := d_TelephoneNumber :: []

/-- CIM15/IEC61968/Common/TownDetail.py:22 -/
def d_TownDetail : RClass := ⟨0x546f776e44657461696c, 0x43494d31352e49454336313936382e436f6d6d6f6e2e546f776e44657461696c, 0,
  [(0x6e616d65, .str 0), (0x73746174654f7250726f76696e6365, .str 0), (0x73656374696f6e, .str 0), (0x636f6465, .str 0), (0x636f756e747279, .str 0)],
  [0x6e616d65, 0x73746174654f7250726f76696e6365, 0x73656374696f6e, 0x636f6465, 0x636f756e747279],
  [(0x6e616d65, .str 0), (0x73746174654f7250726f76696e6365, .str 0), (0x73656374696f6e, .str 0), (0x636f6465, .str 0), (0x636f756e747279, .str 0)],
  [(0x6e616d65, 0x737472), (0x73746174654f7250726f76696e6365, 0x737472), (0x73656374696f6e, 0x737472), (0x636f6465, 0x737472), (0x636f756e747279, 0x737472)],
  [],
  [],
  []⟩
def m_TownDetail : List RClass := d_TownDetail :: []

/-- CIM15/IEC61968/LoadControl/RemoteConnectDisconnectInfo.py:22 -/
def d_RemoteConnectDisconnectInfo : RClass := ⟨0x52656d6f7465436f6e6e656374446973636f6e6e656374496e666f, 0x43494d31352e49454336313936382e4c6f6164436f6e74726f6c2e52656d6f7465436f6e6e656374446973636f6e6e656374496e666f, 0,
  [(0x697341726d436f6e6e656374, .bool false), (0x656e6572677955736167655761726e696e67, .flt 0x0), (0x6e65656473566f6c746167654c696d6974436865636b, .bool false), (0x637573746f6d6572566f6c746167654c696d6974, .flt 0x0), (0x697341726d446973636f6e6e656374, .bool false), (0x6973456e657267794c696d6974696e67, .bool false), (0x61726d656454696d656f7574, .flt 0x0), (0x706f7765724c696d6974, .flt 0x0), (0x6e65656473506f7765724c696d6974436865636b, .bool false), (0x75736550757368627574746f6e, .bool false), (0x656e657267794c696d6974, .flt 0x0), (0x656e65726779557361676553746172744461746554696d65, .str 0)],
  [0x697341726d436f6e6e656374, 0x656e6572677955736167655761726e696e67, 0x6e65656473566f6c746167654c696d6974436865636b, 0x637573746f6d6572566f6c746167654c696d6974, 0x697341726d446973636f6e6e656374, 0x6973456e657267794c696d6974696e67, 0x61726d656454696d656f7574, 0x706f7765724c696d6974, 0x6e65656473506f7765724c696d6974436865636b, 0x75736550757368627574746f6e, 0x656e657267794c696d6974, 0x656e65726779557361676553746172744461746554696d65],
  [(0x697341726d436f6e6e656374, .bool false), (0x656e6572677955736167655761726e696e67, .flt 0x0), (0x6e65656473566f6c746167654c696d6974436865636b, .bool false), (0x637573746f6d6572566f6c746167654c696d6974, .flt 0x0), (0x697341726d446973636f6e6e656374, .bool false), (0x6973456e657267794c696d6974696e67, .bool false), (0x61726d656454696d656f7574, .flt 0x0), (0x706f7765724c696d6974, .flt 0x0), (0x6e65656473506f7765724c696d6974436865636b, .bool false), (0x75736550757368627574746f6e, .bool false), (0x656e657267794c696d6974, .flt 0x0), (0x656e65726779557361676553746172744461746554696d65, .str 0)],
  [(0x697341726d436f6e6e656374, 0x626f6f6c), (0x656e6572677955736167655761726e696e67, 0x666c6f6174), (0x6e65656473566f6c746167654c696d6974436865636b, 0x626f6f6c), (0x637573746f6d6572566f6c746167654c696d6974, 0x666c6f6174), (0x697341726d446973636f6e6e656374, 0x626f6f6c), (0x6973456e657267794c696d6974696e67, 0x626f6f6c), (0x61726d656454696d656f7574, 0x666c6f6174), (0x706f7765724c696d6974, 0x666c6f6174), (0x6e65656473506f7765724c696d6974436865636b, 0x626f6f6c), (0x75736550757368627574746f6e, 0x626f6f6c), (0x656e657267794c696d6974, 0x666c6f6174), (0x656e65726779557361676553746172744461746554696d65, 0x737472)],
  [],
  [],
  []⟩
def m_RemoteConnectDisconnectInfo : List RClass := d_RemoteConnectDisconnectInfo :: []

/-- CIM15/IEC61968/Metering/DynamicDemand.py:22 -/
def d_DynamicDemand : RClass := ⟨0x44796e616d696344656d616e64, 0x43494d31352e49454336313936382e4d65746572696e672e44796e616d696344656d616e64, 0,
  [(0x737562496e74657276616c, .flt 0x0), (0x696e74657276616c, .flt 0x0), (0x6b696e64, .str 0x6669786564426c6f636b)],
  [0x737562496e74657276616c, 0x696e74657276616c, 0x6b696e64],
  [(0x737562496e74657276616c, .flt 0x0), (0x696e74657276616c, .flt 0x0), (0x6b696e64, .str 0x6669786564426c6f636b)],
  [(0x737562496e74657276616c, 0x666c6f6174), (0x696e74657276616c, 0x666c6f6174), (0x6b696e64, 0x737472)],
  [(0x6b696e64, 0x44656d616e644b696e64)],
  [],
  []⟩
def m_DynamicDemand : List RClass := d_DynamicDemand :: []

/-- CIM15/IEC61968/Metering/ReadingMultiplier.py:22 -/
def d_ReadingMultiplier : RClass := ⟨0x52656164696e674d756c7469706c696572, 0x43494d31352e49454336313936382e4d65746572696e672e52656164696e674d756c7469706c696572, 0,
  [(0x76616c7565, .flt 0x0), (0x69734170706c696564, .bool false)],
  [0x76616c7565, 0x69734170706c696564],
  [(0x76616c7565, .flt 0x0), (0x69734170706c696564, .bool false)],
  [(0x76616c7565, 0x666c6f6174), (0x69734170706c696564, 0x626f6f6c)],
  [],
  [],
  []⟩
def m_ReadingMultiplier : List RClass := d_ReadingMultiplier :: []

/-- CIM15/IEC61968/PaymentMetering/AccountMovement.py:22 -/
def d_AccountMovement : RClass := ⟨0x4163636f756e744d6f76656d656e74, 0x43494d31352e49454336313936382e5061796d656e744d65746572696e672e4163636f756e744d6f76656d656e74, 0,
  [(0x6461746554696d65, .str 0), (0x726561736f6e, .str 0), (0x616d6f756e74, .flt 0x0)],
  [0x6461746554696d65, 0x726561736f6e, 0x616d6f756e74],
  [(0x6461746554696d65, .str 0), (0x726561736f6e, .str 0), (0x616d6f756e74, .flt 0x0)],
  [(0x6461746554696d65, 0x737472), (0x726561736f6e, 0x737472), (0x616d6f756e74, 0x666c6f6174)],
  [],
  [],
  []⟩
def m_AccountMovement : List RClass := d_AccountMovement :: []

/-- CIM15/IEC61968/PaymentMetering/AccountingUnit.py:22 -/
def d_AccountingUnit : RClass := ⟨0x4163636f756e74696e67556e6974, 0x43494d31352e49454336313936382e5061796d656e744d65746572696e672e4163636f756e74696e67556e6974, 0,
  [(0x6d756c7469706c696572, .str 0x4d), (0x656e65726779556e6974, .flt 0x0), (0x6d6f6e6574617279556e6974, .str 0x434144), (0x76616c7565, .flt 0x0)],
  [0x6d756c7469706c696572, 0x656e65726779556e6974, 0x6d6f6e6574617279556e6974, 0x76616c7565],
  [(0x6d756c7469706c696572, .str 0x4d), (0x656e65726779556e6974, .flt 0x0), (0x6d6f6e6574617279556e6974, .str 0x434144), (0x76616c7565, .flt 0x0)],
  [(0x6d756c7469706c696572, 0x737472), (0x656e65726779556e6974, 0x666c6f6174), (0x6d6f6e6574617279556e6974, 0x737472), (0x76616c7565, 0x666c6f6174)],
  [(0x6d756c7469706c696572, 0x556e69744d756c7469706c696572), (0x6d6f6e6574617279556e6974, 0x43757272656e6379)],
  [],
  []⟩
def m_AccountingUnit : List RClass := d_AccountingUnit :: []

/-- CIM15/IEC61968/PaymentMetering/BankAccountDetail.py:22 -/
def d_BankAccountDetail : RClass := ⟨0x42616e6b4163636f756e7444657461696c, 0x43494d31352e49454336313936382e5061796d656e744d65746572696e672e42616e6b4163636f756e7444657461696c, 0,
  [(0x686f6c6465724944, .str 0), (0x686f6c6465724e616d65, .str 0), (0x62616e6b4e616d65, .str 0), (0x6272616e6368436f6465, .str 0), (0x6163636f756e744e756d626572, .str 0)],
  [0x686f6c6465724944, 0x686f6c6465724e616d65, 0x62616e6b4e616d65, 0x6272616e6368436f6465, 0x6163636f756e744e756d626572],
  [(0x686f6c6465724944, .str 0), (0x686f6c6465724e616d65, .str 0), (0x62616e6b4e616d65, .str 0), (0x6272616e6368436f6465, .str 0), (0x6163636f756e744e756d626572, .str 0)],
  [(0x686f6c6465724944, 0x737472), (0x686f6c6465724e616d65, 0x737472), (0x62616e6b4e616d65, 0x737472), (0x6272616e6368436f6465, 0x737472), (0x6163636f756e744e756d626572, 0x737472)],
  [],
  [],
  []⟩
def m_BankAccountDetail : List RClass := d_BankAccountDetail :: []

/-- CIM15/IEC61968/PaymentMetering/Due.py:22 -/
def d_Due : RClass := ⟨0x447565, 0x43494d31352e49454336313936382e5061796d656e744d65746572696e672e447565, 0,
  [(0x696e746572657374, .flt 0x0), (0x63686172676573, .flt 0x0), (0x7072696e6369706c65, .flt 0x0), (0x63757272656e74, .flt 0x0), (0x61727265617273, .flt 0x0)],
  [0x696e746572657374, 0x63686172676573, 0x7072696e6369706c65, 0x63757272656e74, 0x61727265617273],
  [(0x696e746572657374, .flt 0x0), (0x63686172676573, .flt 0x0), (0x7072696e6369706c65, .flt 0x0), (0x63757272656e74, .flt 0x0), (0x61727265617273, .flt 0x0)],
  [(0x696e746572657374, 0x666c6f6174), (0x63686172676573, 0x666c6f6174), (0x7072696e6369706c65, 0x666c6f6174), (0x63757272656e74, 0x666c6f6174), (0x61727265617273, 0x666c6f6174)],
  [],
  [],
  []⟩
def m_Due : List RClass := d_Due :: []

/-- CIM15/IEC61968/PaymentMetering/LineDetail.py:22 -/
def d_LineDetail : RClass := ⟨0x4c696e6544657461696c, 0x43494d31352e49454336313936382e5061796d656e744d65746572696e672e4c696e6544657461696c, 0,
  [(0x616d6f756e74, .flt 0x0), (0x726f756e64696e67, .flt 0x0), (0x6461746554696d65, .str 0), (0x6e6f7465, .str 0)],
  [0x616d6f756e74, 0x726f756e64696e67, 0x6461746554696d65, 0x6e6f7465],
  [(0x616d6f756e74, .flt 0x0), (0x726f756e64696e67, .flt 0x0), (0x6461746554696d65, .str 0), (0x6e6f7465, .str 0)],
  [(0x616d6f756e74, 0x666c6f6174), (0x726f756e64696e67, 0x666c6f6174), (0x6461746554696d65, 0x737472), (0x6e6f7465, 0x737472)],
  [],
  [],
  []⟩
def m_LineDetail : List RClass := d_LineDetail :: []

/-- CIM15/IEC61970/Domain/DateTimeInterval.py:22 -/
def d_DateTimeInterval : RClass := ⟨0x4461746554696d65496e74657276616c, 0x43494d31352e49454336313937302e446f6d61696e2e4461746554696d65496e74657276616c, 0,
  [(0x7374617274, .str 0), (0x656e64, .str 0)],
  [0x7374617274, 0x656e64],
  [(0x7374617274, .str 0), (0x656e64, .str 0)],
  [(0x7374617274, 0x737472), (0x656e64, 0x737472)],
  [],
  [],
  []⟩
def m_DateTimeInterval : List RClass := d_DateTimeInterval :: []

/-- CIM15/IEC61970/Informative/InfCommon/Ratio.py:22 -/
def d_Ratio : RClass := ⟨0x526174696f, 0x43494d31352e49454336313937302e496e666f726d61746976652e496e66436f6d6d6f6e2e526174696f, 0,
  [(0x6e756d657261746f72, .flt 0x0), (0x64656e6f6d696e61746f72, .flt 0x0)],
  [0x6e756d657261746f72, 0x64656e6f6d696e61746f72],
  [(0x6e756d657261746f72, .flt 0x0), (0x64656e6f6d696e61746f72, .flt 0x0)],
  [(0x6e756d657261746f72, 0x666c6f6174), (0x64656e6f6d696e61746f72, 0x666c6f6174)],
  [],
  [],
  []⟩
def m_Ratio : List RClass := d_Ratio :: []

/-- CIM15/CombinedVersion.py:23 -/
def d_CombinedVersion : RClass := ⟨0x436f6d62696e656456657273696f6e, 0x43494d31352e436f6d62696e656456657273696f6e, 0x43494d31352e456c656d656e74,
  [(0x64617465, .str 0), (0x76657273696f6e, .str 0)],
  [0x64617465, 0x76657273696f6e],
  [(0x64617465, .str 0), (0x76657273696f6e, .str 0)],
  [(0x64617465, 0x737472), (0x76657273696f6e, 0x737472)],
  [],
  [],
  []⟩
def m_CombinedVersion : List RClass := d_CombinedVersion :: m_Element

/-- CIM15/IEC61968/Common/PositionPoint.py:23 -/
def d_PositionPoint : RClass := ⟨0x506f736974696f6e506f696e74, 0x43494d31352e49454336313936382e436f6d6d6f6e2e506f736974696f6e506f696e74, 0x43494d31352e456c656d656e74,
  [(0x78506f736974696f6e, .str 0), (0x7a506f736974696f6e, .str 0), (0x73657175656e63654e756d626572, .int 0), (0x79506f736974696f6e, .str 0)],
  [0x78506f736974696f6e, 0x7a506f736974696f6e, 0x73657175656e63654e756d626572, 0x79506f736974696f6e],
  [(0x78506f736974696f6e, .str 0), (0x7a506f736974696f6e, .str 0), (0x73657175656e63654e756d626572, .int 0), (0x79506f736974696f6e, .str 0)],
  [(0x78506f736974696f6e, 0x737472), (0x7a506f736974696f6e, 0x737472), (0x73657175656e63654e756d626572, 0x696e74), (0x79506f736974696f6e, 0x737472)],
  [],
  [⟨0x4c6f636174696f6e, .one2many, 0x506f736974696f6e506f696e7473, 0, false⟩],
  []⟩
def m_PositionPoint : List RClass := d_PositionPoint :: m_Element

/-- CIM15/IEC61968/Common/UserAttribute.py:23 -/
def d_UserAttribute : RClass := ⟨0x55736572417474726962757465, 0x43494d31352e49454336313936382e436f6d6d6f6e2e55736572417474726962757465, 0x43494d31352e456c656d656e74,
  [(0x6e616d65, .str 0), (0x76616c7565, .str 0), (0x73657175656e63654e756d626572, .int 0)],
  [0x6e616d65, 0x76616c7565, 0x73657175656e63654e756d626572],
  [(0x6e616d65, .str 0), (0x76616c7565, .str 0), (0x73657175656e63654e756d626572, .int 0)],
  [(0x6e616d65, 0x737472), (0x76616c7565, 0x737472), (0x73657175656e63654e756d626572, 0x696e74)],
  [],
  [⟨0x4572704c6564676572456e7472696573, .many2many, 0x5573657241747472696275746573, 0, false⟩, ⟨0x50726f6365647572654461746153657473, .many2many, 0x50726f70657274696573, 0, false⟩, ⟨0x5472616e73616374696f6e, .one2many, 0x5573657241747472696275746573, 0, false⟩, ⟨0x50726f706572747953706563696669636174696f6e, .one2many, 0x417373657450726f70657269746573, 0, false⟩, ⟨0x50726f636564757265, .one2many, 0x50726f63656475726556616c756573, 0, false⟩, ⟨0x50726f7065727479417373657473, .many2many, 0x50726f70657274696573, 0, false⟩, ⟨0x526174696e6753706563696669636174696f6e, .one2many, 0x526174696e6773, 0, false⟩, ⟨0x457270496e766f6963654c696e654974656d73, .many2many, 0x5573657241747472696275746573, 0, false⟩, ⟨0x526174696e67417373657473, .many2many, 0x526174696e6773, 0, false⟩],
  [0x4572704c6564676572456e7472696573, 0x50726f6365647572654461746153657473, 0x50726f7065727479417373657473, 0x457270496e766f6963654c696e654974656d73, 0x526174696e67417373657473]⟩
def m_UserAttribute : List RClass := d_UserAttribute :: m_Element

/-- CIM15/IEC61968/IEC61968CIMVersion.py:23 -/
def d_IEC61968CIMVersion : RClass := ⟨0x494543363139363843494d56657273696f6e, 0x43494d31352e49454336313936382e494543363139363843494d56657273696f6e, 0x43494d31352e456c656d656e74,
  [(0x76657273696f6e, .str 0), (0x64617465, .str 0)],
  [0x76657273696f6e, 0x64617465],
  [(0x76657273696f6e, .str 0), (0x64617465, .str 0)],
  [(0x76657273696f6e, 0x737472), (0x64617465, 0x737472)],
  [],
  [],
  []⟩
def m_IEC61968CIMVersion : List RClass := d_IEC61968CIMVersion :: m_Element

/-- CIM15/IEC61968/Metering/IntervalBlock.py:23 -/
def d_IntervalBlock : RClass := ⟨0x496e74657276616c426c6f636b, 0x43494d31352e49454336313936382e4d65746572696e672e496e74657276616c426c6f636b, 0x43494d31352e456c656d656e74,
  [],
  [],
  [],
  [],
  [],
  [⟨0x52656164696e6754797065, .one2many, 0x496e74657276616c426c6f636b73, 0, false⟩, ⟨0x496e74657276616c52656164696e6773, .many2many, 0x496e74657276616c426c6f636b73, 0, false⟩, ⟨0x4d6574657252656164696e67, .one2many, 0x496e74657276616c426c6f636b73, 0, false⟩, ⟨0x50656e64696e6743616c63756c6174696f6e, .one2many, 0x496e74657276616c426c6f636b73, 0, false⟩],
  [0x496e74657276616c52656164696e6773]⟩
def m_IntervalBlock : List RClass := d_IntervalBlock :: m_Element

/-- CIM15/IEC61968/Metering/PendingCalculation.py:23 -/
def d_PendingCalculation : RClass := ⟨0x50656e64696e6743616c63756c6174696f6e, 0x43494d31352e49454336313936382e4d65746572696e672e50656e64696e6743616c63756c6174696f6e, 0x43494d31352e456c656d656e74,
  [(0x7363616c61724e756d657261746f72, .int 0), (0x6d756c7469706c794265666f7265416464, .bool false), (0x7363616c617244656e6f6d696e61746f72, .int 0), (0x7363616c6172466c6f6174, .flt 0x0), (0x6f6666736574, .int 0)],
  [0x7363616c61724e756d657261746f72, 0x6d756c7469706c794265666f7265416464, 0x7363616c617244656e6f6d696e61746f72, 0x7363616c6172466c6f6174, 0x6f6666736574],
  [(0x7363616c61724e756d657261746f72, .int 0), (0x6d756c7469706c794265666f7265416464, .bool false), (0x7363616c617244656e6f6d696e61746f72, .int 0), (0x7363616c6172466c6f6174, .flt 0x0), (0x6f6666736574, .int 0)],
  [(0x7363616c61724e756d657261746f72, 0x696e74), (0x6d756c7469706c794265666f7265416464, 0x626f6f6c), (0x7363616c617244656e6f6d696e61746f72, 0x696e74), (0x7363616c6172466c6f6174, 0x666c6f6174), (0x6f6666736574, 0x696e74)],
  [],
  [⟨0x496e74657276616c426c6f636b73, .many2one, 0x50656e64696e6743616c63756c6174696f6e, 0, false⟩, ⟨0x52656164696e6754797065, .one2one, 0x50656e64696e6743616c63756c6174696f6e, 0, false⟩],
  [0x496e74657276616c426c6f636b73]⟩
def m_PendingCalculation : List RClass := d_PendingCalculation :: m_Element

/-- CIM15/IEC61968/Metering/ReadingQuality.py:23 -/
def d_ReadingQuality : RClass := ⟨0x52656164696e675175616c697479, 0x43494d31352e49454336313936382e4d65746572696e672e52656164696e675175616c697479, 0x43494d31352e456c656d656e74,
  [(0x7175616c697479, .str 0)],
  [0x7175616c697479],
  [(0x7175616c697479, .str 0)],
  [(0x7175616c697479, 0x737472)],
  [],
  [⟨0x52656164696e67, .one2many, 0x52656164696e675175616c6974696573, 0, false⟩, ⟨0x496e74657276616c52656164696e67, .one2many, 0x52656164696e675175616c6974696573, 0, false⟩],
  []⟩
def m_ReadingQuality : List RClass := d_ReadingQuality :: m_Element

/-- CIM15/IEC61968/PaymentMetering/Card.py:23 -/
def d_Card : RClass := ⟨0x43617264, 0x43494d31352e49454336313936382e5061796d656e744d65746572696e672e43617264, 0x43494d31352e456c656d656e74,
  [(0x63764e756d626572, .str 0), (0x65787069727944617465, .str 0), (0x70616e, .str 0), (0x6163636f756e74486f6c6465724e616d65, .str 0)],
  [0x63764e756d626572, 0x65787069727944617465, 0x70616e, 0x6163636f756e74486f6c6465724e616d65],
  [(0x63764e756d626572, .str 0), (0x65787069727944617465, .str 0), (0x70616e, .str 0), (0x6163636f756e74486f6c6465724e616d65, .str 0)],
  [(0x63764e756d626572, 0x737472), (0x65787069727944617465, 0x737472), (0x70616e, 0x737472), (0x6163636f756e74486f6c6465724e616d65, 0x737472)],
  [],
  [⟨0x54656e646572, .one2one, 0x43617264, 0, false⟩],
  []⟩
def m_Card : List RClass := d_Card :: m_Element

/-- CIM15/IEC61968/PaymentMetering/Cheque.py:23 -/
def d_Cheque : RClass := ⟨0x436865717565, 0x43494d31352e49454336313936382e5061796d656e744d65746572696e672e436865717565, 0x43494d31352e456c656d656e74,
  [(0x6d6963724e756d626572, .str 0), (0x6368657175654e756d626572, .str 0), (0x64617465, .str 0), (0x6b696e64, .str 0x6f74686572)],
  [0x6d6963724e756d626572, 0x6368657175654e756d626572, 0x64617465, 0x6b696e64],
  [(0x6d6963724e756d626572, .str 0), (0x6368657175654e756d626572, .str 0), (0x64617465, .str 0), (0x6b696e64, .str 0x6f74686572)],
  [(0x6d6963724e756d626572, 0x737472), (0x6368657175654e756d626572, 0x737472), (0x64617465, 0x737472), (0x6b696e64, 0x737472)],
  [(0x6b696e64, 0x4368657175654b696e64)],
  [⟨0x54656e646572, .one2one, 0x436865717565, 0, false⟩, ⟨0x62616e6b4163636f756e7444657461696c, .plainOne, 0, 0, false⟩],
  []⟩
def m_Cheque : List RClass := d_Cheque :: m_Element

/-- CIM15/IEC61968/PaymentMetering/ConsumptionTariffInterval.py:23 -/
def d_ConsumptionTariffInterval : RClass := ⟨0x436f6e73756d7074696f6e546172696666496e74657276616c, 0x43494d31352e49454336313936382e5061796d656e744d65746572696e672e436f6e73756d7074696f6e546172696666496e74657276616c, 0x43494d31352e456c656d656e74,
  [(0x737461727456616c7565, .flt 0x0), (0x73657175656e63654e756d626572, .int 0)],
  [0x737461727456616c7565, 0x73657175656e63654e756d626572],
  [(0x737461727456616c7565, .flt 0x0), (0x73657175656e63654e756d626572, .int 0)],
  [(0x737461727456616c7565, 0x666c6f6174), (0x73657175656e63654e756d626572, 0x696e74)],
  [],
  [⟨0x43686172676573, .many2many, 0x436f6e73756d7074696f6e546172696666496e74657276616c73, 0, false⟩, ⟨0x54617269666650726f66696c6573, .many2many, 0x436f6e73756d7074696f6e546172696666496e74657276616c73, 0, false⟩, ⟨0x546f75546172696666496e74657276616c73, .many2many, 0x436f6e73756d7074696f6e546172696666496e74657276616c73, 0, false⟩],
  [0x43686172676573, 0x54617269666650726f66696c6573, 0x546f75546172696666496e74657276616c73]⟩
def m_ConsumptionTariffInterval : List RClass := d_ConsumptionTariffInterval :: m_Element

/-- CIM15/IEC61968/PaymentMetering/TimeTariffInterval.py:23 -/
def d_TimeTariffInterval : RClass := ⟨0x54696d65546172696666496e74657276616c, 0x43494d31352e49454336313936382e5061796d656e744d65746572696e672e54696d65546172696666496e74657276616c, 0x43494d31352e456c656d656e74,
  [(0x73746172744461746554696d65, .str 0), (0x73657175656e63654e756d626572, .int 0)],
  [0x73746172744461746554696d65, 0x73657175656e63654e756d626572],
  [(0x73746172744461746554696d65, .str 0), (0x73657175656e63654e756d626572, .int 0)],
  [(0x73746172744461746554696d65, 0x737472), (0x73657175656e63654e756d626572, 0x696e74)],
  [],
  [⟨0x436f6e73756d7074696f6e546172696666496e74657276616c73, .many2many, 0x546f75546172696666496e74657276616c73, 0, false⟩, ⟨0x54617269666650726f66696c6573, .many2many, 0x54696d65546172696666496e74657276616c73, 0, false⟩, ⟨0x43686172676573, .many2many, 0x54696d65546172696666496e74657276616c73, 0, false⟩],
  [0x436f6e73756d7074696f6e546172696666496e74657276616c73, 0x54617269666650726f66696c6573, 0x43686172676573]⟩
def m_TimeTariffInterval : List RClass := d_TimeTariffInterval :: m_Element

/-- CIM15/IEC61970/ControlArea/AltGeneratingUnitMeas.py:23 -/
def d_AltGeneratingUnitMeas : RClass := ⟨0x416c7447656e65726174696e67556e69744d656173, 0x43494d31352e49454336313937302e436f6e74726f6c417265612e416c7447656e65726174696e67556e69744d656173, 0x43494d31352e456c656d656e74,
  [(0x7072696f72697479, .int 0)],
  [0x7072696f72697479],
  [(0x7072696f72697479, .int 0)],
  [(0x7072696f72697479, 0x696e74)],
  [],
  [⟨0x416e616c6f6756616c7565, .one2many, 0x416c7447656e65726174696e67556e6974, 0, false⟩, ⟨0x436f6e74726f6c4172656147656e65726174696e67556e6974, .one2many, 0x416c7447656e65726174696e67556e69744d656173, 0, false⟩],
  []⟩
def m_AltGeneratingUnitMeas : List RClass := d_AltGeneratingUnitMeas :: m_Element

/-- CIM15/IEC61970/ControlArea/AltTieMeas.py:23 -/
def d_AltTieMeas : RClass := ⟨0x416c745469654d656173, 0x43494d31352e49454336313937302e436f6e74726f6c417265612e416c745469654d656173, 0x43494d31352e456c656d656e74,
  [(0x7072696f72697479, .int 0)],
  [0x7072696f72697479],
  [(0x7072696f72697479, .int 0)],
  [(0x7072696f72697479, 0x696e74)],
  [],
  [⟨0x416e616c6f6756616c7565, .one2many, 0x416c745469654d656173, 0, false⟩, ⟨0x546965466c6f77, .one2many, 0x416c745469654d656173, 0, false⟩],
  []⟩
def m_AltTieMeas : List RClass := d_AltTieMeas :: m_Element

/-- CIM15/IEC61970/ControlArea/ControlAreaGeneratingUnit.py:23 -/
def d_ControlAreaGeneratingUnit : RClass := ⟨0x436f6e74726f6c4172656147656e65726174696e67556e6974, 0x43494d31352e49454336313937302e436f6e74726f6c417265612e436f6e74726f6c4172656147656e65726174696e67556e6974, 0x43494d31352e456c656d656e74,
  [],
  [],
  [],
  [],
  [],
  [⟨0x416c7447656e65726174696e67556e69744d656173, .many2one, 0x436f6e74726f6c4172656147656e65726174696e67556e6974, 0, false⟩, ⟨0x47656e65726174696e67556e6974, .one2many, 0x436f6e74726f6c4172656147656e65726174696e67556e6974, 0, false⟩, ⟨0x436f6e74726f6c41726561, .one2many, 0x436f6e74726f6c4172656147656e65726174696e67556e6974, 0, false⟩],
  [0x416c7447656e65726174696e67556e69744d656173]⟩
def m_ControlAreaGeneratingUnit : List RClass := d_ControlAreaGeneratingUnit :: m_Element

/-- CIM15/IEC61970/ControlArea/TieFlow.py:23 -/
def d_TieFlow : RClass := ⟨0x546965466c6f77, 0x43494d31352e49454336313937302e436f6e74726f6c417265612e546965466c6f77, 0x43494d31352e456c656d656e74,
  [(0x706f736974697665466c6f77496e, .bool false)],
  [0x706f736974697665466c6f77496e],
  [(0x706f736974697665466c6f77496e, .bool false)],
  [(0x706f736974697665466c6f77496e, 0x626f6f6c)],
  [],
  [⟨0x416c745469654d656173, .many2one, 0x546965466c6f77, 0, false⟩, ⟨0x5465726d696e616c, .one2many, 0x546965466c6f77, 0, false⟩, ⟨0x436f6e74726f6c41726561, .one2many, 0x546965466c6f77, 0, false⟩],
  [0x416c745469654d656173]⟩
def m_TieFlow : List RClass := d_TieFlow :: m_Element

/-- CIM15/IEC61970/Core/CurveData.py:23 -/
def d_CurveData : RClass := ⟨0x437572766544617461, 0x43494d31352e49454336313937302e436f72652e437572766544617461, 0x43494d31352e456c656d656e74,
  [(0x793376616c7565, .flt 0x0), (0x7876616c7565, .flt 0x0), (0x793276616c7565, .flt 0x0), (0x793176616c7565, .flt 0x0)],
  [0x793376616c7565, 0x7876616c7565, 0x793276616c7565, 0x793176616c7565],
  [(0x793376616c7565, .flt 0x0), (0x7876616c7565, .flt 0x0), (0x793276616c7565, .flt 0x0), (0x793176616c7565, .flt 0x0)],
  [(0x793376616c7565, 0x666c6f6174), (0x7876616c7565, 0x666c6f6174), (0x793276616c7565, 0x666c6f6174), (0x793176616c7565, 0x666c6f6174)],
  [],
  [⟨0x4375727665, .one2many, 0x43757276654461746173, 0, false⟩],
  []⟩
def m_CurveData : List RClass := d_CurveData :: m_Element

/-- CIM15/IEC61970/Core/IdentifiedObject.py:23 -/
def d_IdentifiedObject : RClass := ⟨0x4964656e7469666965644f626a656374, 0x43494d31352e49454336313937302e436f72652e4964656e7469666965644f626a656374, 0x43494d31352e456c656d656e74,
  [(0x6d524944, .str 0), (0x616c6961734e616d65, .str 0), (0x6e616d65, .str 0)],
  [0x6d524944, 0x616c6961734e616d65, 0x6e616d65],
  [(0x6d524944, .str 0), (0x616c6961734e616d65, .str 0), (0x6e616d65, .str 0)],
  [(0x6d524944, 0x737472), (0x616c6961734e616d65, 0x737472), (0x6e616d65, 0x737472)],
  [],
  [⟨0x4e616d6573, .many2one, 0x4964656e7469666965644f626a656374, 0, false⟩, ⟨0x4469616772616d4f626a65637473, .many2one, 0x4964656e7469666965644f626a656374, 0, false⟩, ⟨0x4d6f64656c696e67417574686f72697479536574, .one2many, 0x4964656e7469666965644f626a65637473, 0, false⟩],
  [0x4e616d6573, 0x4469616772616d4f626a65637473]⟩
def m_IdentifiedObject : List RClass := d_IdentifiedObject :: m_Element

/-- CIM15/IEC61970/Core/IrregularTimePoint.py:23 -/
def d_IrregularTimePoint : RClass := ⟨0x4972726567756c617254696d65506f696e74, 0x43494d31352e49454336313937302e436f72652e4972726567756c617254696d65506f696e74, 0x43494d31352e456c656d656e74,
  [(0x74696d65, .flt 0x0), (0x76616c756531, .flt 0x0), (0x76616c756532, .flt 0x0)],
  [0x74696d65, 0x76616c756531, 0x76616c756532],
  [(0x74696d65, .flt 0x0), (0x76616c756531, .flt 0x0), (0x76616c756532, .flt 0x0)],
  [(0x74696d65, 0x666c6f6174), (0x76616c756531, 0x666c6f6174), (0x76616c756532, 0x666c6f6174)],
  [],
  [⟨0x496e74657276616c5363686564756c65, .one2many, 0x54696d65506f696e7473, 0, false⟩],
  []⟩
def m_IrregularTimePoint : List RClass := d_IrregularTimePoint :: m_Element

/-- CIM15/IEC61970/Core/Name.py:23 -/
def d_Name : RClass := ⟨0x4e616d65, 0x43494d31352e49454336313937302e436f72652e4e616d65, 0x43494d31352e456c656d656e74,
  [(0x6e616d65, .str 0)],
  [0x6e616d65],
  [(0x6e616d65, .str 0)],
  [(0x6e616d65, 0x737472)],
  [],
  [⟨0x4e616d6554797065, .one2many, 0x4e616d6573, 0, false⟩, ⟨0x4964656e7469666965644f626a656374, .one2many, 0x4e616d6573, 0, false⟩],
  []⟩
def m_Name : List RClass := d_Name :: m_Element

/-- CIM15/IEC61970/Core/NameType.py:23 -/
def d_NameType : RClass := ⟨0x4e616d6554797065, 0x43494d31352e49454336313937302e436f72652e4e616d6554797065, 0x43494d31352e456c656d656e74,
  [(0x6e616d65, .str 0), (0x6465736372697074696f6e, .str 0)],
  [0x6e616d65, 0x6465736372697074696f6e],
  [(0x6e616d65, .str 0), (0x6465736372697074696f6e, .str 0)],
  [(0x6e616d65, 0x737472), (0x6465736372697074696f6e, 0x737472)],
  [],
  [⟨0x4e616d6573, .many2one, 0x4e616d6554797065, 0, false⟩, ⟨0x4e616d6554797065417574686f72697479, .one2many, 0x4e616d655479706573, 0, false⟩],
  [0x4e616d6573]⟩
def m_NameType : List RClass := d_NameType :: m_Element

/-- CIM15/IEC61970/Core/NameTypeAuthority.py:23 -/
def d_NameTypeAuthority : RClass := ⟨0x4e616d6554797065417574686f72697479, 0x43494d31352e49454336313937302e436f72652e4e616d6554797065417574686f72697479, 0x43494d31352e456c656d656e74,
  [(0x6e616d65, .str 0), (0x6465736372697074696f6e, .str 0)],
  [0x6e616d65, 0x6465736372697074696f6e],
  [(0x6e616d65, .str 0), (0x6465736372697074696f6e, .str 0)],
  [(0x6e616d65, 0x737472), (0x6465736372697074696f6e, 0x737472)],
  [],
  [⟨0x4e616d655479706573, .many2one, 0x4e616d6554797065417574686f72697479, 0, false⟩],
  [0x4e616d655479706573]⟩
def m_NameTypeAuthority : List RClass := d_NameTypeAuthority :: m_Element

/-- CIM15/IEC61970/Core/OperatingShare.py:23 -/
def d_OperatingShare : RClass := ⟨0x4f7065726174696e675368617265, 0x43494d31352e49454336313937302e436f72652e4f7065726174696e675368617265, 0x43494d31352e456c656d656e74,
  [(0x70657263656e74616765, .flt 0x0)],
  [0x70657263656e74616765],
  [(0x70657263656e74616765, .flt 0x0)],
  [(0x70657263656e74616765, 0x666c6f6174)],
  [],
  [⟨0x506f77657253797374656d5265736f75726365, .one2many, 0x4f7065726174696e675368617265, 0, false⟩, ⟨0x4f7065726174696e675061727469636970616e74, .one2many, 0x4f7065726174696e675368617265, 0, false⟩],
  []⟩
def m_OperatingShare : List RClass := d_OperatingShare :: m_Element

/-- CIM15/IEC61970/Core/RegularTimePoint.py:23 -/
def d_RegularTimePoint : RClass := ⟨0x526567756c617254696d65506f696e74, 0x43494d31352e49454336313937302e436f72652e526567756c617254696d65506f696e74, 0x43494d31352e456c656d656e74,
  [(0x76616c756532, .flt 0x0), (0x76616c756531, .flt 0x0), (0x73657175656e63654e756d626572, .int 0)],
  [0x76616c756532, 0x76616c756531, 0x73657175656e63654e756d626572],
  [(0x76616c756532, .flt 0x0), (0x76616c756531, .flt 0x0), (0x73657175656e63654e756d626572, .int 0)],
  [(0x76616c756532, 0x666c6f6174), (0x76616c756531, 0x666c6f6174), (0x73657175656e63654e756d626572, 0x696e74)],
  [],
  [⟨0x496e74657276616c5363686564756c65, .one2many, 0x54696d65506f696e7473, 0, false⟩],
  []⟩
def m_RegularTimePoint : List RClass := d_RegularTimePoint :: m_Element

/-- CIM15/IEC61970/Graphics/DiagramObjectGluePoint.py:23 -/
def d_DiagramObjectGluePoint : RClass := ⟨0x4469616772616d4f626a656374476c7565506f696e74, 0x43494d31352e49454336313937302e47726170686963732e4469616772616d4f626a656374476c7565506f696e74, 0x43494d31352e456c656d656e74,
  [],
  [],
  [],
  [],
  [],
  [⟨0x4469616772616d4f626a656374506f696e7473, .many2one, 0x4469616772616d4f626a656374476c7565506f696e74, 0, false⟩],
  [0x4469616772616d4f626a656374506f696e7473]⟩
def m_DiagramObjectGluePoint : List RClass := d_DiagramObjectGluePoint :: m_Element

/-- CIM15/IEC61970/Graphics/DiagramObjectPoint.py:23 -/
def d_DiagramObjectPoint : RClass := ⟨0x4469616772616d4f626a656374506f696e74, 0x43494d31352e49454336313937302e47726170686963732e4469616772616d4f626a656374506f696e74, 0x43494d31352e456c656d656e74,
  [(0x73657175656e63654e756d626572, .int 0), (0x78506f736974696f6e, .flt 0x0), (0x79506f736974696f6e, .flt 0x0), (0x7a506f736974696f6e, .flt 0x0)],
  [0x73657175656e63654e756d626572, 0x78506f736974696f6e, 0x79506f736974696f6e, 0x7a506f736974696f6e],
  [(0x73657175656e63654e756d626572, .int 0), (0x78506f736974696f6e, .flt 0x0), (0x79506f736974696f6e, .flt 0x0), (0x7a506f736974696f6e, .flt 0x0)],
  [(0x73657175656e63654e756d626572, 0x696e74), (0x78506f736974696f6e, 0x666c6f6174), (0x79506f736974696f6e, 0x666c6f6174), (0x7a506f736974696f6e, 0x666c6f6174)],
  [],
  [⟨0x4469616772616d4f626a656374476c7565506f696e74, .one2many, 0x4469616772616d4f626a656374506f696e7473, 0, false⟩, ⟨0x4469616772616d4f626a656374, .one2many, 0x4469616772616d4f626a656374506f696e7473, 0, false⟩],
  []⟩
def m_DiagramObjectPoint : List RClass := d_DiagramObjectPoint :: m_Element

/-- CIM15/IEC61970/IEC61970CIMVersion.py:23 -/
def d_IEC61970CIMVersion : RClass := ⟨0x494543363139373043494d56657273696f6e, 0x43494d31352e49454336313937302e494543363139373043494d56657273696f6e, 0x43494d31352e456c656d656e74,
  [(0x64617465, .str 0), (0x76657273696f6e, .str 0)],
  [0x64617465, 0x76657273696f6e],
  [(0x64617465, .str 0), (0x76657273696f6e, .str 0)],
  [(0x64617465, 0x737472), (0x76657273696f6e, 0x737472)],
  [],
  [],
  []⟩
def m_IEC61970CIMVersion : List RClass := d_IEC61970CIMVersion :: m_Element

/-- CIM15/IEC61970/Informative/InfGMLSupport/GmlObservation.py:23 -/
def d_GmlObservation : RClass := ⟨0x476d6c4f62736572766174696f6e, 0x43494d31352e49454336313937302e496e666f726d61746976652e496e66474d4c537570706f72742e476d6c4f62736572766174696f6e, 0x43494d31352e456c656d656e74,
  [(0x726573756c744f66, .str 0), (0x746172676574, .str 0), (0x7573696e67, .str 0), (0x6461746554696d65, .str 0)],
  [0x726573756c744f66, 0x746172676574, 0x7573696e67, 0x6461746554696d65],
  [(0x726573756c744f66, .str 0), (0x746172676574, .str 0), (0x7573696e67, .str 0), (0x6461746554696d65, .str 0)],
  [(0x726573756c744f66, 0x737472), (0x746172676574, 0x737472), (0x7573696e67, 0x737472), (0x6461746554696d65, 0x737472)],
  [],
  [⟨0x476d6c4469616772616d4f626a65637473, .many2many, 0x476d6c4f62736572766174696e73, 0, false⟩, ⟨0x4368616e67654974656d73, .many2one, 0x476d6c4f62736572766174696f6e, 0, false⟩, ⟨0x476d6c56616c756573, .many2one, 0x476d6c4f62736572766174696f6e, 0, false⟩],
  [0x476d6c4469616772616d4f626a65637473, 0x4368616e67654974656d73, 0x476d6c56616c756573]⟩
def m_GmlObservation : List RClass := d_GmlObservation :: m_Element

/-- CIM15/IEC61970/Informative/InfLocations/Direction.py:23 -/
def d_Direction : RClass := ⟨0x446972656374696f6e, 0x43494d31352e49454336313937302e496e666f726d61746976652e496e664c6f636174696f6e732e446972656374696f6e, 0x43494d31352e456c656d656e74,
  [(0x646972656374696f6e496e666f, .str 0)],
  [0x646972656374696f6e496e666f],
  [(0x646972656374696f6e496e666f, .str 0)],
  [(0x646972656374696f6e496e666f, 0x737472)],
  [],
  [⟨0x4c6f636174696f6e, .one2many, 0x446972656374696f6e73, 0, false⟩],
  []⟩
def m_Direction : List RClass := d_Direction :: m_Element

/-- CIM15/IEC61970/LoadModel/Season.py:23 -/
def d_Season : RClass := ⟨0x536561736f6e, 0x43494d31352e49454336313937302e4c6f61644d6f64656c2e536561736f6e, 0x43494d31352e456c656d656e74,
  [(0x6e616d65, .str 0x77696e746572), (0x737461727444617465, .str 0), (0x656e6444617465, .str 0)],
  [0x6e616d65, 0x737461727444617465, 0x656e6444617465],
  [(0x6e616d65, .str 0x77696e746572), (0x737461727444617465, .str 0), (0x656e6444617465, .str 0)],
  [(0x6e616d65, 0x737472), (0x737461727444617465, 0x737472), (0x656e6444617465, 0x737472)],
  [(0x6e616d65, 0x536561736f6e4e616d65)],
  [⟨0x536561736f6e446179547970655363686564756c6573, .many2one, 0x536561736f6e, 0, false⟩],
  [0x536561736f6e446179547970655363686564756c6573]⟩
def m_Season : List RClass := d_Season :: m_Element

/-- CIM15/IEC61970/Meas/Quality61850.py:23 -/
def d_Quality61850 : RClass := ⟨0x5175616c6974793631383530, 0x43494d31352e49454336313937302e4d6561732e5175616c6974793631383530, 0x43494d31352e456c656d656e74,
  [(0x6f766572466c6f77, .bool false), (0x657374696d61746f725265706c61636564, .bool false), (0x76616c6964697479, .str 0x5155455354494f4e41424c45), (0x6f70657261746f72426c6f636b6564, .bool false), (0x6f6c6444617461, .bool false), (0x6661696c757265, .bool false), (0x736f75726365, .str 0x5355425354495455544544), (0x6f75744f6652616e6765, .bool false), (0x6261645265666572656e6365, .bool false), (0x73757370656374, .bool false), (0x74657374, .bool false), (0x6f7363696c6c61746f7279, .bool false)],
  [0x6f766572466c6f77, 0x657374696d61746f725265706c61636564, 0x76616c6964697479, 0x6f70657261746f72426c6f636b6564, 0x6f6c6444617461, 0x6661696c757265, 0x736f75726365, 0x6f75744f6652616e6765, 0x6261645265666572656e6365, 0x73757370656374, 0x74657374, 0x6f7363696c6c61746f7279],
  [(0x6f766572466c6f77, .bool false), (0x657374696d61746f725265706c61636564, .bool false), (0x76616c6964697479, .str 0x5155455354494f4e41424c45), (0x6f70657261746f72426c6f636b6564, .bool false), (0x6f6c6444617461, .bool false), (0x6661696c757265, .bool false), (0x736f75726365, .str 0x5355425354495455544544), (0x6f75744f6652616e6765, .bool false), (0x6261645265666572656e6365, .bool false), (0x73757370656374, .bool false), (0x74657374, .bool false), (0x6f7363696c6c61746f7279, .bool false)],
  [(0x6f766572466c6f77, 0x626f6f6c), (0x657374696d61746f725265706c61636564, 0x626f6f6c), (0x76616c6964697479, 0x737472), (0x6f70657261746f72426c6f636b6564, 0x626f6f6c), (0x6f6c6444617461, 0x626f6f6c), (0x6661696c757265, 0x626f6f6c), (0x736f75726365, 0x737472), (0x6f75744f6652616e6765, 0x626f6f6c), (0x6261645265666572656e6365, 0x626f6f6c), (0x73757370656374, 0x626f6f6c), (0x74657374, 0x626f6f6c), (0x6f7363696c6c61746f7279, 0x626f6f6c)],
  [(0x76616c6964697479, 0x56616c6964697479), (0x736f75726365, 0x536f75726365)],
  [],
  []⟩
def m_Quality61850 : List RClass := d_Quality61850 :: m_Element

/-- CIM15/IEC61970/OperationalLimits/BranchGroupTerminal.py:23 -/
def d_BranchGroupTerminal : RClass := ⟨0x4272616e636847726f75705465726d696e616c, 0x43494d31352e49454336313937302e4f7065726174696f6e616c4c696d6974732e4272616e636847726f75705465726d696e616c, 0x43494d31352e456c656d656e74,
  [(0x706f736974697665466c6f77496e, .bool false)],
  [0x706f736974697665466c6f77496e],
  [(0x706f736974697665466c6f77496e, .bool false)],
  [(0x706f736974697665466c6f77496e, 0x626f6f6c)],
  [],
  [⟨0x4272616e636847726f7570, .one2many, 0x4272616e636847726f75705465726d696e616c, 0, false⟩, ⟨0x5465726d696e616c, .one2many, 0x4272616e636847726f75705465726d696e616c, 0, false⟩],
  []⟩
def m_BranchGroupTerminal : List RClass := d_BranchGroupTerminal :: m_Element

/-- CIM15/IEC61970/StateVariables/StateVariable.py:23 -/
def d_StateVariable : RClass := ⟨0x53746174655661726961626c65, 0x43494d31352e49454336313937302e53746174655661726961626c65732e53746174655661726961626c65, 0x43494d31352e456c656d656e74,
  [],
  [],
  [],
  [],
  [],
  [],
  []⟩
def m_StateVariable : List RClass := d_StateVariable :: m_Element

/-- CIM15/IEC61970/Wires/PhaseImpedanceData.py:23 -/
def d_PhaseImpedanceData : RClass := ⟨0x5068617365496d706564616e636544617461, 0x43494d31352e49454336313937302e57697265732e5068617365496d706564616e636544617461, 0x43494d31352e456c656d656e74,
  [(0x72, .flt 0x0), (0x78, .flt 0x0), (0x62, .flt 0x0), (0x73657175656e63654e756d626572, .int 0)],
  [0x72, 0x78, 0x62, 0x73657175656e63654e756d626572],
  [(0x72, .flt 0x0), (0x78, .flt 0x0), (0x62, .flt 0x0), (0x73657175656e63654e756d626572, .int 0)],
  [(0x72, 0x666c6f6174), (0x78, 0x666c6f6174), (0x62, 0x666c6f6174), (0x73657175656e63654e756d626572, 0x696e74)],
  [],
  [⟨0x5068617365496d706564616e6365, .one2many, 0x5068617365496d706564616e636544617461, 0, false⟩],
  []⟩
def m_PhaseImpedanceData : List RClass := d_PhaseImpedanceData :: m_Element

/-- CIM15/IEC61970/Wires/PhaseTapChangerTabular.py:23 -/
def d_PhaseTapChangerTabular : RClass := ⟨0x50686173655461704368616e676572546162756c6172, 0x43494d31352e49454336313937302e57697265732e50686173655461704368616e676572546162756c6172, 0x43494d31352e456c656d656e74,
  [],
  [],
  [],
  [],
  [],
  [⟨0x50686173655461704368616e676572546162756c6172506f696e74, .many2one, 0x50686173655461704368616e676572546162756c6172, 0, false⟩, ⟨0x50686173655461704368616e676572, .many2one, 0x50686173655461704368616e676572546162756c6172, 0, false⟩],
  [0x50686173655461704368616e676572546162756c6172506f696e74, 0x50686173655461704368616e676572]⟩
def m_PhaseTapChangerTabular : List RClass := d_PhaseTapChangerTabular :: m_Element

/-- CIM15/IEC61970/Wires/PhaseTapChangerTabularPoint.py:23 -/
def d_PhaseTapChangerTabularPoint : RClass := ⟨0x50686173655461704368616e676572546162756c6172506f696e74, 0x43494d31352e49454336313937302e57697265732e50686173655461704368616e676572546162756c6172506f696e74, 0x43494d31352e456c656d656e74,
  [(0x78, .flt 0x0), (0x73746570, .int 0), (0x616e676c65, .flt 0x0)],
  [0x78, 0x73746570, 0x616e676c65],
  [(0x78, .flt 0x0), (0x73746570, .int 0), (0x616e676c65, .flt 0x0)],
  [(0x78, 0x666c6f6174), (0x73746570, 0x696e74), (0x616e676c65, 0x666c6f6174)],
  [],
  [⟨0x50686173655461704368616e676572546162756c6172, .one2many, 0x50686173655461704368616e676572546162756c6172506f696e74, 0, false⟩],
  []⟩
def m_PhaseTapChangerTabularPoint : List RClass := d_PhaseTapChangerTabularPoint :: m_Element

/-- CIM15/IEC61970/Wires/RatioTapChangerTabular.py:23 -/
def d_RatioTapChangerTabular : RClass := ⟨0x526174696f5461704368616e676572546162756c6172, 0x43494d31352e49454336313937302e57697265732e526174696f5461704368616e676572546162756c6172, 0x43494d31352e456c656d656e74,
  [],
  [],
  [],
  [],
  [],
  [⟨0x526174696f5461704368616e676572546162756c6172506f696e74, .many2one, 0x526174696f5461704368616e676572546162756c6172, 0, false⟩, ⟨0x526174696f5461704368616e676572, .many2one, 0x526174696f5461704368616e676572546162756c6172, 0, false⟩],
  [0x526174696f5461704368616e676572546162756c6172506f696e74, 0x526174696f5461704368616e676572]⟩
def m_RatioTapChangerTabular : List RClass := d_RatioTapChangerTabular :: m_Element

/-- CIM15/IEC61970/Wires/RatioTapChangerTabularPoint.py:23 -/
def d_RatioTapChangerTabularPoint : RClass := ⟨0x526174696f5461704368616e676572546162756c6172506f696e74, 0x43494d31352e49454336313937302e57697265732e526174696f5461704368616e676572546162756c6172506f696e74, 0x43494d31352e456c656d656e74,
  [(0x78, .flt 0x0), (0x726174696f, .flt 0x0), (0x73746570, .int 0)],
  [0x78, 0x726174696f, 0x73746570],
  [(0x78, .flt 0x0), (0x726174696f, .flt 0x0), (0x73746570, .int 0)],
  [(0x78, 0x666c6f6174), (0x726174696f, 0x666c6f6174), (0x73746570, 0x696e74)],
  [],
  [⟨0x526174696f5461704368616e676572546162756c6172, .one2many, 0x526174696f5461704368616e676572546162756c6172506f696e74, 0, false⟩],
  []⟩
def m_RatioTapChangerTabularPoint : List RClass := d_RatioTapChangerTabularPoint :: m_Element

/-- CIM15/IEC62325/IEC62325CIMVersion.py:23 -/
def d_IEC62325CIMVersion : RClass := ⟨0x494543363233323543494d56657273696f6e, 0x43494d31352e49454336323332352e494543363233323543494d56657273696f6e, 0x43494d31352e456c656d656e74,
  [(0x64617465, .str 0), (0x76657273696f6e, .str 0)],
  [0x64617465, 0x76657273696f6e],
  [(0x64617465, .str 0), (0x76657273696f6e, .str 0)],
  [(0x64617465, 0x737472), (0x76657273696f6e, 0x737472)],
  [],
  [],
  []⟩
def m_IEC62325CIMVersion : List RClass := d_IEC62325CIMVersion :: m_Element

/-- CIM15/Package.py:23 -/
def d_Package : RClass := ⟨0x5061636b616765, 0x43494d31352e5061636b616765, 0x43494d31352e456c656d656e74,
  [],
  [],
  [],
  [],
  [],
  [],
  []⟩
def m_Package : List RClass := d_Package :: m_Element

/-- CIM15/PackageDependencies/PackageDependenciesCIMVeresion.py:23 -/
def d_PackageDependenciesCIMVeresion : RClass := ⟨0x5061636b616765446570656e64656e6369657343494d5665726573696f6e, 0x43494d31352e5061636b616765446570656e64656e636965732e5061636b616765446570656e64656e6369657343494d5665726573696f6e, 0x43494d31352e456c656d656e74,
  [(0x766573696f6e, .str 0), (0x64617465, .str 0)],
  [0x766573696f6e, 0x64617465],
  [(0x766573696f6e, .str 0), (0x64617465, .str 0)],
  [(0x766573696f6e, 0x737472), (0x64617465, 0x737472)],
  [],
  [],
  []⟩
def m_PackageDependenciesCIMVeresion : List RClass := d_PackageDependenciesCIMVeresion :: m_Element

/-- CIM15/Stereotype.py:23 -/
def d_Stereotype : RClass := ⟨0x53746572656f74797065, 0x43494d31352e53746572656f74797065, 0x43494d31352e456c656d656e74,
  [],
  [],
  [],
  [],
  [],
  [],
  []⟩
def m_Stereotype : List RClass := d_Stereotype :: m_Element

/-- CIM15/IEC61968/AssetModels/TransformerTest.py:23 -/
def d_TransformerTest : RClass := ⟨0x5472616e73666f726d657254657374, 0x43494d31352e49454336313936382e41737365744d6f64656c732e5472616e73666f726d657254657374, 0x43494d31352e49454336313937302e436f72652e4964656e7469666965644f626a656374,
  [(0x62617365506f776572, .flt 0x0), (0x74656d7065726174757265, .flt 0x0)],
  [0x62617365506f776572, 0x74656d7065726174757265],
  [(0x62617365506f776572, .flt 0x0), (0x74656d7065726174757265, .flt 0x0)],
  [(0x62617365506f776572, 0x666c6f6174), (0x74656d7065726174757265, 0x666c6f6174)],
  [],
  [],
  []⟩
def m_TransformerTest : List RClass := d_TransformerTest :: m_IdentifiedObject

/-- CIM15/IEC61968/AssetModels/WireArrangement.py:23 -/
def d_WireArrangement : RClass := ⟨0x57697265417272616e67656d656e74, 0x43494d31352e49454336313936382e41737365744d6f64656c732e57697265417272616e67656d656e74, 0x43494d31352e49454336313937302e436f72652e4964656e7469666965644f626a656374,
  [(0x6d6f756e74696e67506f696e7459, .flt 0x0), (0x6d6f756e74696e67506f696e7458, .flt 0x0), (0x706f736974696f6e, .int 0)],
  [0x6d6f756e74696e67506f696e7459, 0x6d6f756e74696e67506f696e7458, 0x706f736974696f6e],
  [(0x6d6f756e74696e67506f696e7459, .flt 0x0), (0x6d6f756e74696e67506f696e7458, .flt 0x0), (0x706f736974696f6e, .int 0)],
  [(0x6d6f756e74696e67506f696e7459, 0x666c6f6174), (0x6d6f756e74696e67506f696e7458, 0x666c6f6174), (0x706f736974696f6e, 0x696e74)],
  [],
  [⟨0x436f6e647563746f72496e666f, .one2many, 0x57697265417272616e67656d656e7473, 0, false⟩, ⟨0x5769726554797065, .one2many, 0x57697265417272616e67656d656e7473, 0, false⟩],
  []⟩
def m_WireArrangement : List RClass := d_WireArrangement :: m_IdentifiedObject

/-- CIM15/IEC61968/AssetModels/WireType.py:23 -/
def d_WireType : RClass := ⟨0x5769726554797065, 0x43494d31352e49454336313936382e41737365744d6f64656c732e5769726554797065, 0x43494d31352e49454336313937302e436f72652e4964656e7469666965644f626a656374,
  [(0x636f7265526164697573, .flt 0x0), (0x7241433530, .flt 0x0), (0x636f7265537472616e64436f756e74, .int 0), (0x726164697573, .flt 0x0), (0x6d6174657269616c, .str 0x616c756d696e756d), (0x7244433230, .flt 0x0), (0x73697a654465736372697074696f6e, .str 0), (0x7241433735, .flt 0x0), (0x676d72, .flt 0x0), (0x726174656443757272656e74, .flt 0x0), (0x737472616e64436f756e74, .int 0), (0x7241433235, .flt 0x0)],
  [0x636f7265526164697573, 0x7241433530, 0x636f7265537472616e64436f756e74, 0x726164697573, 0x6d6174657269616c, 0x7244433230, 0x73697a654465736372697074696f6e, 0x7241433735, 0x676d72, 0x726174656443757272656e74, 0x737472616e64436f756e74, 0x7241433235],
  [(0x636f7265526164697573, .flt 0x0), (0x7241433530, .flt 0x0), (0x636f7265537472616e64436f756e74, .int 0), (0x726164697573, .flt 0x0), (0x6d6174657269616c, .str 0x616c756d696e756d), (0x7244433230, .flt 0x0), (0x73697a654465736372697074696f6e, .str 0), (0x7241433735, .flt 0x0), (0x676d72, .flt 0x0), (0x726174656443757272656e74, .flt 0x0), (0x737472616e64436f756e74, .int 0), (0x7241433235, .flt 0x0)],
  [(0x636f7265526164697573, 0x666c6f6174), (0x7241433530, 0x666c6f6174), (0x636f7265537472616e64436f756e74, 0x696e74), (0x726164697573, 0x666c6f6174), (0x6d6174657269616c, 0x737472), (0x7244433230, 0x666c6f6174), (0x73697a654465736372697074696f6e, 0x737472), (0x7241433735, 0x666c6f6174), (0x676d72, 0x666c6f6174), (0x726174656443757272656e74, 0x666c6f6174), (0x737472616e64436f756e74, 0x696e74), (0x7241433235, 0x666c6f6174)],
  [(0x6d6174657269616c, 0x436f6e647563746f724d6174657269616c4b696e64)],
  [⟨0x57697265417272616e67656d656e7473, .many2one, 0x5769726554797065, 0, false⟩, ⟨0x436f6e63656e747269634e65757472616c4361626c65496e666f73, .many2one, 0x5769726554797065, 0, false⟩],
  [0x57697265417272616e67656d656e7473, 0x436f6e63656e747269634e65757472616c4361626c65496e666f73]⟩
def m_WireType : List RClass := d_WireType :: m_IdentifiedObject

/-- CIM15/IEC61968/Assets/Asset.py:23 -/
def d_Asset : RClass := ⟨0x4173736574, 0x43494d31352e49454336313936382e4173736574732e4173736574, 0x43494d31352e49454336313937302e436f72652e4964656e7469666965644f626a656374,
  [(0x636f72706f72617465436f6465, .str 0), (0x7574634e756d626572, .str 0), (0x696e697469616c436f6e646974696f6e, .str 0), (0x63617465676f7279, .str 0), (0x73657269616c4e756d626572, .str 0), (0x637269746963616c, .bool false), (0x6170706c69636174696f6e, .str 0), (0x70757263686173655072696365, .flt 0x0), (0x696e697469616c4c6f73734f664c696665, .flt 0x0), (0x6d616e75666163747572656444617465, .str 0), (0x696e7374616c6c6174696f6e44617465, .str 0), (0x6c6f744e756d626572, .str 0)],
  [0x636f72706f72617465436f6465, 0x7574634e756d626572, 0x696e697469616c436f6e646974696f6e, 0x63617465676f7279, 0x73657269616c4e756d626572, 0x637269746963616c, 0x6170706c69636174696f6e, 0x70757263686173655072696365, 0x696e697469616c4c6f73734f664c696665, 0x6d616e75666163747572656444617465, 0x696e7374616c6c6174696f6e44617465, 0x6c6f744e756d626572],
  [(0x636f72706f72617465436f6465, .str 0), (0x7574634e756d626572, .str 0), (0x696e697469616c436f6e646974696f6e, .str 0), (0x63617465676f7279, .str 0), (0x73657269616c4e756d626572, .str 0), (0x637269746963616c, .bool false), (0x6170706c69636174696f6e, .str 0), (0x70757263686173655072696365, .flt 0x0), (0x696e697469616c4c6f73734f664c696665, .flt 0x0), (0x6d616e75666163747572656444617465, .str 0), (0x696e7374616c6c6174696f6e44617465, .str 0), (0x6c6f744e756d626572, .str 0)],
  [(0x636f72706f72617465436f6465, 0x737472), (0x7574634e756d626572, 0x737472), (0x696e697469616c436f6e646974696f6e, 0x737472), (0x63617465676f7279, 0x737472), (0x73657269616c4e756d626572, 0x737472), (0x637269746963616c, 0x626f6f6c), (0x6170706c69636174696f6e, 0x737472), (0x70757263686173655072696365, 0x666c6f6174), (0x696e697469616c4c6f73734f664c696665, 0x666c6f6174), (0x6d616e75666163747572656444617465, 0x737472), (0x696e7374616c6c6174696f6e44617465, 0x737472), (0x6c6f744e756d626572, 0x737472)],
  [],
  [⟨0x446f63756d656e74526f6c6573, .many2one, 0x4173736574, 0, false⟩, ⟨0x4d656469756d73, .many2many, 0x417373657473, 0, false⟩, ⟨0x45727052656344656c69766572794974656d73, .many2many, 0x417373657473, 0, false⟩, ⟨0x526174696e6773, .many2many, 0x526174696e67417373657473, 0, false⟩, ⟨0x546f4173736574526f6c6573, .many2one, 0x46726f6d4173736574, 0, false⟩, ⟨0x656c656374726f6e696341646472657373, .plainOne, 0, 0, false⟩, ⟨0x46726f6d4173736574526f6c6573, .many2one, 0x546f4173736574, 0, false⟩, ⟨0x417373657446756e6374696f6e73, .many2one, 0x4173736574, 0, false⟩, ⟨0x4572704974656d4d6173746572, .one2one, 0x4173736574, 0, false⟩, ⟨0x457270496e76656e746f7279, .one2one, 0x4173736574, 0, false⟩, ⟨0x52656c696162696c697479496e666f73, .many2many, 0x417373657473, 0, false⟩, ⟨0x4173736574496e666f, .one2one, 0x417373657473, 0, false⟩, ⟨0x576f726b5461736b, .one2many, 0x417373657473, 0, false⟩, ⟨0x616363657074616e636554657374, .plainOne, 0, 0, false⟩, ⟨0x4572704f7267616e69736174696f6e526f6c6573, .many2one, 0x4173736574, 0, false⟩, ⟨0x5363686564756c65644576656e7473, .many2many, 0x417373657473, 0, false⟩, ⟨0x4173736574436f6e7461696e6572, .one2many, 0x417373657473, 0, false⟩, ⟨0x417373657450726f7065727479437572766573, .many2many, 0x417373657473, 0, false⟩, ⟨0x4368616e67654974656d73, .many2one, 0x4173736574, 0, false⟩, ⟨0x41637469766974795265636f726473, .many2many, 0x417373657473, 0, false⟩, ⟨0x4c6f636174696f6e, .one2many, 0x417373657473, 0, false⟩, ⟨0x737461747573, .plainOne, 0, 0, false⟩, ⟨0x506f77657253797374656d5265736f7572636573, .many2many, 0x417373657473, 0, false⟩, ⟨0x46696e616e6369616c496e666f, .one2one, 0x4173736574, 0, false⟩, ⟨0x50726f70657274696573, .many2many, 0x50726f7065727479417373657473, 0, false⟩, ⟨0x4d6561737572656d656e7473, .many2one, 0x4173736574, 0, false⟩],
  [0x446f63756d656e74526f6c6573, 0x4d656469756d73, 0x45727052656344656c69766572794974656d73, 0x526174696e6773, 0x546f4173736574526f6c6573, 0x46726f6d4173736574526f6c6573, 0x417373657446756e6374696f6e73, 0x52656c696162696c697479496e666f73, 0x4572704f7267616e69736174696f6e526f6c6573, 0x5363686564756c65644576656e7473, 0x417373657450726f7065727479437572766573, 0x4368616e67654974656d73, 0x41637469766974795265636f726473, 0x506f77657253797374656d5265736f7572636573, 0x50726f70657274696573, 0x4d6561737572656d656e7473]⟩
def m_Asset : List RClass := d_Asset :: m_IdentifiedObject

/-- CIM15/IEC61968/Assets/AssetFunction.py:23 -/
def d_AssetFunction : RClass := ⟨0x417373657446756e6374696f6e, 0x43494d31352e49454336313936382e4173736574732e417373657446756e6374696f6e, 0x43494d31352e49454336313937302e436f72652e4964656e7469666965644f626a656374,
  [(0x70617373776f7264, .str 0), (0x68617264776172654944, .str 0), (0x6669726d776172654944, .str 0), (0x70726f6772616d4944, .str 0), (0x636f6e6669674944, .str 0)],
  [0x70617373776f7264, 0x68617264776172654944, 0x6669726d776172654944, 0x70726f6772616d4944, 0x636f6e6669674944],
  [(0x70617373776f7264, .str 0), (0x68617264776172654944, .str 0), (0x6669726d776172654944, .str 0), (0x70726f6772616d4944, .str 0), (0x636f6e6669674944, .str 0)],
  [(0x70617373776f7264, 0x737472), (0x68617264776172654944, 0x737472), (0x6669726d776172654944, 0x737472), (0x70726f6772616d4944, 0x737472), (0x636f6e6669674944, 0x737472)],
  [],
  [⟨0x4173736574, .one2many, 0x417373657446756e6374696f6e73, 0, false⟩],
  []⟩
def m_AssetFunction : List RClass := d_AssetFunction :: m_IdentifiedObject

/-- CIM15/IEC61968/Assets/AssetInfo.py:23 -/
def d_AssetInfo : RClass := ⟨0x4173736574496e666f, 0x43494d31352e49454336313936382e4173736574732e4173736574496e666f, 0x43494d31352e49454336313937302e436f72652e4964656e7469666965644f626a656374,
  [],
  [],
  [],
  [],
  [],
  [⟨0x417373657473, .one2one, 0x4173736574496e666f, 0, false⟩, ⟨0x44696d656e73696f6e73496e666f, .one2many, 0x4173736574496e666f73, 0, false⟩, ⟨0x41737365744d6f64656c, .one2one, 0x4173736574496e666f, 0, false⟩],
  []⟩
def m_AssetInfo : List RClass := d_AssetInfo :: m_IdentifiedObject

/-- CIM15/IEC61968/Assets/AssetModel.py:23 -/
def d_AssetModel : RClass := ⟨0x41737365744d6f64656c, 0x43494d31352e49454336313936382e4173736574732e41737365744d6f64656c, 0x43494d31352e49454336313937302e436f72652e4964656e7469666965644f626a656374,
  [],
  [],
  [],
  [],
  [],
  [⟨0x4173736574496e666f, .one2one, 0x41737365744d6f64656c, 0, false⟩, ⟨0x457270496e76656e746f7279436f756e7473, .many2one, 0x41737365744d6f64656c, 0, false⟩],
  [0x457270496e76656e746f7279436f756e7473]⟩
def m_AssetModel : List RClass := d_AssetModel :: m_IdentifiedObject

/-- CIM15/IEC61968/Assets/Seal.py:23 -/
def d_Seal : RClass := ⟨0x5365616c, 0x43494d31352e49454336313936382e4173736574732e5365616c, 0x43494d31352e49454336313937302e436f72652e4964656e7469666965644f626a656374,
  [(0x6170706c6965644461746554696d65, .str 0), (0x7365616c4e756d626572, .str 0), (0x6b696e64, .str 0x6c656164), (0x636f6e646974696f6e, .str 0x6f70656e)],
  [0x6170706c6965644461746554696d65, 0x7365616c4e756d626572, 0x6b696e64, 0x636f6e646974696f6e],
  [(0x6170706c6965644461746554696d65, .str 0), (0x7365616c4e756d626572, .str 0), (0x6b696e64, .str 0x6c656164), (0x636f6e646974696f6e, .str 0x6f70656e)],
  [(0x6170706c6965644461746554696d65, 0x737472), (0x7365616c4e756d626572, 0x737472), (0x6b696e64, 0x737472), (0x636f6e646974696f6e, 0x737472)],
  [(0x6b696e64, 0x5365616c4b696e64), (0x636f6e646974696f6e, 0x5365616c436f6e646974696f6e4b696e64)],
  [⟨0x4173736574436f6e7461696e6572, .one2many, 0x5365616c73, 0, false⟩],
  []⟩
def m_Seal : List RClass := d_Seal :: m_IdentifiedObject

/-- CIM15/IEC61968/Common/ActivityRecord.py:23 -/
def d_ActivityRecord : RClass := ⟨0x41637469766974795265636f7264, 0x43494d31352e49454336313936382e436f6d6d6f6e2e41637469766974795265636f7264, 0x43494d31352e49454336313937302e436f72652e4964656e7469666965644f626a656374,
  [(0x7365766572697479, .str 0), (0x637265617465644461746554696d65, .str 0), (0x726561736f6e, .str 0), (0x63617465676f7279, .str 0)],
  [0x7365766572697479, 0x637265617465644461746554696d65, 0x726561736f6e, 0x63617465676f7279],
  [(0x7365766572697479, .str 0), (0x637265617465644461746554696d65, .str 0), (0x726561736f6e, .str 0), (0x63617465676f7279, .str 0)],
  [(0x7365766572697479, 0x737472), (0x637265617465644461746554696d65, 0x737472), (0x726561736f6e, 0x737472), (0x63617465676f7279, 0x737472)],
  [],
  [⟨0x457270506572736f6e73, .many2many, 0x41637469766974795265636f726473, 0, false⟩, ⟨0x4f7267616e69736174696f6e73, .many2many, 0x41637469766974795265636f726473, 0, false⟩, ⟨0x446f63756d656e7473, .many2many, 0x41637469766974795265636f726473, 0, false⟩, ⟨0x417373657473, .many2many, 0x41637469766974795265636f726473, 0, false⟩, ⟨0x737461747573, .plainOne, 0, 0, false⟩, ⟨0x5363686564756c65644576656e74, .one2one, 0x41637469766974795265636f7264, 0, false⟩],
  [0x457270506572736f6e73, 0x4f7267616e69736174696f6e73, 0x446f63756d656e7473, 0x417373657473]⟩
def m_ActivityRecord : List RClass := d_ActivityRecord :: m_IdentifiedObject

/-- CIM15/IEC61968/Common/CoordinateSystem.py:23 -/
def d_CoordinateSystem : RClass := ⟨0x436f6f7264696e61746553797374656d, 0x43494d31352e49454336313936382e436f6d6d6f6e2e436f6f7264696e61746553797374656d, 0x43494d31352e49454336313937302e436f72652e4964656e7469666965644f626a656374,
  [(0x63727355726e, .str 0)],
  [0x63727355726e],
  [(0x63727355726e, .str 0)],
  [(0x63727355726e, 0x737472)],
  [],
  [⟨0x4469616772616d73, .many2one, 0x436f6f7264696e61746553797374656d, 0, false⟩, ⟨0x4c6f636174696f6e, .many2one, 0x436f6f7264696e61746553797374656d, 0, false⟩, ⟨0x476d6c4469616772616d4f626a65637473, .many2many, 0x436f6f7264696e61746553797374656d73, 0, false⟩],
  [0x4469616772616d73, 0x4c6f636174696f6e, 0x476d6c4469616772616d4f626a65637473]⟩
def m_CoordinateSystem : List RClass := d_CoordinateSystem :: m_IdentifiedObject

/-- CIM15/IEC61968/Common/Document.py:23 -/
def d_Document : RClass := ⟨0x446f63756d656e74, 0x43494d31352e49454336313936382e436f6d6d6f6e2e446f63756d656e74, 0x43494d31352e49454336313937302e436f72652e4964656e7469666965644f626a656374,
  [(0x7265766973696f6e4e756d626572, .str 0), (0x637265617465644461746554696d65, .str 0), (0x6c6173744d6f6469666965644461746554696d65, .str 0), (0x7375626a656374, .str 0), (0x7469746c65, .str 0), (0x63617465676f7279, .str 0)],
  [0x7265766973696f6e4e756d626572, 0x637265617465644461746554696d65, 0x6c6173744d6f6469666965644461746554696d65, 0x7375626a656374, 0x7469746c65, 0x63617465676f7279],
  [(0x7265766973696f6e4e756d626572, .str 0), (0x637265617465644461746554696d65, .str 0), (0x6c6173744d6f6469666965644461746554696d65, .str 0), (0x7375626a656374, .str 0), (0x7469746c65, .str 0), (0x63617465676f7279, .str 0)],
  [(0x7265766973696f6e4e756d626572, 0x737472), (0x637265617465644461746554696d65, 0x737472), (0x6c6173744d6f6469666965644461746554696d65, 0x737472), (0x7375626a656374, 0x737472), (0x7469746c65, 0x737472), (0x63617465676f7279, 0x737472)],
  [],
  [⟨0x4368616e67654974656d73, .many2one, 0x446f63756d656e74, 0, false⟩, ⟨0x546f446f63756d656e74526f6c6573, .many2one, 0x46726f6d446f63756d656e74, 0, false⟩, ⟨0x656c656374726f6e696341646472657373, .plainOne, 0, 0, false⟩, ⟨0x4e6574776f726b4461746153657473, .many2many, 0x446f63756d656e7473, 0, false⟩, ⟨0x46726f6d446f63756d656e74526f6c6573, .many2one, 0x546f446f63756d656e74, 0, false⟩, ⟨0x5363686564756c65506172616d65746572496e666f73, .many2many, 0x446f63756d656e7473, 0, false⟩, ⟨0x4572704f7267616e69736174696f6e526f6c6573, .many2one, 0x446f63756d656e74, 0, false⟩, ⟨0x4d6561737572656d656e7473, .many2many, 0x446f63756d656e7473, 0, false⟩, ⟨0x41637469766974795265636f726473, .many2many, 0x446f63756d656e7473, 0, false⟩, ⟨0x4368616e676553657473, .many2many, 0x446f63756d656e7473, 0, false⟩, ⟨0x457270506572736f6e526f6c6573, .many2one, 0x446f63756d656e74, 0, false⟩, ⟨0x5363686564756c65644576656e7473, .many2one, 0x446f63756d656e74, 0, false⟩, ⟨0x646f63537461747573, .plainOne, 0, 0, false⟩, ⟨0x4173736574526f6c6573, .many2one, 0x446f63756d656e74, 0, false⟩, ⟨0x737461747573, .plainOne, 0, 0, false⟩, ⟨0x506f77657253797374656d5265736f75726365526f6c6573, .many2one, 0x446f63756d656e74, 0, false⟩],
  [0x4368616e67654974656d73, 0x546f446f63756d656e74526f6c6573, 0x4e6574776f726b4461746153657473, 0x46726f6d446f63756d656e74526f6c6573, 0x5363686564756c65506172616d65746572496e666f73, 0x4572704f7267616e69736174696f6e526f6c6573, 0x4d6561737572656d656e7473, 0x41637469766974795265636f726473, 0x4368616e676553657473, 0x457270506572736f6e526f6c6573, 0x5363686564756c65644576656e7473, 0x4173736574526f6c6573, 0x506f77657253797374656d5265736f75726365526f6c6573]⟩
def m_Document : List RClass := d_Document :: m_IdentifiedObject

/-- CIM15/IEC61968/Common/Location.py:23 -/
def d_Location : RClass := ⟨0x4c6f636174696f6e, 0x43494d31352e49454336313936382e436f6d6d6f6e2e4c6f636174696f6e, 0x43494d31352e49454336313937302e436f72652e4964656e7469666965644f626a656374,
  [(0x63617465676f7279, .str 0), (0x67656f496e666f5265666572656e6365, .str 0), (0x636f72706f72617465436f6465, .str 0), (0x646972656374696f6e, .str 0)],
  [0x63617465676f7279, 0x67656f496e666f5265666572656e6365, 0x636f72706f72617465436f6465, 0x646972656374696f6e],
  [(0x63617465676f7279, .str 0), (0x67656f496e666f5265666572656e6365, .str 0), (0x636f72706f72617465436f6465, .str 0), (0x646972656374696f6e, .str 0)],
  [(0x63617465676f7279, 0x737472), (0x67656f496e666f5265666572656e6365, 0x737472), (0x636f72706f72617465436f6465, 0x737472), (0x646972656374696f6e, 0x737472)],
  [],
  [⟨0x6d61696e41646472657373, .plainOne, 0, 0, false⟩, ⟨0x70686f6e6531, .plainOne, 0, 0, false⟩, ⟨0x70686f6e6532, .plainOne, 0, 0, false⟩, ⟨0x506f77657253797374656d5265736f7572636573, .many2one, 0x4c6f636174696f6e, 0, false⟩, ⟨0x7365636f6e6461727941646472657373, .plainOne, 0, 0, false⟩, ⟨0x4368616e67654974656d73, .many2one, 0x4c6f636174696f6e, 0, false⟩, ⟨0x5265644c696e6573, .many2many, 0x4c6f636174696f6e73, 0, false⟩, ⟨0x44696d656e73696f6e73496e666f, .one2many, 0x4c6f636174696f6e73, 0, false⟩, ⟨0x4c616e6450726f70657274696573, .many2many, 0x4c6f636174696f6e73, 0, false⟩, ⟨0x417373657473, .many2one, 0x4c6f636174696f6e, 0, false⟩, ⟨0x48617a61726473, .many2many, 0x4c6f636174696f6e73, 0, false⟩, ⟨0x737461747573, .plainOne, 0, 0, false⟩, ⟨0x4372657773, .many2many, 0x4c6f636174696f6e73, 0, false⟩, ⟨0x506f736974696f6e506f696e7473, .many2one, 0x4c6f636174696f6e, 0, false⟩, ⟨0x656c656374726f6e696341646472657373, .plainOne, 0, 0, false⟩, ⟨0x446972656374696f6e73, .many2one, 0x4c6f636174696f6e, 0, false⟩, ⟨0x4d6561737572656d656e7473, .many2many, 0x4c6f636174696f6e73, 0, false⟩, ⟨0x526f75746573, .many2many, 0x4c6f636174696f6e73, 0, false⟩, ⟨0x436f6f7264696e61746553797374656d, .one2many, 0x4c6f636174696f6e, 0, false⟩, ⟨0x4572704f7267616e69736174696f6e73, .many2many, 0x4c6f636174696f6e73, 0, false⟩],
  [0x506f77657253797374656d5265736f7572636573, 0x4368616e67654974656d73, 0x5265644c696e6573, 0x4c616e6450726f70657274696573, 0x417373657473, 0x48617a61726473, 0x4372657773, 0x506f736974696f6e506f696e7473, 0x446972656374696f6e73, 0x4d6561737572656d656e7473, 0x526f75746573, 0x4572704f7267616e69736174696f6e73]⟩
def m_Location : List RClass := d_Location :: m_IdentifiedObject

/-- CIM15/IEC61968/Common/Organisation.py:23 -/
def d_Organisation : RClass := ⟨0x4f7267616e69736174696f6e, 0x43494d31352e49454336313936382e436f6d6d6f6e2e4f7267616e69736174696f6e, 0x43494d31352e49454336313937302e436f72652e4964656e7469666965644f626a656374,
  [],
  [],
  [],
  [],
  [],
  [⟨0x70686f6e6532, .plainOne, 0, 0, false⟩, ⟨0x70686f6e6531, .plainOne, 0, 0, false⟩, ⟨0x73747265657441646472657373, .plainOne, 0, 0, false⟩, ⟨0x706f7374616c41646472657373, .plainOne, 0, 0, false⟩, ⟨0x656c656374726f6e696341646472657373, .plainOne, 0, 0, false⟩, ⟨0x427573696e657373526f6c6573, .many2many, 0x4f7267616e69736174696f6e73, 0, false⟩],
  [0x427573696e657373526f6c6573]⟩
def m_Organisation : List RClass := d_Organisation :: m_IdentifiedObject

/-- CIM15/IEC61968/Common/TimePoint.py:23 -/
def d_TimePoint : RClass := ⟨0x54696d65506f696e74, 0x43494d31352e49454336313936382e436f6d6d6f6e2e54696d65506f696e74, 0x43494d31352e49454336313937302e436f72652e4964656e7469666965644f626a656374,
  [(0x6461746554696d65, .str 0), (0x73657175656e63654e756d626572, .int 0), (0x72656c617469766554696d65496e74657276616c, .flt 0x0)],
  [0x6461746554696d65, 0x73657175656e63654e756d626572, 0x72656c617469766554696d65496e74657276616c],
  [(0x6461746554696d65, .str 0), (0x73657175656e63654e756d626572, .int 0), (0x72656c617469766554696d65496e74657276616c, .flt 0x0)],
  [(0x6461746554696d65, 0x737472), (0x73657175656e63654e756d626572, 0x696e74), (0x72656c617469766554696d65496e74657276616c, 0x666c6f6174)],
  [],
  [⟨0x737461747573, .plainOne, 0, 0, false⟩, ⟨0x77696e646f77, .plainOne, 0, 0, false⟩, ⟨0x54696d655363686564756c65, .one2many, 0x54696d65506f696e7473, 0, false⟩, ⟨0x5363686564756c65644576656e7473, .many2one, 0x54696d65506f696e74, 0, false⟩],
  [0x5363686564756c65644576656e7473]⟩
def m_TimePoint : List RClass := d_TimePoint :: m_IdentifiedObject

/-- CIM15/IEC61968/Customers/ServiceCategory.py:23 -/
def d_ServiceCategory : RClass := ⟨0x5365727669636543617465676f7279, 0x43494d31352e49454336313936382e437573746f6d6572732e5365727669636543617465676f7279, 0x43494d31352e49454336313937302e436f72652e4964656e7469666965644f626a656374,
  [(0x6b696e64, .str 0x6f74686572)],
  [0x6b696e64],
  [(0x6b696e64, .str 0x6f74686572)],
  [(0x6b696e64, 0x737472)],
  [(0x6b696e64, 0x536572766963654b696e64)],
  [⟨0x50726963696e6753747275637475726573, .many2one, 0x5365727669636543617465676f7279, 0, false⟩, ⟨0x5365727669636544656c6976657279506f696e7473, .many2one, 0x5365727669636543617465676f7279, 0, false⟩],
  [0x50726963696e6753747275637475726573, 0x5365727669636544656c6976657279506f696e7473]⟩
def m_ServiceCategory : List RClass := d_ServiceCategory :: m_IdentifiedObject

/-- CIM15/IEC61968/Metering/DemandResponseProgram.py:23 -/
def d_DemandResponseProgram : RClass := ⟨0x44656d616e64526573706f6e736550726f6772616d, 0x43494d31352e49454336313936382e4d65746572696e672e44656d616e64526573706f6e736550726f6772616d, 0x43494d31352e49454336313937302e436f72652e4964656e7469666965644f626a656374,
  [(0x74797065, .str 0)],
  [0x74797065],
  [(0x74797065, .str 0)],
  [(0x74797065, 0x737472)],
  [],
  [⟨0x456e64446576696365436f6e74726f6c73, .many2one, 0x44656d616e64526573706f6e736550726f6772616d, 0, false⟩, ⟨0x76616c6964697479496e74657276616c, .plainOne, 0, 0, false⟩, ⟨0x437573746f6d657241677265656d656e7473, .many2one, 0x44656d616e64526573706f6e736550726f6772616d, 0, false⟩, ⟨0x456e6444657669636547726f757073, .many2one, 0x44656d616e64526573706f6e736550726f6772616d, 0, false⟩],
  [0x456e64446576696365436f6e74726f6c73, 0x437573746f6d657241677265656d656e7473, 0x456e6444657669636547726f757073]⟩
def m_DemandResponseProgram : List RClass := d_DemandResponseProgram :: m_IdentifiedObject

/-- CIM15/IEC61968/Metering/EndDeviceControl.py:23 -/
def d_EndDeviceControl : RClass := ⟨0x456e64446576696365436f6e74726f6c, 0x43494d31352e49454336313936382e4d65746572696e672e456e64446576696365436f6e74726f6c, 0x43494d31352e49454336313937302e436f72652e4964656e7469666965644f626a656374,
  [(0x647250726f6772616d4c6576656c, .int 0), (0x647250726f6772616d4d616e6461746f7279, .bool false), (0x74797065, .str 0), (0x70726963655369676e616c, .flt 0x0)],
  [0x647250726f6772616d4c6576656c, 0x647250726f6772616d4d616e6461746f7279, 0x74797065, 0x70726963655369676e616c],
  [(0x647250726f6772616d4c6576656c, .int 0), (0x647250726f6772616d4d616e6461746f7279, .bool false), (0x74797065, .str 0), (0x70726963655369676e616c, .flt 0x0)],
  [(0x647250726f6772616d4c6576656c, 0x696e74), (0x647250726f6772616d4d616e6461746f7279, 0x626f6f6c), (0x74797065, 0x737472), (0x70726963655369676e616c, 0x666c6f6174)],
  [],
  [⟨0x44656d616e64526573706f6e736550726f6772616d, .one2many, 0x456e64446576696365436f6e74726f6c73, 0, false⟩, ⟨0x437573746f6d657241677265656d656e74, .one2many, 0x456e64446576696365436f6e74726f6c73, 0, false⟩, ⟨0x7363686564756c6564496e74657276616c, .plainOne, 0, 0, false⟩, ⟨0x456e6444657669636547726f7570, .one2many, 0x456e64446576696365436f6e74726f6c73, 0, false⟩, ⟨0x456e64446576696365, .one2many, 0x456e64446576696365436f6e74726f6c73, 0, false⟩],
  []⟩
def m_EndDeviceControl : List RClass := d_EndDeviceControl :: m_IdentifiedObject

/-- CIM15/IEC61968/Metering/EndDeviceGroup.py:23 -/
def d_EndDeviceGroup : RClass := ⟨0x456e6444657669636547726f7570, 0x43494d31352e49454336313936382e4d65746572696e672e456e6444657669636547726f7570, 0x43494d31352e49454336313937302e436f72652e4964656e7469666965644f626a656374,
  [(0x67726f757041646472657373, .int 0)],
  [0x67726f757041646472657373],
  [(0x67726f757041646472657373, .int 0)],
  [(0x67726f757041646472657373, 0x696e74)],
  [],
  [⟨0x456e64446576696365436f6e74726f6c73, .many2one, 0x456e6444657669636547726f7570, 0, false⟩, ⟨0x456e6444657669636573, .many2many, 0x456e6444657669636547726f757073, 0, false⟩, ⟨0x44656d616e64526573706f6e736550726f6772616d, .one2many, 0x456e6444657669636547726f757073, 0, false⟩],
  [0x456e64446576696365436f6e74726f6c73, 0x456e6444657669636573]⟩
def m_EndDeviceGroup : List RClass := d_EndDeviceGroup :: m_IdentifiedObject

/-- CIM15/IEC61968/Metering/MeterReading.py:23 -/
def d_MeterReading : RClass := ⟨0x4d6574657252656164696e67, 0x43494d31352e49454336313936382e4d65746572696e672e4d6574657252656164696e67, 0x43494d31352e49454336313937302e436f72652e4964656e7469666965644f626a656374,
  [],
  [],
  [],
  [],
  [],
  [⟨0x5365727669636544656c6976657279506f696e74, .one2many, 0x4d6574657252656164696e6773, 0, false⟩, ⟨0x76616c756573496e74657276616c, .plainOne, 0, 0, false⟩, ⟨0x456e644465766963654576656e7473, .many2one, 0x4d6574657252656164696e67, 0, false⟩, ⟨0x52656164696e6773, .many2many, 0x4d6574657252656164696e6773, 0, false⟩, ⟨0x437573746f6d657241677265656d656e74, .one2many, 0x4d6574657252656164696e6773, 0, false⟩, ⟨0x4d65746572, .one2many, 0x4d6574657252656164696e6773, 0, false⟩, ⟨0x496e74657276616c426c6f636b73, .many2one, 0x4d6574657252656164696e67, 0, false⟩],
  [0x456e644465766963654576656e7473, 0x52656164696e6773, 0x496e74657276616c426c6f636b73]⟩
def m_MeterReading : List RClass := d_MeterReading :: m_IdentifiedObject

/-- CIM15/IEC61968/Metering/ReadingType.py:23 -/
def d_ReadingType : RClass := ⟨0x52656164696e6754797065, 0x43494d31352e49454336313936382e4d65746572696e672e52656164696e6754797065, 0x43494d31352e49454336313937302e436f72652e4964656e7469666965644f626a656374,
  [(0x6d756c7469706c696572, .str 0x4d), (0x756e6974, .str 0x4e), (0x6b696e64, .str 0x7068617365416e676c65), (0x726576657273654368726f6e6f6c6f6779, .bool false), (0x64656661756c745175616c697479, .str 0), (0x696e74657276616c4c656e677468, .flt 0x0), (0x6368616e6e656c4e756d626572, .int 0), (0x64656661756c7456616c75654461746154797065, .str 0)],
  [0x6d756c7469706c696572, 0x756e6974, 0x6b696e64, 0x726576657273654368726f6e6f6c6f6779, 0x64656661756c745175616c697479, 0x696e74657276616c4c656e677468, 0x6368616e6e656c4e756d626572, 0x64656661756c7456616c75654461746154797065],
  [(0x6d756c7469706c696572, .str 0x4d), (0x756e6974, .str 0x4e), (0x6b696e64, .str 0x7068617365416e676c65), (0x726576657273654368726f6e6f6c6f6779, .bool false), (0x64656661756c745175616c697479, .str 0), (0x696e74657276616c4c656e677468, .flt 0x0), (0x6368616e6e656c4e756d626572, .int 0), (0x64656661756c7456616c75654461746154797065, .str 0)],
  [(0x6d756c7469706c696572, 0x737472), (0x756e6974, 0x737472), (0x6b696e64, 0x737472), (0x726576657273654368726f6e6f6c6f6779, 0x626f6f6c), (0x64656661756c745175616c697479, 0x737472), (0x696e74657276616c4c656e677468, 0x666c6f6174), (0x6368616e6e656c4e756d626572, 0x696e74), (0x64656661756c7456616c75654461746154797065, 0x737472)],
  [(0x6d756c7469706c696572, 0x556e69744d756c7469706c696572), (0x756e6974, 0x556e697453796d626f6c), (0x6b696e64, 0x52656164696e674b696e64)],
  [⟨0x496e74657276616c426c6f636b73, .many2one, 0x52656164696e6754797065, 0, false⟩, ⟨0x64796e616d6963436f6e66696775726174696f6e, .plainOne, 0, 0, false⟩, ⟨0x52656164696e6773, .many2one, 0x52656164696e6754797065, 0, false⟩, ⟨0x5265676973746572, .one2one, 0x52656164696e6754797065, 0, false⟩, ⟨0x50656e64696e6743616c63756c6174696f6e, .one2one, 0x52656164696e6754797065, 0, false⟩],
  [0x496e74657276616c426c6f636b73, 0x52656164696e6773]⟩
def m_ReadingType : List RClass := d_ReadingType :: m_IdentifiedObject

/-- CIM15/IEC61968/Metering/Register.py:23 -/
def d_Register : RClass := ⟨0x5265676973746572, 0x43494d31352e49454336313936382e4d65746572696e672e5265676973746572, 0x43494d31352e49454336313937302e436f72652e4964656e7469666965644f626a656374,
  [(0x6c6566744469676974436f756e74, .int 0), (0x72696768744469676974436f756e74, .int 0)],
  [0x6c6566744469676974436f756e74, 0x72696768744469676974436f756e74],
  [(0x6c6566744469676974436f756e74, .int 0), (0x72696768744469676974436f756e74, .int 0)],
  [(0x6c6566744469676974436f756e74, 0x696e74), (0x72696768744469676974436f756e74, 0x696e74)],
  [],
  [⟨0x52656164696e6754797065, .one2one, 0x5265676973746572, 0, false⟩, ⟨0x456e6444657669636546756e6374696f6e, .one2many, 0x526567697374657273, 0, false⟩],
  []⟩
def m_Register : List RClass := d_Register :: m_IdentifiedObject

/-- CIM15/IEC61968/Metering/ServiceDeliveryPoint.py:23 -/
def d_ServiceDeliveryPoint : RClass := ⟨0x5365727669636544656c6976657279506f696e74, 0x43494d31352e49454336313936382e4d65746572696e672e5365727669636544656c6976657279506f696e74, 0x43494d31352e49454336313937302e436f72652e4964656e7469666965644f626a656374,
  [(0x636865636b42696c6c696e67, .bool false), (0x657374696d617465644c6f6164, .flt 0x0), (0x7261746564506f776572, .flt 0x0), (0x736572766963655072696f72697479, .str 0), (0x67726f756e646564, .bool false), (0x7365727669636544656c697665727952656d61726b, .str 0), (0x7068617365436f6465, .str 0x7331324e), (0x637470745265666572656e6365, .int 0), (0x726174656443757272656e74, .flt 0x0), (0x7261746564566f6c74616765, .flt 0x0)],
  [0x636865636b42696c6c696e67, 0x657374696d617465644c6f6164, 0x7261746564506f776572, 0x736572766963655072696f72697479, 0x67726f756e646564, 0x7365727669636544656c697665727952656d61726b, 0x7068617365436f6465, 0x637470745265666572656e6365, 0x726174656443757272656e74, 0x7261746564566f6c74616765],
  [(0x636865636b42696c6c696e67, .bool false), (0x657374696d617465644c6f6164, .flt 0x0), (0x7261746564506f776572, .flt 0x0), (0x736572766963655072696f72697479, .str 0), (0x67726f756e646564, .bool false), (0x7365727669636544656c697665727952656d61726b, .str 0), (0x7068617365436f6465, .str 0x7331324e), (0x637470745265666572656e6365, .int 0), (0x726174656443757272656e74, .flt 0x0), (0x7261746564566f6c74616765, .flt 0x0)],
  [(0x636865636b42696c6c696e67, 0x626f6f6c), (0x657374696d617465644c6f6164, 0x666c6f6174), (0x7261746564506f776572, 0x666c6f6174), (0x736572766963655072696f72697479, 0x737472), (0x67726f756e646564, 0x626f6f6c), (0x7365727669636544656c697665727952656d61726b, 0x737472), (0x7068617365436f6465, 0x737472), (0x637470745265666572656e6365, 0x696e74), (0x726174656443757272656e74, 0x666c6f6174), (0x7261746564566f6c74616765, 0x666c6f6174)],
  [(0x7068617365436f6465, 0x5068617365436f6465)],
  [⟨0x5344504c6f636174696f6e73, .many2many, 0x5365727669636544656c6976657279506f696e7473, 0, false⟩, ⟨0x536572766963654c6f636174696f6e, .one2many, 0x5365727669636544656c6976657279506f696e7473, 0, false⟩, ⟨0x456e6444657669636573, .many2one, 0x5365727669636544656c6976657279506f696e74, 0, false⟩, ⟨0x4d6574657252656164696e6773, .many2one, 0x5365727669636544656c6976657279506f696e74, 0, false⟩, ⟨0x5365727669636543617465676f7279, .one2many, 0x5365727669636544656c6976657279506f696e7473, 0, false⟩, ⟨0x50726963696e6753747275637475726573, .many2many, 0x5365727669636544656c6976657279506f696e7473, 0, false⟩, ⟨0x456e65726779436f6e73756d6572, .one2many, 0x5365727669636544656c6976657279506f696e7473, 0, false⟩, ⟨0x53657276696365537570706c696572, .one2many, 0x5365727669636544656c6976657279506f696e7473, 0, false⟩, ⟨0x437573746f6d657241677265656d656e74, .one2many, 0x5365727669636544656c6976657279506f696e7473, 0, false⟩, ⟨0x5472616e73666f726d657254616e6b73, .one2many, 0x5365727669636544656c6976657279506f696e7473, 0, false⟩],
  [0x5344504c6f636174696f6e73, 0x456e6444657669636573, 0x4d6574657252656164696e6773, 0x50726963696e6753747275637475726573]⟩
def m_ServiceDeliveryPoint : List RClass := d_ServiceDeliveryPoint :: m_IdentifiedObject

/-- CIM15/IEC61968/PaymentMetering/Cashier.py:23 -/
def d_Cashier : RClass := ⟨0x43617368696572, 0x43494d31352e49454336313936382e5061796d656e744d65746572696e672e43617368696572, 0x43494d31352e49454336313937302e436f72652e4964656e7469666965644f626a656374,
  [],
  [],
  [],
  [],
  [],
  [⟨0x656c656374726f6e696341646472657373, .plainOne, 0, 0, false⟩, ⟨0x43617368696572536869667473, .many2one, 0x43617368696572, 0, false⟩],
  [0x43617368696572536869667473]⟩
def m_Cashier : List RClass := d_Cashier :: m_IdentifiedObject

/-- CIM15/IEC61968/PaymentMetering/Charge.py:23 -/
def d_Charge : RClass := ⟨0x436861726765, 0x43494d31352e49454336313936382e5061796d656e744d65746572696e672e436861726765, 0x43494d31352e49454336313937302e436f72652e4964656e7469666965644f626a656374,
  [(0x7661726961626c65506f7274696f6e, .flt 0x0), (0x6b696e64, .str 0x6f74686572)],
  [0x7661726961626c65506f7274696f6e, 0x6b696e64],
  [(0x7661726961626c65506f7274696f6e, .flt 0x0), (0x6b696e64, .str 0x6f74686572)],
  [(0x7661726961626c65506f7274696f6e, 0x666c6f6174), (0x6b696e64, 0x737472)],
  [(0x6b696e64, 0x4368617267654b696e64)],
  [⟨0x436f6e73756d7074696f6e546172696666496e74657276616c73, .many2many, 0x43686172676573, 0, false⟩, ⟨0x54696d65546172696666496e74657276616c73, .many2many, 0x43686172676573, 0, false⟩, ⟨0x417578696c696172794163636f756e7473, .many2many, 0x43686172676573, 0, false⟩, ⟨0x4368696c6443686172676573, .many2one, 0x506172656e74436861726765, 0, false⟩, ⟨0x6669786564506f7274696f6e, .plainOne, 0, 0, false⟩, ⟨0x506172656e74436861726765, .one2many, 0x4368696c6443686172676573, 0, false⟩],
  [0x436f6e73756d7074696f6e546172696666496e74657276616c73, 0x54696d65546172696666496e74657276616c73, 0x417578696c696172794163636f756e7473, 0x4368696c6443686172676573]⟩
def m_Charge : List RClass := d_Charge :: m_IdentifiedObject

/-- CIM15/IEC61968/PaymentMetering/PointOfSale.py:23 -/
def d_PointOfSale : RClass := ⟨0x506f696e744f6653616c65, 0x43494d31352e49454336313936382e5061796d656e744d65746572696e672e506f696e744f6653616c65, 0x43494d31352e49454336313937302e436f72652e4964656e7469666965644f626a656374,
  [(0x6c6f636174696f6e, .str 0)],
  [0x6c6f636174696f6e],
  [(0x6c6f636174696f6e, .str 0)],
  [(0x6c6f636174696f6e, 0x737472)],
  [],
  [⟨0x43617368696572536869667473, .many2one, 0x506f696e744f6653616c65, 0, false⟩],
  [0x43617368696572536869667473]⟩
def m_PointOfSale : List RClass := d_PointOfSale :: m_IdentifiedObject

/-- CIM15/IEC61968/PaymentMetering/Receipt.py:23 -/
def d_Receipt : RClass := ⟨0x52656365697074, 0x43494d31352e49454336313936382e5061796d656e744d65746572696e672e52656365697074, 0x43494d31352e49454336313937302e436f72652e4964656e7469666965644f626a656374,
  [(0x697342616e6b61626c65, .bool false)],
  [0x697342616e6b61626c65],
  [(0x697342616e6b61626c65, .bool false)],
  [(0x697342616e6b61626c65, 0x626f6f6c)],
  [],
  [⟨0x56656e646f725368696674, .one2many, 0x5265636569707473, 0, false⟩, ⟨0x6c696e65, .plainOne, 0, 0, false⟩, ⟨0x436173686965725368696674, .one2many, 0x5265636569707473, 0, false⟩, ⟨0x54656e64657273, .many2one, 0x52656365697074, 0, false⟩, ⟨0x5472616e73616374696f6e73, .many2one, 0x52656365697074, 0, false⟩],
  [0x54656e64657273, 0x5472616e73616374696f6e73]⟩
def m_Receipt : List RClass := d_Receipt :: m_IdentifiedObject

/-- CIM15/IEC61968/PaymentMetering/Shift.py:23 -/
def d_Shift : RClass := ⟨0x5368696674, 0x43494d31352e49454336313936382e5061796d656e744d65746572696e672e5368696674, 0x43494d31352e49454336313937302e436f72652e4964656e7469666965644f626a656374,
  [(0x7472616e73616374696f6e734772616e64546f74616c, .flt 0x0), (0x72656365697074734772616e64546f74616c42616e6b61626c65, .flt 0x0), (0x72656365697074734772616e64546f74616c526f756e64696e67, .flt 0x0), (0x7472616e73616374696f6e734772616e64546f74616c526f756e64696e67, .flt 0x0), (0x72656365697074734772616e64546f74616c4e6f6e42616e6b61626c65, .flt 0x0)],
  [0x7472616e73616374696f6e734772616e64546f74616c, 0x72656365697074734772616e64546f74616c42616e6b61626c65, 0x72656365697074734772616e64546f74616c526f756e64696e67, 0x7472616e73616374696f6e734772616e64546f74616c526f756e64696e67, 0x72656365697074734772616e64546f74616c4e6f6e42616e6b61626c65],
  [(0x7472616e73616374696f6e734772616e64546f74616c, .flt 0x0), (0x72656365697074734772616e64546f74616c42616e6b61626c65, .flt 0x0), (0x72656365697074734772616e64546f74616c526f756e64696e67, .flt 0x0), (0x7472616e73616374696f6e734772616e64546f74616c526f756e64696e67, .flt 0x0), (0x72656365697074734772616e64546f74616c4e6f6e42616e6b61626c65, .flt 0x0)],
  [(0x7472616e73616374696f6e734772616e64546f74616c, 0x666c6f6174), (0x72656365697074734772616e64546f74616c42616e6b61626c65, 0x666c6f6174), (0x72656365697074734772616e64546f74616c526f756e64696e67, 0x666c6f6174), (0x7472616e73616374696f6e734772616e64546f74616c526f756e64696e67, 0x666c6f6174), (0x72656365697074734772616e64546f74616c4e6f6e42616e6b61626c65, 0x666c6f6174)],
  [],
  [⟨0x6163746976697479496e74657276616c, .plainOne, 0, 0, false⟩],
  []⟩
def m_Shift : List RClass := d_Shift :: m_IdentifiedObject

/-- CIM15/IEC61968/PaymentMetering/Tender.py:23 -/
def d_Tender : RClass := ⟨0x54656e646572, 0x43494d31352e49454336313936382e5061796d656e744d65746572696e672e54656e646572, 0x43494d31352e49454336313937302e436f72652e4964656e7469666965644f626a656374,
  [(0x6b696e64, .str 0x756e737065636966696564), (0x6368616e6765, .flt 0x0), (0x616d6f756e74, .flt 0x0)],
  [0x6b696e64, 0x6368616e6765, 0x616d6f756e74],
  [(0x6b696e64, .str 0x756e737065636966696564), (0x6368616e6765, .flt 0x0), (0x616d6f756e74, .flt 0x0)],
  [(0x6b696e64, 0x737472), (0x6368616e6765, 0x666c6f6174), (0x616d6f756e74, 0x666c6f6174)],
  [(0x6b696e64, 0x54656e6465724b696e64)],
  [⟨0x43617264, .one2one, 0x54656e646572, 0, false⟩, ⟨0x52656365697074, .one2many, 0x54656e64657273, 0, false⟩, ⟨0x436865717565, .one2one, 0x54656e646572, 0, false⟩],
  []⟩
def m_Tender : List RClass := d_Tender :: m_IdentifiedObject

/-- CIM15/IEC61968/PaymentMetering/Transaction.py:23 -/
def d_Transaction : RClass := ⟨0x5472616e73616374696f6e, 0x43494d31352e49454336313936382e5061796d656e744d65746572696e672e5472616e73616374696f6e, 0x43494d31352e49454336313937302e436f72652e4964656e7469666965644f626a656374,
  [(0x646f6e6f725265666572656e6365, .str 0), (0x6b696e64, .str 0x6f74686572), (0x72656365697665725265666572656e6365, .str 0), (0x73657276696365556e6974734572726f72, .flt 0x0), (0x646976657273655265666572656e6365, .str 0), (0x73657276696365556e697473456e65726779, .flt 0x0), (0x72657665727365644964, .str 0)],
  [0x646f6e6f725265666572656e6365, 0x6b696e64, 0x72656365697665725265666572656e6365, 0x73657276696365556e6974734572726f72, 0x646976657273655265666572656e6365, 0x73657276696365556e697473456e65726779, 0x72657665727365644964],
  [(0x646f6e6f725265666572656e6365, .str 0), (0x6b696e64, .str 0x6f74686572), (0x72656365697665725265666572656e6365, .str 0), (0x73657276696365556e6974734572726f72, .flt 0x0), (0x646976657273655265666572656e6365, .str 0), (0x73657276696365556e697473456e65726779, .flt 0x0), (0x72657665727365644964, .str 0)],
  [(0x646f6e6f725265666572656e6365, 0x737472), (0x6b696e64, 0x737472), (0x72656365697665725265666572656e6365, 0x737472), (0x73657276696365556e6974734572726f72, 0x666c6f6174), (0x646976657273655265666572656e6365, 0x737472), (0x73657276696365556e697473456e65726779, 0x666c6f6174), (0x72657665727365644964, 0x737472)],
  [(0x6b696e64, 0x5472616e73616374696f6e4b696e64)],
  [⟨0x50726963696e67537472756374757265, .one2many, 0x5472616e73616374696f6e73, 0, false⟩, ⟨0x6c696e65, .plainOne, 0, 0, false⟩, ⟨0x5573657241747472696275746573, .many2one, 0x5472616e73616374696f6e, 0, false⟩, ⟨0x417578696c696172794163636f756e74, .one2many, 0x5061796d656e745472616e73616374696f6e73, 0, false⟩, ⟨0x56656e646f725368696674, .one2many, 0x5472616e73616374696f6e73, 0, false⟩, ⟨0x52656365697074, .one2many, 0x5472616e73616374696f6e73, 0, false⟩, ⟨0x4d65746572, .one2many, 0x56656e64696e675472616e73616374696f6e73, 0, false⟩, ⟨0x437573746f6d65724163636f756e74, .one2many, 0x5061796d656e745472616e73616374696f6e73, 0, false⟩, ⟨0x436173686965725368696674, .one2many, 0x5472616e73616374696f6e73, 0, false⟩],
  [0x5573657241747472696275746573]⟩
def m_Transaction : List RClass := d_Transaction :: m_IdentifiedObject

/-- CIM15/IEC61968/PaymentMetering/Transactor.py:23 -/
def d_Transactor : RClass := ⟨0x5472616e736163746f72, 0x43494d31352e49454336313936382e5061796d656e744d65746572696e672e5472616e736163746f72, 0x43494d31352e49454336313937302e436f72652e4964656e7469666965644f626a656374,
  [],
  [],
  [],
  [],
  [],
  [⟨0x4d65726368616e744163636f756e7473, .many2many, 0x5472616e736163746f7273, 0, false⟩],
  [0x4d65726368616e744163636f756e7473]⟩
def m_Transactor : List RClass := d_Transactor :: m_IdentifiedObject

/-- CIM15/IEC61968/PaymentMetering/Vendor.py:23 -/
def d_Vendor : RClass := ⟨0x56656e646f72, 0x43494d31352e49454336313936382e5061796d656e744d65746572696e672e56656e646f72, 0x43494d31352e49454336313937302e436f72652e4964656e7469666965644f626a656374,
  [],
  [],
  [],
  [],
  [],
  [⟨0x56656e646f72536869667473, .many2one, 0x56656e646f72, 0, false⟩],
  [0x56656e646f72536869667473]⟩
def m_Vendor : List RClass := d_Vendor :: m_IdentifiedObject

/-- CIM15/IEC61970/Contingency/Contingency.py:23 -/
def d_Contingency : RClass := ⟨0x436f6e74696e67656e6379, 0x43494d31352e49454336313937302e436f6e74696e67656e63792e436f6e74696e67656e6379, 0x43494d31352e49454336313937302e436f72652e4964656e7469666965644f626a656374,
  [(0x6d7573745374756479, .bool false)],
  [0x6d7573745374756479],
  [(0x6d7573745374756479, .bool false)],
  [(0x6d7573745374756479, 0x626f6f6c)],
  [],
  [⟨0x436f6e74696e67656e6379456c656d656e74, .many2one, 0x436f6e74696e67656e6379, 0, false⟩],
  [0x436f6e74696e67656e6379456c656d656e74]⟩
def m_Contingency : List RClass := d_Contingency :: m_IdentifiedObject

/-- CIM15/IEC61970/Contingency/ContingencyElement.py:23 -/
def d_ContingencyElement : RClass := ⟨0x436f6e74696e67656e6379456c656d656e74, 0x43494d31352e49454336313937302e436f6e74696e67656e63792e436f6e74696e67656e6379456c656d656e74, 0x43494d31352e49454336313937302e436f72652e4964656e7469666965644f626a656374,
  [],
  [],
  [],
  [],
  [],
  [⟨0x436f6e74696e67656e6379, .one2many, 0x436f6e74696e67656e6379456c656d656e74, 0, false⟩],
  []⟩
def m_ContingencyElement : List RClass := d_ContingencyElement :: m_IdentifiedObject

/-- CIM15/IEC61970/Core/BasePower.py:23 -/
def d_BasePower : RClass := ⟨0x42617365506f776572, 0x43494d31352e49454336313937302e436f72652e42617365506f776572, 0x43494d31352e49454336313937302e436f72652e4964656e7469666965644f626a656374,
  [(0x62617365506f776572, .flt 0x0)],
  [0x62617365506f776572],
  [(0x62617365506f776572, .flt 0x0)],
  [(0x62617365506f776572, 0x666c6f6174)],
  [],
  [],
  []⟩
def m_BasePower : List RClass := d_BasePower :: m_IdentifiedObject

/-- CIM15/IEC61970/Core/BaseVoltage.py:23 -/
def d_BaseVoltage : RClass := ⟨0x42617365566f6c74616765, 0x43494d31352e49454336313937302e436f72652e42617365566f6c74616765, 0x43494d31352e49454336313937302e436f72652e4964656e7469666965644f626a656374,
  [(0x6e6f6d696e616c566f6c74616765, .flt 0x0), (0x69734443, .bool false)],
  [0x6e6f6d696e616c566f6c74616765, 0x69734443],
  [(0x6e6f6d696e616c566f6c74616765, .flt 0x0), (0x69734443, .bool false)],
  [(0x6e6f6d696e616c566f6c74616765, 0x666c6f6174), (0x69734443, 0x626f6f6c)],
  [],
  [⟨0x546f706f6c6f676963616c4e6f6465, .many2one, 0x42617365566f6c74616765, 0, false⟩, ⟨0x566f6c746167654c6576656c, .many2one, 0x42617365566f6c74616765, 0, false⟩, ⟨0x436f6e64756374696e6745717569706d656e74, .many2one, 0x42617365566f6c74616765, 0, false⟩, ⟨0x5472616e73666f726d6572456e64, .many2one, 0x42617365566f6c74616765, 0, false⟩],
  [0x546f706f6c6f676963616c4e6f6465, 0x566f6c746167654c6576656c, 0x436f6e64756374696e6745717569706d656e74, 0x5472616e73666f726d6572456e64]⟩
def m_BaseVoltage : List RClass := d_BaseVoltage :: m_IdentifiedObject

/-- CIM15/IEC61970/Core/BasicIntervalSchedule.py:23 -/
def d_BasicIntervalSchedule : RClass := ⟨0x4261736963496e74657276616c5363686564756c65, 0x43494d31352e49454336313937302e436f72652e4261736963496e74657276616c5363686564756c65, 0x43494d31352e49454336313937302e436f72652e4964656e7469666965644f626a656374,
  [(0x737461727454696d65, .str 0), (0x76616c7565314d756c7469706c696572, .str 0x4d), (0x76616c756532556e6974, .str 0x4e), (0x76616c756531556e6974, .str 0x4e), (0x76616c7565324d756c7469706c696572, .str 0x4d)],
  [0x737461727454696d65, 0x76616c7565314d756c7469706c696572, 0x76616c756532556e6974, 0x76616c756531556e6974, 0x76616c7565324d756c7469706c696572],
  [(0x737461727454696d65, .str 0), (0x76616c7565314d756c7469706c696572, .str 0x4d), (0x76616c756532556e6974, .str 0x4e), (0x76616c756531556e6974, .str 0x4e), (0x76616c7565324d756c7469706c696572, .str 0x4d)],
  [(0x737461727454696d65, 0x737472), (0x76616c7565314d756c7469706c696572, 0x737472), (0x76616c756532556e6974, 0x737472), (0x76616c756531556e6974, 0x737472), (0x76616c7565324d756c7469706c696572, 0x737472)],
  [(0x76616c7565314d756c7469706c696572, 0x556e69744d756c7469706c696572), (0x76616c756532556e6974, 0x556e697453796d626f6c), (0x76616c756531556e6974, 0x556e697453796d626f6c), (0x76616c7565324d756c7469706c696572, 0x556e69744d756c7469706c696572)],
  [],
  []⟩
def m_BasicIntervalSchedule : List RClass := d_BasicIntervalSchedule :: m_IdentifiedObject

/-- CIM15/IEC61970/Core/ConnectivityNode.py:23 -/
def d_ConnectivityNode : RClass := ⟨0x436f6e6e65637469766974794e6f6465, 0x43494d31352e49454336313937302e436f72652e436f6e6e65637469766974794e6f6465, 0x43494d31352e49454336313937302e436f72652e4964656e7469666965644f626a656374,
  [],
  [],
  [],
  [],
  [],
  [⟨0x546f706f6c6f676963616c4e6f6465, .one2many, 0x436f6e6e65637469766974794e6f646573, 0, false⟩, ⟨0x436f6e6e65637469766974794e6f6465436f6e7461696e6572, .one2many, 0x436f6e6e65637469766974794e6f646573, 0, false⟩, ⟨0x5465726d696e616c73, .many2one, 0x436f6e6e65637469766974794e6f6465, 0, false⟩],
  [0x5465726d696e616c73]⟩
def m_ConnectivityNode : List RClass := d_ConnectivityNode :: m_IdentifiedObject

/-- CIM15/IEC61970/Core/Curve.py:23 -/
def d_Curve : RClass := ⟨0x4375727665, 0x43494d31352e49454336313937302e436f72652e4375727665, 0x43494d31352e49454336313937302e436f72652e4964656e7469666965644f626a656374,
  [(0x78556e6974, .str 0x4e), (0x79314d756c7469706c696572, .str 0x4d), (0x7932556e6974, .str 0x4e), (0x79334d756c7469706c696572, .str 0x4d), (0x7931556e6974, .str 0x4e), (0x784d756c7469706c696572, .str 0x4d), (0x7933556e6974, .str 0x4e), (0x79324d756c7469706c696572, .str 0x4d), (0x63757276655374796c65, .str 0x666f726d756c61)],
  [0x78556e6974, 0x79314d756c7469706c696572, 0x7932556e6974, 0x79334d756c7469706c696572, 0x7931556e6974, 0x784d756c7469706c696572, 0x7933556e6974, 0x79324d756c7469706c696572, 0x63757276655374796c65],
  [(0x78556e6974, .str 0x4e), (0x79314d756c7469706c696572, .str 0x4d), (0x7932556e6974, .str 0x4e), (0x79334d756c7469706c696572, .str 0x4d), (0x7931556e6974, .str 0x4e), (0x784d756c7469706c696572, .str 0x4d), (0x7933556e6974, .str 0x4e), (0x79324d756c7469706c696572, .str 0x4d), (0x63757276655374796c65, .str 0x666f726d756c61)],
  [(0x78556e6974, 0x737472), (0x79314d756c7469706c696572, 0x737472), (0x7932556e6974, 0x737472), (0x79334d756c7469706c696572, 0x737472), (0x7931556e6974, 0x737472), (0x784d756c7469706c696572, 0x737472), (0x7933556e6974, 0x737472), (0x79324d756c7469706c696572, 0x737472), (0x63757276655374796c65, 0x737472)],
  [(0x78556e6974, 0x556e697453796d626f6c), (0x79314d756c7469706c696572, 0x556e69744d756c7469706c696572), (0x7932556e6974, 0x556e697453796d626f6c), (0x79334d756c7469706c696572, 0x556e69744d756c7469706c696572), (0x7931556e6974, 0x556e697453796d626f6c), (0x784d756c7469706c696572, 0x556e69744d756c7469706c696572), (0x7933556e6974, 0x556e697453796d626f6c), (0x79324d756c7469706c696572, 0x556e69744d756c7469706c696572), (0x63757276655374796c65, 0x43757276655374796c65)],
  [⟨0x43757276654461746173, .many2one, 0x4375727665, 0, false⟩],
  [0x43757276654461746173]⟩
def m_Curve : List RClass := d_Curve :: m_IdentifiedObject

/-- CIM15/IEC61970/Core/GeographicalRegion.py:23 -/
def d_GeographicalRegion : RClass := ⟨0x47656f67726170686963616c526567696f6e, 0x43494d31352e49454336313937302e436f72652e47656f67726170686963616c526567696f6e, 0x43494d31352e49454336313937302e436f72652e4964656e7469666965644f626a656374,
  [],
  [],
  [],
  [],
  [],
  [⟨0x526567696f6e73, .many2one, 0x526567696f6e, 0, false⟩],
  [0x526567696f6e73]⟩
def m_GeographicalRegion : List RClass := d_GeographicalRegion :: m_IdentifiedObject

/-- CIM15/IEC61970/Core/OperatingParticipant.py:23 -/
def d_OperatingParticipant : RClass := ⟨0x4f7065726174696e675061727469636970616e74, 0x43494d31352e49454336313937302e436f72652e4f7065726174696e675061727469636970616e74, 0x43494d31352e49454336313937302e436f72652e4964656e7469666965644f626a656374,
  [],
  [],
  [],
  [],
  [],
  [⟨0x4f7065726174696e675368617265, .many2one, 0x4f7065726174696e675061727469636970616e74, 0, false⟩],
  [0x4f7065726174696e675368617265]⟩
def m_OperatingParticipant : List RClass := d_OperatingParticipant :: m_IdentifiedObject

/-- CIM15/IEC61970/Core/PSRType.py:23 -/
def d_PSRType : RClass := ⟨0x50535254797065, 0x43494d31352e49454336313937302e436f72652e50535254797065, 0x43494d31352e49454336313937302e436f72652e4964656e7469666965644f626a656374,
  [],
  [],
  [],
  [],
  [],
  [⟨0x506f77657253797374656d5265736f7572636573, .many2one, 0x50535254797065, 0, false⟩],
  [0x506f77657253797374656d5265736f7572636573]⟩
def m_PSRType : List RClass := d_PSRType :: m_IdentifiedObject

/-- CIM15/IEC61970/Core/PowerSystemResource.py:23 -/
def d_PowerSystemResource : RClass := ⟨0x506f77657253797374656d5265736f75726365, 0x43494d31352e49454336313937302e436f72652e506f77657253797374656d5265736f75726365, 0x43494d31352e49454336313937302e436f72652e4964656e7469666965644f626a656374,
  [],
  [],
  [],
  [],
  [],
  [⟨0x4368616e67654974656d73, .many2one, 0x506f77657253797374656d5265736f75726365, 0, false⟩, ⟨0x5363686564756c655374657073, .many2many, 0x506f77657253797374656d5265736f7572636573, 0, false⟩, ⟨0x536166657479446f63756d656e7473, .many2one, 0x506f77657253797374656d5265736f75726365, 0, false⟩, ⟨0x4f7065726174696e675368617265, .many2one, 0x506f77657253797374656d5265736f75726365, 0, false⟩, ⟨0x446f63756d656e74526f6c6573, .many2one, 0x506f77657253797374656d5265736f75726365, 0, false⟩, ⟨0x5073724c69737473, .many2many, 0x506f77657253797374656d5265736f7572636573, 0, false⟩, ⟨0x4d6561737572656d656e7473, .many2one, 0x506f77657253797374656d5265736f75726365, 0, false⟩, ⟨0x5265706f7274696e6747726f7570, .many2many, 0x506f77657253797374656d5265736f75726365, 0, false⟩, ⟨0x50535254797065, .one2many, 0x506f77657253797374656d5265736f7572636573, 0, false⟩, ⟨0x417373657473, .many2many, 0x506f77657253797374656d5265736f7572636573, 0, false⟩, ⟨0x4572704f7267616e69736174696f6e526f6c6573, .many2one, 0x506f77657253797374656d5265736f75726365, 0, false⟩, ⟨0x4c6f636174696f6e, .one2many, 0x506f77657253797374656d5265736f7572636573, 0, false⟩, ⟨0x5053524576656e74, .many2one, 0x506f77657253797374656d5265736f75726365, 0, false⟩, ⟨0x4e6574776f726b4461746153657473, .many2many, 0x506f77657253797374656d5265736f7572636573, 0, false⟩, ⟨0x4f75746167655363686564756c65, .one2one, 0x506f77657253797374656d5265736f75726365, 0, false⟩],
  [0x4368616e67654974656d73, 0x5363686564756c655374657073, 0x536166657479446f63756d656e7473, 0x4f7065726174696e675368617265, 0x446f63756d656e74526f6c6573, 0x5073724c69737473, 0x4d6561737572656d656e7473, 0x5265706f7274696e6747726f7570, 0x417373657473, 0x4572704f7267616e69736174696f6e526f6c6573, 0x5053524576656e74, 0x4e6574776f726b4461746153657473]⟩
def m_PowerSystemResource : List RClass := d_PowerSystemResource :: m_IdentifiedObject

/-- CIM15/IEC61970/Core/PsrList.py:23 -/
def d_PsrList : RClass := ⟨0x5073724c697374, 0x43494d31352e49454336313937302e436f72652e5073724c697374, 0x43494d31352e49454336313937302e436f72652e4964656e7469666965644f626a656374,
  [(0x747970655053524c697374, .str 0)],
  [0x747970655053524c697374],
  [(0x747970655053524c697374, .str 0)],
  [(0x747970655053524c697374, 0x737472)],
  [],
  [⟨0x506f77657253797374656d5265736f7572636573, .many2many, 0x5073724c69737473, 0, false⟩],
  [0x506f77657253797374656d5265736f7572636573]⟩
def m_PsrList : List RClass := d_PsrList :: m_IdentifiedObject

/-- CIM15/IEC61970/Core/ReportingGroup.py:23 -/
def d_ReportingGroup : RClass := ⟨0x5265706f7274696e6747726f7570, 0x43494d31352e49454336313937302e436f72652e5265706f7274696e6747726f7570, 0x43494d31352e49454336313937302e436f72652e4964656e7469666965644f626a656374,
  [],
  [],
  [],
  [],
  [],
  [⟨0x4275734e616d654d61726b6572, .many2one, 0x5265706f7274696e6747726f7570, 0, false⟩, ⟨0x5265706f7274696e67537570657247726f7570, .one2many, 0x5265706f7274696e6747726f7570, 0, false⟩, ⟨0x546f706f6c6f676963616c4e6f6465, .many2one, 0x5265706f7274696e6747726f7570, 0, false⟩, ⟨0x506f77657253797374656d5265736f75726365, .many2many, 0x5265706f7274696e6747726f7570, 0, false⟩],
  [0x4275734e616d654d61726b6572, 0x546f706f6c6f676963616c4e6f6465, 0x506f77657253797374656d5265736f75726365]⟩
def m_ReportingGroup : List RClass := d_ReportingGroup :: m_IdentifiedObject

/-- CIM15/IEC61970/Core/ReportingSuperGroup.py:23 -/
def d_ReportingSuperGroup : RClass := ⟨0x5265706f7274696e67537570657247726f7570, 0x43494d31352e49454336313937302e436f72652e5265706f7274696e67537570657247726f7570, 0x43494d31352e49454336313937302e436f72652e4964656e7469666965644f626a656374,
  [],
  [],
  [],
  [],
  [],
  [⟨0x5265706f7274696e6747726f7570, .many2one, 0x5265706f7274696e67537570657247726f7570, 0, false⟩],
  [0x5265706f7274696e6747726f7570]⟩
def m_ReportingSuperGroup : List RClass := d_ReportingSuperGroup :: m_IdentifiedObject

/-- CIM15/IEC61970/Core/SubGeographicalRegion.py:23 -/
def d_SubGeographicalRegion : RClass := ⟨0x53756247656f67726170686963616c526567696f6e, 0x43494d31352e49454336313937302e436f72652e53756247656f67726170686963616c526567696f6e, 0x43494d31352e49454336313937302e436f72652e4964656e7469666965644f626a656374,
  [],
  [],
  [],
  [],
  [],
  [⟨0x53756273746174696f6e73, .many2one, 0x526567696f6e, 0, false⟩, ⟨0x4c696e6573, .many2one, 0x526567696f6e, 0, false⟩, ⟨0x526567696f6e, .one2many, 0x526567696f6e73, 0, false⟩],
  [0x53756273746174696f6e73, 0x4c696e6573]⟩
def m_SubGeographicalRegion : List RClass := d_SubGeographicalRegion :: m_IdentifiedObject

/-- CIM15/IEC61970/Core/Terminal.py:23 -/
def d_Terminal : RClass := ⟨0x5465726d696e616c, 0x43494d31352e49454336313937302e436f72652e5465726d696e616c, 0x43494d31352e49454336313937302e436f72652e4964656e7469666965644f626a656374,
  [(0x706861736573, .str 0x7331324e), (0x636f6e6e6563746564, .bool false), (0x73657175656e63654e756d626572, .int 0)],
  [0x706861736573, 0x636f6e6e6563746564, 0x73657175656e63654e756d626572],
  [(0x706861736573, .str 0x7331324e), (0x636f6e6e6563746564, .bool false), (0x73657175656e63654e756d626572, .int 0)],
  [(0x706861736573, 0x737472), (0x636f6e6e6563746564, 0x626f6f6c), (0x73657175656e63654e756d626572, 0x696e74)],
  [(0x706861736573, 0x5068617365436f6465)],
  [⟨0x42757368696e67496e666f, .one2one, 0x5465726d696e616c, 0, false⟩, ⟨0x546965466c6f77, .many2one, 0x5465726d696e616c, 0, false⟩, ⟨0x4861735365636f6e645f4d757475616c436f75706c696e67, .many2one, 0x5365636f6e645f5465726d696e616c, 0, false⟩, ⟨0x4f7065726174696f6e616c4c696d6974536574, .many2one, 0x5465726d696e616c, 0, false⟩, ⟨0x4d6561737572656d656e7473, .many2one, 0x5465726d696e616c, 0, false⟩, ⟨0x436f6e64756374696e6745717569706d656e74, .one2many, 0x5465726d696e616c73, 0, false⟩, ⟨0x526567756c6174696e67436f6e74726f6c, .many2one, 0x5465726d696e616c, 0, false⟩, ⟨0x48617346697273745f4d757475616c436f75706c696e67, .many2one, 0x46697273745f5465726d696e616c, 0, false⟩, ⟨0x417578696c6961727945717569706d656e74, .many2one, 0x5465726d696e616c, 0, false⟩, ⟨0x5472616e73666f726d6572456e64, .many2one, 0x5465726d696e616c, 0, false⟩, ⟨0x436f6e6e65637469766974794e6f6465, .one2many, 0x5465726d696e616c73, 0, false⟩, ⟨0x4272616e636847726f75705465726d696e616c, .many2one, 0x5465726d696e616c, 0, false⟩, ⟨0x4275734e616d654d61726b6572, .one2many, 0x5465726d696e616c, 0, false⟩, ⟨0x5376506f776572466c6f77, .one2one, 0x5465726d696e616c, 0, false⟩, ⟨0x546f706f6c6f676963616c4e6f6465, .one2many, 0x5465726d696e616c, 0, false⟩],
  [0x546965466c6f77, 0x4861735365636f6e645f4d757475616c436f75706c696e67, 0x4f7065726174696f6e616c4c696d6974536574, 0x4d6561737572656d656e7473, 0x526567756c6174696e67436f6e74726f6c, 0x48617346697273745f4d757475616c436f75706c696e67, 0x417578696c6961727945717569706d656e74, 0x5472616e73666f726d6572456e64, 0x4272616e636847726f75705465726d696e616c]⟩
def m_Terminal : List RClass := d_Terminal :: m_IdentifiedObject

/-- CIM15/IEC61970/Generation/Production/FossilFuel.py:23 -/
def d_FossilFuel : RClass := ⟨0x466f7373696c4675656c, 0x43494d31352e49454336313937302e47656e65726174696f6e2e50726f64756374696f6e2e466f7373696c4675656c, 0x43494d31352e49454336313937302e436f72652e4964656e7469666965644f626a656374,
  [(0x6675656c53756c667572, .flt 0x0), (0x6675656c436f7374, .flt 0x0), (0x666f7373696c4675656c54797065, .str 0x6f696c), (0x6c6f77427265616b706f696e7450, .flt 0x0), (0x6675656c4469737061746368436f7374, .flt 0x0), (0x6675656c48616e646c696e67436f7374, .flt 0x0), (0x6675656c48656174436f6e74656e74, .flt 0x0), (0x6675656c456666466163746f72, .flt 0x0), (0x6675656c4d697874757265, .flt 0x0), (0x68696768427265616b706f696e7450, .flt 0x0)],
  [0x6675656c53756c667572, 0x6675656c436f7374, 0x666f7373696c4675656c54797065, 0x6c6f77427265616b706f696e7450, 0x6675656c4469737061746368436f7374, 0x6675656c48616e646c696e67436f7374, 0x6675656c48656174436f6e74656e74, 0x6675656c456666466163746f72, 0x6675656c4d697874757265, 0x68696768427265616b706f696e7450],
  [(0x6675656c53756c667572, .flt 0x0), (0x6675656c436f7374, .flt 0x0), (0x666f7373696c4675656c54797065, .str 0x6f696c), (0x6c6f77427265616b706f696e7450, .flt 0x0), (0x6675656c4469737061746368436f7374, .flt 0x0), (0x6675656c48616e646c696e67436f7374, .flt 0x0), (0x6675656c48656174436f6e74656e74, .flt 0x0), (0x6675656c456666466163746f72, .flt 0x0), (0x6675656c4d697874757265, .flt 0x0), (0x68696768427265616b706f696e7450, .flt 0x0)],
  [(0x6675656c53756c667572, 0x666c6f6174), (0x6675656c436f7374, 0x666c6f6174), (0x666f7373696c4675656c54797065, 0x737472), (0x6c6f77427265616b706f696e7450, 0x666c6f6174), (0x6675656c4469737061746368436f7374, 0x666c6f6174), (0x6675656c48616e646c696e67436f7374, 0x666c6f6174), (0x6675656c48656174436f6e74656e74, 0x666c6f6174), (0x6675656c456666466163746f72, 0x666c6f6174), (0x6675656c4d697874757265, 0x666c6f6174), (0x68696768427265616b706f696e7450, 0x666c6f6174)],
  [(0x666f7373696c4675656c54797065, 0x4675656c54797065)],
  [⟨0x546865726d616c47656e65726174696e67556e6974, .one2many, 0x466f7373696c4675656c73, 0, false⟩, ⟨0x4675656c416c6c6f636174696f6e5363686564756c6573, .many2one, 0x466f7373696c4675656c, 0, false⟩],
  [0x4675656c416c6c6f636174696f6e5363686564756c6573]⟩
def m_FossilFuel : List RClass := d_FossilFuel :: m_IdentifiedObject

/-- CIM15/IEC61970/Generation/Production/StartupModel.py:23 -/
def d_StartupModel : RClass := ⟨0x537461727475704d6f64656c, 0x43494d31352e49454336313937302e47656e65726174696f6e2e50726f64756374696f6e2e537461727475704d6f64656c, 0x43494d31352e49454336313937302e436f72652e4964656e7469666965644f626a656374,
  [(0x73746172747570436f7374, .flt 0x0), (0x7374627941757850, .flt 0x0), (0x6d696e696d756d52756e54696d65, .flt 0x0), (0x7269736b466163746f72436f7374, .flt 0x0), (0x6d696e696d756d446f776e54696d65, .flt 0x0), (0x66697865644d61696e74436f7374, .flt 0x0), (0x7374617274757044617465, .str 0), (0x686f745374616e64627948656174, .flt 0x0), (0x737461727475705072696f72697479, .int 0), (0x696e6372656d656e74616c4d61696e74436f7374, .flt 0x0)],
  [0x73746172747570436f7374, 0x7374627941757850, 0x6d696e696d756d52756e54696d65, 0x7269736b466163746f72436f7374, 0x6d696e696d756d446f776e54696d65, 0x66697865644d61696e74436f7374, 0x7374617274757044617465, 0x686f745374616e64627948656174, 0x737461727475705072696f72697479, 0x696e6372656d656e74616c4d61696e74436f7374],
  [(0x73746172747570436f7374, .flt 0x0), (0x7374627941757850, .flt 0x0), (0x6d696e696d756d52756e54696d65, .flt 0x0), (0x7269736b466163746f72436f7374, .flt 0x0), (0x6d696e696d756d446f776e54696d65, .flt 0x0), (0x66697865644d61696e74436f7374, .flt 0x0), (0x7374617274757044617465, .str 0), (0x686f745374616e64627948656174, .flt 0x0), (0x737461727475705072696f72697479, .int 0), (0x696e6372656d656e74616c4d61696e74436f7374, .flt 0x0)],
  [(0x73746172747570436f7374, 0x666c6f6174), (0x7374627941757850, 0x666c6f6174), (0x6d696e696d756d52756e54696d65, 0x666c6f6174), (0x7269736b466163746f72436f7374, 0x666c6f6174), (0x6d696e696d756d446f776e54696d65, 0x666c6f6174), (0x66697865644d61696e74436f7374, 0x666c6f6174), (0x7374617274757044617465, 0x737472), (0x686f745374616e64627948656174, 0x666c6f6174), (0x737461727475705072696f72697479, 0x696e74), (0x696e6372656d656e74616c4d61696e74436f7374, 0x666c6f6174)],
  [],
  [⟨0x537461727452616d704375727665, .one2one, 0x537461727475704d6f64656c, 0, false⟩, ⟨0x53746172744d61696e4675656c4375727665, .one2one, 0x537461727475704d6f64656c, 0, false⟩, ⟨0x537461727449676e4675656c4375727665, .one2one, 0x537461727475704d6f64656c, 0, false⟩, ⟨0x546865726d616c47656e65726174696e67556e6974, .one2one, 0x537461727475704d6f64656c, 0, false⟩],
  []⟩
def m_StartupModel : List RClass := d_StartupModel :: m_IdentifiedObject

/-- CIM15/IEC61970/Graphics/DiagramObject.py:23 -/
def d_DiagramObject : RClass := ⟨0x4469616772616d4f626a656374, 0x43494d31352e49454336313937302e47726170686963732e4469616772616d4f626a656374, 0x43494d31352e49454336313937302e436f72652e4964656e7469666965644f626a656374,
  [(0x6f666673657459, .flt 0x0), (0x6f666673657458, .flt 0x0), (0x6973506f6c79676f6e, .bool false), (0x726f746174696f6e, .flt 0x0), (0x64726177696e674f72646572, .int 0)],
  [0x6f666673657459, 0x6f666673657458, 0x6973506f6c79676f6e, 0x726f746174696f6e, 0x64726177696e674f72646572],
  [(0x6f666673657459, .flt 0x0), (0x6f666673657458, .flt 0x0), (0x6973506f6c79676f6e, .bool false), (0x726f746174696f6e, .flt 0x0), (0x64726177696e674f72646572, .int 0)],
  [(0x6f666673657459, 0x666c6f6174), (0x6f666673657458, 0x666c6f6174), (0x6973506f6c79676f6e, 0x626f6f6c), (0x726f746174696f6e, 0x666c6f6174), (0x64726177696e674f72646572, 0x696e74)],
  [],
  [⟨0x5669736962696c6974794c6179657273, .many2many, 0x4469616772616d4f626a65637473, 0, false⟩, ⟨0x4964656e7469666965644f626a656374, .one2many, 0x4469616772616d4f626a65637473, 0, false⟩, ⟨0x4469616772616d4f626a6563745374796c65, .one2many, 0x4469616772616d4f626a65637473, 0, false⟩, ⟨0x4469616772616d4f626a656374506f696e7473, .many2one, 0x4469616772616d4f626a656374, 0, false⟩, ⟨0x4469616772616d, .one2many, 0x4469616772616d4f626a65637473, 0, false⟩],
  [0x5669736962696c6974794c6179657273, 0x4469616772616d4f626a656374506f696e7473]⟩
def m_DiagramObject : List RClass := d_DiagramObject :: m_IdentifiedObject

/-- CIM15/IEC61970/Graphics/DiagramObjectStyle.py:23 -/
def d_DiagramObjectStyle : RClass := ⟨0x4469616772616d4f626a6563745374796c65, 0x43494d31352e49454336313937302e47726170686963732e4469616772616d4f626a6563745374796c65, 0x43494d31352e49454336313937302e436f72652e4964656e7469666965644f626a656374,
  [],
  [],
  [],
  [],
  [],
  [⟨0x4469616772616d4f626a65637473, .many2one, 0x4469616772616d4f626a6563745374796c65, 0, false⟩],
  [0x4469616772616d4f626a65637473]⟩
def m_DiagramObjectStyle : List RClass := d_DiagramObjectStyle :: m_IdentifiedObject

/-- CIM15/IEC61970/Graphics/VisibilityLayer.py:23 -/
def d_VisibilityLayer : RClass := ⟨0x5669736962696c6974794c61796572, 0x43494d31352e49454336313937302e47726170686963732e5669736962696c6974794c61796572, 0x43494d31352e49454336313937302e436f72652e4964656e7469666965644f626a656374,
  [(0x64726177696e674f72646572, .int 0)],
  [0x64726177696e674f72646572],
  [(0x64726177696e674f72646572, .int 0)],
  [(0x64726177696e674f72646572, 0x696e74)],
  [],
  [⟨0x4469616772616d4f626a65637473, .many2many, 0x5669736962696c6974794c6179657273, 0, false⟩],
  [0x4469616772616d4f626a65637473]⟩
def m_VisibilityLayer : List RClass := d_VisibilityLayer :: m_IdentifiedObject

/-- CIM15/IEC61970/Informative/InfAssetModels/AssetModelCatalogue.py:23 -/
def d_AssetModelCatalogue : RClass := ⟨0x41737365744d6f64656c436174616c6f677565, 0x43494d31352e49454336313937302e496e666f726d61746976652e496e6641737365744d6f64656c732e41737365744d6f64656c436174616c6f677565, 0x43494d31352e49454336313937302e436f72652e4964656e7469666965644f626a656374,
  [],
  [],
  [],
  [],
  [],
  [⟨0x41737365744d6f64656c436174616c6f6775654974656d73, .many2one, 0x41737365744d6f64656c436174616c6f677565, 0, false⟩, ⟨0x737461747573, .plainOne, 0, 0, false⟩],
  [0x41737365744d6f64656c436174616c6f6775654974656d73]⟩
def m_AssetModelCatalogue : List RClass := d_AssetModelCatalogue :: m_IdentifiedObject

/-- CIM15/IEC61970/Informative/InfAssets/BushingInsulationPF.py:23 -/
def d_BushingInsulationPF : RClass := ⟨0x42757368696e67496e73756c6174696f6e5046, 0x43494d31352e49454336313937302e496e666f726d61746976652e496e664173736574732e42757368696e67496e73756c6174696f6e5046, 0x43494d31352e49454336313937302e436f72652e4964656e7469666965644f626a656374,
  [(0x746573744b696e64, .str 0x6332)],
  [0x746573744b696e64],
  [(0x746573744b696e64, .str 0x6332)],
  [(0x746573744b696e64, 0x737472)],
  [(0x746573744b696e64, 0x42757368696e67496e73756c6174696f6e5066546573744b696e64)],
  [⟨0x737461747573, .plainOne, 0, 0, false⟩, ⟨0x5472616e73666f726d65724f62736572766174696f6e, .one2many, 0x42757368696e67496e73756c746174696f6e504673, 0, false⟩, ⟨0x42757368696e67496e666f, .one2many, 0x42757368696e67496e73756c6174696f6e504673, 0, false⟩],
  []⟩
def m_BushingInsulationPF : List RClass := d_BushingInsulationPF :: m_IdentifiedObject

/-- CIM15/IEC61970/Informative/InfAssets/DimensionsInfo.py:23 -/
def d_DimensionsInfo : RClass := ⟨0x44696d656e73696f6e73496e666f, 0x43494d31352e49454336313937302e496e666f726d61746976652e496e664173736574732e44696d656e73696f6e73496e666f, 0x43494d31352e49454336313937302e436f72652e4964656e7469666965644f626a656374,
  [(0x73697a655769647468, .flt 0x0), (0x73697a654469616d65746572, .flt 0x0), (0x73697a654c656e677468, .flt 0x0), (0x6f7269656e746174696f6e, .str 0), (0x73697a654465707468, .flt 0x0)],
  [0x73697a655769647468, 0x73697a654469616d65746572, 0x73697a654c656e677468, 0x6f7269656e746174696f6e, 0x73697a654465707468],
  [(0x73697a655769647468, .flt 0x0), (0x73697a654469616d65746572, .flt 0x0), (0x73697a654c656e677468, .flt 0x0), (0x6f7269656e746174696f6e, .str 0), (0x73697a654465707468, .flt 0x0)],
  [(0x73697a655769647468, 0x666c6f6174), (0x73697a654469616d65746572, 0x666c6f6174), (0x73697a654c656e677468, 0x666c6f6174), (0x6f7269656e746174696f6e, 0x737472), (0x73697a654465707468, 0x666c6f6174)],
  [],
  [⟨0x4c6f636174696f6e73, .many2one, 0x44696d656e73696f6e73496e666f, 0, false⟩, ⟨0x4173736574496e666f73, .many2one, 0x44696d656e73696f6e73496e666f, 0, false⟩, ⟨0x53706563696669636174696f6e73, .many2many, 0x44696d656e73696f6e73496e666f73, 0, false⟩],
  [0x4c6f636174696f6e73, 0x4173736574496e666f73, 0x53706563696669636174696f6e73]⟩
def m_DimensionsInfo : List RClass := d_DimensionsInfo :: m_IdentifiedObject

/-- CIM15/IEC61970/Informative/InfAssets/FinancialInfo.py:23 -/
def d_FinancialInfo : RClass := ⟨0x46696e616e6369616c496e666f, 0x43494d31352e49454336313937302e496e666f726d61746976652e496e664173736574732e46696e616e6369616c496e666f, 0x43494d31352e49454336313937302e436f72652e4964656e7469666965644f626a656374,
  [(0x77617272616e7479456e644461746554696d65, .str 0), (0x636f73744465736372697074696f6e, .str 0), (0x70757263686173654461746554696d65, .str 0), (0x6163636f756e74, .str 0), (0x66696e616e6369616c56616c7565, .flt 0x0), (0x70757263686173654f726465724e756d626572, .str 0), (0x706c616e745472616e736665724461746554696d65, .str 0), (0x7175616e74697479, .str 0), (0x76616c75654461746554696d65, .str 0), (0x636f737454797065, .str 0), (0x61637475616c5075726368617365436f7374, .flt 0x0)],
  [0x77617272616e7479456e644461746554696d65, 0x636f73744465736372697074696f6e, 0x70757263686173654461746554696d65, 0x6163636f756e74, 0x66696e616e6369616c56616c7565, 0x70757263686173654f726465724e756d626572, 0x706c616e745472616e736665724461746554696d65, 0x7175616e74697479, 0x76616c75654461746554696d65, 0x636f737454797065, 0x61637475616c5075726368617365436f7374],
  [(0x77617272616e7479456e644461746554696d65, .str 0), (0x636f73744465736372697074696f6e, .str 0), (0x70757263686173654461746554696d65, .str 0), (0x6163636f756e74, .str 0), (0x66696e616e6369616c56616c7565, .flt 0x0), (0x70757263686173654f726465724e756d626572, .str 0), (0x706c616e745472616e736665724461746554696d65, .str 0), (0x7175616e74697479, .str 0), (0x76616c75654461746554696d65, .str 0), (0x636f737454797065, .str 0), (0x61637475616c5075726368617365436f7374, .flt 0x0)],
  [(0x77617272616e7479456e644461746554696d65, 0x737472), (0x636f73744465736372697074696f6e, 0x737472), (0x70757263686173654461746554696d65, 0x737472), (0x6163636f756e74, 0x737472), (0x66696e616e6369616c56616c7565, 0x666c6f6174), (0x70757263686173654f726465724e756d626572, 0x737472), (0x706c616e745472616e736665724461746554696d65, 0x737472), (0x7175616e74697479, 0x737472), (0x76616c75654461746554696d65, 0x737472), (0x636f737454797065, 0x737472), (0x61637475616c5075726368617365436f7374, 0x666c6f6174)],
  [],
  [⟨0x4173736574, .one2one, 0x46696e616e6369616c496e666f, 0, false⟩],
  []⟩
def m_FinancialInfo : List RClass := d_FinancialInfo :: m_IdentifiedObject

/-- CIM15/IEC61970/Informative/InfAssets/Medium.py:23 -/
def d_Medium : RClass := ⟨0x4d656469756d, 0x43494d31352e49454336313937302e496e666f726d61746976652e496e664173736574732e4d656469756d, 0x43494d31352e49454336313937302e436f72652e4964656e7469666965644f626a656374,
  [(0x6b696e64, .str 0x676173), (0x766f6c756d6553706563, .flt 0x0)],
  [0x6b696e64, 0x766f6c756d6553706563],
  [(0x6b696e64, .str 0x676173), (0x766f6c756d6553706563, .flt 0x0)],
  [(0x6b696e64, 0x737472), (0x766f6c756d6553706563, 0x666c6f6174)],
  [(0x6b696e64, 0x4d656469756d4b696e64)],
  [⟨0x53706563696669636174696f6e, .one2many, 0x4d656469756d73, 0, false⟩, ⟨0x417373657473, .many2many, 0x4d656469756d73, 0, false⟩],
  [0x417373657473]⟩
def m_Medium : List RClass := d_Medium :: m_IdentifiedObject

/-- CIM15/IEC61970/Informative/InfAssets/MountingConnection.py:23 -/
def d_MountingConnection : RClass := ⟨0x4d6f756e74696e67436f6e6e656374696f6e, 0x43494d31352e49454336313937302e496e666f726d61746976652e496e664173736574732e4d6f756e74696e67436f6e6e656374696f6e, 0x43494d31352e49454336313937302e436f72652e4964656e7469666965644f626a656374,
  [],
  [],
  [],
  [],
  [],
  [⟨0x537472756374757265496e666f73, .many2many, 0x4d6f756e74696e67436f6e6e656374696f6e73, 0, false⟩, ⟨0x4d6f756e74696e67506f696e7473, .many2many, 0x436f6e6e656374696f6e73, 0, false⟩],
  [0x537472756374757265496e666f73, 0x4d6f756e74696e67506f696e7473]⟩
def m_MountingConnection : List RClass := d_MountingConnection :: m_IdentifiedObject

/-- CIM15/IEC61970/Informative/InfAssets/MountingPoint.py:23 -/
def d_MountingPoint : RClass := ⟨0x4d6f756e74696e67506f696e74, 0x43494d31352e49454336313937302e496e666f726d61746976652e496e664173736574732e4d6f756e74696e67506f696e74, 0x43494d31352e49454336313937302e436f72652e4964656e7469666965644f626a656374,
  [(0x78436f6f7264, .int 0), (0x7068617365436f6465, .str 0x7331324e), (0x79436f6f7264, .int 0)],
  [0x78436f6f7264, 0x7068617365436f6465, 0x79436f6f7264],
  [(0x78436f6f7264, .int 0), (0x7068617365436f6465, .str 0x7331324e), (0x79436f6f7264, .int 0)],
  [(0x78436f6f7264, 0x696e74), (0x7068617365436f6465, 0x737472), (0x79436f6f7264, 0x696e74)],
  [(0x7068617365436f6465, 0x5068617365436f6465)],
  [⟨0x436f6e6e656374696f6e73, .many2many, 0x4d6f756e74696e67506f696e7473, 0, false⟩, ⟨0x4f76657268656164436f6e647563746f7273, .many2one, 0x4d6f756e74696e67506f696e74, 0, false⟩],
  [0x436f6e6e656374696f6e73, 0x4f76657268656164436f6e647563746f7273]⟩
def m_MountingPoint : List RClass := d_MountingPoint :: m_IdentifiedObject

/-- CIM15/IEC61970/Informative/InfAssets/PowerRating.py:23 -/
def d_PowerRating : RClass := ⟨0x506f776572526174696e67, 0x43494d31352e49454336313937302e496e666f726d61746976652e496e664173736574732e506f776572526174696e67, 0x43494d31352e49454336313937302e436f72652e4964656e7469666965644f626a656374,
  [(0x7374616765, .int 0), (0x706f776572526174696e67, .flt 0x0), (0x636f6f6c696e674b696e64, .str 0x666f72636564416972)],
  [0x7374616765, 0x706f776572526174696e67, 0x636f6f6c696e674b696e64],
  [(0x7374616765, .int 0), (0x706f776572526174696e67, .flt 0x0), (0x636f6f6c696e674b696e64, .str 0x666f72636564416972)],
  [(0x7374616765, 0x696e74), (0x706f776572526174696e67, 0x666c6f6174), (0x636f6f6c696e674b696e64, 0x737472)],
  [(0x636f6f6c696e674b696e64, 0x436f6f6c696e674b696e64)],
  [⟨0x5472616e73666f726d6572417373657473, .many2many, 0x506f776572526174696e6773, 0, false⟩],
  [0x5472616e73666f726d6572417373657473]⟩
def m_PowerRating : List RClass := d_PowerRating :: m_IdentifiedObject

/-- CIM15/IEC61970/Informative/InfAssets/ReliabilityInfo.py:23 -/
def d_ReliabilityInfo : RClass := ⟨0x52656c696162696c697479496e666f, 0x43494d31352e49454336313937302e496e666f726d61746976652e496e664173736574732e52656c696162696c697479496e666f, 0x43494d31352e49454336313937302e436f72652e4964656e7469666965644f626a656374,
  [(0x6d6f6d4661696c75726552617465, .flt 0x0), (0x6d545452, .flt 0x0)],
  [0x6d6f6d4661696c75726552617465, 0x6d545452],
  [(0x6d6f6d4661696c75726552617465, .flt 0x0), (0x6d545452, .flt 0x0)],
  [(0x6d6f6d4661696c75726552617465, 0x666c6f6174), (0x6d545452, 0x666c6f6174)],
  [],
  [⟨0x53706563696669636174696f6e, .one2many, 0x52656c696162696c697479496e666f73, 0, false⟩, ⟨0x417373657473, .many2many, 0x52656c696162696c697479496e666f73, 0, false⟩],
  [0x417373657473]⟩
def m_ReliabilityInfo : List RClass := d_ReliabilityInfo :: m_IdentifiedObject

/-- CIM15/IEC61970/Informative/InfAssets/TransformerObservation.py:23 -/
def d_TransformerObservation : RClass := ⟨0x5472616e73666f726d65724f62736572766174696f6e, 0x43494d31352e49454336313937302e496e666f726d61746976652e496e664173736574732e5472616e73666f726d65724f62736572766174696f6e, 0x43494d31352e49454336313937302e436f72652e4964656e7469666965644f626a656374,
  [(0x6f696c4e65757472616c697a6174696f6e4e756d626572, .str 0), (0x7761746572436f6e74656e74, .str 0), (0x6f696c4c6576656c, .str 0), (0x6672657152657370, .str 0), (0x6f696c4469656c656374726963537472656e677468, .flt 0x0), (0x6f696c436f6c6f72, .str 0), (0x686f7453706f7454656d70, .flt 0x0), (0x646761, .str 0), (0x667572667572616c4450, .str 0), (0x6f696c494654, .str 0), (0x62757368696e6754656d70, .flt 0x0), (0x746f704f696c54656d70, .flt 0x0), (0x70756d70566962726174696f6e, .str 0)],
  [0x6f696c4e65757472616c697a6174696f6e4e756d626572, 0x7761746572436f6e74656e74, 0x6f696c4c6576656c, 0x6672657152657370, 0x6f696c4469656c656374726963537472656e677468, 0x6f696c436f6c6f72, 0x686f7453706f7454656d70, 0x646761, 0x667572667572616c4450, 0x6f696c494654, 0x62757368696e6754656d70, 0x746f704f696c54656d70, 0x70756d70566962726174696f6e],
  [(0x6f696c4e65757472616c697a6174696f6e4e756d626572, .str 0), (0x7761746572436f6e74656e74, .str 0), (0x6f696c4c6576656c, .str 0), (0x6672657152657370, .str 0), (0x6f696c4469656c656374726963537472656e677468, .flt 0x0), (0x6f696c436f6c6f72, .str 0), (0x686f7453706f7454656d70, .flt 0x0), (0x646761, .str 0), (0x667572667572616c4450, .str 0), (0x6f696c494654, .str 0), (0x62757368696e6754656d70, .flt 0x0), (0x746f704f696c54656d70, .flt 0x0), (0x70756d70566962726174696f6e, .str 0)],
  [(0x6f696c4e65757472616c697a6174696f6e4e756d626572, 0x737472), (0x7761746572436f6e74656e74, 0x737472), (0x6f696c4c6576656c, 0x737472), (0x6672657152657370, 0x737472), (0x6f696c4469656c656374726963537472656e677468, 0x666c6f6174), (0x6f696c436f6c6f72, 0x737472), (0x686f7453706f7454656d70, 0x666c6f6174), (0x646761, 0x737472), (0x667572667572616c4450, 0x737472), (0x6f696c494654, 0x737472), (0x62757368696e6754656d70, 0x666c6f6174), (0x746f704f696c54656d70, 0x666c6f6174), (0x70756d70566962726174696f6e, 0x737472)],
  [],
  [⟨0x42757368696e67496e73756c746174696f6e504673, .many2one, 0x5472616e73666f726d65724f62736572766174696f6e, 0, false⟩, ⟨0x50726f6365647572654461746153657473, .many2many, 0x5472616e73666f726d65724f62736572766174696f6e73, 0, false⟩, ⟨0x5472616e73666f726d6572, .one2many, 0x5472616e73666f726d65724f62736572766174696f6e73, 0, false⟩, ⟨0x737461747573, .plainOne, 0, 0, false⟩, ⟨0x57696e64696e67496e73756c6174696f6e504673, .many2one, 0x5472616e73666f726d65724f62736572766174696f6e, 0, false⟩, ⟨0x5472616e73666f726d65724173736574, .one2many, 0x5472616e73666f726d65724f62736572766174696f6e73, 0, false⟩],
  [0x42757368696e67496e73756c746174696f6e504673, 0x50726f6365647572654461746153657473, 0x57696e64696e67496e73756c6174696f6e504673]⟩
def m_TransformerObservation : List RClass := d_TransformerObservation :: m_IdentifiedObject

/-- CIM15/IEC61970/Informative/InfAssets/WindingInsulation.py:23 -/
def d_WindingInsulation : RClass := ⟨0x57696e64696e67496e73756c6174696f6e, 0x43494d31352e49454336313937302e496e666f726d61746976652e496e664173736574732e57696e64696e67496e73756c6174696f6e, 0x43494d31352e49454336313937302e436f72652e4964656e7469666965644f626a656374,
  [(0x696e73756c6174696f6e5046537461747573, .str 0), (0x696e73756c6174696f6e526573697374616e6365, .str 0), (0x6c65616b6167655265616374616e6365, .flt 0x0)],
  [0x696e73756c6174696f6e5046537461747573, 0x696e73756c6174696f6e526573697374616e6365, 0x6c65616b6167655265616374616e6365],
  [(0x696e73756c6174696f6e5046537461747573, .str 0), (0x696e73756c6174696f6e526573697374616e6365, .str 0), (0x6c65616b6167655265616374616e6365, .flt 0x0)],
  [(0x696e73756c6174696f6e5046537461747573, 0x737472), (0x696e73756c6174696f6e526573697374616e6365, 0x737472), (0x6c65616b6167655265616374616e6365, 0x666c6f6174)],
  [],
  [⟨0x47726f756e64, .one2many, 0x57696e64696e67496e73756c6174696f6e73, 0, false⟩, ⟨0x5472616e73666f726d65724f62736572766174696f6e, .one2many, 0x57696e64696e67496e73756c6174696f6e504673, 0, false⟩, ⟨0x546f57696e64696e67, .one2many, 0x546f57696e64696e67496e73756c6174696f6e73, 0, false⟩, ⟨0x46726f6d57696e64696e67, .one2many, 0x46726f6d57696e64696e67496e73756c6174696f6e73, 0, false⟩, ⟨0x737461747573, .plainOne, 0, 0, false⟩],
  []⟩
def m_WindingInsulation : List RClass := d_WindingInsulation :: m_IdentifiedObject

/-- CIM15/IEC61970/Informative/InfCommon/BusinessRole.py:23 -/
def d_BusinessRole : RClass := ⟨0x427573696e657373526f6c65, 0x43494d31352e49454336313937302e496e666f726d61746976652e496e66436f6d6d6f6e2e427573696e657373526f6c65, 0x43494d31352e49454336313937302e436f72652e4964656e7469666965644f626a656374,
  [(0x63617465676f7279, .str 0)],
  [0x63617465676f7279],
  [(0x63617465676f7279, .str 0)],
  [(0x63617465676f7279, 0x737472)],
  [],
  [⟨0x4f7267616e69736174696f6e73, .many2many, 0x427573696e657373526f6c6573, 0, false⟩, ⟨0x737461747573, .plainOne, 0, 0, false⟩],
  [0x4f7267616e69736174696f6e73]⟩
def m_BusinessRole : List RClass := d_BusinessRole :: m_IdentifiedObject

/-- CIM15/IEC61970/Informative/InfCommon/Craft.py:23 -/
def d_Craft : RClass := ⟨0x4372616674, 0x43494d31352e49454336313937302e496e666f726d61746976652e496e66436f6d6d6f6e2e4372616674, 0x43494d31352e49454336313937302e436f72652e4964656e7469666965644f626a656374,
  [(0x63617465676f7279, .str 0)],
  [0x63617465676f7279],
  [(0x63617465676f7279, .str 0)],
  [(0x63617465676f7279, 0x737472)],
  [],
  [⟨0x536b696c6c73, .many2many, 0x437261667473, 0, false⟩, ⟨0x457270506572736f6e73, .many2many, 0x437261667473, 0, false⟩, ⟨0x737461747573, .plainOne, 0, 0, false⟩, ⟨0x4361706162696c6974696573, .many2many, 0x437261667473, 0, false⟩],
  [0x536b696c6c73, 0x457270506572736f6e73, 0x4361706162696c6974696573]⟩
def m_Craft : List RClass := d_Craft :: m_IdentifiedObject

/-- CIM15/IEC61970/Informative/InfCommon/Role.py:23 -/
def d_Role : RClass := ⟨0x526f6c65, 0x43494d31352e49454336313937302e496e666f726d61746976652e496e66436f6d6d6f6e2e526f6c65, 0x43494d31352e49454336313937302e436f72652e4964656e7469666965644f626a656374,
  [(0x63617465676f7279, .str 0)],
  [0x63617465676f7279],
  [(0x63617465676f7279, .str 0)],
  [(0x63617465676f7279, 0x737472)],
  [],
  [⟨0x737461747573, .plainOne, 0, 0, false⟩],
  []⟩
def m_Role : List RClass := d_Role :: m_IdentifiedObject

/-- CIM15/IEC61970/Informative/InfCommon/ScheduleParameterInfo.py:23 -/
def d_ScheduleParameterInfo : RClass := ⟨0x5363686564756c65506172616d65746572496e666f, 0x43494d31352e49454336313937302e496e666f726d61746976652e496e66436f6d6d6f6e2e5363686564756c65506172616d65746572496e666f, 0x43494d31352e49454336313937302e436f72652e4964656e7469666965644f626a656374,
  [],
  [],
  [],
  [],
  [],
  [⟨0x466f72496e7370656374696f6e44617461536574, .one2many, 0x4163636f7264696e67546f5363686564756c6573, 0, false⟩, ⟨0x72657175657374656457696e646f77, .plainOne, 0, 0, false⟩, ⟨0x446f63756d656e7473, .many2many, 0x5363686564756c65506172616d65746572496e666f73, 0, false⟩, ⟨0x657374696d6174656457696e646f77, .plainOne, 0, 0, false⟩, ⟨0x5363686564756c65644576656e7473, .many2one, 0x5363686564756c65506172616d65746572496e666f, 0, false⟩, ⟨0x737461747573, .plainOne, 0, 0, false⟩],
  [0x446f63756d656e7473, 0x5363686564756c65644576656e7473]⟩
def m_ScheduleParameterInfo : List RClass := d_ScheduleParameterInfo :: m_IdentifiedObject

/-- CIM15/IEC61970/Informative/InfCommon/ScheduledEvent.py:23 -/
def d_ScheduledEvent : RClass := ⟨0x5363686564756c65644576656e74, 0x43494d31352e49454336313937302e496e666f726d61746976652e496e66436f6d6d6f6e2e5363686564756c65644576656e74, 0x43494d31352e49454336313937302e436f72652e4964656e7469666965644f626a656374,
  [(0x6475726174696f6e, .flt 0x0), (0x63617465676f7279, .str 0)],
  [0x6475726174696f6e, 0x63617465676f7279],
  [(0x6475726174696f6e, .flt 0x0), (0x63617465676f7279, .str 0)],
  [(0x6475726174696f6e, 0x666c6f6174), (0x63617465676f7279, 0x737472)],
  [],
  [⟨0x446f63756d656e74, .one2many, 0x5363686564756c65644576656e7473, 0, false⟩, ⟨0x41637469766974795265636f7264, .one2one, 0x5363686564756c65644576656e74, 0, false⟩, ⟨0x737461747573, .plainOne, 0, 0, false⟩, ⟨0x54696d65506f696e74, .one2many, 0x5363686564756c65644576656e7473, 0, false⟩, ⟨0x5363686564756c65506172616d65746572496e666f, .one2many, 0x5363686564756c65644576656e7473, 0, false⟩, ⟨0x417373657473, .many2many, 0x5363686564756c65644576656e7473, 0, false⟩],
  [0x417373657473]⟩
def m_ScheduledEvent : List RClass := d_ScheduledEvent :: m_IdentifiedObject

/-- CIM15/IEC61970/Informative/InfCore/ModelingAuthority.py:23 -/
def d_ModelingAuthority : RClass := ⟨0x4d6f64656c696e67417574686f72697479, 0x43494d31352e49454336313937302e496e666f726d61746976652e496e66436f72652e4d6f64656c696e67417574686f72697479, 0x43494d31352e49454336313937302e436f72652e4964656e7469666965644f626a656374,
  [],
  [],
  [],
  [],
  [],
  [⟨0x4d6f64656c696e67417574686f7269747953657473, .many2one, 0x4d6f64656c696e67417574686f72697479, 0, false⟩],
  [0x4d6f64656c696e67417574686f7269747953657473]⟩
def m_ModelingAuthority : List RClass := d_ModelingAuthority :: m_IdentifiedObject

/-- CIM15/IEC61970/Informative/InfCore/ModelingAuthoritySet.py:23 -/
def d_ModelingAuthoritySet : RClass := ⟨0x4d6f64656c696e67417574686f72697479536574, 0x43494d31352e49454336313937302e496e666f726d61746976652e496e66436f72652e4d6f64656c696e67417574686f72697479536574, 0x43494d31352e49454336313937302e436f72652e4964656e7469666965644f626a656374,
  [],
  [],
  [],
  [],
  [],
  [⟨0x4964656e7469666965644f626a65637473, .many2one, 0x4d6f64656c696e67417574686f72697479536574, 0, false⟩, ⟨0x4d6f64656c696e67417574686f72697479, .one2many, 0x4d6f64656c696e67417574686f7269747953657473, 0, false⟩],
  [0x4964656e7469666965644f626a65637473]⟩
def m_ModelingAuthoritySet : List RClass := d_ModelingAuthoritySet :: m_IdentifiedObject

/-- CIM15/IEC61970/Informative/InfERPSupport/ErpBomItemData.py:23 -/
def d_ErpBomItemData : RClass := ⟨0x457270426f6d4974656d44617461, 0x43494d31352e49454336313937302e496e666f726d61746976652e496e66455250537570706f72742e457270426f6d4974656d44617461, 0x43494d31352e49454336313937302e436f72652e4964656e7469666965644f626a656374,
  [],
  [],
  [],
  [],
  [],
  [⟨0x547970654173736574, .one2many, 0x457270426f6d4974656d4461746173, 0, false⟩, ⟨0x457270424f4d, .one2many, 0x457270426f6d4974656d4461746173, 0, false⟩, ⟨0x44657369676e4c6f636174696f6e, .one2many, 0x457270426f6d4974656d4461746173, 0, false⟩],
  []⟩
def m_ErpBomItemData : List RClass := d_ErpBomItemData :: m_IdentifiedObject

/-- CIM15/IEC61970/Informative/InfERPSupport/ErpCompetency.py:23 -/
def d_ErpCompetency : RClass := ⟨0x457270436f6d706574656e6379, 0x43494d31352e49454336313937302e496e666f726d61746976652e496e66455250537570706f72742e457270436f6d706574656e6379, 0x43494d31352e49454336313937302e436f72652e4964656e7469666965644f626a656374,
  [],
  [],
  [],
  [],
  [],
  [⟨0x457270506572736f6e73, .many2one, 0x457270436f6d706574656e6379, 0, false⟩],
  [0x457270506572736f6e73]⟩
def m_ErpCompetency : List RClass := d_ErpCompetency :: m_IdentifiedObject

/-- CIM15/IEC61970/Informative/InfERPSupport/ErpInventory.py:23 -/
def d_ErpInventory : RClass := ⟨0x457270496e76656e746f7279, 0x43494d31352e49454336313937302e496e666f726d61746976652e496e66455250537570706f72742e457270496e76656e746f7279, 0x43494d31352e49454336313937302e436f72652e4964656e7469666965644f626a656374,
  [],
  [],
  [],
  [],
  [],
  [⟨0x4173736574, .one2one, 0x457270496e76656e746f7279, 0, false⟩, ⟨0x737461747573, .plainOne, 0, 0, false⟩],
  []⟩
def m_ErpInventory : List RClass := d_ErpInventory :: m_IdentifiedObject

/-- CIM15/IEC61970/Informative/InfERPSupport/ErpInventoryCount.py:23 -/
def d_ErpInventoryCount : RClass := ⟨0x457270496e76656e746f7279436f756e74, 0x43494d31352e49454336313937302e496e666f726d61746976652e496e66455250537570706f72742e457270496e76656e746f7279436f756e74, 0x43494d31352e49454336313937302e436f72652e4964656e7469666965644f626a656374,
  [],
  [],
  [],
  [],
  [],
  [⟨0x737461747573, .plainOne, 0, 0, false⟩, ⟨0x4d6174657269616c4974656d, .one2many, 0x457270496e76656e746f7279436f756e7473, 0, false⟩, ⟨0x41737365744d6f64656c, .one2many, 0x457270496e76656e746f7279436f756e7473, 0, false⟩],
  []⟩
def m_ErpInventoryCount : List RClass := d_ErpInventoryCount :: m_IdentifiedObject

/-- CIM15/IEC61970/Informative/InfERPSupport/ErpIssueInventory.py:23 -/
def d_ErpIssueInventory : RClass := ⟨0x4572704973737565496e76656e746f7279, 0x43494d31352e49454336313937302e496e666f726d61746976652e496e66455250537570706f72742e4572704973737565496e76656e746f7279, 0x43494d31352e49454336313937302e436f72652e4964656e7469666965644f626a656374,
  [],
  [],
  [],
  [],
  [],
  [⟨0x547970654173736574, .one2many, 0x457270496e76656e746f7279497373756573, 0, false⟩, ⟨0x737461747573, .plainOne, 0, 0, false⟩, ⟨0x547970654d6174657269616c, .one2many, 0x4572704973737565496e76656e746f72696573, 0, false⟩],
  []⟩
def m_ErpIssueInventory : List RClass := d_ErpIssueInventory :: m_IdentifiedObject

/-- CIM15/IEC61970/Informative/InfERPSupport/ErpItemMaster.py:23 -/
def d_ErpItemMaster : RClass := ⟨0x4572704974656d4d6173746572, 0x43494d31352e49454336313937302e496e666f726d61746976652e496e66455250537570706f72742e4572704974656d4d6173746572, 0x43494d31352e49454336313937302e436f72652e4964656e7469666965644f626a656374,
  [],
  [],
  [],
  [],
  [],
  [⟨0x4173736574, .one2one, 0x4572704974656d4d6173746572, 0, false⟩, ⟨0x737461747573, .plainOne, 0, 0, false⟩],
  []⟩
def m_ErpItemMaster : List RClass := d_ErpItemMaster :: m_IdentifiedObject

/-- CIM15/IEC61970/Informative/InfERPSupport/ErpJournalEntry.py:23 -/
def d_ErpJournalEntry : RClass := ⟨0x4572704a6f75726e616c456e747279, 0x43494d31352e49454336313937302e496e666f726d61746976652e496e66455250537570706f72742e4572704a6f75726e616c456e747279, 0x43494d31352e49454336313937302e436f72652e4964656e7469666965644f626a656374,
  [(0x7472616e73616374696f6e4461746554696d65, .str 0), (0x736f757263654944, .str 0), (0x706f7374696e674461746554696d65, .str 0), (0x616d6f756e74, .flt 0x0), (0x6163636f756e744944, .str 0)],
  [0x7472616e73616374696f6e4461746554696d65, 0x736f757263654944, 0x706f7374696e674461746554696d65, 0x616d6f756e74, 0x6163636f756e744944],
  [(0x7472616e73616374696f6e4461746554696d65, .str 0), (0x736f757263654944, .str 0), (0x706f7374696e674461746554696d65, .str 0), (0x616d6f756e74, .flt 0x0), (0x6163636f756e744944, .str 0)],
  [(0x7472616e73616374696f6e4461746554696d65, 0x737472), (0x736f757263654944, 0x737472), (0x706f7374696e674461746554696d65, 0x737472), (0x616d6f756e74, 0x666c6f6174), (0x6163636f756e744944, 0x737472)],
  [],
  [⟨0x737461747573, .plainOne, 0, 0, false⟩, ⟨0x45727050617961626c654c696e654974656d73, .many2many, 0x4572704a6f75726e616c456e7472696573, 0, false⟩, ⟨0x457270496e766f6963654c696e654974656d, .one2many, 0x4572704a6f75726e616c456e7472696573, 0, false⟩, ⟨0x4572705265634c696e654974656d73, .many2many, 0x4572704a6f75726e616c456e7472696573, 0, false⟩, ⟨0x4572704c6564676572456e747279, .one2one, 0x4572704a6f756e616c456e747279, 0, false⟩, ⟨0x436f73745479706573, .many2many, 0x4572704a6f75726e616c456e7472696573, 0, false⟩, ⟨0x4572704a6f75726e616c, .one2many, 0x4572704a6f75726e616c456e7472696573, 0, false⟩],
  [0x45727050617961626c654c696e654974656d73, 0x4572705265634c696e654974656d73, 0x436f73745479706573]⟩
def m_ErpJournalEntry : List RClass := d_ErpJournalEntry :: m_IdentifiedObject

/-- CIM15/IEC61970/Informative/InfERPSupport/ErpLedBudLineItem.py:23 -/
def d_ErpLedBudLineItem : RClass := ⟨0x4572704c65644275644c696e654974656d, 0x43494d31352e49454336313937302e496e666f726d61746976652e496e66455250537570706f72742e4572704c65644275644c696e654974656d, 0x43494d31352e49454336313937302e436f72652e4964656e7469666965644f626a656374,
  [],
  [],
  [],
  [],
  [],
  [⟨0x4572704c65644275644c696e654974656d, .one2one, 0x4572704c6564676572456e747279, 0, false⟩, ⟨0x4572704c6564676572427564676574, .one2many, 0x4572704c65644275644c696e654974656d73, 0, false⟩, ⟨0x737461747573, .plainOne, 0, 0, false⟩],
  []⟩
def m_ErpLedBudLineItem : List RClass := d_ErpLedBudLineItem :: m_IdentifiedObject

/-- CIM15/IEC61970/Informative/InfERPSupport/ErpLedgerEntry.py:23 -/
def d_ErpLedgerEntry : RClass := ⟨0x4572704c6564676572456e747279, 0x43494d31352e49454336313937302e496e666f726d61746976652e496e66455250537570706f72742e4572704c6564676572456e747279, 0x43494d31352e49454336313937302e436f72652e4964656e7469666965644f626a656374,
  [(0x7472616e73616374696f6e4461746554696d65, .str 0), (0x6163636f756e744b696e64, .str 0x6e6f726d616c), (0x616d6f756e74, .flt 0x0), (0x706f737465644461746554696d65, .str 0), (0x6163636f756e744944, .str 0)],
  [0x7472616e73616374696f6e4461746554696d65, 0x6163636f756e744b696e64, 0x616d6f756e74, 0x706f737465644461746554696d65, 0x6163636f756e744944],
  [(0x7472616e73616374696f6e4461746554696d65, .str 0), (0x6163636f756e744b696e64, .str 0x6e6f726d616c), (0x616d6f756e74, .flt 0x0), (0x706f737465644461746554696d65, .str 0), (0x6163636f756e744944, .str 0)],
  [(0x7472616e73616374696f6e4461746554696d65, 0x737472), (0x6163636f756e744b696e64, 0x737472), (0x616d6f756e74, 0x666c6f6174), (0x706f737465644461746554696d65, 0x737472), (0x6163636f756e744944, 0x737472)],
  [(0x6163636f756e744b696e64, 0x4572704163636f756e744b696e64)],
  [⟨0x4572704c6564676572, .one2many, 0x4572704c6564676572456e7472696573, 0, false⟩, ⟨0x737461747573, .plainOne, 0, 0, false⟩, ⟨0x4572704c6564676572456e747279, .one2one, 0x4572704c65644275644c696e654974656d, 0, false⟩, ⟨0x5573657241747472696275746573, .many2many, 0x4572704c6564676572456e7472696573, 0, false⟩, ⟨0x4572704a6f756e616c456e747279, .one2one, 0x4572704c6564676572456e747279, 0, false⟩],
  [0x5573657241747472696275746573]⟩
def m_ErpLedgerEntry : List RClass := d_ErpLedgerEntry :: m_IdentifiedObject

/-- CIM15/IEC61970/Informative/InfERPSupport/ErpPayableLineItem.py:23 -/
def d_ErpPayableLineItem : RClass := ⟨0x45727050617961626c654c696e654974656d, 0x43494d31352e49454336313937302e496e666f726d61746976652e496e66455250537570706f72742e45727050617961626c654c696e654974656d, 0x43494d31352e49454336313937302e436f72652e4964656e7469666965644f626a656374,
  [],
  [],
  [],
  [],
  [],
  [⟨0x4572705061796d656e7473, .many2many, 0x45727050617961626c654c696e654974656d73, 0, false⟩, ⟨0x4572704a6f75726e616c456e7472696573, .many2many, 0x45727050617961626c654c696e654974656d73, 0, false⟩, ⟨0x457270496e766f6963654c696e654974656d, .one2one, 0x45727050617961626c654c696e654974656d, 0, false⟩, ⟨0x45727050617961626c65, .one2many, 0x45727050617961626c654c696e654974656d73, 0, false⟩, ⟨0x737461747573, .plainOne, 0, 0, false⟩],
  [0x4572705061796d656e7473, 0x4572704a6f75726e616c456e7472696573]⟩
def m_ErpPayableLineItem : List RClass := d_ErpPayableLineItem :: m_IdentifiedObject

/-- CIM15/IEC61970/Informative/InfERPSupport/ErpPerson.py:23 -/
def d_ErpPerson : RClass := ⟨0x457270506572736f6e, 0x43494d31352e49454336313937302e496e666f726d61746976652e496e66455250537570706f72742e457270506572736f6e, 0x43494d31352e49454336313937302e436f72652e4964656e7469666965644f626a656374,
  [(0x63617465676f7279, .str 0), (0x6c6173744e616d65, .str 0), (0x66697273744e616d65, .str 0), (0x676f7665726e6d656e744944, .str 0), (0x6d4e616d65, .str 0), (0x737566666978, .str 0), (0x7370656369616c4e656564, .str 0), (0x707265666978, .str 0)],
  [0x63617465676f7279, 0x6c6173744e616d65, 0x66697273744e616d65, 0x676f7665726e6d656e744944, 0x6d4e616d65, 0x737566666978, 0x7370656369616c4e656564, 0x707265666978],
  [(0x63617465676f7279, .str 0), (0x6c6173744e616d65, .str 0), (0x66697273744e616d65, .str 0), (0x676f7665726e6d656e744944, .str 0), (0x6d4e616d65, .str 0), (0x737566666978, .str 0), (0x7370656369616c4e656564, .str 0), (0x707265666978, .str 0)],
  [(0x63617465676f7279, 0x737472), (0x6c6173744e616d65, 0x737472), (0x66697273744e616d65, 0x737472), (0x676f7665726e6d656e744944, 0x737472), (0x6d4e616d65, 0x737472), (0x737566666978, 0x737472), (0x7370656369616c4e656564, 0x737472), (0x707265666978, 0x737472)],
  [],
  [⟨0x536572766963654c6f636174696f6e, .one2many, 0x457270506572736f6e73, 0, false⟩, ⟨0x4572704f7267616e69736174696f6e526f6c6573, .many2one, 0x457270506572736f6e, 0, false⟩, ⟨0x4170706f696e746d656e7473, .many2many, 0x457270506572736f6e73, 0, false⟩, ⟨0x4372657773, .many2many, 0x437265774d656d62657273, 0, false⟩, ⟨0x4c61626f724974656d73, .many2many, 0x457270506572736f6e73, 0, false⟩, ⟨0x4c616e6450726f7065727479526f6c6573, .many2one, 0x457270506572736f6e, 0, false⟩, ⟨0x41637469766974795265636f726473, .many2many, 0x457270506572736f6e73, 0, false⟩, ⟨0x4d6561737572656d656e7456616c756573, .many2one, 0x457270506572736f6e, 0, false⟩, ⟨0x536b696c6c73, .many2one, 0x457270506572736f6e, 0, false⟩, ⟨0x6c616e646c696e6550686f6e65, .plainOne, 0, 0, false⟩, ⟨0x6d6f62696c6550686f6e65, .plainOne, 0, 0, false⟩, ⟨0x4368616e67654974656d73, .many2one, 0x457270506572736f6e, 0, false⟩, ⟨0x737461747573, .plainOne, 0, 0, false⟩, ⟨0x446f63756d656e74526f6c6573, .many2one, 0x457270506572736f6e, 0, false⟩, ⟨0x457270506572736f6e6e656c, .one2many, 0x457270506572736f6e73, 0, false⟩, ⟨0x437261667473, .many2many, 0x457270506572736f6e73, 0, false⟩, ⟨0x437573746f6d657244617461, .one2many, 0x457270506572736f6e73, 0, false⟩, ⟨0x43616c6c4261636b73, .many2many, 0x457270506572736f6e73, 0, false⟩, ⟨0x537769746368696e6753746570526f6c6573, .many2one, 0x457270506572736f6e, 0, false⟩, ⟨0x656c656374726f6e696341646472657373, .plainOne, 0, 0, false⟩, ⟨0x457270436f6d706574656e6379, .one2many, 0x457270506572736f6e73, 0, false⟩],
  [0x4572704f7267616e69736174696f6e526f6c6573, 0x4170706f696e746d656e7473, 0x4372657773, 0x4c61626f724974656d73, 0x4c616e6450726f7065727479526f6c6573, 0x41637469766974795265636f726473, 0x4d6561737572656d656e7456616c756573, 0x536b696c6c73, 0x4368616e67654974656d73, 0x446f63756d656e74526f6c6573, 0x437261667473, 0x43616c6c4261636b73, 0x537769746368696e6753746570526f6c6573]⟩
def m_ErpPerson : List RClass := d_ErpPerson :: m_IdentifiedObject

/-- CIM15/IEC61970/Informative/InfERPSupport/ErpPersonnel.py:23 -/
def d_ErpPersonnel : RClass := ⟨0x457270506572736f6e6e656c, 0x43494d31352e49454336313937302e496e666f726d61746976652e496e66455250537570706f72742e457270506572736f6e6e656c, 0x43494d31352e49454336313937302e436f72652e4964656e7469666965644f626a656374,
  [],
  [],
  [],
  [],
  [],
  [⟨0x737461747573, .plainOne, 0, 0, false⟩, ⟨0x457270506572736f6e73, .many2one, 0x457270506572736f6e6e656c, 0, false⟩],
  [0x457270506572736f6e73]⟩
def m_ErpPersonnel : List RClass := d_ErpPersonnel :: m_IdentifiedObject

/-- CIM15/IEC61970/Informative/InfERPSupport/ErpQuoteLineItem.py:23 -/
def d_ErpQuoteLineItem : RClass := ⟨0x45727051756f74654c696e654974656d, 0x43494d31352e49454336313937302e496e666f726d61746976652e496e66455250537570706f72742e45727051756f74654c696e654974656d, 0x43494d31352e49454336313937302e436f72652e4964656e7469666965644f626a656374,
  [],
  [],
  [],
  [],
  [],
  [⟨0x45727051756f7465, .one2many, 0x45727051756f74654c696e654974656d73, 0, false⟩, ⟨0x41737365744d6f64656c436174616c6f6775654974656d, .one2many, 0x45727051756f74654c696e654974656d73, 0, false⟩, ⟨0x737461747573, .plainOne, 0, 0, false⟩, ⟨0x44657369676e, .one2one, 0x45727051756f74654c696e654974656d, 0, false⟩, ⟨0x457270496e766f6963654c696e654974656d, .one2one, 0x45727051756f74654c696e654974656d, 0, false⟩, ⟨0x4572705265714c696e654974656d, .one2one, 0x45727051756f74654c696e654974656d, 0, false⟩, ⟨0x52657175657374, .one2one, 0x45727051756f74654c696e654974656d, 0, false⟩],
  []⟩
def m_ErpQuoteLineItem : List RClass := d_ErpQuoteLineItem :: m_IdentifiedObject

/-- CIM15/IEC61970/Informative/InfERPSupport/ErpRecDelvLineItem.py:23 -/
def d_ErpRecDelvLineItem : RClass := ⟨0x45727052656344656c764c696e654974656d, 0x43494d31352e49454336313937302e496e666f726d61746976652e496e66455250537570706f72742e45727052656344656c764c696e654974656d, 0x43494d31352e49454336313937302e436f72652e4964656e7469666965644f626a656374,
  [],
  [],
  [],
  [],
  [],
  [⟨0x417373657473, .many2many, 0x45727052656344656c69766572794974656d73, 0, false⟩, ⟨0x457270496e766f6963654c696e654974656d, .one2one, 0x45727052656344656c764c696e654974656d, 0, false⟩, ⟨0x737461747573, .plainOne, 0, 0, false⟩, ⟨0x4572705265636569766544656c6976657279, .one2many, 0x45727052656344656c764c696e654974656d73, 0, false⟩, ⟨0x4d6174657269616c4974656d73, .many2many, 0x45727052656344656c764c696e654974656d73, 0, false⟩, ⟨0x457270504f4c696e654974656d, .one2one, 0x45727052656344656c4c696e654974656d, 0, false⟩],
  [0x417373657473, 0x4d6174657269616c4974656d73]⟩
def m_ErpRecDelvLineItem : List RClass := d_ErpRecDelvLineItem :: m_IdentifiedObject

/-- CIM15/IEC61970/Informative/InfERPSupport/ErpRecLineItem.py:23 -/
def d_ErpRecLineItem : RClass := ⟨0x4572705265634c696e654974656d, 0x43494d31352e49454336313937302e496e666f726d61746976652e496e66455250537570706f72742e4572705265634c696e654974656d, 0x43494d31352e49454336313937302e436f72652e4964656e7469666965644f626a656374,
  [],
  [],
  [],
  [],
  [],
  [⟨0x45727052656365697661626c65, .one2many, 0x4572705265634c696e654974656d73, 0, false⟩, ⟨0x737461747573, .plainOne, 0, 0, false⟩, ⟨0x457270496e766f6963654c696e654974656d, .one2one, 0x4572705265634c696e654974656d, 0, false⟩, ⟨0x4572705061796d656e7473, .many2many, 0x4572705265634c696e654974656d73, 0, false⟩, ⟨0x4572704a6f75726e616c456e7472696573, .many2many, 0x4572705265634c696e654974656d73, 0, false⟩],
  [0x4572705061796d656e7473, 0x4572704a6f75726e616c456e7472696573]⟩
def m_ErpRecLineItem : List RClass := d_ErpRecLineItem :: m_IdentifiedObject

/-- CIM15/IEC61970/Informative/InfERPSupport/ErpReqLineItem.py:23 -/
def d_ErpReqLineItem : RClass := ⟨0x4572705265714c696e654974656d, 0x43494d31352e49454336313937302e496e666f726d61746976652e496e66455250537570706f72742e4572705265714c696e654974656d, 0x43494d31352e49454336313937302e436f72652e4964656e7469666965644f626a656374,
  [(0x636f7374, .flt 0x0), (0x7175616e74697479, .int 0), (0x64656c697665727944617465, .str 0), (0x636f6465, .str 0)],
  [0x636f7374, 0x7175616e74697479, 0x64656c697665727944617465, 0x636f6465],
  [(0x636f7374, .flt 0x0), (0x7175616e74697479, .int 0), (0x64656c697665727944617465, .str 0), (0x636f6465, .str 0)],
  [(0x636f7374, 0x666c6f6174), (0x7175616e74697479, 0x696e74), (0x64656c697665727944617465, 0x737472), (0x636f6465, 0x737472)],
  [],
  [⟨0x45727051756f74654c696e654974656d, .one2one, 0x4572705265714c696e654974656d, 0, false⟩, ⟨0x737461747573, .plainOne, 0, 0, false⟩, ⟨0x4572705265717569736974696f6e, .one2many, 0x4572705265714c696e654974656d73, 0, false⟩, ⟨0x547970654d6174657269616c, .one2many, 0x4572705265714c696e654974656d73, 0, false⟩, ⟨0x457270504f4c696e654974656d, .one2one, 0x4572705265714c696e654974656d, 0, false⟩, ⟨0x547970654173736574, .one2many, 0x4572705265714c696e654974656d73, 0, false⟩],
  []⟩
def m_ErpReqLineItem : List RClass := d_ErpReqLineItem :: m_IdentifiedObject

/-- CIM15/IEC61970/Informative/InfERPSupport/ErpSiteLevelData.py:23 -/
def d_ErpSiteLevelData : RClass := ⟨0x457270536974654c6576656c44617461, 0x43494d31352e49454336313937302e496e666f726d61746976652e496e66455250537570706f72742e457270536974654c6576656c44617461, 0x43494d31352e49454336313937302e436f72652e4964656e7469666965644f626a656374,
  [],
  [],
  [],
  [],
  [],
  [⟨0x737461747573, .plainOne, 0, 0, false⟩, ⟨0x4c616e6450726f7065727479, .one2many, 0x457270536974654c6576656c4461746173, 0, false⟩],
  []⟩
def m_ErpSiteLevelData : List RClass := d_ErpSiteLevelData :: m_IdentifiedObject

/-- CIM15/IEC61970/Informative/InfERPSupport/ErpTimeEntry.py:23 -/
def d_ErpTimeEntry : RClass := ⟨0x45727054696d65456e747279, 0x43494d31352e49454336313937302e496e666f726d61746976652e496e66455250537570706f72742e45727054696d65456e747279, 0x43494d31352e49454336313937302e436f72652e4964656e7469666965644f626a656374,
  [],
  [],
  [],
  [],
  [],
  [⟨0x45727050726f6a6563744163636f756e74696e67, .one2many, 0x45727054696d65456e7472696573, 0, false⟩, ⟨0x737461747573, .plainOne, 0, 0, false⟩, ⟨0x45727054696d655368656574, .one2many, 0x45727054696d65456e7472696573, 0, false⟩],
  []⟩
def m_ErpTimeEntry : List RClass := d_ErpTimeEntry :: m_IdentifiedObject

/-- CIM15/IEC61970/Informative/InfGMLSupport/GmlBaseSymbol.py:23 -/
def d_GmlBaseSymbol : RClass := ⟨0x476d6c4261736553796d626f6c, 0x43494d31352e49454336313937302e496e666f726d61746976652e496e66474d4c537570706f72742e476d6c4261736553796d626f6c, 0x43494d31352e49454336313937302e436f72652e4964656e7469666965644f626a656374,
  [],
  [],
  [],
  [],
  [],
  [⟨0x476d6c53796d626f6c73, .many2one, 0x476d6c4261736553796d626f6c, 0, false⟩],
  [0x476d6c53796d626f6c73]⟩
def m_GmlBaseSymbol : List RClass := d_GmlBaseSymbol :: m_IdentifiedObject

/-- CIM15/IEC61970/Informative/InfGMLSupport/GmlColour.py:23 -/
def d_GmlColour : RClass := ⟨0x476d6c436f6c6f7572, 0x43494d31352e49454336313937302e496e666f726d61746976652e496e66474d4c537570706f72742e476d6c436f6c6f7572, 0x43494d31352e49454336313937302e436f72652e4964656e7469666965644f626a656374,
  [(0x726564, .str 0), (0x677265656e, .str 0), (0x626c7565, .str 0)],
  [0x726564, 0x677265656e, 0x626c7565],
  [(0x726564, .str 0), (0x677265656e, .str 0), (0x626c7565, .str 0)],
  [(0x726564, 0x737472), (0x677265656e, 0x737472), (0x626c7565, 0x737472)],
  [],
  [⟨0x476d6c46696c6c73, .many2one, 0x476d6c436f6c6f7572, 0, false⟩, ⟨0x476d6c466f6e7473, .many2one, 0x476d6c436f6c6f7572, 0, false⟩, ⟨0x476d6c5374726f6b6573, .many2one, 0x476d6c436f6c6f7572, 0, false⟩],
  [0x476d6c46696c6c73, 0x476d6c466f6e7473, 0x476d6c5374726f6b6573]⟩
def m_GmlColour : List RClass := d_GmlColour :: m_IdentifiedObject

/-- CIM15/IEC61970/Informative/InfGMLSupport/GmlDiagramObject.py:23 -/
def d_GmlDiagramObject : RClass := ⟨0x476d6c4469616772616d4f626a656374, 0x43494d31352e49454336313937302e496e666f726d61746976652e496e66474d4c537570706f72742e476d6c4469616772616d4f626a656374, 0x43494d31352e49454336313937302e436f72652e4964656e7469666965644f626a656374,
  [],
  [],
  [],
  [],
  [],
  [⟨0x476d6c53656c6563746f7273, .many2many, 0x476d6c4469616772616d4f626a65637473, 0, false⟩, ⟨0x4469616772616d73, .many2many, 0x476d6c4469616772616d4f626a65637473, 0, false⟩, ⟨0x436f6f7264696e61746553797374656d73, .many2many, 0x476d6c4469616772616d4f626a65637473, 0, false⟩, ⟨0x476d6c506f696e7453796d626f6c73, .many2one, 0x476d6c4469616772616d4f626a656374, 0, false⟩, ⟨0x476d6c4c696e6553796d626f6c73, .many2one, 0x476d6c4469616772616d4f626a656374, 0, false⟩, ⟨0x476d6c52617374657253796d626f6c73, .many2one, 0x476d6c4469616772616d4f626a656374, 0, false⟩, ⟨0x476d6c4f62736572766174696e73, .many2many, 0x476d6c4469616772616d4f626a65637473, 0, false⟩, ⟨0x476d6c5465787453796d626f6c73, .many2one, 0x476d6c4469616772616d4f626a656374, 0, false⟩, ⟨0x476d6c506f6c79676f6e53796d626f6c73, .many2one, 0x476d6c4469616772616d4f626a656374, 0, false⟩],
  [0x476d6c53656c6563746f7273, 0x4469616772616d73, 0x436f6f7264696e61746553797374656d73, 0x476d6c506f696e7453796d626f6c73, 0x476d6c4c696e6553796d626f6c73, 0x476d6c52617374657253796d626f6c73, 0x476d6c4f62736572766174696e73, 0x476d6c5465787453796d626f6c73, 0x476d6c506f6c79676f6e53796d626f6c73]⟩
def m_GmlDiagramObject : List RClass := d_GmlDiagramObject :: m_IdentifiedObject

/-- CIM15/IEC61970/Informative/InfGMLSupport/GmlFeatureStyle.py:23 -/
def d_GmlFeatureStyle : RClass := ⟨0x476d6c466561747572655374796c65, 0x43494d31352e49454336313937302e496e666f726d61746976652e496e66474d4c537570706f72742e476d6c466561747572655374796c65, 0x43494d31352e49454336313937302e436f72652e4964656e7469666965644f626a656374,
  [(0x73656d616e746963547970654964656e746966696572, .str 0), (0x6665617475726554797065, .str 0), (0x76657273696f6e, .str 0), (0x66656174757265547970654e616d65, .str 0), (0x66656174757265436f6e73747261696e74, .str 0), (0x6261736554797065, .str 0), (0x71756572794772616d6d6172, .str 0x6f74686572)],
  [0x73656d616e746963547970654964656e746966696572, 0x6665617475726554797065, 0x76657273696f6e, 0x66656174757265547970654e616d65, 0x66656174757265436f6e73747261696e74, 0x6261736554797065, 0x71756572794772616d6d6172],
  [(0x73656d616e746963547970654964656e746966696572, .str 0), (0x6665617475726554797065, .str 0), (0x76657273696f6e, .str 0), (0x66656174757265547970654e616d65, .str 0), (0x66656174757265436f6e73747261696e74, .str 0), (0x6261736554797065, .str 0), (0x71756572794772616d6d6172, .str 0x6f74686572)],
  [(0x73656d616e746963547970654964656e746966696572, 0x737472), (0x6665617475726554797065, 0x737472), (0x76657273696f6e, 0x737472), (0x66656174757265547970654e616d65, 0x737472), (0x66656174757265436f6e73747261696e74, 0x737472), (0x6261736554797065, 0x737472), (0x71756572794772616d6d6172, 0x737472)],
  [(0x71756572794772616d6d6172, 0x51756572794772616d6d61724b696e64)],
  [⟨0x476d6c47656f6d657472795374796c6573, .many2one, 0x476d6c466561747572655374796c65, 0, false⟩, ⟨0x476d6c53796d626f6c73, .many2many, 0x476d6c466561747572655374796c6573, 0, false⟩, ⟨0x476d6c546f626f6c6f67795374796c6573, .many2one, 0x476d6c466561747572655374796c65, 0, false⟩, ⟨0x476d6c4c6162656c5374796c6573, .many2one, 0x476d6c466561747572655374796c65, 0, false⟩, ⟨0x476d6c466561747572655479706573, .many2many, 0x476d6c466561747572655374796c6573, 0, false⟩],
  [0x476d6c47656f6d657472795374796c6573, 0x476d6c53796d626f6c73, 0x476d6c546f626f6c6f67795374796c6573, 0x476d6c4c6162656c5374796c6573, 0x476d6c466561747572655479706573]⟩
def m_GmlFeatureStyle : List RClass := d_GmlFeatureStyle :: m_IdentifiedObject

/-- CIM15/IEC61970/Informative/InfGMLSupport/GmlFeatureType.py:23 -/
def d_GmlFeatureType : RClass := ⟨0x476d6c4665617475726554797065, 0x43494d31352e49454336313937302e496e666f726d61746976652e496e66474d4c537570706f72742e476d6c4665617475726554797065, 0x43494d31352e49454336313937302e436f72652e4964656e7469666965644f626a656374,
  [],
  [],
  [],
  [],
  [],
  [⟨0x476d6c466561747572655374796c6573, .many2many, 0x476d6c466561747572655479706573, 0, false⟩],
  [0x476d6c466561747572655374796c6573]⟩
def m_GmlFeatureType : List RClass := d_GmlFeatureType :: m_IdentifiedObject

/-- CIM15/IEC61970/Informative/InfGMLSupport/GmlFill.py:23 -/
def d_GmlFill : RClass := ⟨0x476d6c46696c6c, 0x43494d31352e49454336313937302e496e666f726d61746976652e496e66474d4c537570706f72742e476d6c46696c6c, 0x43494d31352e49454336313937302e436f72652e4964656e7469666965644f626a656374,
  [(0x6f706163697479, .flt 0x0)],
  [0x6f706163697479],
  [(0x6f706163697479, .flt 0x0)],
  [(0x6f706163697479, 0x666c6f6174)],
  [],
  [⟨0x476d6c436f6c6f7572, .one2many, 0x476d6c46696c6c73, 0, false⟩, ⟨0x476d6c4d61726b73, .many2many, 0x476d6c46496c6c73, 0, false⟩, ⟨0x476d6c5465787453796d626f6c73, .many2one, 0x476d6c46696c6c, 0, false⟩, ⟨0x476d6c537667506172616d6574657273, .many2many, 0x476d6c46696c6c73, 0, false⟩, ⟨0x476d6c506f6c79676f6e53796d626f6c73, .many2one, 0x476d6c46696c6c, 0, false⟩],
  [0x476d6c4d61726b73, 0x476d6c5465787453796d626f6c73, 0x476d6c537667506172616d6574657273, 0x476d6c506f6c79676f6e53796d626f6c73]⟩
def m_GmlFill : List RClass := d_GmlFill :: m_IdentifiedObject

/-- CIM15/IEC61970/Informative/InfGMLSupport/GmlFont.py:23 -/
def d_GmlFont : RClass := ⟨0x476d6c466f6e74, 0x43494d31352e49454336313937302e496e666f726d61746976652e496e66474d4c537570706f72742e476d6c466f6e74, 0x43494d31352e49454336313937302e436f72652e4964656e7469666965644f626a656374,
  [(0x6162736f6c75746553697a65, .bool false), (0x73697a65, .str 0), (0x7374796c65, .str 0), (0x66616d696c79, .str 0), (0x776569676874, .str 0)],
  [0x6162736f6c75746553697a65, 0x73697a65, 0x7374796c65, 0x66616d696c79, 0x776569676874],
  [(0x6162736f6c75746553697a65, .bool false), (0x73697a65, .str 0), (0x7374796c65, .str 0), (0x66616d696c79, .str 0), (0x776569676874, .str 0)],
  [(0x6162736f6c75746553697a65, 0x626f6f6c), (0x73697a65, 0x737472), (0x7374796c65, 0x737472), (0x66616d696c79, 0x737472), (0x776569676874, 0x737472)],
  [],
  [⟨0x476d6c5465787453796d626f6c73, .many2one, 0x476d6c466f6e74, 0, false⟩, ⟨0x476d6c537667506172616d6574657273, .many2many, 0x476d6c466f6e7473, 0, false⟩, ⟨0x476d6c436f6c6f7572, .one2many, 0x476d6c466f6e7473, 0, false⟩],
  [0x476d6c5465787453796d626f6c73, 0x476d6c537667506172616d6574657273]⟩
def m_GmlFont : List RClass := d_GmlFont :: m_IdentifiedObject

/-- CIM15/IEC61970/Informative/InfGMLSupport/GmlGeometryStyle.py:23 -/
def d_GmlGeometryStyle : RClass := ⟨0x476d6c47656f6d657472795374796c65, 0x43494d31352e49454336313937302e496e666f726d61746976652e496e66474d4c537570706f72742e476d6c47656f6d657472795374796c65, 0x43494d31352e49454336313937302e436f72652e4964656e7469666965644f626a656374,
  [(0x67656f6d6574727950726f7065727479, .str 0), (0x67656f6d6574727954797065, .str 0), (0x73796d626f6c, .str 0)],
  [0x67656f6d6574727950726f7065727479, 0x67656f6d6574727954797065, 0x73796d626f6c],
  [(0x67656f6d6574727950726f7065727479, .str 0), (0x67656f6d6574727954797065, .str 0), (0x73796d626f6c, .str 0)],
  [(0x67656f6d6574727950726f7065727479, 0x737472), (0x67656f6d6574727954797065, 0x737472), (0x73796d626f6c, 0x737472)],
  [],
  [⟨0x476d6c466561747572655374796c65, .one2many, 0x476d6c47656f6d657472795374796c6573, 0, false⟩, ⟨0x476d6c4c6162656c5374796c65, .one2many, 0x476d6c47656f6d657472795374796c6573, 0, false⟩],
  []⟩
def m_GmlGeometryStyle : List RClass := d_GmlGeometryStyle :: m_IdentifiedObject

/-- CIM15/IEC61970/Informative/InfGMLSupport/GmlGraphic.py:23 -/
def d_GmlGraphic : RClass := ⟨0x476d6c47726170686963, 0x43494d31352e49454336313937302e496e666f726d61746976652e496e66474d4c537570706f72742e476d6c47726170686963, 0x43494d31352e49454336313937302e436f72652e4964656e7469666965644f626a656374,
  [(0x726f746174696f6e, .flt 0x0), (0x73697a65, .int 0), (0x73796d626f6c4944, .str 0), (0x6d696e53697a65, .int 0), (0x6f706163697479, .flt 0x0), (0x785363616c65, .flt 0x0), (0x795363616c65, .flt 0x0)],
  [0x726f746174696f6e, 0x73697a65, 0x73796d626f6c4944, 0x6d696e53697a65, 0x6f706163697479, 0x785363616c65, 0x795363616c65],
  [(0x726f746174696f6e, .flt 0x0), (0x73697a65, .int 0), (0x73796d626f6c4944, .str 0), (0x6d696e53697a65, .int 0), (0x6f706163697479, .flt 0x0), (0x785363616c65, .flt 0x0), (0x795363616c65, .flt 0x0)],
  [(0x726f746174696f6e, 0x666c6f6174), (0x73697a65, 0x696e74), (0x73796d626f6c4944, 0x737472), (0x6d696e53697a65, 0x696e74), (0x6f706163697479, 0x666c6f6174), (0x785363616c65, 0x666c6f6174), (0x795363616c65, 0x666c6f6174)],
  [],
  [⟨0x476d6c4d61726b73, .many2many, 0x476d6c4772617068696373, 0, false⟩, ⟨0x476d6c506f696e7453796d626f6c73, .many2one, 0x476d6c47726170686963, 0, false⟩],
  [0x476d6c4d61726b73, 0x476d6c506f696e7453796d626f6c73]⟩
def m_GmlGraphic : List RClass := d_GmlGraphic :: m_IdentifiedObject

/-- CIM15/IEC61970/Informative/InfGMLSupport/GmlHalo.py:23 -/
def d_GmlHalo : RClass := ⟨0x476d6c48616c6f, 0x43494d31352e49454336313937302e496e666f726d61746976652e496e66474d4c537570706f72742e476d6c48616c6f, 0x43494d31352e49454336313937302e436f72652e4964656e7469666965644f626a656374,
  [(0x726164697573, .str 0), (0x6f706163697479, .flt 0x0)],
  [0x726164697573, 0x6f706163697479],
  [(0x726164697573, .str 0), (0x6f706163697479, .flt 0x0)],
  [(0x726164697573, 0x737472), (0x6f706163697479, 0x666c6f6174)],
  [],
  [⟨0x476d6c5465787453796d626f6c73, .many2one, 0x476d6c48616c6f, 0, false⟩],
  [0x476d6c5465787453796d626f6c73]⟩
def m_GmlHalo : List RClass := d_GmlHalo :: m_IdentifiedObject

/-- CIM15/IEC61970/Informative/InfGMLSupport/GmlLabelPlacement.py:23 -/
def d_GmlLabelPlacement : RClass := ⟨0x476d6c4c6162656c506c6163656d656e74, 0x43494d31352e49454336313937302e496e666f726d61746976652e496e66474d4c537570706f72742e476d6c4c6162656c506c6163656d656e74, 0x43494d31352e49454336313937302e436f72652e4964656e7469666965644f626a656374,
  [(0x646973706c6163656d656e7458, .str 0), (0x726f746174696f6e, .str 0), (0x646973706c6163656d656e7459, .str 0), (0x74797065, .str 0), (0x616e63686f7258, .str 0), (0x616e63686f7259, .str 0), (0x6f6666736574, .str 0)],
  [0x646973706c6163656d656e7458, 0x726f746174696f6e, 0x646973706c6163656d656e7459, 0x74797065, 0x616e63686f7258, 0x616e63686f7259, 0x6f6666736574],
  [(0x646973706c6163656d656e7458, .str 0), (0x726f746174696f6e, .str 0), (0x646973706c6163656d656e7459, .str 0), (0x74797065, .str 0), (0x616e63686f7258, .str 0), (0x616e63686f7259, .str 0), (0x6f6666736574, .str 0)],
  [(0x646973706c6163656d656e7458, 0x737472), (0x726f746174696f6e, 0x737472), (0x646973706c6163656d656e7459, 0x737472), (0x74797065, 0x737472), (0x616e63686f7258, 0x737472), (0x616e63686f7259, 0x737472), (0x6f6666736574, 0x737472)],
  [],
  [⟨0x476d6c5465787453796d626f6c73, .many2one, 0x476d6c4c6162656c506c6163656d656e74, 0, false⟩],
  [0x476d6c5465787453796d626f6c73]⟩
def m_GmlLabelPlacement : List RClass := d_GmlLabelPlacement :: m_IdentifiedObject

/-- CIM15/IEC61970/Informative/InfGMLSupport/GmlLabelStyle.py:23 -/
def d_GmlLabelStyle : RClass := ⟨0x476d6c4c6162656c5374796c65, 0x43494d31352e49454336313937302e496e666f726d61746976652e496e66474d4c537570706f72742e476d6c4c6162656c5374796c65, 0x43494d31352e49454336313937302e436f72652e4964656e7469666965644f626a656374,
  [(0x7472616e73666f726d, .str 0), (0x6c6162656c45787072657373696f6e, .str 0), (0x7374796c65, .str 0)],
  [0x7472616e73666f726d, 0x6c6162656c45787072657373696f6e, 0x7374796c65],
  [(0x7472616e73666f726d, .str 0), (0x6c6162656c45787072657373696f6e, .str 0), (0x7374796c65, .str 0)],
  [(0x7472616e73666f726d, 0x737472), (0x6c6162656c45787072657373696f6e, 0x737472), (0x7374796c65, 0x737472)],
  [],
  [⟨0x476d6c546f706f6c6f67795374796c6573, .many2one, 0x476d6c4c61626c655374796c65, 0, false⟩, ⟨0x476d6c47656f6d657472795374796c6573, .many2one, 0x476d6c4c6162656c5374796c65, 0, false⟩, ⟨0x476d6c466561747572655374796c65, .one2many, 0x476d6c4c6162656c5374796c6573, 0, false⟩],
  [0x476d6c546f706f6c6f67795374796c6573, 0x476d6c47656f6d657472795374796c6573]⟩
def m_GmlLabelStyle : List RClass := d_GmlLabelStyle :: m_IdentifiedObject

/-- CIM15/IEC61970/Informative/InfGMLSupport/GmlMark.py:23 -/
def d_GmlMark : RClass := ⟨0x476d6c4d61726b, 0x43494d31352e49454336313937302e496e666f726d61746976652e496e66474d4c537570706f72742e476d6c4d61726b, 0x43494d31352e49454336313937302e436f72652e4964656e7469666965644f626a656374,
  [(0x77656c6c4b6e6f776e4e616d65, .str 0)],
  [0x77656c6c4b6e6f776e4e616d65],
  [(0x77656c6c4b6e6f776e4e616d65, .str 0)],
  [(0x77656c6c4b6e6f776e4e616d65, 0x737472)],
  [],
  [⟨0x476d6c4772617068696373, .many2many, 0x476d6c4d61726b73, 0, false⟩, ⟨0x476d6c5374726f6b6573, .many2many, 0x476d6c4d61726b73, 0, false⟩, ⟨0x476d6c46496c6c73, .many2many, 0x476d6c4d61726b73, 0, false⟩],
  [0x476d6c4772617068696373, 0x476d6c5374726f6b6573, 0x476d6c46496c6c73]⟩
def m_GmlMark : List RClass := d_GmlMark :: m_IdentifiedObject

/-- CIM15/IEC61970/Informative/InfGMLSupport/GmlPosition.py:23 -/
def d_GmlPosition : RClass := ⟨0x476d6c506f736974696f6e, 0x43494d31352e49454336313937302e496e666f726d61746976652e496e66474d4c537570706f72742e476d6c506f736974696f6e, 0x43494d31352e49454336313936382e436f6d6d6f6e2e506f736974696f6e506f696e74,
  [],
  [],
  [],
  [],
  [],
  [],
  []⟩
def m_GmlPosition : List RClass := d_GmlPosition :: m_PositionPoint

/-- CIM15/IEC61970/Informative/InfGMLSupport/GmlSelector.py:23 -/
def d_GmlSelector : RClass := ⟨0x476d6c53656c6563746f72, 0x43494d31352e49454336313937302e496e666f726d61746976652e496e66474d4c537570706f72742e476d6c53656c6563746f72, 0x43494d31352e49454336313937302e436f72652e4964656e7469666965644f626a656374,
  [],
  [],
  [],
  [],
  [],
  [⟨0x4368616e67654974656d73, .many2one, 0x476d6c53656c6563746f72, 0, false⟩, ⟨0x476d6c4469616772616d4f626a65637473, .many2many, 0x476d6c53656c6563746f7273, 0, false⟩],
  [0x4368616e67654974656d73, 0x476d6c4469616772616d4f626a65637473]⟩
def m_GmlSelector : List RClass := d_GmlSelector :: m_IdentifiedObject

/-- CIM15/IEC61970/Informative/InfGMLSupport/GmlStroke.py:23 -/
def d_GmlStroke : RClass := ⟨0x476d6c5374726f6b65, 0x43494d31352e49454336313937302e496e666f726d61746976652e496e66474d4c537570706f72742e476d6c5374726f6b65, 0x43494d31352e49454336313937302e436f72652e4964656e7469666965644f626a656374,
  [(0x6c696e65436170, .str 0), (0x7769647468, .flt 0x0), (0x6c696e656a6f696e, .str 0), (0x646173684172726179, .str 0), (0x6c696e655374796c65, .str 0), (0x646173684f6666736574, .str 0), (0x6f706163697479, .flt 0x0)],
  [0x6c696e65436170, 0x7769647468, 0x6c696e656a6f696e, 0x646173684172726179, 0x6c696e655374796c65, 0x646173684f6666736574, 0x6f706163697479],
  [(0x6c696e65436170, .str 0), (0x7769647468, .flt 0x0), (0x6c696e656a6f696e, .str 0), (0x646173684172726179, .str 0), (0x6c696e655374796c65, .str 0), (0x646173684f6666736574, .str 0), (0x6f706163697479, .flt 0x0)],
  [(0x6c696e65436170, 0x737472), (0x7769647468, 0x666c6f6174), (0x6c696e656a6f696e, 0x737472), (0x646173684172726179, 0x737472), (0x6c696e655374796c65, 0x737472), (0x646173684f6666736574, 0x737472), (0x6f706163697479, 0x666c6f6174)],
  [],
  [⟨0x476d6c436f6c6f7572, .one2many, 0x476d6c5374726f6b6573, 0, false⟩, ⟨0x476d6c506f6c79676f6e53796d626f6c73, .many2one, 0x476d6c5374726f6b65, 0, false⟩, ⟨0x476d6c4d61726b73, .many2many, 0x476d6c5374726f6b6573, 0, false⟩, ⟨0x476d6c537667506172616d6574657273, .many2many, 0x476d6c53746f6b6573, 0, false⟩, ⟨0x476d6c4c696e6553796d626f6c73, .many2one, 0x476d6c5374726f6b65, 0, false⟩],
  [0x476d6c506f6c79676f6e53796d626f6c73, 0x476d6c4d61726b73, 0x476d6c537667506172616d6574657273, 0x476d6c4c696e6553796d626f6c73]⟩
def m_GmlStroke : List RClass := d_GmlStroke :: m_IdentifiedObject

/-- CIM15/IEC61970/Informative/InfGMLSupport/GmlSvgParameter.py:23 -/
def d_GmlSvgParameter : RClass := ⟨0x476d6c537667506172616d65746572, 0x43494d31352e49454336313937302e496e666f726d61746976652e496e66474d4c537570706f72742e476d6c537667506172616d65746572, 0x43494d31352e49454336313937302e436f72652e4964656e7469666965644f626a656374,
  [(0x617474726962757465, .str 0), (0x76616c7565, .str 0)],
  [0x617474726962757465, 0x76616c7565],
  [(0x617474726962757465, .str 0), (0x76616c7565, .str 0)],
  [(0x617474726962757465, 0x737472), (0x76616c7565, 0x737472)],
  [],
  [⟨0x476d6c53746f6b6573, .many2many, 0x476d6c537667506172616d6574657273, 0, false⟩, ⟨0x476d6c466f6e7473, .many2many, 0x476d6c537667506172616d6574657273, 0, false⟩, ⟨0x476d6c46696c6c73, .many2many, 0x476d6c537667506172616d6574657273, 0, false⟩],
  [0x476d6c53746f6b6573, 0x476d6c466f6e7473, 0x476d6c46696c6c73]⟩
def m_GmlSvgParameter : List RClass := d_GmlSvgParameter :: m_IdentifiedObject

/-- CIM15/IEC61970/Informative/InfGMLSupport/GmlSymbol.py:23 -/
def d_GmlSymbol : RClass := ⟨0x476d6c53796d626f6c, 0x43494d31352e49454336313937302e496e666f726d61746976652e496e66474d4c537570706f72742e476d6c53796d626f6c, 0x43494d31352e49454336313937302e436f72652e4964656e7469666965644f626a656374,
  [(0x76657273696f6e, .str 0), (0x6c6576656c, .str 0), (0x74797065, .str 0)],
  [0x76657273696f6e, 0x6c6576656c, 0x74797065],
  [(0x76657273696f6e, .str 0), (0x6c6576656c, .str 0), (0x74797065, .str 0)],
  [(0x76657273696f6e, 0x737472), (0x6c6576656c, 0x737472), (0x74797065, 0x737472)],
  [],
  [⟨0x476d6c466561747572655374796c6573, .many2many, 0x476d6c53796d626f6c73, 0, false⟩, ⟨0x476d6c4261736553796d626f6c, .one2many, 0x476d6c53796d626f6c73, 0, false⟩],
  [0x476d6c466561747572655374796c6573]⟩
def m_GmlSymbol : List RClass := d_GmlSymbol :: m_IdentifiedObject

/-- CIM15/IEC61970/Informative/InfGMLSupport/GmlTopologyStyle.py:23 -/
def d_GmlTopologyStyle : RClass := ⟨0x476d6c546f706f6c6f67795374796c65, 0x43494d31352e49454336313937302e496e666f726d61746976652e496e66474d4c537570706f72742e476d6c546f706f6c6f67795374796c65, 0x43494d31352e49454336313937302e436f72652e4964656e7469666965644f626a656374,
  [],
  [],
  [],
  [],
  [],
  [⟨0x476d6c4c61626c655374796c65, .one2many, 0x476d6c546f706f6c6f67795374796c6573, 0, false⟩, ⟨0x476d6c466561747572655374796c65, .one2many, 0x476d6c546f626f6c6f67795374796c6573, 0, false⟩],
  []⟩
def m_GmlTopologyStyle : List RClass := d_GmlTopologyStyle :: m_IdentifiedObject

/-- CIM15/IEC61970/Informative/InfGMLSupport/GmlValue.py:23 -/
def d_GmlValue : RClass := ⟨0x476d6c56616c7565, 0x43494d31352e49454336313937302e496e666f726d61746976652e496e66474d4c537570706f72742e476d6c56616c7565, 0x43494d31352e49454336313937302e436f72652e4964656e7469666965644f626a656374,
  [(0x6461746554696d65, .str 0), (0x74696d65506572696f64, .str 0), (0x76616c7565, .flt 0x0)],
  [0x6461746554696d65, 0x74696d65506572696f64, 0x76616c7565],
  [(0x6461746554696d65, .str 0), (0x74696d65506572696f64, .str 0), (0x76616c7565, .flt 0x0)],
  [(0x6461746554696d65, 0x737472), (0x74696d65506572696f64, 0x737472), (0x76616c7565, 0x666c6f6174)],
  [],
  [⟨0x476d6c4f62736572766174696f6e, .one2many, 0x476d6c56616c756573, 0, false⟩, ⟨0x4d6561737572656d656e7456616c7565, .one2many, 0x476d6c56616c756573, 0, false⟩],
  []⟩
def m_GmlValue : List RClass := d_GmlValue :: m_IdentifiedObject

/-- CIM15/IEC61970/Informative/InfLocations/Hazard.py:23 -/
def d_Hazard : RClass := ⟨0x48617a617264, 0x43494d31352e49454336313937302e496e666f726d61746976652e496e664c6f636174696f6e732e48617a617264, 0x43494d31352e49454336313937302e436f72652e4964656e7469666965644f626a656374,
  [(0x63617465676f7279, .str 0)],
  [0x63617465676f7279],
  [(0x63617465676f7279, .str 0)],
  [(0x63617465676f7279, 0x737472)],
  [],
  [⟨0x4c6f636174696f6e73, .many2many, 0x48617a61726473, 0, false⟩, ⟨0x737461747573, .plainOne, 0, 0, false⟩],
  [0x4c6f636174696f6e73]⟩
def m_Hazard : List RClass := d_Hazard :: m_IdentifiedObject

/-- CIM15/IEC61970/Informative/InfLocations/LandProperty.py:23 -/
def d_LandProperty : RClass := ⟨0x4c616e6450726f7065727479, 0x43494d31352e49454336313937302e496e666f726d61746976652e496e664c6f636174696f6e732e4c616e6450726f7065727479, 0x43494d31352e49454336313937302e436f72652e4964656e7469666965644f626a656374,
  [(0x6b696e64, .str 0x73746f7265), (0x65787465726e616c5265636f72645265666572656e6365, .str 0), (0x64656d6f677261706869634b696e64, .str 0x6f74686572)],
  [0x6b696e64, 0x65787465726e616c5265636f72645265666572656e6365, 0x64656d6f677261706869634b696e64],
  [(0x6b696e64, .str 0x73746f7265), (0x65787465726e616c5265636f72645265666572656e6365, .str 0), (0x64656d6f677261706869634b696e64, .str 0x6f74686572)],
  [(0x6b696e64, 0x737472), (0x65787465726e616c5265636f72645265666572656e6365, 0x737472), (0x64656d6f677261706869634b696e64, 0x737472)],
  [(0x6b696e64, 0x4c616e6450726f70657274794b696e64), (0x64656d6f677261706869634b696e64, 0x44656d6f677261706869634b696e64)],
  [⟨0x737461747573, .plainOne, 0, 0, false⟩, ⟨0x4c6f636174696f6e4772616e7473, .many2one, 0x4c616e6450726f7065727479, 0, false⟩, ⟨0x457270536974654c6576656c4461746173, .many2one, 0x4c616e6450726f7065727479, 0, false⟩, ⟨0x457270506572736f6e526f6c6573, .many2one, 0x4c616e6450726f7065727479, 0, false⟩, ⟨0x4572704f7267616e69736174696f6e526f6c6573, .many2many, 0x4c616e6450726f7065727479, 0, false⟩, ⟨0x4173736574436f6e7461696e657273, .many2many, 0x4c616e6450726f70657274696573, 0, false⟩, ⟨0x4c6f636174696f6e73, .many2many, 0x4c616e6450726f70657274696573, 0, false⟩, ⟨0x52696768744f6657617973, .many2many, 0x4c616e6450726f70657274696573, 0, false⟩],
  [0x4c6f636174696f6e4772616e7473, 0x457270536974654c6576656c4461746173, 0x457270506572736f6e526f6c6573, 0x4572704f7267616e69736174696f6e526f6c6573, 0x4173736574436f6e7461696e657273, 0x4c6f636174696f6e73, 0x52696768744f6657617973]⟩
def m_LandProperty : List RClass := d_LandProperty :: m_IdentifiedObject

/-- CIM15/IEC61970/Informative/InfLocations/RedLine.py:23 -/
def d_RedLine : RClass := ⟨0x5265644c696e65, 0x43494d31352e49454336313937302e496e666f726d61746976652e496e664c6f636174696f6e732e5265644c696e65, 0x43494d31352e49454336313937302e436f72652e4964656e7469666965644f626a656374,
  [],
  [],
  [],
  [],
  [],
  [⟨0x4c6f636174696f6e73, .many2many, 0x5265644c696e6573, 0, false⟩, ⟨0x737461747573, .plainOne, 0, 0, false⟩],
  [0x4c6f636174696f6e73]⟩
def m_RedLine : List RClass := d_RedLine :: m_IdentifiedObject

/-- CIM15/IEC61970/Informative/InfLocations/Route.py:23 -/
def d_Route : RClass := ⟨0x526f757465, 0x43494d31352e49454336313937302e496e666f726d61746976652e496e664c6f636174696f6e732e526f757465, 0x43494d31352e49454336313937302e436f72652e4964656e7469666965644f626a656374,
  [(0x63617465676f7279, .str 0)],
  [0x63617465676f7279],
  [(0x63617465676f7279, .str 0)],
  [(0x63617465676f7279, 0x737472)],
  [],
  [⟨0x4372657773, .many2one, 0x526f757465, 0, false⟩, ⟨0x737461747573, .plainOne, 0, 0, false⟩, ⟨0x4c6f636174696f6e73, .many2many, 0x526f75746573, 0, false⟩],
  [0x4372657773, 0x4c6f636174696f6e73]⟩
def m_Route : List RClass := d_Route :: m_IdentifiedObject

/-- CIM15/IEC61970/Informative/InfOperations/CallBack.py:23 -/
def d_CallBack : RClass := ⟨0x43616c6c4261636b, 0x43494d31352e49454336313937302e496e666f726d61746976652e496e664f7065726174696f6e732e43616c6c4261636b, 0x43494d31352e49454336313937302e436f72652e4964656e7469666965644f626a656374,
  [(0x6461746554696d65, .str 0), (0x636f6d6d656e74, .str 0), (0x616476696365, .str 0), (0x636f6e7461637444657461696c, .str 0), (0x70726f626c656d496e666f, .str 0)],
  [0x6461746554696d65, 0x636f6d6d656e74, 0x616476696365, 0x636f6e7461637444657461696c, 0x70726f626c656d496e666f],
  [(0x6461746554696d65, .str 0), (0x636f6d6d656e74, .str 0), (0x616476696365, .str 0), (0x636f6e7461637444657461696c, .str 0), (0x70726f626c656d496e666f, .str 0)],
  [(0x6461746554696d65, 0x737472), (0x636f6d6d656e74, 0x737472), (0x616476696365, 0x737472), (0x636f6e7461637444657461696c, 0x737472), (0x70726f626c656d496e666f, 0x737472)],
  [],
  [⟨0x4170706f696e746d656e7473, .many2one, 0x43616c6c4261636b, 0, false⟩, ⟨0x457270506572736f6e73, .many2many, 0x43616c6c4261636b73, 0, false⟩, ⟨0x54726f75626c655469636b657473, .many2many, 0x43616c6c4261636b73, 0, false⟩, ⟨0x737461747573, .plainOne, 0, 0, false⟩],
  [0x4170706f696e746d656e7473, 0x457270506572736f6e73, 0x54726f75626c655469636b657473]⟩
def m_CallBack : List RClass := d_CallBack :: m_IdentifiedObject

/-- CIM15/IEC61970/Informative/InfOperations/ChangeItem.py:23 -/
def d_ChangeItem : RClass := ⟨0x4368616e67654974656d, 0x43494d31352e49454336313937302e496e666f726d61746976652e496e664f7065726174696f6e732e4368616e67654974656d, 0x43494d31352e49454336313937302e436f72652e4964656e7469666965644f626a656374,
  [(0x73657175656e63654e756d626572, .int 0), (0x6b696e64, .str 0x616464)],
  [0x73657175656e63654e756d626572, 0x6b696e64],
  [(0x73657175656e63654e756d626572, .int 0), (0x6b696e64, .str 0x616464)],
  [(0x73657175656e63654e756d626572, 0x696e74), (0x6b696e64, 0x737472)],
  [(0x6b696e64, 0x4368616e67654974656d4b696e64)],
  [⟨0x476d6c53656c6563746f72, .one2many, 0x4368616e67654974656d73, 0, false⟩, ⟨0x4f7267616e69736174696f6e, .one2many, 0x4368616e67654974656d73, 0, false⟩, ⟨0x446f63756d656e74, .one2many, 0x4368616e67654974656d73, 0, false⟩, ⟨0x4173736574, .one2many, 0x4368616e67654974656d73, 0, false⟩, ⟨0x737461747573, .plainOne, 0, 0, false⟩, ⟨0x476d6c4f62736572766174696f6e, .one2many, 0x4368616e67654974656d73, 0, false⟩, ⟨0x457270506572736f6e, .one2many, 0x4368616e67654974656d73, 0, false⟩, ⟨0x506f77657253797374656d5265736f75726365, .one2many, 0x4368616e67654974656d73, 0, false⟩, ⟨0x4368616e6765536574, .one2many, 0x4368616e67654974656d73, 0, false⟩, ⟨0x4c6f636174696f6e, .one2many, 0x4368616e67654974656d73, 0, false⟩, ⟨0x4e6574776f726b44617461536574, .one2many, 0x4368616e67654974656d73, 0, false⟩],
  []⟩
def m_ChangeItem : List RClass := d_ChangeItem :: m_IdentifiedObject

/-- CIM15/IEC61970/Informative/InfOperations/ChangeSet.py:23 -/
def d_ChangeSet : RClass := ⟨0x4368616e6765536574, 0x43494d31352e49454336313937302e496e666f726d61746976652e496e664f7065726174696f6e732e4368616e6765536574, 0x43494d31352e49454336313937302e436f72652e4964656e7469666965644f626a656374,
  [],
  [],
  [],
  [],
  [],
  [⟨0x4e6574776f726b4461746153657473, .many2many, 0x4368616e676553657473, 0, false⟩, ⟨0x4368616e67654974656d73, .many2one, 0x4368616e6765536574, 0, false⟩, ⟨0x737461747573, .plainOne, 0, 0, false⟩, ⟨0x446f63756d656e7473, .many2many, 0x4368616e676553657473, 0, false⟩],
  [0x4e6574776f726b4461746153657473, 0x4368616e67654974656d73, 0x446f63756d656e7473]⟩
def m_ChangeSet : List RClass := d_ChangeSet :: m_IdentifiedObject

/-- CIM15/IEC61970/Informative/InfOperations/CircuitSection.py:23 -/
def d_CircuitSection : RClass := ⟨0x4369726375697453656374696f6e, 0x43494d31352e49454336313937302e496e666f726d61746976652e496e664f7065726174696f6e732e4369726375697453656374696f6e, 0x43494d31352e49454336313937302e436f72652e4964656e7469666965644f626a656374,
  [(0x636f6e6e656374696f6e4b696e64, .str 0x656c656374726963616c6c79436f6e6e6563746564)],
  [0x636f6e6e656374696f6e4b696e64],
  [(0x636f6e6e656374696f6e4b696e64, .str 0x656c656374726963616c6c79436f6e6e6563746564)],
  [(0x636f6e6e656374696f6e4b696e64, 0x737472)],
  [(0x636f6e6e656374696f6e4b696e64, 0x43697263756974436f6e6e656374696f6e4b696e64)],
  [⟨0x436f6e647563746f72417373657473, .many2one, 0x4369726375697453656374696f6e, 0, false⟩, ⟨0x4369726375697473, .many2many, 0x4369726375697453656374696f6e73, 0, false⟩],
  [0x436f6e647563746f72417373657473, 0x4369726375697473]⟩
def m_CircuitSection : List RClass := d_CircuitSection :: m_IdentifiedObject

/-- CIM15/IEC61970/Informative/InfOperations/IncidentCode.py:23 -/
def d_IncidentCode : RClass := ⟨0x496e636964656e74436f6465, 0x43494d31352e49454336313937302e496e666f726d61746976652e496e664f7065726174696f6e732e496e636964656e74436f6465, 0x43494d31352e49454336313937302e436f72652e4964656e7469666965644f626a656374,
  [(0x737562436f6465, .str 0)],
  [0x737562436f6465],
  [(0x737562436f6465, .str 0)],
  [(0x737562436f6465, 0x737472)],
  [],
  [⟨0x496e636964656e745265636f726473, .many2many, 0x496e636964656e74436f646573, 0, false⟩],
  [0x496e636964656e745265636f726473]⟩
def m_IncidentCode : List RClass := d_IncidentCode :: m_IdentifiedObject

/-- CIM15/IEC61970/Informative/InfOperations/NetworkDataSet.py:23 -/
def d_NetworkDataSet : RClass := ⟨0x4e6574776f726b44617461536574, 0x43494d31352e49454336313937302e496e666f726d61746976652e496e664f7065726174696f6e732e4e6574776f726b44617461536574, 0x43494d31352e49454336313937302e436f72652e4964656e7469666965644f626a656374,
  [(0x63617465676f7279, .str 0)],
  [0x63617465676f7279],
  [(0x63617465676f7279, .str 0)],
  [(0x63617465676f7279, 0x737472)],
  [],
  [⟨0x737461747573, .plainOne, 0, 0, false⟩, ⟨0x446f63756d656e7473, .many2many, 0x4e6574776f726b4461746153657473, 0, false⟩, ⟨0x4368616e67654974656d73, .many2one, 0x4e6574776f726b44617461536574, 0, false⟩, ⟨0x4368616e676553657473, .many2many, 0x4e6574776f726b4461746153657473, 0, false⟩, ⟨0x506f77657253797374656d5265736f7572636573, .many2many, 0x4e6574776f726b4461746153657473, 0, false⟩],
  [0x446f63756d656e7473, 0x4368616e67654974656d73, 0x4368616e676553657473, 0x506f77657253797374656d5265736f7572636573]⟩
def m_NetworkDataSet : List RClass := d_NetworkDataSet :: m_IdentifiedObject

/-- CIM15/IEC61970/Informative/InfOperations/OutageCode.py:23 -/
def d_OutageCode : RClass := ⟨0x4f7574616765436f6465, 0x43494d31352e49454336313937302e496e666f726d61746976652e496e664f7065726174696f6e732e4f7574616765436f6465, 0x43494d31352e49454336313937302e436f72652e4964656e7469666965644f626a656374,
  [(0x737562436f6465, .str 0)],
  [0x737562436f6465],
  [(0x737562436f6465, .str 0)],
  [(0x737562436f6465, 0x737472)],
  [],
  [⟨0x4f75746167655265636f726473, .many2many, 0x4f7574616765436f646573, 0, false⟩, ⟨0x4f75746167655374657073, .many2many, 0x4f7574616765436f646573, 0, false⟩],
  [0x4f75746167655265636f726473, 0x4f75746167655374657073]⟩
def m_OutageCode : List RClass := d_OutageCode :: m_IdentifiedObject

/-- CIM15/IEC61970/Informative/InfOperations/OutageStep.py:23 -/
def d_OutageStep : RClass := ⟨0x4f757461676553746570, 0x43494d31352e49454336313937302e496e666f726d61746976652e496e664f7065726174696f6e732e4f757461676553746570, 0x43494d31352e49454336313937302e436f72652e4964656e7469666965644f626a656374,
  [(0x61766572616765436d6c, .flt 0x0), (0x64616d616765, .bool false), (0x7370656369616c437573746f6d6572436f756e74, .int 0), (0x637269746963616c437573746f6d6572436f756e74, .int 0), (0x657374696d61746564526573746f72654461746554696d65, .str 0), (0x73686f636b5265706f72746564, .bool false), (0x63616c6c6572436f756e74, .int 0), (0x666174616c697479, .bool false), (0x6a6f625072696f72697479, .str 0), (0x746f74616c437573746f6d6572436f756e74, .int 0), (0x696e6a757279, .bool false), (0x746f74616c436d6c, .flt 0x0)],
  [0x61766572616765436d6c, 0x64616d616765, 0x7370656369616c437573746f6d6572436f756e74, 0x637269746963616c437573746f6d6572436f756e74, 0x657374696d61746564526573746f72654461746554696d65, 0x73686f636b5265706f72746564, 0x63616c6c6572436f756e74, 0x666174616c697479, 0x6a6f625072696f72697479, 0x746f74616c437573746f6d6572436f756e74, 0x696e6a757279, 0x746f74616c436d6c],
  [(0x61766572616765436d6c, .flt 0x0), (0x64616d616765, .bool false), (0x7370656369616c437573746f6d6572436f756e74, .int 0), (0x637269746963616c437573746f6d6572436f756e74, .int 0), (0x657374696d61746564526573746f72654461746554696d65, .str 0), (0x73686f636b5265706f72746564, .bool false), (0x63616c6c6572436f756e74, .int 0), (0x666174616c697479, .bool false), (0x6a6f625072696f72697479, .str 0), (0x746f74616c437573746f6d6572436f756e74, .int 0), (0x696e6a757279, .bool false), (0x746f74616c436d6c, .flt 0x0)],
  [(0x61766572616765436d6c, 0x666c6f6174), (0x64616d616765, 0x626f6f6c), (0x7370656369616c437573746f6d6572436f756e74, 0x696e74), (0x637269746963616c437573746f6d6572436f756e74, 0x696e74), (0x657374696d61746564526573746f72654461746554696d65, 0x737472), (0x73686f636b5265706f72746564, 0x626f6f6c), (0x63616c6c6572436f756e74, 0x696e74), (0x666174616c697479, 0x626f6f6c), (0x6a6f625072696f72697479, 0x737472), (0x746f74616c437573746f6d6572436f756e74, 0x696e74), (0x696e6a757279, 0x626f6f6c), (0x746f74616c436d6c, 0x666c6f6174)],
  [],
  [⟨0x4372657773, .many2many, 0x4f75746167655374657073, 0, false⟩, ⟨0x6e6f506f776572496e74657276616c, .plainOne, 0, 0, false⟩, ⟨0x436f6e64756374696e6745717569706d656e74526f6c6573, .many2one, 0x4f757461676553746570, 0, false⟩, ⟨0x737461747573, .plainOne, 0, 0, false⟩, ⟨0x4f75746167655265636f7264, .one2many, 0x4f75746167655374657073, 0, false⟩, ⟨0x4f7574616765436f646573, .many2many, 0x4f75746167655374657073, 0, false⟩],
  [0x4372657773, 0x436f6e64756374696e6745717569706d656e74526f6c6573, 0x4f7574616765436f646573]⟩
def m_OutageStep : List RClass := d_OutageStep :: m_IdentifiedObject

/-- CIM15/IEC61970/Informative/InfOperations/SwitchingStep.py:23 -/
def d_SwitchingStep : RClass := ⟨0x537769746368696e6753746570, 0x43494d31352e49454336313937302e496e666f726d61746976652e496e664f7065726174696f6e732e537769746368696e6753746570, 0x43494d31352e49454336313937302e436f72652e4964656e7469666965644f626a656374,
  [(0x7374617475734b696e64, .str 0x696e7374727563746564), (0x74657874, .str 0), (0x7265717569726564436f6e74726f6c416374696f6e, .str 0), (0x64657369726564456e645374617465, .str 0)],
  [0x7374617475734b696e64, 0x74657874, 0x7265717569726564436f6e74726f6c416374696f6e, 0x64657369726564456e645374617465],
  [(0x7374617475734b696e64, .str 0x696e7374727563746564), (0x74657874, .str 0), (0x7265717569726564436f6e74726f6c416374696f6e, .str 0), (0x64657369726564456e645374617465, .str 0)],
  [(0x7374617475734b696e64, 0x737472), (0x74657874, 0x737472), (0x7265717569726564436f6e74726f6c416374696f6e, 0x737472), (0x64657369726564456e645374617465, 0x737472)],
  [(0x7374617475734b696e64, 0x537769746368696e67537465705374617475734b696e64)],
  [⟨0x536166657479446f63756d656e74, .one2many, 0x5363686564756c655374657073, 0, false⟩, ⟨0x7265717569726564436f6e74726f6c416374696f6e496e74657276616c, .plainOne, 0, 0, false⟩, ⟨0x537769746368696e675363686564756c65, .one2many, 0x5363686564756c655374657073, 0, false⟩, ⟨0x506f77657253797374656d5265736f7572636573, .many2many, 0x5363686564756c655374657073, 0, false⟩, ⟨0x457270506572736f6e526f6c65, .one2one, 0x537769746368696e6753746570, 0, false⟩],
  [0x506f77657253797374656d5265736f7572636573]⟩
def m_SwitchingStep : List RClass := d_SwitchingStep :: m_IdentifiedObject

/-- CIM15/IEC61970/Informative/InfTypeAsset/TypeAssetCatalogue.py:23 -/
def d_TypeAssetCatalogue : RClass := ⟨0x547970654173736574436174616c6f677565, 0x43494d31352e49454336313937302e496e666f726d61746976652e496e665479706541737365742e547970654173736574436174616c6f677565, 0x43494d31352e49454336313937302e436f72652e4964656e7469666965644f626a656374,
  [],
  [],
  [],
  [],
  [],
  [⟨0x54797065417373657473, .many2one, 0x547970654173736574436174616c6f677565, 0, false⟩, ⟨0x737461747573, .plainOne, 0, 0, false⟩],
  [0x54797065417373657473]⟩
def m_TypeAssetCatalogue : List RClass := d_TypeAssetCatalogue :: m_IdentifiedObject

/-- CIM15/IEC61970/Informative/InfWork/CUAllowableAction.py:23 -/
def d_CUAllowableAction : RClass := ⟨0x4355416c6c6f7761626c65416374696f6e, 0x43494d31352e49454336313937302e496e666f726d61746976652e496e66576f726b2e4355416c6c6f7761626c65416374696f6e, 0x43494d31352e49454336313937302e436f72652e4964656e7469666965644f626a656374,
  [],
  [],
  [],
  [],
  [],
  [⟨0x436f6d70617469626c65556e697473, .many2one, 0x4355416c6c6f7761626c65416374696f6e, 0, false⟩, ⟨0x737461747573, .plainOne, 0, 0, false⟩],
  [0x436f6d70617469626c65556e697473]⟩
def m_CUAllowableAction : List RClass := d_CUAllowableAction :: m_IdentifiedObject

/-- CIM15/IEC61970/Informative/InfWork/CUAsset.py:23 -/
def d_CUAsset : RClass := ⟨0x43554173736574, 0x43494d31352e49454336313937302e496e666f726d61746976652e496e66576f726b2e43554173736574, 0x43494d31352e49454336313937302e436f72652e4964656e7469666965644f626a656374,
  [(0x7175616e74697479, .str 0), (0x747970654173736574436f6465, .str 0)],
  [0x7175616e74697479, 0x747970654173736574436f6465],
  [(0x7175616e74697479, .str 0), (0x747970654173736574436f6465, .str 0)],
  [(0x7175616e74697479, 0x737472), (0x747970654173736574436f6465, 0x737472)],
  [],
  [⟨0x436f6d70617469626c65556e697473, .many2many, 0x4355417373657473, 0, false⟩, ⟨0x547970654173736574, .one2one, 0x43554173736574, 0, false⟩, ⟨0x737461747573, .plainOne, 0, 0, false⟩],
  [0x436f6d70617469626c65556e697473]⟩
def m_CUAsset : List RClass := d_CUAsset :: m_IdentifiedObject

/-- CIM15/IEC61970/Informative/InfWork/CUContractorItem.py:23 -/
def d_CUContractorItem : RClass := ⟨0x4355436f6e74726163746f724974656d, 0x43494d31352e49454336313937302e496e666f726d61746976652e496e66576f726b2e4355436f6e74726163746f724974656d, 0x43494d31352e49454336313937302e436f72652e4964656e7469666965644f626a656374,
  [(0x626964416d6f756e74, .flt 0x0), (0x6163746976697479436f6465, .str 0)],
  [0x626964416d6f756e74, 0x6163746976697479436f6465],
  [(0x626964416d6f756e74, .flt 0x0), (0x6163746976697479436f6465, .str 0)],
  [(0x626964416d6f756e74, 0x666c6f6174), (0x6163746976697479436f6465, 0x737472)],
  [],
  [⟨0x436f6d70617469626c65556e697473, .many2many, 0x4355436f6e74726163746f724974656d73, 0, false⟩, ⟨0x737461747573, .plainOne, 0, 0, false⟩],
  [0x436f6d70617469626c65556e697473]⟩
def m_CUContractorItem : List RClass := d_CUContractorItem :: m_IdentifiedObject

/-- CIM15/IEC61970/Informative/InfWork/CUGroup.py:23 -/
def d_CUGroup : RClass := ⟨0x435547726f7570, 0x43494d31352e49454336313937302e496e666f726d61746976652e496e66576f726b2e435547726f7570, 0x43494d31352e49454336313937302e436f72652e4964656e7469666965644f626a656374,
  [],
  [],
  [],
  [],
  [],
  [⟨0x436f6d70617469626c65556e697473, .many2one, 0x435547726f7570, 0, false⟩, ⟨0x506172656e74435547726f757073, .many2many, 0x4368696c64435547726f757073, 0, false⟩, ⟨0x4368696c64435547726f757073, .many2many, 0x506172656e74435547726f757073, 0, false⟩, ⟨0x737461747573, .plainOne, 0, 0, false⟩, ⟨0x44657369676e4c6f636174696f6e435573, .many2many, 0x435547726f757073, 0, false⟩],
  [0x436f6d70617469626c65556e697473, 0x506172656e74435547726f757073, 0x4368696c64435547726f757073, 0x44657369676e4c6f636174696f6e435573]⟩
def m_CUGroup : List RClass := d_CUGroup :: m_IdentifiedObject

/-- CIM15/IEC61970/Informative/InfWork/CULaborCode.py:23 -/
def d_CULaborCode : RClass := ⟨0x43554c61626f72436f6465, 0x43494d31352e49454336313937302e496e666f726d61746976652e496e66576f726b2e43554c61626f72436f6465, 0x43494d31352e49454336313937302e436f72652e4964656e7469666965644f626a656374,
  [(0x636f6465, .str 0)],
  [0x636f6465],
  [(0x636f6465, .str 0)],
  [(0x636f6465, 0x737472)],
  [],
  [⟨0x43554c61626f724974656d73, .many2one, 0x43554c61626f72436f6465, 0, false⟩, ⟨0x737461747573, .plainOne, 0, 0, false⟩],
  [0x43554c61626f724974656d73]⟩
def m_CULaborCode : List RClass := d_CULaborCode :: m_IdentifiedObject

/-- CIM15/IEC61970/Informative/InfWork/CULaborItem.py:23 -/
def d_CULaborItem : RClass := ⟨0x43554c61626f724974656d, 0x43494d31352e49454336313937302e496e666f726d61746976652e496e66576f726b2e43554c61626f724974656d, 0x43494d31352e49454336313937302e436f72652e4964656e7469666965644f626a656374,
  [(0x6c61626f724475726174696f6e, .flt 0x0), (0x6c61626f7252617465, .flt 0x0), (0x6163746976697479436f6465, .str 0)],
  [0x6c61626f724475726174696f6e, 0x6c61626f7252617465, 0x6163746976697479436f6465],
  [(0x6c61626f724475726174696f6e, .flt 0x0), (0x6c61626f7252617465, .flt 0x0), (0x6163746976697479436f6465, .str 0)],
  [(0x6c61626f724475726174696f6e, 0x666c6f6174), (0x6c61626f7252617465, 0x666c6f6174), (0x6163746976697479436f6465, 0x737472)],
  [],
  [⟨0x436f6d70617469626c65556e697473, .many2many, 0x43554c61626f724974656d73, 0, false⟩, ⟨0x43554c61626f72436f6465, .one2many, 0x43554c61626f724974656d73, 0, false⟩, ⟨0x737461747573, .plainOne, 0, 0, false⟩, ⟨0x5175616c696669636174696f6e526571756972656d656e7473, .many2many, 0x43554c61626f724974656d73, 0, false⟩],
  [0x436f6d70617469626c65556e697473, 0x5175616c696669636174696f6e526571756972656d656e7473]⟩
def m_CULaborItem : List RClass := d_CULaborItem :: m_IdentifiedObject

/-- CIM15/IEC61970/Informative/InfWork/CUMaterialItem.py:23 -/
def d_CUMaterialItem : RClass := ⟨0x43554d6174657269616c4974656d, 0x43494d31352e49454336313937302e496e666f726d61746976652e496e66576f726b2e43554d6174657269616c4974656d, 0x43494d31352e49454336313937302e436f72652e4964656e7469666965644f626a656374,
  [(0x7175616e74697479, .str 0), (0x636f72706f72617465436f6465, .str 0)],
  [0x7175616e74697479, 0x636f72706f72617465436f6465],
  [(0x7175616e74697479, .str 0), (0x636f72706f72617465436f6465, .str 0)],
  [(0x7175616e74697479, 0x737472), (0x636f72706f72617465436f6465, 0x737472)],
  [],
  [⟨0x737461747573, .plainOne, 0, 0, false⟩, ⟨0x50726f7065727479556e697473, .many2many, 0x43554d6174657269616c4974656d73, 0, false⟩, ⟨0x436f6d70617469626c65556e697473, .many2many, 0x43554d6174657269616c4974656d73, 0, false⟩, ⟨0x547970654d6174657269616c, .one2many, 0x43554d6174657269616c4974656d73, 0, false⟩],
  [0x50726f7065727479556e697473, 0x436f6d70617469626c65556e697473]⟩
def m_CUMaterialItem : List RClass := d_CUMaterialItem :: m_IdentifiedObject

/-- CIM15/IEC61970/Informative/InfWork/CUWorkEquipmentItem.py:23 -/
def d_CUWorkEquipmentItem : RClass := ⟨0x4355576f726b45717569706d656e744974656d, 0x43494d31352e49454336313937302e496e666f726d61746976652e496e66576f726b2e4355576f726b45717569706d656e744974656d, 0x43494d31352e49454336313937302e436f72652e4964656e7469666965644f626a656374,
  [(0x72617465, .flt 0x0), (0x6571756970436f6465, .str 0)],
  [0x72617465, 0x6571756970436f6465],
  [(0x72617465, .flt 0x0), (0x6571756970436f6465, .str 0)],
  [(0x72617465, 0x666c6f6174), (0x6571756970436f6465, 0x737472)],
  [],
  [⟨0x547970654173736574, .one2one, 0x4355576f726b45717569706d656e744173736574, 0, false⟩, ⟨0x737461747573, .plainOne, 0, 0, false⟩, ⟨0x436f6d70617469626c65556e697473, .many2many, 0x4355576f726b45717569706d656e744974656d73, 0, false⟩],
  [0x436f6d70617469626c65556e697473]⟩
def m_CUWorkEquipmentItem : List RClass := d_CUWorkEquipmentItem :: m_IdentifiedObject

/-- CIM15/IEC61970/Informative/InfWork/Capability.py:23 -/
def d_Capability : RClass := ⟨0x4361706162696c697479, 0x43494d31352e49454336313937302e496e666f726d61746976652e496e66576f726b2e4361706162696c697479, 0x43494d31352e49454336313937302e436f72652e4964656e7469666965644f626a656374,
  [(0x63617465676f7279, .str 0), (0x706572666f726d616e6365466163746f72, .str 0)],
  [0x63617465676f7279, 0x706572666f726d616e6365466163746f72],
  [(0x63617465676f7279, .str 0), (0x706572666f726d616e6365466163746f72, .str 0)],
  [(0x63617465676f7279, 0x737472), (0x706572666f726d616e6365466163746f72, 0x737472)],
  [],
  [⟨0x43726577, .one2many, 0x4361706162696c6974696573, 0, false⟩, ⟨0x576f726b5461736b73, .many2many, 0x4361706162696c6974696573, 0, false⟩, ⟨0x737461747573, .plainOne, 0, 0, false⟩, ⟨0x437261667473, .many2many, 0x4361706162696c6974696573, 0, false⟩, ⟨0x76616c6964697479496e74657276616c, .plainOne, 0, 0, false⟩],
  [0x576f726b5461736b73, 0x437261667473]⟩
def m_Capability : List RClass := d_Capability :: m_IdentifiedObject

/-- CIM15/IEC61970/Informative/InfWork/ConditionFactor.py:23 -/
def d_ConditionFactor : RClass := ⟨0x436f6e646974696f6e466163746f72, 0x43494d31352e49454336313937302e496e666f726d61746976652e496e66576f726b2e436f6e646974696f6e466163746f72, 0x43494d31352e49454336313937302e436f72652e4964656e7469666965644f626a656374,
  [(0x6b696e64, .str 0x6d6174657269616c), (0x636656616c7565, .str 0)],
  [0x6b696e64, 0x636656616c7565],
  [(0x6b696e64, .str 0x6d6174657269616c), (0x636656616c7565, .str 0)],
  [(0x6b696e64, 0x737472), (0x636656616c7565, 0x737472)],
  [(0x6b696e64, 0x436f6e646974696f6e466163746f724b696e64)],
  [⟨0x44657369676e73, .many2many, 0x436f6e646974696f6e466163746f7273, 0, false⟩, ⟨0x44657369676e4c6f636174696f6e73, .many2many, 0x436f6e646974696f6e466163746f7273, 0, false⟩, ⟨0x737461747573, .plainOne, 0, 0, false⟩, ⟨0x44657369676e4c6f636174696f6e435573, .many2many, 0x436f6e646974696f6e466163746f7273, 0, false⟩],
  [0x44657369676e73, 0x44657369676e4c6f636174696f6e73, 0x44657369676e4c6f636174696f6e435573]⟩
def m_ConditionFactor : List RClass := d_ConditionFactor :: m_IdentifiedObject

/-- CIM15/IEC61970/Informative/InfWork/ContractorItem.py:23 -/
def d_ContractorItem : RClass := ⟨0x436f6e74726163746f724974656d, 0x43494d31352e49454336313937302e496e666f726d61746976652e496e66576f726b2e436f6e74726163746f724974656d, 0x43494d31352e49454336313937302e436f72652e4964656e7469666965644f626a656374,
  [(0x626964416d6f756e74, .flt 0x0), (0x6163746976697479436f6465, .str 0), (0x636f7374, .flt 0x0)],
  [0x626964416d6f756e74, 0x6163746976697479436f6465, 0x636f7374],
  [(0x626964416d6f756e74, .flt 0x0), (0x6163746976697479436f6465, .str 0), (0x636f7374, .flt 0x0)],
  [(0x626964416d6f756e74, 0x666c6f6174), (0x6163746976697479436f6465, 0x737472), (0x636f7374, 0x666c6f6174)],
  [],
  [⟨0x576f726b5461736b, .one2many, 0x436f6e74726163746f724974656d73, 0, false⟩, ⟨0x45727050617961626c6573, .many2many, 0x436f6e74726163746f724974656d73, 0, false⟩, ⟨0x737461747573, .plainOne, 0, 0, false⟩, ⟨0x576f726b436f737444657461696c, .one2many, 0x436f6e74726163746f724974656d73, 0, false⟩],
  [0x45727050617961626c6573]⟩
def m_ContractorItem : List RClass := d_ContractorItem :: m_IdentifiedObject

/-- CIM15/IEC61970/Informative/InfWork/CostType.py:23 -/
def d_CostType : RClass := ⟨0x436f737454797065, 0x43494d31352e49454336313937302e496e666f726d61746976652e496e66576f726b2e436f737454797065, 0x43494d31352e49454336313937302e436f72652e4964656e7469666965644f626a656374,
  [(0x7374616765, .str 0), (0x636f6465, .str 0), (0x6c6576656c, .str 0), (0x616d6f756e7441737369676e61626c65, .bool false)],
  [0x7374616765, 0x636f6465, 0x6c6576656c, 0x616d6f756e7441737369676e61626c65],
  [(0x7374616765, .str 0), (0x636f6465, .str 0), (0x6c6576656c, .str 0), (0x616d6f756e7441737369676e61626c65, .bool false)],
  [(0x7374616765, 0x737472), (0x636f6465, 0x737472), (0x6c6576656c, 0x737472), (0x616d6f756e7441737369676e61626c65, 0x626f6f6c)],
  [],
  [⟨0x4572704a6f75726e616c456e7472696573, .many2many, 0x436f73745479706573, 0, false⟩, ⟨0x506172656e74436f737454797065, .one2many, 0x4368696c64436f73745479706573, 0, false⟩, ⟨0x4368696c64436f73745479706573, .many2one, 0x506172656e74436f737454797065, 0, false⟩, ⟨0x576f726b436f737444657461696c73, .many2one, 0x436f737454797065, 0, false⟩, ⟨0x436f6d70617469626c65556e697473, .many2one, 0x436f737454797065, 0, false⟩, ⟨0x737461747573, .plainOne, 0, 0, false⟩],
  [0x4572704a6f75726e616c456e7472696573, 0x4368696c64436f73745479706573, 0x576f726b436f737444657461696c73, 0x436f6d70617469626c65556e697473]⟩
def m_CostType : List RClass := d_CostType :: m_IdentifiedObject

/-- CIM15/IEC61970/Informative/InfWork/Crew.py:23 -/
def d_Crew : RClass := ⟨0x43726577, 0x43494d31352e49454336313937302e496e666f726d61746976652e496e66576f726b2e43726577, 0x43494d31352e49454336313937302e436f72652e4964656e7469666965644f626a656374,
  [(0x63617465676f7279, .str 0)],
  [0x63617465676f7279],
  [(0x63617465676f7279, .str 0)],
  [(0x63617465676f7279, 0x737472)],
  [],
  [⟨0x546f6f6c73, .many2one, 0x43726577, 0, false⟩, ⟨0x537769746368696e675363686564756c6573, .many2many, 0x4372657773, 0, false⟩, ⟨0x526f757465, .one2many, 0x4372657773, 0, false⟩, ⟨0x4361706162696c6974696573, .many2one, 0x43726577, 0, false⟩, ⟨0x437265774d656d62657273, .many2many, 0x4372657773, 0, false⟩, ⟨0x4f75746167655374657073, .many2many, 0x4372657773, 0, false⟩, ⟨0x576f726b45717569706d656e74417373657473, .many2one, 0x43726577, 0, false⟩, ⟨0x41737369676e6d656e7473, .many2many, 0x4372657773, 0, false⟩, ⟨0x4c6f636174696f6e73, .many2many, 0x4372657773, 0, false⟩, ⟨0x576f726b5461736b73, .many2many, 0x4372657773, 0, false⟩, ⟨0x4f7267616e69736174696f6e73, .many2many, 0x4372657773, 0, false⟩, ⟨0x53686966745061747465726e73, .many2many, 0x4372657773, 0, false⟩, ⟨0x56656869636c6573, .many2one, 0x43726577, 0, false⟩],
  [0x546f6f6c73, 0x537769746368696e675363686564756c6573, 0x4361706162696c6974696573, 0x437265774d656d62657273, 0x4f75746167655374657073, 0x576f726b45717569706d656e74417373657473, 0x41737369676e6d656e7473, 0x4c6f636174696f6e73, 0x576f726b5461736b73, 0x4f7267616e69736174696f6e73, 0x53686966745061747465726e73, 0x56656869636c6573]⟩
def m_Crew : List RClass := d_Crew :: m_IdentifiedObject

/-- CIM15/IEC61970/Informative/InfWork/DesignLocation.py:23 -/
def d_DesignLocation : RClass := ⟨0x44657369676e4c6f636174696f6e, 0x43494d31352e49454336313937302e496e666f726d61746976652e496e66576f726b2e44657369676e4c6f636174696f6e, 0x43494d31352e49454336313937302e436f72652e4964656e7469666965644f626a656374,
  [(0x7370616e4c656e677468, .flt 0x0)],
  [0x7370616e4c656e677468],
  [(0x7370616e4c656e677468, .flt 0x0)],
  [(0x7370616e4c656e677468, 0x666c6f6174)],
  [],
  [⟨0x737461747573, .plainOne, 0, 0, false⟩, ⟨0x4d6174657269616c4974656d73, .many2one, 0x44657369676e4c6f636174696f6e, 0, false⟩, ⟨0x44657369676e73, .many2many, 0x44657369676e4c6f636174696f6e73, 0, false⟩, ⟨0x44657369676e4c6f636174696f6e435573, .many2one, 0x44657369676e4c6f636174696f6e, 0, false⟩, ⟨0x576f726b4c6f636174696f6e73, .many2many, 0x44657369676e4c6f636174696f6e73, 0, false⟩, ⟨0x4469616772616d73, .many2many, 0x44657369676e4c6f636174696f6e73, 0, false⟩, ⟨0x4d697363436f73744974656d73, .many2one, 0x44657369676e4c6f636174696f6e, 0, false⟩, ⟨0x457270426f6d4974656d4461746173, .many2one, 0x44657369676e4c6f636174696f6e, 0, false⟩, ⟨0x436f6e646974696f6e466163746f7273, .many2many, 0x44657369676e4c6f636174696f6e73, 0, false⟩],
  [0x4d6174657269616c4974656d73, 0x44657369676e73, 0x44657369676e4c6f636174696f6e435573, 0x576f726b4c6f636174696f6e73, 0x4469616772616d73, 0x4d697363436f73744974656d73, 0x457270426f6d4974656d4461746173, 0x436f6e646974696f6e466163746f7273]⟩
def m_DesignLocation : List RClass := d_DesignLocation :: m_IdentifiedObject

/-- CIM15/IEC61970/Informative/InfWork/DesignLocationCU.py:23 -/
def d_DesignLocationCU : RClass := ⟨0x44657369676e4c6f636174696f6e4355, 0x43494d31352e49454336313937302e496e666f726d61746976652e496e66576f726b2e44657369676e4c6f636174696f6e4355, 0x43494d31352e49454336313937302e436f72652e4964656e7469666965644f626a656374,
  [(0x656e657267697a6174696f6e466c6167, .bool false), (0x63755573616765, .str 0), (0x72656d6f76616c44617465, .str 0), (0x6375416374696f6e, .str 0x696e7374616c6c), (0x63754163636f756e74, .str 0), (0x63755175616e74697479, .str 0)],
  [0x656e657267697a6174696f6e466c6167, 0x63755573616765, 0x72656d6f76616c44617465, 0x6375416374696f6e, 0x63754163636f756e74, 0x63755175616e74697479],
  [(0x656e657267697a6174696f6e466c6167, .bool false), (0x63755573616765, .str 0), (0x72656d6f76616c44617465, .str 0), (0x6375416374696f6e, .str 0x696e7374616c6c), (0x63754163636f756e74, .str 0), (0x63755175616e74697479, .str 0)],
  [(0x656e657267697a6174696f6e466c6167, 0x626f6f6c), (0x63755573616765, 0x737472), (0x72656d6f76616c44617465, 0x737472), (0x6375416374696f6e, 0x737472), (0x63754163636f756e74, 0x737472), (0x63755175616e74697479, 0x737472)],
  [(0x6375416374696f6e, 0x576f726b416374696f6e4b696e64)],
  [⟨0x436f6e646974696f6e466163746f7273, .many2many, 0x44657369676e4c6f636174696f6e435573, 0, false⟩, ⟨0x436f6d70617469626c65556e697473, .many2many, 0x44657369676e4c6f636174696f6e435573, 0, false⟩, ⟨0x576f726b5461736b73, .many2many, 0x44657369676e4c6f636174696f6e435573, 0, false⟩, ⟨0x44657369676e73, .many2many, 0x44657369676e4c6f636174696f6e73435573, 0, false⟩, ⟨0x435547726f757073, .many2many, 0x44657369676e4c6f636174696f6e435573, 0, false⟩, ⟨0x44657369676e4c6f636174696f6e, .one2many, 0x44657369676e4c6f636174696f6e435573, 0, false⟩, ⟨0x737461747573, .plainOne, 0, 0, false⟩],
  [0x436f6e646974696f6e466163746f7273, 0x436f6d70617469626c65556e697473, 0x576f726b5461736b73, 0x44657369676e73, 0x435547726f757073]⟩
def m_DesignLocationCU : List RClass := d_DesignLocationCU :: m_IdentifiedObject

/-- CIM15/IEC61970/Informative/InfWork/EquipmentItem.py:23 -/
def d_EquipmentItem : RClass := ⟨0x45717569706d656e744974656d, 0x43494d31352e49454336313937302e496e666f726d61746976652e496e66576f726b2e45717569706d656e744974656d, 0x43494d31352e49454336313937302e436f72652e4964656e7469666965644f626a656374,
  [(0x636f6465, .str 0), (0x636f7374, .flt 0x0)],
  [0x636f6465, 0x636f7374],
  [(0x636f6465, .str 0), (0x636f7374, .flt 0x0)],
  [(0x636f6465, 0x737472), (0x636f7374, 0x666c6f6174)],
  [],
  [⟨0x576f726b5461736b, .one2many, 0x45717569706d656e744974656d73, 0, false⟩, ⟨0x576f726b436f737444657461696c, .one2many, 0x45717569706d656e744974656d73, 0, false⟩, ⟨0x737461747573, .plainOne, 0, 0, false⟩],
  []⟩
def m_EquipmentItem : List RClass := d_EquipmentItem :: m_IdentifiedObject

/-- CIM15/IEC61970/Informative/InfWork/LaborItem.py:23 -/
def d_LaborItem : RClass := ⟨0x4c61626f724974656d, 0x43494d31352e49454336313937302e496e666f726d61746976652e496e66576f726b2e4c61626f724974656d, 0x43494d31352e49454336313937302e436f72652e4964656e7469666965644f626a656374,
  [(0x636f7374, .flt 0x0), (0x6c61626f7252617465, .flt 0x0), (0x6c61626f724475726174696f6e, .flt 0x0), (0x6163746976697479436f6465, .str 0)],
  [0x636f7374, 0x6c61626f7252617465, 0x6c61626f724475726174696f6e, 0x6163746976697479436f6465],
  [(0x636f7374, .flt 0x0), (0x6c61626f7252617465, .flt 0x0), (0x6c61626f724475726174696f6e, .flt 0x0), (0x6163746976697479436f6465, .str 0)],
  [(0x636f7374, 0x666c6f6174), (0x6c61626f7252617465, 0x666c6f6174), (0x6c61626f724475726174696f6e, 0x666c6f6174), (0x6163746976697479436f6465, 0x737472)],
  [],
  [⟨0x457270506572736f6e73, .many2many, 0x4c61626f724974656d73, 0, false⟩, ⟨0x576f726b5461736b, .one2many, 0x4c61626f724974656d73, 0, false⟩, ⟨0x737461747573, .plainOne, 0, 0, false⟩, ⟨0x576f726b436f737444657461696c, .one2many, 0x4c61626f724974656d73, 0, false⟩],
  [0x457270506572736f6e73]⟩
def m_LaborItem : List RClass := d_LaborItem :: m_IdentifiedObject

/-- CIM15/IEC61970/Informative/InfWork/MaterialItem.py:23 -/
def d_MaterialItem : RClass := ⟨0x4d6174657269616c4974656d, 0x43494d31352e49454336313937302e496e666f726d61746976652e496e66576f726b2e4d6174657269616c4974656d, 0x43494d31352e49454336313937302e436f72652e4964656e7469666965644f626a656374,
  [(0x636f73744465736372697074696f6e, .str 0), (0x7175616e74697479, .str 0), (0x6d6174657269616c436f6465, .str 0), (0x65787465726e616c5265664944, .str 0), (0x636f737454797065, .str 0), (0x6163636f756e74, .str 0), (0x61637475616c436f7374, .flt 0x0)],
  [0x636f73744465736372697074696f6e, 0x7175616e74697479, 0x6d6174657269616c436f6465, 0x65787465726e616c5265664944, 0x636f737454797065, 0x6163636f756e74, 0x61637475616c436f7374],
  [(0x636f73744465736372697074696f6e, .str 0), (0x7175616e74697479, .str 0), (0x6d6174657269616c436f6465, .str 0), (0x65787465726e616c5265664944, .str 0), (0x636f737454797065, .str 0), (0x6163636f756e74, .str 0), (0x61637475616c436f7374, .flt 0x0)],
  [(0x636f73744465736372697074696f6e, 0x737472), (0x7175616e74697479, 0x737472), (0x6d6174657269616c436f6465, 0x737472), (0x65787465726e616c5265664944, 0x737472), (0x636f737454797065, 0x737472), (0x6163636f756e74, 0x737472), (0x61637475616c436f7374, 0x666c6f6174)],
  [],
  [⟨0x457270496e76656e746f7279436f756e7473, .many2one, 0x4d6174657269616c4974656d, 0, false⟩, ⟨0x557361676573, .many2one, 0x4d6174657269616c4974656d, 0, false⟩, ⟨0x457270504f4c696e654974656d73, .many2one, 0x4d6174657269616c4974656d, 0, false⟩, ⟨0x45727052656344656c764c696e654974656d73, .many2many, 0x4d6174657269616c4974656d73, 0, false⟩, ⟨0x44657369676e4c6f636174696f6e, .one2many, 0x4d6174657269616c4974656d73, 0, false⟩, ⟨0x737461747573, .plainOne, 0, 0, false⟩, ⟨0x547970654d6174657269616c, .one2many, 0x4d6174657269616c4974656d73, 0, false⟩, ⟨0x576f726b436f737444657461696c, .one2many, 0x4d6174657269616c4974656d73, 0, false⟩, ⟨0x576f726b5461736b, .one2many, 0x4d6174657269616c4974656d73, 0, false⟩],
  [0x457270496e76656e746f7279436f756e7473, 0x557361676573, 0x457270504f4c696e654974656d73, 0x45727052656344656c764c696e654974656d73]⟩
def m_MaterialItem : List RClass := d_MaterialItem :: m_IdentifiedObject

/-- CIM15/IEC61970/Informative/InfWork/MiscCostItem.py:23 -/
def d_MiscCostItem : RClass := ⟨0x4d697363436f73744974656d, 0x43494d31352e49454336313937302e496e666f726d61746976652e496e66576f726b2e4d697363436f73744974656d, 0x43494d31352e49454336313937302e436f72652e4964656e7469666965644f626a656374,
  [(0x7175616e74697479, .str 0), (0x636f7374506572556e6974, .flt 0x0), (0x65787465726e616c5265664944, .str 0), (0x6163636f756e74, .str 0), (0x636f737454797065, .str 0)],
  [0x7175616e74697479, 0x636f7374506572556e6974, 0x65787465726e616c5265664944, 0x6163636f756e74, 0x636f737454797065],
  [(0x7175616e74697479, .str 0), (0x636f7374506572556e6974, .flt 0x0), (0x65787465726e616c5265664944, .str 0), (0x6163636f756e74, .str 0), (0x636f737454797065, .str 0)],
  [(0x7175616e74697479, 0x737472), (0x636f7374506572556e6974, 0x666c6f6174), (0x65787465726e616c5265664944, 0x737472), (0x6163636f756e74, 0x737472), (0x636f737454797065, 0x737472)],
  [],
  [⟨0x44657369676e4c6f636174696f6e, .one2many, 0x4d697363436f73744974656d73, 0, false⟩, ⟨0x737461747573, .plainOne, 0, 0, false⟩, ⟨0x576f726b5461736b, .one2many, 0x4d697363436f73744974656d73, 0, false⟩, ⟨0x576f726b436f737444657461696c, .one2many, 0x4d697363436f73744974656d73, 0, false⟩],
  []⟩
def m_MiscCostItem : List RClass := d_MiscCostItem :: m_IdentifiedObject

/-- CIM15/IEC61970/Informative/InfWork/OverheadCost.py:23 -/
def d_OverheadCost : RClass := ⟨0x4f76657268656164436f7374, 0x43494d31352e49454336313937302e496e666f726d61746976652e496e66576f726b2e4f76657268656164436f7374, 0x43494d31352e49454336313937302e436f72652e4964656e7469666965644f626a656374,
  [(0x636f6465, .str 0), (0x636f7374, .flt 0x0)],
  [0x636f6465, 0x636f7374],
  [(0x636f6465, .str 0), (0x636f7374, .flt 0x0)],
  [(0x636f6465, 0x737472), (0x636f7374, 0x666c6f6174)],
  [],
  [⟨0x737461747573, .plainOne, 0, 0, false⟩, ⟨0x576f726b436f737444657461696c73, .many2one, 0x4f76657268656164436f7374, 0, false⟩, ⟨0x576f726b5461736b73, .many2one, 0x4f76657268656164436f7374, 0, false⟩],
  [0x576f726b436f737444657461696c73, 0x576f726b5461736b73]⟩
def m_OverheadCost : List RClass := d_OverheadCost :: m_IdentifiedObject

/-- CIM15/IEC61970/Informative/InfWork/PropertyUnit.py:23 -/
def d_PropertyUnit : RClass := ⟨0x50726f7065727479556e6974, 0x43494d31352e49454336313937302e496e666f726d61746976652e496e66576f726b2e50726f7065727479556e6974, 0x43494d31352e49454336313937302e436f72652e4964656e7469666965644f626a656374,
  [(0x6163636f756e74696e675573616765, .str 0), (0x70726f70657274794163636f756e74, .str 0), (0x6163746976697479436f6465, .str 0x696e7374616c6c)],
  [0x6163636f756e74696e675573616765, 0x70726f70657274794163636f756e74, 0x6163746976697479436f6465],
  [(0x6163636f756e74696e675573616765, .str 0), (0x70726f70657274794163636f756e74, .str 0), (0x6163746976697479436f6465, .str 0x696e7374616c6c)],
  [(0x6163636f756e74696e675573616765, 0x737472), (0x70726f70657274794163636f756e74, 0x737472), (0x6163746976697479436f6465, 0x737472)],
  [(0x6163746976697479436f6465, 0x576f726b416374696f6e4b696e64)],
  [⟨0x737461747573, .plainOne, 0, 0, false⟩, ⟨0x436f6d70617469626c65556e697473, .many2one, 0x50726f7065727479556e6974, 0, false⟩, ⟨0x43554d6174657269616c4974656d73, .many2many, 0x50726f7065727479556e697473, 0, false⟩, ⟨0x576f726b436f737444657461696c73, .many2many, 0x50726f7065727479556e697473, 0, false⟩],
  [0x436f6d70617469626c65556e697473, 0x43554d6174657269616c4974656d73, 0x576f726b436f737444657461696c73]⟩
def m_PropertyUnit : List RClass := d_PropertyUnit :: m_IdentifiedObject

/-- CIM15/IEC61970/Informative/InfWork/QualificationRequirement.py:23 -/
def d_QualificationRequirement : RClass := ⟨0x5175616c696669636174696f6e526571756972656d656e74, 0x43494d31352e49454336313937302e496e666f726d61746976652e496e66576f726b2e5175616c696669636174696f6e526571756972656d656e74, 0x43494d31352e49454336313937302e436f72652e4964656e7469666965644f626a656374,
  [(0x7175616c696669636174696f6e4944, .str 0)],
  [0x7175616c696669636174696f6e4944],
  [(0x7175616c696669636174696f6e4944, .str 0)],
  [(0x7175616c696669636174696f6e4944, 0x737472)],
  [],
  [⟨0x576f726b5461736b73, .many2many, 0x5175616c696669636174696f6e526571756972656d656e7473, 0, false⟩, ⟨0x536b696c6c73, .many2many, 0x5175616c696669636174696f6e526571756972656d656e7473, 0, false⟩, ⟨0x43554c61626f724974656d73, .many2many, 0x5175616c696669636174696f6e526571756972656d656e7473, 0, false⟩, ⟨0x53706563696669636174696f6e73, .many2many, 0x5175616c696669636174696f6e526571756972656d656e7473, 0, false⟩],
  [0x576f726b5461736b73, 0x536b696c6c73, 0x43554c61626f724974656d73, 0x53706563696669636174696f6e73]⟩
def m_QualificationRequirement : List RClass := d_QualificationRequirement :: m_IdentifiedObject

/-- CIM15/IEC61970/Informative/InfWork/ShiftPattern.py:23 -/
def d_ShiftPattern : RClass := ⟨0x53686966745061747465726e, 0x43494d31352e49454336313937302e496e666f726d61746976652e496e66576f726b2e53686966745061747465726e, 0x43494d31352e49454336313937302e436f72652e4964656e7469666965644f626a656374,
  [(0x6379636c65436f756e74, .int 0), (0x61737369676e6d656e7454797065, .str 0)],
  [0x6379636c65436f756e74, 0x61737369676e6d656e7454797065],
  [(0x6379636c65436f756e74, .int 0), (0x61737369676e6d656e7454797065, .str 0)],
  [(0x6379636c65436f756e74, 0x696e74), (0x61737369676e6d656e7454797065, 0x737472)],
  [],
  [⟨0x4372657773, .many2many, 0x53686966745061747465726e73, 0, false⟩, ⟨0x737461747573, .plainOne, 0, 0, false⟩, ⟨0x76616c6964697479496e74657276616c, .plainOne, 0, 0, false⟩],
  [0x4372657773]⟩
def m_ShiftPattern : List RClass := d_ShiftPattern :: m_IdentifiedObject

/-- CIM15/IEC61970/Informative/InfWork/Usage.py:23 -/
def d_Usage : RClass := ⟨0x5573616765, 0x43494d31352e49454336313937302e496e666f726d61746976652e496e66576f726b2e5573616765, 0x43494d31352e49454336313937302e436f72652e4964656e7469666965644f626a656374,
  [],
  [],
  [],
  [],
  [],
  [⟨0x576f726b5461736b, .one2many, 0x557361676573, 0, false⟩, ⟨0x576f726b45717569706d656e744173736574, .one2many, 0x557361676573, 0, false⟩, ⟨0x737461747573, .plainOne, 0, 0, false⟩, ⟨0x4d6174657269616c4974656d, .one2many, 0x557361676573, 0, false⟩],
  []⟩
def m_Usage : List RClass := d_Usage :: m_IdentifiedObject

/-- CIM15/IEC61970/Informative/InfWork/WorkFlowStep.py:23 -/
def d_WorkFlowStep : RClass := ⟨0x576f726b466c6f7753746570, 0x43494d31352e49454336313937302e496e666f726d61746976652e496e66576f726b2e576f726b466c6f7753746570, 0x43494d31352e49454336313937302e436f72652e4964656e7469666965644f626a656374,
  [(0x73657175656e63654e756d626572, .int 0)],
  [0x73657175656e63654e756d626572],
  [(0x73657175656e63654e756d626572, .int 0)],
  [(0x73657175656e63654e756d626572, 0x696e74)],
  [],
  [⟨0x576f726b5461736b73, .many2one, 0x576f726b466c6f7753746570, 0, false⟩, ⟨0x737461747573, .plainOne, 0, 0, false⟩, ⟨0x576f726b, .one2many, 0x576f726b466c6f775374657073, 0, false⟩],
  [0x576f726b5461736b73]⟩
def m_WorkFlowStep : List RClass := d_WorkFlowStep :: m_IdentifiedObject

/-- CIM15/IEC61970/LoadModel/DayType.py:23 -/
def d_DayType : RClass := ⟨0x44617954797065, 0x43494d31352e49454336313937302e4c6f61644d6f64656c2e44617954797065, 0x43494d31352e49454336313937302e436f72652e4964656e7469666965644f626a656374,
  [],
  [],
  [],
  [],
  [],
  [⟨0x536561736f6e446179547970655363686564756c6573, .many2one, 0x44617954797065, 0, false⟩],
  [0x536561736f6e446179547970655363686564756c6573]⟩
def m_DayType : List RClass := d_DayType :: m_IdentifiedObject

/-- CIM15/IEC61970/LoadModel/EnergyArea.py:23 -/
def d_EnergyArea : RClass := ⟨0x456e6572677941726561, 0x43494d31352e49454336313937302e4c6f61644d6f64656c2e456e6572677941726561, 0x43494d31352e49454336313937302e436f72652e4964656e7469666965644f626a656374,
  [],
  [],
  [],
  [],
  [],
  [⟨0x436f6e74726f6c41726561, .one2one, 0x456e6572677941726561, 0, false⟩],
  []⟩
def m_EnergyArea : List RClass := d_EnergyArea :: m_IdentifiedObject

/-- CIM15/IEC61970/LoadModel/LoadGroup.py:23 -/
def d_LoadGroup : RClass := ⟨0x4c6f616447726f7570, 0x43494d31352e49454336313937302e4c6f61644d6f64656c2e4c6f616447726f7570, 0x43494d31352e49454336313937302e436f72652e4964656e7469666965644f626a656374,
  [],
  [],
  [],
  [],
  [],
  [⟨0x5375624c6f616441726561, .one2many, 0x4c6f616447726f757073, 0, false⟩],
  []⟩
def m_LoadGroup : List RClass := d_LoadGroup :: m_IdentifiedObject

/-- CIM15/IEC61970/LoadModel/LoadResponseCharacteristic.py:23 -/
def d_LoadResponseCharacteristic : RClass := ⟨0x4c6f6164526573706f6e73654368617261637465726973746963, 0x43494d31352e49454336313937302e4c6f61644d6f64656c2e4c6f6164526573706f6e73654368617261637465726973746963, 0x43494d31352e49454336313937302e436f72652e4964656e7469666965644f626a656374,
  [(0x704672657175656e63794578706f6e656e74, .flt 0x0), (0x70436f6e7374616e74506f776572, .flt 0x0), (0x6578706f6e656e744d6f64656c, .bool false), (0x714672657175656e63794578706f6e656e74, .flt 0x0), (0x70566f6c746167654578706f6e656e74, .flt 0x0), (0x71436f6e7374616e74496d706564616e6365, .flt 0x0), (0x71436f6e7374616e74506f776572, .flt 0x0), (0x70436f6e7374616e74496d706564616e6365, .flt 0x0), (0x70436f6e7374616e7443757272656e74, .flt 0x0), (0x71566f6c746167654578706f6e656e74, .flt 0x0), (0x71436f6e7374616e7443757272656e74, .flt 0x0)],
  [0x704672657175656e63794578706f6e656e74, 0x70436f6e7374616e74506f776572, 0x6578706f6e656e744d6f64656c, 0x714672657175656e63794578706f6e656e74, 0x70566f6c746167654578706f6e656e74, 0x71436f6e7374616e74496d706564616e6365, 0x71436f6e7374616e74506f776572, 0x70436f6e7374616e74496d706564616e6365, 0x70436f6e7374616e7443757272656e74, 0x71566f6c746167654578706f6e656e74, 0x71436f6e7374616e7443757272656e74],
  [(0x704672657175656e63794578706f6e656e74, .flt 0x0), (0x70436f6e7374616e74506f776572, .flt 0x0), (0x6578706f6e656e744d6f64656c, .bool false), (0x714672657175656e63794578706f6e656e74, .flt 0x0), (0x70566f6c746167654578706f6e656e74, .flt 0x0), (0x71436f6e7374616e74496d706564616e6365, .flt 0x0), (0x71436f6e7374616e74506f776572, .flt 0x0), (0x70436f6e7374616e74496d706564616e6365, .flt 0x0), (0x70436f6e7374616e7443757272656e74, .flt 0x0), (0x71566f6c746167654578706f6e656e74, .flt 0x0), (0x71436f6e7374616e7443757272656e74, .flt 0x0)],
  [(0x704672657175656e63794578706f6e656e74, 0x666c6f6174), (0x70436f6e7374616e74506f776572, 0x666c6f6174), (0x6578706f6e656e744d6f64656c, 0x626f6f6c), (0x714672657175656e63794578706f6e656e74, 0x666c6f6174), (0x70566f6c746167654578706f6e656e74, 0x666c6f6174), (0x71436f6e7374616e74496d706564616e6365, 0x666c6f6174), (0x71436f6e7374616e74506f776572, 0x666c6f6174), (0x70436f6e7374616e74496d706564616e6365, 0x666c6f6174), (0x70436f6e7374616e7443757272656e74, 0x666c6f6174), (0x71566f6c746167654578706f6e656e74, 0x666c6f6174), (0x71436f6e7374616e7443757272656e74, 0x666c6f6174)],
  [],
  [⟨0x456e65726779436f6e73756d6572, .many2one, 0x4c6f6164526573706f6e7365, 0, false⟩],
  [0x456e65726779436f6e73756d6572]⟩
def m_LoadResponseCharacteristic : List RClass := d_LoadResponseCharacteristic :: m_IdentifiedObject

/-- CIM15/IEC61970/Meas/Control.py:23 -/
def d_Control : RClass := ⟨0x436f6e74726f6c, 0x43494d31352e49454336313937302e4d6561732e436f6e74726f6c, 0x43494d31352e49454336313937302e436f72652e4964656e7469666965644f626a656374,
  [(0x756e697453796d626f6c, .str 0x4e), (0x756e69744d756c7469706c696572, .str 0x4d), (0x6f7065726174696f6e496e50726f6772657373, .bool false), (0x74696d655374616d70, .str 0)],
  [0x756e697453796d626f6c, 0x756e69744d756c7469706c696572, 0x6f7065726174696f6e496e50726f6772657373, 0x74696d655374616d70],
  [(0x756e697453796d626f6c, .str 0x4e), (0x756e69744d756c7469706c696572, .str 0x4d), (0x6f7065726174696f6e496e50726f6772657373, .bool false), (0x74696d655374616d70, .str 0)],
  [(0x756e697453796d626f6c, 0x737472), (0x756e69744d756c7469706c696572, 0x737472), (0x6f7065726174696f6e496e50726f6772657373, 0x626f6f6c), (0x74696d655374616d70, 0x737472)],
  [(0x756e697453796d626f6c, 0x556e697453796d626f6c), (0x756e69744d756c7469706c696572, 0x556e69744d756c7469706c696572)],
  [⟨0x52656d6f7465436f6e74726f6c, .one2one, 0x436f6e74726f6c, 0, false⟩, ⟨0x526567756c6174696e67436f6e644571, .one2many, 0x436f6e74726f6c73, 0, false⟩, ⟨0x436f6e74726f6c54797065, .one2many, 0x436f6e74726f6c73, 0, false⟩],
  []⟩
def m_Control : List RClass := d_Control :: m_IdentifiedObject

/-- CIM15/IEC61970/Meas/ControlType.py:23 -/
def d_ControlType : RClass := ⟨0x436f6e74726f6c54797065, 0x43494d31352e49454336313937302e4d6561732e436f6e74726f6c54797065, 0x43494d31352e49454336313937302e436f72652e4964656e7469666965644f626a656374,
  [],
  [],
  [],
  [],
  [],
  [⟨0x436f6e74726f6c73, .many2one, 0x436f6e74726f6c54797065, 0, false⟩],
  [0x436f6e74726f6c73]⟩
def m_ControlType : List RClass := d_ControlType :: m_IdentifiedObject

/-- CIM15/IEC61970/Meas/Limit.py:23 -/
def d_Limit : RClass := ⟨0x4c696d6974, 0x43494d31352e49454336313937302e4d6561732e4c696d6974, 0x43494d31352e49454336313937302e436f72652e4964656e7469666965644f626a656374,
  [],
  [],
  [],
  [],
  [],
  [⟨0x50726f63656475726573, .many2many, 0x4c696d697473, 0, false⟩],
  [0x50726f63656475726573]⟩
def m_Limit : List RClass := d_Limit :: m_IdentifiedObject

/-- CIM15/IEC61970/Meas/LimitSet.py:23 -/
def d_LimitSet : RClass := ⟨0x4c696d6974536574, 0x43494d31352e49454336313937302e4d6561732e4c696d6974536574, 0x43494d31352e49454336313937302e436f72652e4964656e7469666965644f626a656374,
  [(0x697350657263656e746167654c696d697473, .bool false)],
  [0x697350657263656e746167654c696d697473],
  [(0x697350657263656e746167654c696d697473, .bool false)],
  [(0x697350657263656e746167654c696d697473, 0x626f6f6c)],
  [],
  [],
  []⟩
def m_LimitSet : List RClass := d_LimitSet :: m_IdentifiedObject

/-- CIM15/IEC61970/Meas/Measurement.py:23 -/
def d_Measurement : RClass := ⟨0x4d6561737572656d656e74, 0x43494d31352e49454336313937302e4d6561732e4d6561737572656d656e74, 0x43494d31352e49454336313937302e436f72652e4964656e7469666965644f626a656374,
  [(0x706861736573, .str 0x7331324e), (0x6d6561737572656d656e7454797065, .str 0), (0x756e69744d756c7469706c696572, .str 0x4d), (0x756e697453796d626f6c, .str 0x4e)],
  [0x706861736573, 0x6d6561737572656d656e7454797065, 0x756e69744d756c7469706c696572, 0x756e697453796d626f6c],
  [(0x706861736573, .str 0x7331324e), (0x6d6561737572656d656e7454797065, .str 0), (0x756e69744d756c7469706c696572, .str 0x4d), (0x756e697453796d626f6c, .str 0x4e)],
  [(0x706861736573, 0x737472), (0x6d6561737572656d656e7454797065, 0x737472), (0x756e69744d756c7469706c696572, 0x737472), (0x756e697453796d626f6c, 0x737472)],
  [(0x706861736573, 0x5068617365436f6465), (0x756e69744d756c7469706c696572, 0x556e69744d756c7469706c696572), (0x756e697453796d626f6c, 0x556e697453796d626f6c)],
  [⟨0x5465726d696e616c, .one2many, 0x4d6561737572656d656e7473, 0, false⟩, ⟨0x506f77657253797374656d5265736f75726365, .one2many, 0x4d6561737572656d656e7473, 0, false⟩, ⟨0x4c6f636174696f6e73, .many2many, 0x4d6561737572656d656e7473, 0, false⟩, ⟨0x4173736574, .one2many, 0x4d6561737572656d656e7473, 0, false⟩, ⟨0x446f63756d656e7473, .many2many, 0x4d6561737572656d656e7473, 0, false⟩],
  [0x4c6f636174696f6e73, 0x446f63756d656e7473]⟩
def m_Measurement : List RClass := d_Measurement :: m_IdentifiedObject

/-- CIM15/IEC61970/Meas/MeasurementValue.py:23 -/
def d_MeasurementValue : RClass := ⟨0x4d6561737572656d656e7456616c7565, 0x43494d31352e49454336313937302e4d6561732e4d6561737572656d656e7456616c7565, 0x43494d31352e49454336313937302e436f72652e4964656e7469666965644f626a656374,
  [(0x73656e736f724163637572616379, .flt 0x0), (0x74696d655374616d70, .str 0)],
  [0x73656e736f724163637572616379, 0x74696d655374616d70],
  [(0x73656e736f724163637572616379, .flt 0x0), (0x74696d655374616d70, .str 0)],
  [(0x73656e736f724163637572616379, 0x666c6f6174), (0x74696d655374616d70, 0x737472)],
  [],
  [⟨0x476d6c56616c756573, .many2one, 0x4d6561737572656d656e7456616c7565, 0, false⟩, ⟨0x4d6561737572656d656e7456616c75655175616c697479, .one2one, 0x4d6561737572656d656e7456616c7565, 0, false⟩, ⟨0x50726f6365647572654461746153657473, .many2many, 0x4d6561737572656d656e7456616c756573, 0, false⟩, ⟨0x4d6561737572656d656e7456616c7565536f75726365, .one2many, 0x4d6561737572656d656e7456616c756573, 0, false⟩, ⟨0x457270506572736f6e, .one2many, 0x4d6561737572656d656e7456616c756573, 0, false⟩, ⟨0x52656d6f7465536f75726365, .one2one, 0x4d6561737572656d656e7456616c7565, 0, false⟩],
  [0x476d6c56616c756573, 0x50726f6365647572654461746153657473]⟩
def m_MeasurementValue : List RClass := d_MeasurementValue :: m_IdentifiedObject

/-- CIM15/IEC61970/Meas/MeasurementValueQuality.py:23 -/
def d_MeasurementValueQuality : RClass := ⟨0x4d6561737572656d656e7456616c75655175616c697479, 0x43494d31352e49454336313937302e4d6561732e4d6561737572656d656e7456616c75655175616c697479, 0x43494d31352e49454336313937302e4d6561732e5175616c6974793631383530,
  [],
  [],
  [],
  [],
  [],
  [⟨0x4d6561737572656d656e7456616c7565, .one2one, 0x4d6561737572656d656e7456616c75655175616c697479, 0, false⟩],
  []⟩
def m_MeasurementValueQuality : List RClass := d_MeasurementValueQuality :: m_Quality61850

/-- CIM15/IEC61970/Meas/MeasurementValueSource.py:23 -/
def d_MeasurementValueSource : RClass := ⟨0x4d6561737572656d656e7456616c7565536f75726365, 0x43494d31352e49454336313937302e4d6561732e4d6561737572656d656e7456616c7565536f75726365, 0x43494d31352e49454336313937302e436f72652e4964656e7469666965644f626a656374,
  [],
  [],
  [],
  [],
  [],
  [⟨0x4d6561737572656d656e7456616c756573, .many2one, 0x4d6561737572656d656e7456616c7565536f75726365, 0, false⟩],
  [0x4d6561737572656d656e7456616c756573]⟩
def m_MeasurementValueSource : List RClass := d_MeasurementValueSource :: m_IdentifiedObject

/-- CIM15/IEC61970/Meas/ValueAliasSet.py:23 -/
def d_ValueAliasSet : RClass := ⟨0x56616c7565416c696173536574, 0x43494d31352e49454336313937302e4d6561732e56616c7565416c696173536574, 0x43494d31352e49454336313937302e436f72652e4964656e7469666965644f626a656374,
  [],
  [],
  [],
  [],
  [],
  [⟨0x446973637265746573, .many2one, 0x56616c7565416c696173536574, 0, false⟩, ⟨0x436f6d6d616e6473, .many2one, 0x56616c7565416c696173536574, 0, false⟩, ⟨0x56616c756573, .many2one, 0x56616c7565416c696173536574, 0, false⟩],
  [0x446973637265746573, 0x436f6d6d616e6473, 0x56616c756573]⟩
def m_ValueAliasSet : List RClass := d_ValueAliasSet :: m_IdentifiedObject

/-- CIM15/IEC61970/Meas/ValueToAlias.py:23 -/
def d_ValueToAlias : RClass := ⟨0x56616c7565546f416c696173, 0x43494d31352e49454336313937302e4d6561732e56616c7565546f416c696173, 0x43494d31352e49454336313937302e436f72652e4964656e7469666965644f626a656374,
  [(0x76616c7565, .int 0)],
  [0x76616c7565],
  [(0x76616c7565, .int 0)],
  [(0x76616c7565, 0x696e74)],
  [],
  [⟨0x56616c7565416c696173536574, .one2many, 0x56616c756573, 0, false⟩],
  []⟩
def m_ValueToAlias : List RClass := d_ValueToAlias :: m_IdentifiedObject

/-- CIM15/IEC61970/OperationalLimits/BranchGroup.py:23 -/
def d_BranchGroup : RClass := ⟨0x4272616e636847726f7570, 0x43494d31352e49454336313937302e4f7065726174696f6e616c4c696d6974732e4272616e636847726f7570, 0x43494d31352e49454336313937302e436f72652e4964656e7469666965644f626a656374,
  [(0x6d696e696d756d5265616374697665506f776572, .flt 0x0), (0x6d6178696d756d5265616374697665506f776572, .flt 0x0), (0x6d6178696d756d416374697665506f776572, .flt 0x0), (0x6d696e696d756d416374697665506f776572, .flt 0x0), (0x6d6f6e69746f72416374697665506f776572, .bool false), (0x6d6f6e69746f725265616374697665506f776572, .bool false)],
  [0x6d696e696d756d5265616374697665506f776572, 0x6d6178696d756d5265616374697665506f776572, 0x6d6178696d756d416374697665506f776572, 0x6d696e696d756d416374697665506f776572, 0x6d6f6e69746f72416374697665506f776572, 0x6d6f6e69746f725265616374697665506f776572],
  [(0x6d696e696d756d5265616374697665506f776572, .flt 0x0), (0x6d6178696d756d5265616374697665506f776572, .flt 0x0), (0x6d6178696d756d416374697665506f776572, .flt 0x0), (0x6d696e696d756d416374697665506f776572, .flt 0x0), (0x6d6f6e69746f72416374697665506f776572, .bool false), (0x6d6f6e69746f725265616374697665506f776572, .bool false)],
  [(0x6d696e696d756d5265616374697665506f776572, 0x666c6f6174), (0x6d6178696d756d5265616374697665506f776572, 0x666c6f6174), (0x6d6178696d756d416374697665506f776572, 0x666c6f6174), (0x6d696e696d756d416374697665506f776572, 0x666c6f6174), (0x6d6f6e69746f72416374697665506f776572, 0x626f6f6c), (0x6d6f6e69746f725265616374697665506f776572, 0x626f6f6c)],
  [],
  [⟨0x4272616e636847726f75705465726d696e616c, .many2one, 0x4272616e636847726f7570, 0, false⟩],
  [0x4272616e636847726f75705465726d696e616c]⟩
def m_BranchGroup : List RClass := d_BranchGroup :: m_IdentifiedObject

/-- CIM15/IEC61970/OperationalLimits/CheckPoint.py:24 -/
def d_CheckPoint : RClass := ⟨0x436865636b506f696e74, 0x43494d31352e49454336313937302e4f7065726174696f6e616c4c696d6974732e436865636b506f696e74, 0x43494d31352e49454336313937302e436f72652e4964656e7469666965644f626a656374,
  [],
  [],
  [],
  [],
  [],
  [⟨0x45717569706d656e74, .oneNoInv, 0, 0, false⟩],
  []⟩
def m_CheckPoint : List RClass := d_CheckPoint :: m_IdentifiedObject

/-- CIM15/IEC61970/OperationalLimits/OperationalLimit.py:23 -/
def d_OperationalLimit : RClass := ⟨0x4f7065726174696f6e616c4c696d6974, 0x43494d31352e49454336313937302e4f7065726174696f6e616c4c696d6974732e4f7065726174696f6e616c4c696d6974, 0x43494d31352e49454336313937302e436f72652e4964656e7469666965644f626a656374,
  [],
  [],
  [],
  [],
  [],
  [⟨0x4f7065726174696f6e616c4c696d697454797065, .one2many, 0x4f7065726174696f6e616c4c696d6974, 0, false⟩, ⟨0x4f7065726174696f6e616c4c696d6974536574, .one2many, 0x4f7065726174696f6e616c4c696d697456616c7565, 0, false⟩],
  []⟩
def m_OperationalLimit : List RClass := d_OperationalLimit :: m_IdentifiedObject

/-- CIM15/IEC61970/OperationalLimits/OperationalLimitSet.py:23 -/
def d_OperationalLimitSet : RClass := ⟨0x4f7065726174696f6e616c4c696d6974536574, 0x43494d31352e49454336313937302e4f7065726174696f6e616c4c696d6974732e4f7065726174696f6e616c4c696d6974536574, 0x43494d31352e49454336313937302e436f72652e4964656e7469666965644f626a656374,
  [],
  [],
  [],
  [],
  [],
  [⟨0x5465726d696e616c, .one2many, 0x4f7065726174696f6e616c4c696d6974536574, 0, false⟩, ⟨0x4f7065726174696f6e616c4c696d697456616c7565, .many2one, 0x4f7065726174696f6e616c4c696d6974536574, 0, false⟩],
  [0x4f7065726174696f6e616c4c696d697456616c7565]⟩
def m_OperationalLimitSet : List RClass := d_OperationalLimitSet :: m_IdentifiedObject

/-- CIM15/IEC61970/OperationalLimits/OperationalLimitType.py:23 -/
def d_OperationalLimitType : RClass := ⟨0x4f7065726174696f6e616c4c696d697454797065, 0x43494d31352e49454336313937302e4f7065726174696f6e616c4c696d6974732e4f7065726174696f6e616c4c696d697454797065, 0x43494d31352e49454336313937302e436f72652e4964656e7469666965644f626a656374,
  [(0x646972656374696f6e, .str 0x6c6f77), (0x61636365707461626c654475726174696f6e, .flt 0x0)],
  [0x646972656374696f6e, 0x61636365707461626c654475726174696f6e],
  [(0x646972656374696f6e, .str 0x6c6f77), (0x61636365707461626c654475726174696f6e, .flt 0x0)],
  [(0x646972656374696f6e, 0x737472), (0x61636365707461626c654475726174696f6e, 0x666c6f6174)],
  [(0x646972656374696f6e, 0x4f7065726174696f6e616c4c696d6974446972656374696f6e4b696e64)],
  [⟨0x4f7065726174696f6e616c4c696d6974, .many2one, 0x4f7065726174696f6e616c4c696d697454797065, 0, false⟩],
  [0x4f7065726174696f6e616c4c696d6974]⟩
def m_OperationalLimitType : List RClass := d_OperationalLimitType :: m_IdentifiedObject

/-- CIM15/IEC61970/Outage/ClearanceTag.py:23 -/
def d_ClearanceTag : RClass := ⟨0x436c656172616e6365546167, 0x43494d31352e49454336313937302e4f75746167652e436c656172616e6365546167, 0x43494d31352e49454336313937302e436f72652e4964656e7469666965644f626a656374,
  [(0x776f726b537461727454696d65, .str 0), (0x7068617365436865636b526571466c6167, .bool false), (0x6465656e657267697a65526571466c6167, .bool false), (0x617574686f726974794e616d65, .str 0), (0x746167497373756554696d65, .str 0), (0x67726f756e64526571466c6167, .bool false), (0x776f726b4465736372697074696f6e, .str 0), (0x776f726b456e6454696d65, .str 0)],
  [0x776f726b537461727454696d65, 0x7068617365436865636b526571466c6167, 0x6465656e657267697a65526571466c6167, 0x617574686f726974794e616d65, 0x746167497373756554696d65, 0x67726f756e64526571466c6167, 0x776f726b4465736372697074696f6e, 0x776f726b456e6454696d65],
  [(0x776f726b537461727454696d65, .str 0), (0x7068617365436865636b526571466c6167, .bool false), (0x6465656e657267697a65526571466c6167, .bool false), (0x617574686f726974794e616d65, .str 0), (0x746167497373756554696d65, .str 0), (0x67726f756e64526571466c6167, .bool false), (0x776f726b4465736372697074696f6e, .str 0), (0x776f726b456e6454696d65, .str 0)],
  [(0x776f726b537461727454696d65, 0x737472), (0x7068617365436865636b526571466c6167, 0x626f6f6c), (0x6465656e657267697a65526571466c6167, 0x626f6f6c), (0x617574686f726974794e616d65, 0x737472), (0x746167497373756554696d65, 0x737472), (0x67726f756e64526571466c6167, 0x626f6f6c), (0x776f726b4465736372697074696f6e, 0x737472), (0x776f726b456e6454696d65, 0x737472)],
  [],
  [⟨0x436f6e64756374696e6745717569706d656e74, .one2many, 0x436c656172616e636554616773, 0, false⟩, ⟨0x536166657479446f63756d656e74, .one2many, 0x436c656172616e636554616773, 0, false⟩, ⟨0x436c656172616e636554616754797065, .one2many, 0x436c656172616e636554616773, 0, false⟩],
  []⟩
def m_ClearanceTag : List RClass := d_ClearanceTag :: m_IdentifiedObject

/-- CIM15/IEC61970/Outage/ClearanceTagType.py:23 -/
def d_ClearanceTagType : RClass := ⟨0x436c656172616e636554616754797065, 0x43494d31352e49454336313937302e4f75746167652e436c656172616e636554616754797065, 0x43494d31352e49454336313937302e436f72652e4964656e7469666965644f626a656374,
  [],
  [],
  [],
  [],
  [],
  [⟨0x436c656172616e636554616773, .many2one, 0x436c656172616e636554616754797065, 0, false⟩],
  [0x436c656172616e636554616773]⟩
def m_ClearanceTagType : List RClass := d_ClearanceTagType :: m_IdentifiedObject

/-- CIM15/IEC61970/Outage/SwitchingOperation.py:23 -/
def d_SwitchingOperation : RClass := ⟨0x537769746368696e674f7065726174696f6e, 0x43494d31352e49454336313937302e4f75746167652e537769746368696e674f7065726174696f6e, 0x43494d31352e49454336313937302e436f72652e4964656e7469666965644f626a656374,
  [(0x6f7065726174696f6e54696d65, .str 0), (0x6e65775374617465, .str 0x6f70656e)],
  [0x6f7065726174696f6e54696d65, 0x6e65775374617465],
  [(0x6f7065726174696f6e54696d65, .str 0), (0x6e65775374617465, .str 0x6f70656e)],
  [(0x6f7065726174696f6e54696d65, 0x737472), (0x6e65775374617465, 0x737472)],
  [(0x6e65775374617465, 0x5377697463685374617465)],
  [⟨0x4f75746167655363686564756c65, .one2many, 0x537769746368696e674f7065726174696f6e73, 0, false⟩, ⟨0x5377697463686573, .many2many, 0x537769746368696e674f7065726174696f6e73, 0, false⟩],
  [0x5377697463686573]⟩
def m_SwitchingOperation : List RClass := d_SwitchingOperation :: m_IdentifiedObject

/-- CIM15/IEC61970/Protection/RecloseSequence.py:23 -/
def d_RecloseSequence : RClass := ⟨0x5265636c6f736553657175656e6365, 0x43494d31352e49454336313937302e50726f74656374696f6e2e5265636c6f736553657175656e6365, 0x43494d31352e49454336313937302e436f72652e4964656e7469666965644f626a656374,
  [(0x7265636c6f736553746570, .int 0), (0x7265636c6f736544656c6179, .flt 0x0)],
  [0x7265636c6f736553746570, 0x7265636c6f736544656c6179],
  [(0x7265636c6f736553746570, .int 0), (0x7265636c6f736544656c6179, .flt 0x0)],
  [(0x7265636c6f736553746570, 0x696e74), (0x7265636c6f736544656c6179, 0x666c6f6174)],
  [],
  [⟨0x50726f746563746564537769746368, .one2many, 0x5265636c6f736553657175656e636573, 0, false⟩],
  []⟩
def m_RecloseSequence : List RClass := d_RecloseSequence :: m_IdentifiedObject

/-- CIM15/IEC61970/SCADA/RemotePoint.py:23 -/
def d_RemotePoint : RClass := ⟨0x52656d6f7465506f696e74, 0x43494d31352e49454336313937302e53434144412e52656d6f7465506f696e74, 0x43494d31352e49454336313937302e436f72652e4964656e7469666965644f626a656374,
  [],
  [],
  [],
  [],
  [],
  [⟨0x52656d6f7465556e6974, .one2many, 0x52656d6f7465506f696e7473, 0, false⟩],
  []⟩
def m_RemotePoint : List RClass := d_RemotePoint :: m_IdentifiedObject

/-- CIM15/IEC61970/StateVariables/SvInjection.py:23 -/
def d_SvInjection : RClass := ⟨0x5376496e6a656374696f6e, 0x43494d31352e49454336313937302e53746174655661726961626c65732e5376496e6a656374696f6e, 0x43494d31352e49454336313937302e53746174655661726961626c65732e53746174655661726961626c65,
  [(0x704e6574496e6a656374696f6e, .flt 0x0), (0x714e6574496e6a656374696f6e, .flt 0x0)],
  [0x704e6574496e6a656374696f6e, 0x714e6574496e6a656374696f6e],
  [(0x704e6574496e6a656374696f6e, .flt 0x0), (0x714e6574496e6a656374696f6e, .flt 0x0)],
  [(0x704e6574496e6a656374696f6e, 0x666c6f6174), (0x714e6574496e6a656374696f6e, 0x666c6f6174)],
  [],
  [⟨0x546f706f6c6f676963616c4e6f6465, .one2one, 0x5376496e6a656374696f6e, 0, false⟩],
  []⟩
def m_SvInjection : List RClass := d_SvInjection :: m_StateVariable

/-- CIM15/IEC61970/StateVariables/SvPowerFlow.py:23 -/
def d_SvPowerFlow : RClass := ⟨0x5376506f776572466c6f77, 0x43494d31352e49454336313937302e53746174655661726961626c65732e5376506f776572466c6f77, 0x43494d31352e49454336313937302e53746174655661726961626c65732e53746174655661726961626c65,
  [(0x70, .flt 0x0), (0x71, .flt 0x0)],
  [0x70, 0x71],
  [(0x70, .flt 0x0), (0x71, .flt 0x0)],
  [(0x70, 0x666c6f6174), (0x71, 0x666c6f6174)],
  [],
  [⟨0x5465726d696e616c, .one2one, 0x5376506f776572466c6f77, 0, false⟩],
  []⟩
def m_SvPowerFlow : List RClass := d_SvPowerFlow :: m_StateVariable

/-- CIM15/IEC61970/StateVariables/SvShortCircuit.py:23 -/
def d_SvShortCircuit : RClass := ⟨0x537653686f727443697263756974, 0x43494d31352e49454336313937302e53746174655661726961626c65732e537653686f727443697263756974, 0x43494d31352e49454336313937302e53746174655661726961626c65732e53746174655661726961626c65,
  [(0x7353686f727443697263756974, .flt 0x0), (0x723050657252, .flt 0x0), (0x783050657258, .flt 0x0), (0x7850657252, .flt 0x0)],
  [0x7353686f727443697263756974, 0x723050657252, 0x783050657258, 0x7850657252],
  [(0x7353686f727443697263756974, .flt 0x0), (0x723050657252, .flt 0x0), (0x783050657258, .flt 0x0), (0x7850657252, .flt 0x0)],
  [(0x7353686f727443697263756974, 0x666c6f6174), (0x723050657252, 0x666c6f6174), (0x783050657258, 0x666c6f6174), (0x7850657252, 0x666c6f6174)],
  [],
  [⟨0x546f706f6c6f676963616c4e6f6465, .one2one, 0x537653686f727443697263756974, 0, false⟩],
  []⟩
def m_SvShortCircuit : List RClass := d_SvShortCircuit :: m_StateVariable

/-- CIM15/IEC61970/StateVariables/SvShuntCompensatorSections.py:23 -/
def d_SvShuntCompensatorSections : RClass := ⟨0x53765368756e74436f6d70656e7361746f7253656374696f6e73, 0x43494d31352e49454336313937302e53746174655661726961626c65732e53765368756e74436f6d70656e7361746f7253656374696f6e73, 0x43494d31352e49454336313937302e53746174655661726961626c65732e53746174655661726961626c65,
  [(0x73656374696f6e73, .flt 0x0)],
  [0x73656374696f6e73],
  [(0x73656374696f6e73, .flt 0x0)],
  [(0x73656374696f6e73, 0x666c6f6174)],
  [],
  [⟨0x5368756e74436f6d70656e7361746f72, .one2one, 0x53765368756e74436f6d70656e7361746f7253656374696f6e73, 0, false⟩],
  []⟩
def m_SvShuntCompensatorSections : List RClass := d_SvShuntCompensatorSections :: m_StateVariable

/-- CIM15/IEC61970/StateVariables/SvStatus.py:23 -/
def d_SvStatus : RClass := ⟨0x5376537461747573, 0x43494d31352e49454336313937302e53746174655661726961626c65732e5376537461747573, 0x43494d31352e49454336313937302e53746174655661726961626c65732e53746174655661726961626c65,
  [(0x696e53657276696365, .bool false)],
  [0x696e53657276696365],
  [(0x696e53657276696365, .bool false)],
  [(0x696e53657276696365, 0x626f6f6c)],
  [],
  [⟨0x436f6e64756374696e6745717569706d656e74, .one2one, 0x5376537461747573, 0, false⟩],
  []⟩
def m_SvStatus : List RClass := d_SvStatus :: m_StateVariable

/-- CIM15/IEC61970/StateVariables/SvTapStep.py:23 -/
def d_SvTapStep : RClass := ⟨0x537654617053746570, 0x43494d31352e49454336313937302e53746174655661726961626c65732e537654617053746570, 0x43494d31352e49454336313937302e53746174655661726961626c65732e53746174655661726961626c65,
  [(0x706f736974696f6e, .flt 0x0)],
  [0x706f736974696f6e],
  [(0x706f736974696f6e, .flt 0x0)],
  [(0x706f736974696f6e, 0x666c6f6174)],
  [],
  [⟨0x5461704368616e676572, .one2one, 0x537654617053746570, 0, false⟩],
  []⟩
def m_SvTapStep : List RClass := d_SvTapStep :: m_StateVariable

/-- CIM15/IEC61970/StateVariables/SvVoltage.py:23 -/
def d_SvVoltage : RClass := ⟨0x5376566f6c74616765, 0x43494d31352e49454336313937302e53746174655661726961626c65732e5376566f6c74616765, 0x43494d31352e49454336313937302e53746174655661726961626c65732e53746174655661726961626c65,
  [(0x616e676c65, .flt 0x0), (0x76, .flt 0x0)],
  [0x616e676c65, 0x76],
  [(0x616e676c65, .flt 0x0), (0x76, .flt 0x0)],
  [(0x616e676c65, 0x666c6f6174), (0x76, 0x666c6f6174)],
  [],
  [⟨0x546f706f6c6f676963616c4e6f6465, .one2one, 0x5376566f6c74616765, 0, false⟩],
  []⟩
def m_SvVoltage : List RClass := d_SvVoltage :: m_StateVariable

/-- CIM15/IEC61970/StateVariables/TopologicalIsland.py:23 -/
def d_TopologicalIsland : RClass := ⟨0x546f706f6c6f676963616c49736c616e64, 0x43494d31352e49454336313937302e53746174655661726961626c65732e546f706f6c6f676963616c49736c616e64, 0x43494d31352e49454336313937302e436f72652e4964656e7469666965644f626a656374,
  [],
  [],
  [],
  [],
  [],
  [⟨0x416e676c655265665f546f706f6c6f676963616c4e6f6465, .one2one, 0x416e676c655265665f546f706f6c6f676963616c49736c616e64, 0, false⟩, ⟨0x546f706f6c6f676963616c4e6f646573, .many2one, 0x546f706f6c6f676963616c49736c616e64, 0, false⟩],
  [0x546f706f6c6f676963616c4e6f646573]⟩
def m_TopologicalIsland : List RClass := d_TopologicalIsland :: m_IdentifiedObject

/-- CIM15/IEC61970/Topology/BusNameMarker.py:23 -/
def d_BusNameMarker : RClass := ⟨0x4275734e616d654d61726b6572, 0x43494d31352e49454336313937302e546f706f6c6f67792e4275734e616d654d61726b6572, 0x43494d31352e49454336313937302e436f72652e4964656e7469666965644f626a656374,
  [],
  [],
  [],
  [],
  [],
  [⟨0x5465726d696e616c, .many2one, 0x4275734e616d654d61726b6572, 0, false⟩, ⟨0x5265706f7274696e6747726f7570, .one2many, 0x4275734e616d654d61726b6572, 0, false⟩],
  [0x5465726d696e616c]⟩
def m_BusNameMarker : List RClass := d_BusNameMarker :: m_IdentifiedObject

/-- CIM15/IEC61970/Topology/TopologicalNode.py:23 -/
def d_TopologicalNode : RClass := ⟨0x546f706f6c6f676963616c4e6f6465, 0x43494d31352e49454336313937302e546f706f6c6f67792e546f706f6c6f676963616c4e6f6465, 0x43494d31352e49454336313937302e436f72652e4964656e7469666965644f626a656374,
  [],
  [],
  [],
  [],
  [],
  [⟨0x537653686f727443697263756974, .one2one, 0x546f706f6c6f676963616c4e6f6465, 0, false⟩, ⟨0x436f6e6e65637469766974794e6f6465436f6e7461696e6572, .one2many, 0x546f706f6c6f676963616c4e6f6465, 0, false⟩, ⟨0x5376496e6a656374696f6e, .one2one, 0x546f706f6c6f676963616c4e6f6465, 0, false⟩, ⟨0x436f6e6e65637469766974794e6f646573, .many2one, 0x546f706f6c6f676963616c4e6f6465, 0, false⟩, ⟨0x5376566f6c74616765, .one2one, 0x546f706f6c6f676963616c4e6f6465, 0, false⟩, ⟨0x42617365566f6c74616765, .one2many, 0x546f706f6c6f676963616c4e6f6465, 0, false⟩, ⟨0x546f706f6c6f676963616c49736c616e64, .one2many, 0x546f706f6c6f676963616c4e6f646573, 0, false⟩, ⟨0x5265706f7274696e6747726f7570, .one2many, 0x546f706f6c6f676963616c4e6f6465, 0, false⟩, ⟨0x5465726d696e616c, .many2one, 0x546f706f6c6f676963616c4e6f6465, 0, false⟩, ⟨0x416e676c655265665f546f706f6c6f676963616c49736c616e64, .one2one, 0x416e676c655265665f546f706f6c6f676963616c4e6f6465, 0, false⟩],
  [0x436f6e6e65637469766974794e6f646573, 0x5465726d696e616c]⟩
def m_TopologicalNode : List RClass := d_TopologicalNode :: m_IdentifiedObject

/-- CIM15/IEC61970/Wires/MutualCoupling.py:23 -/
def d_MutualCoupling : RClass := ⟨0x4d757475616c436f75706c696e67, 0x43494d31352e49454336313937302e57697265732e4d757475616c436f75706c696e67, 0x43494d31352e49454336313937302e436f72652e4964656e7469666965644f626a656374,
  [(0x64697374616e63653132, .flt 0x0), (0x64697374616e63653131, .flt 0x0), (0x7230, .flt 0x0), (0x64697374616e63653232, .flt 0x0), (0x64697374616e63653231, .flt 0x0), (0x62306368, .flt 0x0), (0x7830, .flt 0x0), (0x67306368, .flt 0x0)],
  [0x64697374616e63653132, 0x64697374616e63653131, 0x7230, 0x64697374616e63653232, 0x64697374616e63653231, 0x62306368, 0x7830, 0x67306368],
  [(0x64697374616e63653132, .flt 0x0), (0x64697374616e63653131, .flt 0x0), (0x7230, .flt 0x0), (0x64697374616e63653232, .flt 0x0), (0x64697374616e63653231, .flt 0x0), (0x62306368, .flt 0x0), (0x7830, .flt 0x0), (0x67306368, .flt 0x0)],
  [(0x64697374616e63653132, 0x666c6f6174), (0x64697374616e63653131, 0x666c6f6174), (0x7230, 0x666c6f6174), (0x64697374616e63653232, 0x666c6f6174), (0x64697374616e63653231, 0x666c6f6174), (0x62306368, 0x666c6f6174), (0x7830, 0x666c6f6174), (0x67306368, 0x666c6f6174)],
  [],
  [⟨0x46697273745f5465726d696e616c, .one2many, 0x48617346697273745f4d757475616c436f75706c696e67, 0, false⟩, ⟨0x5365636f6e645f5465726d696e616c, .one2many, 0x4861735365636f6e645f4d757475616c436f75706c696e67, 0, false⟩],
  []⟩
def m_MutualCoupling : List RClass := d_MutualCoupling :: m_IdentifiedObject

/-- CIM15/IEC61970/Wires/PerLengthPhaseImpedance.py:23 -/
def d_PerLengthPhaseImpedance : RClass := ⟨0x5065724c656e6774685068617365496d706564616e6365, 0x43494d31352e49454336313937302e57697265732e5065724c656e6774685068617365496d706564616e6365, 0x43494d31352e49454336313937302e436f72652e4964656e7469666965644f626a656374,
  [(0x636f6e647563746f72436f756e74, .int 0)],
  [0x636f6e647563746f72436f756e74],
  [(0x636f6e647563746f72436f756e74, .int 0)],
  [(0x636f6e647563746f72436f756e74, 0x696e74)],
  [],
  [⟨0x4c696e655365676d656e7473, .many2one, 0x5068617365496d706564616e6365, 0x5065724c656e677468496d706564616e6365, false⟩, ⟨0x5068617365496d706564616e636544617461, .many2one, 0x5068617365496d706564616e6365, 0, false⟩],
  [0x4c696e655365676d656e7473, 0x5068617365496d706564616e636544617461]⟩
def m_PerLengthPhaseImpedance : List RClass := d_PerLengthPhaseImpedance :: m_IdentifiedObject

/-- CIM15/IEC61970/Wires/PerLengthSequenceImpedance.py:23 -/
def d_PerLengthSequenceImpedance : RClass := ⟨0x5065724c656e67746853657175656e6365496d706564616e6365, 0x43494d31352e49454336313937302e57697265732e5065724c656e67746853657175656e6365496d706564616e6365, 0x43494d31352e49454336313937302e436f72652e4964656e7469666965644f626a656374,
  [(0x78, .flt 0x0), (0x72, .flt 0x0), (0x626368, .flt 0x0), (0x7230, .flt 0x0), (0x67306368, .flt 0x0), (0x62306368, .flt 0x0), (0x676368, .flt 0x0), (0x7830, .flt 0x0)],
  [0x78, 0x72, 0x626368, 0x7230, 0x67306368, 0x62306368, 0x676368, 0x7830],
  [(0x78, .flt 0x0), (0x72, .flt 0x0), (0x626368, .flt 0x0), (0x7230, .flt 0x0), (0x67306368, .flt 0x0), (0x62306368, .flt 0x0), (0x676368, .flt 0x0), (0x7830, .flt 0x0)],
  [(0x78, 0x666c6f6174), (0x72, 0x666c6f6174), (0x626368, 0x666c6f6174), (0x7230, 0x666c6f6174), (0x67306368, 0x666c6f6174), (0x62306368, 0x666c6f6174), (0x676368, 0x666c6f6174), (0x7830, 0x666c6f6174)],
  [],
  [⟨0x4c696e655365676d656e7473, .many2one, 0x53657175656e6365496d706564616e6365, 0x5065724c656e677468496d706564616e6365, false⟩],
  [0x4c696e655365676d656e7473]⟩
def m_PerLengthSequenceImpedance : List RClass := d_PerLengthSequenceImpedance :: m_IdentifiedObject

/-- CIM15/IEC61970/Wires/TransformerCoreAdmittance.py:23 -/
def d_TransformerCoreAdmittance : RClass := ⟨0x5472616e73666f726d6572436f726541646d697474616e6365, 0x43494d31352e49454336313937302e57697265732e5472616e73666f726d6572436f726541646d697474616e6365, 0x43494d31352e49454336313937302e436f72652e4964656e7469666965644f626a656374,
  [(0x6730, .flt 0x0), (0x6230, .flt 0x0), (0x67, .flt 0x0), (0x62, .flt 0x0)],
  [0x6730, 0x6230, 0x67, 0x62],
  [(0x6730, .flt 0x0), (0x6230, .flt 0x0), (0x67, .flt 0x0), (0x62, .flt 0x0)],
  [(0x6730, 0x666c6f6174), (0x6230, 0x666c6f6174), (0x67, 0x666c6f6174), (0x62, 0x666c6f6174)],
  [],
  [⟨0x5472616e73666f726d6572456e64496e666f, .one2one, 0x436f726541646d697474616e6365, 0, false⟩, ⟨0x5472616e73666f726d6572456e64, .many2one, 0x436f726541646d697474616e6365, 0, false⟩],
  [0x5472616e73666f726d6572456e64]⟩
def m_TransformerCoreAdmittance : List RClass := d_TransformerCoreAdmittance :: m_IdentifiedObject

/-- CIM15/IEC61970/Wires/TransformerEnd.py:23 -/
def d_TransformerEnd : RClass := ⟨0x5472616e73666f726d6572456e64, 0x43494d31352e49454336313937302e57697265732e5472616e73666f726d6572456e64, 0x43494d31352e49454336313937302e436f72652e4964656e7469666965644f626a656374,
  [(0x656e644e756d626572, .int 0), (0x7267726f756e64, .flt 0x0), (0x67726f756e646564, .bool false), (0x6d61674261736555, .flt 0x0), (0x6d6167536174466c7578, .flt 0x0), (0x626d6167536174, .flt 0x0), (0x7867726f756e64, .flt 0x0)],
  [0x656e644e756d626572, 0x7267726f756e64, 0x67726f756e646564, 0x6d61674261736555, 0x6d6167536174466c7578, 0x626d6167536174, 0x7867726f756e64],
  [(0x656e644e756d626572, .int 0), (0x7267726f756e64, .flt 0x0), (0x67726f756e646564, .bool false), (0x6d61674261736555, .flt 0x0), (0x6d6167536174466c7578, .flt 0x0), (0x626d6167536174, .flt 0x0), (0x7867726f756e64, .flt 0x0)],
  [(0x656e644e756d626572, 0x696e74), (0x7267726f756e64, 0x666c6f6174), (0x67726f756e646564, 0x626f6f6c), (0x6d61674261736555, 0x666c6f6174), (0x6d6167536174466c7578, 0x666c6f6174), (0x626d6167536174, 0x666c6f6174), (0x7867726f756e64, 0x666c6f6174)],
  [],
  [⟨0x5465726d696e616c, .one2many, 0x5472616e73666f726d6572456e64, 0, false⟩, ⟨0x46726f6d57696e64696e67496e73756c6174696f6e73, .many2one, 0x46726f6d57696e64696e67, 0, false⟩, ⟨0x436f726541646d697474616e6365, .one2many, 0x5472616e73666f726d6572456e64, 0, false⟩, ⟨0x5472616e73666f726d6572456e64496e666f, .one2many, 0x5472616e73666f726d6572456e64, 0, false⟩, ⟨0x50686173655461704368616e676572, .one2one, 0x5472616e73666f726d6572456e64, 0, false⟩, ⟨0x526174696f5461704368616e676572, .one2one, 0x5472616e73666f726d6572456e64, 0, false⟩, ⟨0x46726f6d4d657368496d706564616e6365, .many2one, 0x46726f6d5472616e73666f726d6572456e64, 0, false⟩, ⟨0x546f57696e64696e67496e73756c6174696f6e73, .many2one, 0x546f57696e64696e67, 0, false⟩, ⟨0x546f4d657368496d706564616e6365, .many2many, 0x546f5472616e73666f726d6572456e64, 0, false⟩, ⟨0x53746172496d706564616e6365, .one2many, 0x5472616e73666f726d6572456e64, 0, false⟩, ⟨0x42617365566f6c74616765, .one2many, 0x5472616e73666f726d6572456e64, 0, false⟩],
  [0x46726f6d57696e64696e67496e73756c6174696f6e73, 0x46726f6d4d657368496d706564616e6365, 0x546f57696e64696e67496e73756c6174696f6e73, 0x546f4d657368496d706564616e6365]⟩
def m_TransformerEnd : List RClass := d_TransformerEnd :: m_IdentifiedObject

/-- CIM15/IEC61970/Wires/TransformerMeshImpedance.py:23 -/
def d_TransformerMeshImpedance : RClass := ⟨0x5472616e73666f726d65724d657368496d706564616e6365, 0x43494d31352e49454336313937302e57697265732e5472616e73666f726d65724d657368496d706564616e6365, 0x43494d31352e49454336313937302e436f72652e4964656e7469666965644f626a656374,
  [(0x72, .flt 0x0), (0x78, .flt 0x0), (0x7830, .flt 0x0), (0x7230, .flt 0x0)],
  [0x72, 0x78, 0x7830, 0x7230],
  [(0x72, .flt 0x0), (0x78, .flt 0x0), (0x7830, .flt 0x0), (0x7230, .flt 0x0)],
  [(0x72, 0x666c6f6174), (0x78, 0x666c6f6174), (0x7830, 0x666c6f6174), (0x7230, 0x666c6f6174)],
  [],
  [⟨0x46726f6d5472616e73666f726d6572456e64496e666f, .one2many, 0x46726f6d4d657368496d706564616e6365, 0, false⟩, ⟨0x546f5472616e73666f726d6572456e64, .many2many, 0x546f4d657368496d706564616e6365, 0, false⟩, ⟨0x546f5472616e73666f726d6572456e64496e666f, .many2many, 0x546f4d657368496d706564616e6365, 0, false⟩, ⟨0x46726f6d5472616e73666f726d6572456e64, .one2many, 0x46726f6d4d657368496d706564616e6365, 0, false⟩],
  [0x546f5472616e73666f726d6572456e64, 0x546f5472616e73666f726d6572456e64496e666f]⟩
def m_TransformerMeshImpedance : List RClass := d_TransformerMeshImpedance :: m_IdentifiedObject

/-- CIM15/IEC61970/Wires/TransformerStarImpedance.py:23 -/
def d_TransformerStarImpedance : RClass := ⟨0x5472616e73666f726d657253746172496d706564616e6365, 0x43494d31352e49454336313937302e57697265732e5472616e73666f726d657253746172496d706564616e6365, 0x43494d31352e49454336313937302e436f72652e4964656e7469666965644f626a656374,
  [(0x7830, .flt 0x0), (0x78, .flt 0x0), (0x72, .flt 0x0), (0x7230, .flt 0x0)],
  [0x7830, 0x78, 0x72, 0x7230],
  [(0x7830, .flt 0x0), (0x78, .flt 0x0), (0x72, .flt 0x0), (0x7230, .flt 0x0)],
  [(0x7830, 0x666c6f6174), (0x78, 0x666c6f6174), (0x72, 0x666c6f6174), (0x7230, 0x666c6f6174)],
  [],
  [⟨0x5472616e73666f726d6572456e64, .many2one, 0x53746172496d706564616e6365, 0, false⟩],
  [0x5472616e73666f726d6572456e64]⟩
def m_TransformerStarImpedance : List RClass := d_TransformerStarImpedance :: m_IdentifiedObject

/-- CIM15/IEC62325/MarketRole.py:23 -/
def d_MarketRole : RClass := ⟨0x4d61726b6574526f6c65, 0x43494d31352e49454336323332352e4d61726b6574526f6c65, 0x43494d31352e49454336313937302e436f72652e4964656e7469666965644f626a656374,
  [(0x6b696e64, .str 0x7472616e736d697373696f6e4f70657261746f72)],
  [0x6b696e64],
  [(0x6b696e64, .str 0x7472616e736d697373696f6e4f70657261746f72)],
  [(0x6b696e64, 0x737472)],
  [(0x6b696e64, 0x4d61726b6574526f6c654b696e64)],
  [⟨0x737461747573, .plainOne, 0, 0, false⟩, ⟨0x4d61726b65745061727469636970616e7473, .many2many, 0x4d61726b6574526f6c6573, 0, false⟩],
  [0x4d61726b65745061727469636970616e7473]⟩
def m_MarketRole : List RClass := d_MarketRole :: m_IdentifiedObject

/-- CIM15/IEC61968/AssetModels/ConductorInfo.py:23 -/
def d_ConductorInfo : RClass := ⟨0x436f6e647563746f72496e666f, 0x43494d31352e49454336313936382e41737365744d6f64656c732e436f6e647563746f72496e666f, 0x43494d31352e49454336313936382e4173736574732e4173736574496e666f,
  [(0x696e73756c61746564, .bool false), (0x7573616765, .str 0x7365636f6e64617279), (0x696e73756c6174696f6e4d6174657269616c, .str 0x74726565526574617264616e7443726f73736c696e6b6564506f6c79657468796c656e65), (0x7068617365436f756e74, .int 0), (0x696e73756c6174696f6e546869636b6e657373, .flt 0x0)],
  [0x696e73756c61746564, 0x7573616765, 0x696e73756c6174696f6e4d6174657269616c, 0x7068617365436f756e74, 0x696e73756c6174696f6e546869636b6e657373],
  [(0x696e73756c61746564, .bool false), (0x7573616765, .str 0x7365636f6e64617279), (0x696e73756c6174696f6e4d6174657269616c, .str 0x74726565526574617264616e7443726f73736c696e6b6564506f6c79657468796c656e65), (0x7068617365436f756e74, .int 0), (0x696e73756c6174696f6e546869636b6e657373, .flt 0x0)],
  [(0x696e73756c61746564, 0x626f6f6c), (0x7573616765, 0x737472), (0x696e73756c6174696f6e4d6174657269616c, 0x737472), (0x7068617365436f756e74, 0x696e74), (0x696e73756c6174696f6e546869636b6e657373, 0x666c6f6174)],
  [(0x7573616765, 0x436f6e647563746f7255736167654b696e64), (0x696e73756c6174696f6e4d6174657269616c, 0x436f6e647563746f72496e73756c6174696f6e4b696e64)],
  [⟨0x57697265417272616e67656d656e7473, .many2one, 0x436f6e647563746f72496e666f, 0, false⟩, ⟨0x4c696e655365676d656e7473, .many2one, 0x436f6e647563746f72496e666f, 0, false⟩],
  [0x57697265417272616e67656d656e7473, 0x4c696e655365676d656e7473]⟩
def m_ConductorInfo : List RClass := d_ConductorInfo :: m_AssetInfo

/-- CIM15/IEC61968/AssetModels/EndDeviceInfo.py:23 -/
def d_EndDeviceInfo : RClass := ⟨0x456e64446576696365496e666f, 0x43494d31352e49454336313936382e41737365744d6f64656c732e456e64446576696365496e666f, 0x43494d31352e49454336313936382e4173736574732e4173736574496e666f,
  [(0x7068617365436f756e74, .int 0), (0x726174656443757272656e74, .flt 0x0), (0x7261746564566f6c74616765, .flt 0x0)],
  [0x7068617365436f756e74, 0x726174656443757272656e74, 0x7261746564566f6c74616765],
  [(0x7068617365436f756e74, .int 0), (0x726174656443757272656e74, .flt 0x0), (0x7261746564566f6c74616765, .flt 0x0)],
  [(0x7068617365436f756e74, 0x696e74), (0x726174656443757272656e74, 0x666c6f6174), (0x7261746564566f6c74616765, 0x666c6f6174)],
  [],
  [⟨0x456e6444657669636573, .many2one, 0x456e64446576696365496e666f, 0, false⟩],
  [0x456e6444657669636573]⟩
def m_EndDeviceInfo : List RClass := d_EndDeviceInfo :: m_AssetInfo

/-- CIM15/IEC61968/AssetModels/NoLoadTest.py:23 -/
def d_NoLoadTest : RClass := ⟨0x4e6f4c6f616454657374, 0x43494d31352e49454336313936382e41737365744d6f64656c732e4e6f4c6f616454657374, 0x43494d31352e49454336313936382e41737365744d6f64656c732e5472616e73666f726d657254657374,
  [(0x6578636974696e6743757272656e74, .flt 0x0), (0x6c6f73735a65726f, .flt 0x0), (0x6578636974696e6743757272656e745a65726f, .flt 0x0), (0x656e65726769736564456e64566f6c74616765, .flt 0x0), (0x6c6f7373, .flt 0x0)],
  [0x6578636974696e6743757272656e74, 0x6c6f73735a65726f, 0x6578636974696e6743757272656e745a65726f, 0x656e65726769736564456e64566f6c74616765, 0x6c6f7373],
  [(0x6578636974696e6743757272656e74, .flt 0x0), (0x6c6f73735a65726f, .flt 0x0), (0x6578636974696e6743757272656e745a65726f, .flt 0x0), (0x656e65726769736564456e64566f6c74616765, .flt 0x0), (0x6c6f7373, .flt 0x0)],
  [(0x6578636974696e6743757272656e74, 0x666c6f6174), (0x6c6f73735a65726f, 0x666c6f6174), (0x6578636974696e6743757272656e745a65726f, 0x666c6f6174), (0x656e65726769736564456e64566f6c74616765, 0x666c6f6174), (0x6c6f7373, 0x666c6f6174)],
  [],
  [⟨0x456e65726769736564456e64, .one2many, 0x456e65726769736564456e644e6f4c6f616454657374, 0, false⟩],
  []⟩
def m_NoLoadTest : List RClass := d_NoLoadTest :: m_TransformerTest

/-- CIM15/IEC61968/AssetModels/OpenCircuitTest.py:23 -/
def d_OpenCircuitTest : RClass := ⟨0x4f70656e4369726375697454657374, 0x43494d31352e49454336313936382e41737365744d6f64656c732e4f70656e4369726375697454657374, 0x43494d31352e49454336313936382e41737365744d6f64656c732e5472616e73666f726d657254657374,
  [(0x656e65726769736564456e6453746570, .int 0), (0x6f70656e456e64566f6c74616765, .flt 0x0), (0x6f70656e456e6453746570, .int 0), (0x656e65726769736564456e64566f6c74616765, .flt 0x0), (0x70686173655368696674, .flt 0x0)],
  [0x656e65726769736564456e6453746570, 0x6f70656e456e64566f6c74616765, 0x6f70656e456e6453746570, 0x656e65726769736564456e64566f6c74616765, 0x70686173655368696674],
  [(0x656e65726769736564456e6453746570, .int 0), (0x6f70656e456e64566f6c74616765, .flt 0x0), (0x6f70656e456e6453746570, .int 0), (0x656e65726769736564456e64566f6c74616765, .flt 0x0), (0x70686173655368696674, .flt 0x0)],
  [(0x656e65726769736564456e6453746570, 0x696e74), (0x6f70656e456e64566f6c74616765, 0x666c6f6174), (0x6f70656e456e6453746570, 0x696e74), (0x656e65726769736564456e64566f6c74616765, 0x666c6f6174), (0x70686173655368696674, 0x666c6f6174)],
  [],
  [⟨0x4f70656e456e64, .one2many, 0x4f70656e456e644f70656e436972637569745465737473, 0, false⟩, ⟨0x456e65726769736564456e64, .one2many, 0x456e65726769736564456e644f70656e436972637569745465737473, 0, false⟩],
  []⟩
def m_OpenCircuitTest : List RClass := d_OpenCircuitTest :: m_TransformerTest

/-- CIM15/IEC61968/AssetModels/PowerTransformerInfo.py:23 -/
def d_PowerTransformerInfo : RClass := ⟨0x506f7765725472616e73666f726d6572496e666f, 0x43494d31352e49454336313936382e41737365744d6f64656c732e506f7765725472616e73666f726d6572496e666f, 0x43494d31352e49454336313936382e4173736574732e4173736574496e666f,
  [],
  [],
  [],
  [],
  [],
  [⟨0x5472616e73666f726d657254616e6b496e666f, .many2one, 0x506f7765725472616e73666f726d6572496e666f, 0, false⟩, ⟨0x506f7765725472616e73666f726d657273, .many2one, 0x506f7765725472616e73666f726d6572496e666f, 0, false⟩],
  [0x5472616e73666f726d657254616e6b496e666f, 0x506f7765725472616e73666f726d657273]⟩
def m_PowerTransformerInfo : List RClass := d_PowerTransformerInfo :: m_AssetInfo

/-- CIM15/IEC61968/AssetModels/ShortCircuitTest.py:23 -/
def d_ShortCircuitTest : RClass := ⟨0x53686f72744369726375697454657374, 0x43494d31352e49454336313936382e41737365744d6f64656c732e53686f72744369726375697454657374, 0x43494d31352e49454336313936382e41737365744d6f64656c732e5472616e73666f726d657254657374,
  [(0x6c6f73735a65726f, .flt 0x0), (0x6c65616b616765496d706564616e6365, .flt 0x0), (0x6c6f7373, .flt 0x0), (0x67726f756e646564456e6453746570, .int 0), (0x6c65616b616765496d706564616e63655a65726f, .flt 0x0), (0x656e65726769736564456e6453746570, .int 0)],
  [0x6c6f73735a65726f, 0x6c65616b616765496d706564616e6365, 0x6c6f7373, 0x67726f756e646564456e6453746570, 0x6c65616b616765496d706564616e63655a65726f, 0x656e65726769736564456e6453746570],
  [(0x6c6f73735a65726f, .flt 0x0), (0x6c65616b616765496d706564616e6365, .flt 0x0), (0x6c6f7373, .flt 0x0), (0x67726f756e646564456e6453746570, .int 0), (0x6c65616b616765496d706564616e63655a65726f, .flt 0x0), (0x656e65726769736564456e6453746570, .int 0)],
  [(0x6c6f73735a65726f, 0x666c6f6174), (0x6c65616b616765496d706564616e6365, 0x666c6f6174), (0x6c6f7373, 0x666c6f6174), (0x67726f756e646564456e6453746570, 0x696e74), (0x6c65616b616765496d706564616e63655a65726f, 0x666c6f6174), (0x656e65726769736564456e6453746570, 0x696e74)],
  [],
  [⟨0x47726f756e646564456e6473, .many2many, 0x47726f756e646564456e6453686f7274436972637569745465737473, 0, false⟩, ⟨0x456e65726769736564456e64, .one2many, 0x456e65726769736564456e6453686f7274436972637569745465737473, 0, false⟩],
  [0x47726f756e646564456e6473]⟩
def m_ShortCircuitTest : List RClass := d_ShortCircuitTest :: m_TransformerTest

/-- CIM15/IEC61968/AssetModels/TapChangerInfo.py:23 -/
def d_TapChangerInfo : RClass := ⟨0x5461704368616e676572496e666f, 0x43494d31352e49454336313936382e41737365744d6f64656c732e5461704368616e676572496e666f, 0x43494d31352e49454336313936382e4173736574732e4173736574496e666f,
  [(0x6374526174696e67, .flt 0x0), (0x737465705068617365496e6372656d656e74, .flt 0x0), (0x72617465644170706172656e74506f776572, .flt 0x0), (0x6672657175656e6379, .flt 0x0), (0x6e65757472616c55, .flt 0x0), (0x6374526174696f, .flt 0x0), (0x73746570566f6c74616765496e6372656d656e74, .flt 0x0), (0x69735463756c, .bool false), (0x6e65757472616c53746570, .int 0), (0x726174656443757272656e74, .flt 0x0), (0x6c6f7753746570, .int 0), (0x7261746564566f6c74616765, .flt 0x0), (0x6869676853746570, .int 0), (0x7074526174696f, .flt 0x0), (0x62696c, .flt 0x0)],
  [0x6374526174696e67, 0x737465705068617365496e6372656d656e74, 0x72617465644170706172656e74506f776572, 0x6672657175656e6379, 0x6e65757472616c55, 0x6374526174696f, 0x73746570566f6c74616765496e6372656d656e74, 0x69735463756c, 0x6e65757472616c53746570, 0x726174656443757272656e74, 0x6c6f7753746570, 0x7261746564566f6c74616765, 0x6869676853746570, 0x7074526174696f, 0x62696c],
  [(0x6374526174696e67, .flt 0x0), (0x737465705068617365496e6372656d656e74, .flt 0x0), (0x72617465644170706172656e74506f776572, .flt 0x0), (0x6672657175656e6379, .flt 0x0), (0x6e65757472616c55, .flt 0x0), (0x6374526174696f, .flt 0x0), (0x73746570566f6c74616765496e6372656d656e74, .flt 0x0), (0x69735463756c, .bool false), (0x6e65757472616c53746570, .int 0), (0x726174656443757272656e74, .flt 0x0), (0x6c6f7753746570, .int 0), (0x7261746564566f6c74616765, .flt 0x0), (0x6869676853746570, .int 0), (0x7074526174696f, .flt 0x0), (0x62696c, .flt 0x0)],
  [(0x6374526174696e67, 0x666c6f6174), (0x737465705068617365496e6372656d656e74, 0x666c6f6174), (0x72617465644170706172656e74506f776572, 0x666c6f6174), (0x6672657175656e6379, 0x666c6f6174), (0x6e65757472616c55, 0x666c6f6174), (0x6374526174696f, 0x666c6f6174), (0x73746570566f6c74616765496e6372656d656e74, 0x666c6f6174), (0x69735463756c, 0x626f6f6c), (0x6e65757472616c53746570, 0x696e74), (0x726174656443757272656e74, 0x666c6f6174), (0x6c6f7753746570, 0x696e74), (0x7261746564566f6c74616765, 0x666c6f6174), (0x6869676853746570, 0x696e74), (0x7074526174696f, 0x666c6f6174), (0x62696c, 0x666c6f6174)],
  [],
  [⟨0x5461704368616e67657273, .many2one, 0x5461704368616e676572496e666f, 0, false⟩],
  [0x5461704368616e67657273]⟩
def m_TapChangerInfo : List RClass := d_TapChangerInfo :: m_AssetInfo

/-- CIM15/IEC61968/AssetModels/TransformerEndInfo.py:23 -/
def d_TransformerEndInfo : RClass := ⟨0x5472616e73666f726d6572456e64496e666f, 0x43494d31352e49454336313936382e41737365744d6f64656c732e5472616e73666f726d6572456e64496e666f, 0x43494d31352e49454336313936382e4173736574732e4173736574496e666f,
  [(0x72, .flt 0x0), (0x696e73756c6174696f6e55, .flt 0x0), (0x656d657267656e637953, .flt 0x0), (0x73686f72745465726d53, .flt 0x0), (0x636f6e6e656374696f6e4b696e64, .str 0x5a), (0x656e644e756d626572, .int 0), (0x726174656453, .flt 0x0), (0x726174656455, .flt 0x0), (0x7068617365416e676c65436c6f636b, .int 0)],
  [0x72, 0x696e73756c6174696f6e55, 0x656d657267656e637953, 0x73686f72745465726d53, 0x636f6e6e656374696f6e4b696e64, 0x656e644e756d626572, 0x726174656453, 0x726174656455, 0x7068617365416e676c65436c6f636b],
  [(0x72, .flt 0x0), (0x696e73756c6174696f6e55, .flt 0x0), (0x656d657267656e637953, .flt 0x0), (0x73686f72745465726d53, .flt 0x0), (0x636f6e6e656374696f6e4b696e64, .str 0x5a), (0x656e644e756d626572, .int 0), (0x726174656453, .flt 0x0), (0x726174656455, .flt 0x0), (0x7068617365416e676c65436c6f636b, .int 0)],
  [(0x72, 0x666c6f6174), (0x696e73756c6174696f6e55, 0x666c6f6174), (0x656d657267656e637953, 0x666c6f6174), (0x73686f72745465726d53, 0x666c6f6174), (0x636f6e6e656374696f6e4b696e64, 0x737472), (0x656e644e756d626572, 0x696e74), (0x726174656453, 0x666c6f6174), (0x726174656455, 0x666c6f6174), (0x7068617365416e676c65436c6f636b, 0x696e74)],
  [(0x636f6e6e656374696f6e4b696e64, 0x57696e64696e67436f6e6e656374696f6e)],
  [⟨0x46726f6d4d657368496d706564616e6365, .many2one, 0x46726f6d5472616e73666f726d6572456e64496e666f, 0, false⟩, ⟨0x456e65726769736564456e644e6f4c6f616454657374, .many2one, 0x456e65726769736564456e64, 0, false⟩, ⟨0x4f70656e456e644f70656e436972637569745465737473, .many2one, 0x4f70656e456e64, 0, false⟩, ⟨0x546f4d657368496d706564616e6365, .many2many, 0x546f5472616e73666f726d6572456e64496e666f, 0, false⟩, ⟨0x5472616e73666f726d6572456e64, .many2one, 0x5472616e73666f726d6572456e64496e666f, 0, false⟩, ⟨0x5472616e73666f726d657254616e6b496e666f, .one2many, 0x5472616e73666f726d6572456e64496e666f73, 0, false⟩, ⟨0x456e65726769736564456e644f70656e436972637569745465737473, .many2one, 0x456e65726769736564456e64, 0, false⟩, ⟨0x47726f756e646564456e6453686f7274436972637569745465737473, .many2many, 0x47726f756e646564456e6473, 0, false⟩, ⟨0x456e65726769736564456e6453686f7274436972637569745465737473, .many2one, 0x456e65726769736564456e64, 0, false⟩, ⟨0x436f726541646d697474616e6365, .one2one, 0x5472616e73666f726d6572456e64496e666f, 0, false⟩],
  [0x46726f6d4d657368496d706564616e6365, 0x456e65726769736564456e644e6f4c6f616454657374, 0x4f70656e456e644f70656e436972637569745465737473, 0x546f4d657368496d706564616e6365, 0x5472616e73666f726d6572456e64, 0x456e65726769736564456e644f70656e436972637569745465737473, 0x47726f756e646564456e6453686f7274436972637569745465737473, 0x456e65726769736564456e6453686f7274436972637569745465737473]⟩
def m_TransformerEndInfo : List RClass := d_TransformerEndInfo :: m_AssetInfo

/-- CIM15/IEC61968/AssetModels/TransformerTankInfo.py:23 -/
def d_TransformerTankInfo : RClass := ⟨0x5472616e73666f726d657254616e6b496e666f, 0x43494d31352e49454336313936382e41737365744d6f64656c732e5472616e73666f726d657254616e6b496e666f, 0x43494d31352e49454336313936382e4173736574732e4173736574496e666f,
  [],
  [],
  [],
  [],
  [],
  [⟨0x5472616e73666f726d6572417373657473, .many2one, 0x5472616e73666f726d6572496e666f, 0, false⟩, ⟨0x5472616e73666f726d6572456e64496e666f73, .many2one, 0x5472616e73666f726d657254616e6b496e666f, 0, false⟩, ⟨0x506f7765725472616e73666f726d6572496e666f, .one2many, 0x5472616e73666f726d657254616e6b496e666f, 0, false⟩, ⟨0x5472616e73666f726d657241737365744d6f64656c73, .many2one, 0x5472616e73666f726d6572496e666f, 0, false⟩, ⟨0x5472616e73666f726d657254616e6b73, .many2one, 0x5472616e73666f726d657254616e6b496e666f, 0, false⟩],
  [0x5472616e73666f726d6572417373657473, 0x5472616e73666f726d6572456e64496e666f73, 0x5472616e73666f726d657241737365744d6f64656c73, 0x5472616e73666f726d657254616e6b73]⟩
def m_TransformerTankInfo : List RClass := d_TransformerTankInfo :: m_AssetInfo

/-- CIM15/IEC61968/Assets/AssetContainer.py:23 -/
def d_AssetContainer : RClass := ⟨0x4173736574436f6e7461696e6572, 0x43494d31352e49454336313936382e4173736574732e4173736574436f6e7461696e6572, 0x43494d31352e49454336313936382e4173736574732e4173736574,
  [],
  [],
  [],
  [],
  [],
  [⟨0x5365616c73, .many2one, 0x4173736574436f6e7461696e6572, 0, false⟩, ⟨0x417373657473, .many2one, 0x4173736574436f6e7461696e6572, 0, false⟩, ⟨0x4c616e6450726f70657274696573, .many2many, 0x4173736574436f6e7461696e657273, 0, false⟩],
  [0x5365616c73, 0x417373657473, 0x4c616e6450726f70657274696573]⟩
def m_AssetContainer : List RClass := d_AssetContainer :: m_Asset

/-- CIM15/IEC61968/Assets/ComMedia.py:23 -/
def d_ComMedia : RClass := ⟨0x436f6d4d65646961, 0x43494d31352e49454336313936382e4173736574732e436f6d4d65646961, 0x43494d31352e49454336313936382e4173736574732e4173736574,
  [],
  [],
  [],
  [],
  [],
  [],
  []⟩
def m_ComMedia : List RClass := d_ComMedia :: m_Asset

/-- CIM15/IEC61968/Assets/ProductAssetModel.py:23 -/
def d_ProductAssetModel : RClass := ⟨0x50726f6475637441737365744d6f64656c, 0x43494d31352e49454336313936382e4173736574732e50726f6475637441737365744d6f64656c, 0x43494d31352e49454336313936382e4173736574732e41737365744d6f64656c,
  [(0x6d6f64656c56657273696f6e, .str 0), (0x75736167654b696e64, .str 0x637573746f6d657253756273746174696f6e), (0x636f72706f726174655374616e646172644b696e64, .str 0x7374616e64617264), (0x6d6f64656c4e756d626572, .str 0), (0x776569676874546f74616c, .flt 0x0)],
  [0x6d6f64656c56657273696f6e, 0x75736167654b696e64, 0x636f72706f726174655374616e646172644b696e64, 0x6d6f64656c4e756d626572, 0x776569676874546f74616c],
  [(0x6d6f64656c56657273696f6e, .str 0), (0x75736167654b696e64, .str 0x637573746f6d657253756273746174696f6e), (0x636f72706f726174655374616e646172644b696e64, .str 0x7374616e64617264), (0x6d6f64656c4e756d626572, .str 0), (0x776569676874546f74616c, .flt 0x0)],
  [(0x6d6f64656c56657273696f6e, 0x737472), (0x75736167654b696e64, 0x737472), (0x636f72706f726174655374616e646172644b696e64, 0x737472), (0x6d6f64656c4e756d626572, 0x737472), (0x776569676874546f74616c, 0x666c6f6174)],
  [(0x75736167654b696e64, 0x41737365744d6f64656c55736167654b696e64), (0x636f72706f726174655374616e646172644b696e64, 0x436f72706f726174655374616e646172644b696e64)],
  [⟨0x47656e6572696341737365744d6f64656c4f724d6174657269616c, .one2many, 0x50726f6475637441737365744d6f64656c73, 0, false⟩, ⟨0x41737365744d6f64656c436174616c6f6775654974656d73, .many2one, 0x41737365744d6f64656c, 0, false⟩],
  [0x41737365744d6f64656c436174616c6f6775654974656d73]⟩
def m_ProductAssetModel : List RClass := d_ProductAssetModel :: m_AssetModel

/-- CIM15/IEC61968/Common/Agreement.py:23 -/
def d_Agreement : RClass := ⟨0x41677265656d656e74, 0x43494d31352e49454336313936382e436f6d6d6f6e2e41677265656d656e74, 0x43494d31352e49454336313936382e436f6d6d6f6e2e446f63756d656e74,
  [(0x7369676e44617465, .str 0)],
  [0x7369676e44617465],
  [(0x7369676e44617465, .str 0)],
  [(0x7369676e44617465, 0x737472)],
  [],
  [⟨0x76616c6964697479496e74657276616c, .plainOne, 0, 0, false⟩],
  []⟩
def m_Agreement : List RClass := d_Agreement :: m_Document

/-- CIM15/IEC61968/Common/TimeSchedule.py:23 -/
def d_TimeSchedule : RClass := ⟨0x54696d655363686564756c65, 0x43494d31352e49454336313936382e436f6d6d6f6e2e54696d655363686564756c65, 0x43494d31352e49454336313936382e436f6d6d6f6e2e446f63756d656e74,
  [(0x726563757272656e6365506572696f64, .flt 0x0), (0x64697361626c6564, .bool false), (0x6f6666736574, .flt 0x0), (0x726563757272656e63655061747465726e, .str 0)],
  [0x726563757272656e6365506572696f64, 0x64697361626c6564, 0x6f6666736574, 0x726563757272656e63655061747465726e],
  [(0x726563757272656e6365506572696f64, .flt 0x0), (0x64697361626c6564, .bool false), (0x6f6666736574, .flt 0x0), (0x726563757272656e63655061747465726e, .str 0)],
  [(0x726563757272656e6365506572696f64, 0x666c6f6174), (0x64697361626c6564, 0x626f6f6c), (0x6f6666736574, 0x666c6f6174), (0x726563757272656e63655061747465726e, 0x737472)],
  [],
  [⟨0x54696d65506f696e7473, .many2one, 0x54696d655363686564756c65, 0, false⟩, ⟨0x7363686564756c65496e74657276616c, .plainOne, 0, 0, false⟩],
  [0x54696d65506f696e7473]⟩
def m_TimeSchedule : List RClass := d_TimeSchedule :: m_Document

/-- CIM15/IEC61968/Customers/Customer.py:23 -/
def d_Customer : RClass := ⟨0x437573746f6d6572, 0x43494d31352e49454336313936382e437573746f6d6572732e437573746f6d6572, 0x43494d31352e49454336313936382e436f6d6d6f6e2e4f7267616e69736174696f6e,
  [(0x766970, .bool false), (0x7075634e756d626572, .str 0), (0x7370656369616c4e656564, .str 0), (0x6b696e64, .str 0x77696e644d616368696e65)],
  [0x766970, 0x7075634e756d626572, 0x7370656369616c4e656564, 0x6b696e64],
  [(0x766970, .bool false), (0x7075634e756d626572, .str 0), (0x7370656369616c4e656564, .str 0), (0x6b696e64, .str 0x77696e644d616368696e65)],
  [(0x766970, 0x626f6f6c), (0x7075634e756d626572, 0x737472), (0x7370656369616c4e656564, 0x737472), (0x6b696e64, 0x737472)],
  [(0x6b696e64, 0x437573746f6d65724b696e64)],
  [⟨0x437573746f6d657241677265656d656e7473, .many2one, 0x437573746f6d6572, 0, false⟩, ⟨0x457270506572736f6e73, .many2one, 0x437573746f6d657244617461, 0, false⟩, ⟨0x456e6444657669636573, .many2one, 0x437573746f6d6572, 0, false⟩, ⟨0x576f726b73, .many2many, 0x437573746f6d657273, 0, false⟩, ⟨0x737461747573, .plainOne, 0, 0, false⟩, ⟨0x506c616e6e65644f7574616765, .one2many, 0x437573746f6d65724461746173, 0, false⟩, ⟨0x4f75746167654e6f74696669636174696f6e73, .many2many, 0x437573746f6d65724461746173, 0, false⟩, ⟨0x54726f75626c655469636b657473, .many2one, 0x437573746f6d657244617461, 0, false⟩],
  [0x437573746f6d657241677265656d656e7473, 0x457270506572736f6e73, 0x456e6444657669636573, 0x576f726b73, 0x4f75746167654e6f74696669636174696f6e73, 0x54726f75626c655469636b657473]⟩
def m_Customer : List RClass := d_Customer :: m_Organisation

/-- CIM15/IEC61968/Customers/CustomerAccount.py:23 -/
def d_CustomerAccount : RClass := ⟨0x437573746f6d65724163636f756e74, 0x43494d31352e49454336313936382e437573746f6d6572732e437573746f6d65724163636f756e74, 0x43494d31352e49454336313936382e436f6d6d6f6e2e446f63756d656e74,
  [],
  [],
  [],
  [],
  [],
  [⟨0x576f726b42696c6c696e67496e666f73, .many2one, 0x437573746f6d65724163636f756e74, 0, false⟩, ⟨0x437573746f6d657241677265656d656e7473, .many2one, 0x437573746f6d65724163636f756e74, 0, false⟩, ⟨0x457270496e766f6963656573, .many2one, 0x437573746f6d65724163636f756e74, 0, false⟩, ⟨0x5061796d656e745472616e73616374696f6e73, .many2one, 0x437573746f6d65724163636f756e74, 0, false⟩, ⟨0x437573746f6d657242696c6c696e67496e666f73, .many2one, 0x437573746f6d65724163636f756e74, 0, false⟩],
  [0x576f726b42696c6c696e67496e666f73, 0x437573746f6d657241677265656d656e7473, 0x457270496e766f6963656573, 0x5061796d656e745472616e73616374696f6e73, 0x437573746f6d657242696c6c696e67496e666f73]⟩
def m_CustomerAccount : List RClass := d_CustomerAccount :: m_Document

/-- CIM15/IEC61968/Customers/PricingStructure.py:23 -/
def d_PricingStructure : RClass := ⟨0x50726963696e67537472756374757265, 0x43494d31352e49454336313936382e437573746f6d6572732e50726963696e67537472756374757265, 0x43494d31352e49454336313936382e436f6d6d6f6e2e446f63756d656e74,
  [(0x6461696c79466c6f6f725573616765, .int 0), (0x6461696c794365696c696e675573616765, .int 0), (0x7461784578656d7074696f6e, .bool false), (0x636f6465, .str 0), (0x6461696c79457374696d617465645573616765, .int 0), (0x726576656e75654b696e64, .str 0x69727269676174696f6e)],
  [0x6461696c79466c6f6f725573616765, 0x6461696c794365696c696e675573616765, 0x7461784578656d7074696f6e, 0x636f6465, 0x6461696c79457374696d617465645573616765, 0x726576656e75654b696e64],
  [(0x6461696c79466c6f6f725573616765, .int 0), (0x6461696c794365696c696e675573616765, .int 0), (0x7461784578656d7074696f6e, .bool false), (0x636f6465, .str 0), (0x6461696c79457374696d617465645573616765, .int 0), (0x726576656e75654b696e64, .str 0x69727269676174696f6e)],
  [(0x6461696c79466c6f6f725573616765, 0x696e74), (0x6461696c794365696c696e675573616765, 0x696e74), (0x7461784578656d7074696f6e, 0x626f6f6c), (0x636f6465, 0x737472), (0x6461696c79457374696d617465645573616765, 0x696e74), (0x726576656e75654b696e64, 0x737472)],
  [(0x726576656e75654b696e64, 0x526576656e75654b696e64)],
  [⟨0x5365727669636543617465676f7279, .one2many, 0x50726963696e6753747275637475726573, 0, false⟩, ⟨0x437573746f6d657241677265656d656e7473, .many2many, 0x50726963696e6753747275637475726573, 0, false⟩, ⟨0x5365727669636544656c6976657279506f696e7473, .many2many, 0x50726963696e6753747275637475726573, 0, false⟩, ⟨0x54617269666673, .many2many, 0x50726963696e6753747275637475726573, 0, false⟩, ⟨0x5472616e73616374696f6e73, .many2one, 0x50726963696e67537472756374757265, 0, false⟩],
  [0x437573746f6d657241677265656d656e7473, 0x5365727669636544656c6976657279506f696e7473, 0x54617269666673, 0x5472616e73616374696f6e73]⟩
def m_PricingStructure : List RClass := d_PricingStructure :: m_Document

/-- CIM15/IEC61968/Customers/ServiceLocation.py:23 -/
def d_ServiceLocation : RClass := ⟨0x536572766963654c6f636174696f6e, 0x43494d31352e49454336313936382e437573746f6d6572732e536572766963654c6f636174696f6e, 0x43494d31352e49454336313936382e436f6d6d6f6e2e4c6f636174696f6e,
  [(0x7369746541636365737350726f626c656d, .str 0), (0x6163636573734d6574686f64, .str 0), (0x6e65656473496e7370656374696f6e, .bool false)],
  [0x7369746541636365737350726f626c656d, 0x6163636573734d6574686f64, 0x6e65656473496e7370656374696f6e],
  [(0x7369746541636365737350726f626c656d, .str 0), (0x6163636573734d6574686f64, .str 0), (0x6e65656473496e7370656374696f6e, .bool false)],
  [(0x7369746541636365737350726f626c656d, 0x737472), (0x6163636573734d6574686f64, 0x737472), (0x6e65656473496e7370656374696f6e, 0x626f6f6c)],
  [],
  [⟨0x456e6444657669636573, .many2one, 0x536572766963654c6f636174696f6e, 0, false⟩, ⟨0x457270506572736f6e73, .many2one, 0x536572766963654c6f636174696f6e, 0, false⟩, ⟨0x5365727669636544656c6976657279506f696e7473, .many2one, 0x536572766963654c6f636174696f6e, 0, false⟩, ⟨0x437573746f6d657241677265656d656e7473, .many2many, 0x536572766963654c6f636174696f6e73, 0, false⟩],
  [0x456e6444657669636573, 0x457270506572736f6e73, 0x5365727669636544656c6976657279506f696e7473, 0x437573746f6d657241677265656d656e7473]⟩
def m_ServiceLocation : List RClass := d_ServiceLocation :: m_Location

/-- CIM15/IEC61968/Customers/Tariff.py:23 -/
def d_Tariff : RClass := ⟨0x546172696666, 0x43494d31352e49454336313936382e437573746f6d6572732e546172696666, 0x43494d31352e49454336313936382e436f6d6d6f6e2e446f63756d656e74,
  [(0x737461727444617465, .str 0), (0x656e6444617465, .str 0)],
  [0x737461727444617465, 0x656e6444617465],
  [(0x737461727444617465, .str 0), (0x656e6444617465, .str 0)],
  [(0x737461727444617465, 0x737472), (0x656e6444617465, 0x737472)],
  [],
  [⟨0x50726963696e6753747275637475726573, .many2many, 0x54617269666673, 0, false⟩, ⟨0x54617269666650726f66696c6573, .many2many, 0x54617269666673, 0, false⟩],
  [0x50726963696e6753747275637475726573, 0x54617269666650726f66696c6573]⟩
def m_Tariff : List RClass := d_Tariff :: m_Document

/-- CIM15/IEC61968/Metering/EndDeviceEvent.py:23 -/
def d_EndDeviceEvent : RClass := ⟨0x456e644465766963654576656e74, 0x43494d31352e49454336313936382e4d65746572696e672e456e644465766963654576656e74, 0x43494d31352e49454336313936382e436f6d6d6f6e2e41637469766974795265636f7264,
  [(0x757365724944, .str 0)],
  [0x757365724944],
  [(0x757365724944, .str 0)],
  [(0x757365724944, 0x737472)],
  [],
  [⟨0x456e6444657669636546756e6374696f6e, .one2many, 0x456e644465766963654576656e7473, 0, false⟩, ⟨0x4d6574657252656164696e67, .one2many, 0x456e644465766963654576656e7473, 0, false⟩],
  []⟩
def m_EndDeviceEvent : List RClass := d_EndDeviceEvent :: m_ActivityRecord

/-- CIM15/IEC61968/Metering/EndDeviceFunction.py:23 -/
def d_EndDeviceFunction : RClass := ⟨0x456e6444657669636546756e6374696f6e, 0x43494d31352e49454336313936382e4d65746572696e672e456e6444657669636546756e6374696f6e, 0x43494d31352e49454336313936382e4173736574732e417373657446756e6374696f6e,
  [(0x656e61626c6564, .bool false), (0x737570706f72746564, .bool false)],
  [0x656e61626c6564, 0x737570706f72746564],
  [(0x656e61626c6564, .bool false), (0x737570706f72746564, .bool false)],
  [(0x656e61626c6564, 0x626f6f6c), (0x737570706f72746564, 0x626f6f6c)],
  [],
  [⟨0x526567697374657273, .many2one, 0x456e6444657669636546756e6374696f6e, 0, false⟩, ⟨0x436f6d45717569706d656e74, .one2many, 0x456e6444657669636546756e6374696f6e73, 0, false⟩, ⟨0x456e644465766963654576656e7473, .many2one, 0x456e6444657669636546756e6374696f6e, 0, false⟩, ⟨0x456e64446576696365, .one2many, 0x456e6444657669636546756e6374696f6e73, 0, false⟩],
  [0x526567697374657273, 0x456e644465766963654576656e7473]⟩
def m_EndDeviceFunction : List RClass := d_EndDeviceFunction :: m_AssetFunction

/-- CIM15/IEC61968/Metering/IntervalReading.py:23 -/
def d_IntervalReading : RClass := ⟨0x496e74657276616c52656164696e67, 0x43494d31352e49454336313936382e4d65746572696e672e496e74657276616c52656164696e67, 0x43494d31352e49454336313937302e4d6561732e4d6561737572656d656e7456616c7565,
  [(0x76616c7565, .flt 0x0)],
  [0x76616c7565],
  [(0x76616c7565, .flt 0x0)],
  [(0x76616c7565, 0x666c6f6174)],
  [],
  [⟨0x496e74657276616c426c6f636b73, .many2many, 0x496e74657276616c52656164696e6773, 0, false⟩, ⟨0x52656164696e675175616c6974696573, .many2one, 0x496e74657276616c52656164696e67, 0, false⟩],
  [0x496e74657276616c426c6f636b73, 0x52656164696e675175616c6974696573]⟩
def m_IntervalReading : List RClass := d_IntervalReading :: m_MeasurementValue

/-- CIM15/IEC61968/Metering/Reading.py:23 -/
def d_Reading : RClass := ⟨0x52656164696e67, 0x43494d31352e49454336313936382e4d65746572696e672e52656164696e67, 0x43494d31352e49454336313937302e4d6561732e4d6561737572656d656e7456616c7565,
  [(0x76616c7565, .flt 0x0)],
  [0x76616c7565],
  [(0x76616c7565, .flt 0x0)],
  [(0x76616c7565, 0x666c6f6174)],
  [],
  [⟨0x52656164696e6754797065, .one2many, 0x52656164696e6773, 0, false⟩, ⟨0x4d6574657252656164696e6773, .many2many, 0x52656164696e6773, 0, false⟩, ⟨0x52656164696e675175616c6974696573, .many2one, 0x52656164696e67, 0, false⟩],
  [0x4d6574657252656164696e6773, 0x52656164696e675175616c6974696573]⟩
def m_Reading : List RClass := d_Reading :: m_MeasurementValue

/-- CIM15/IEC61968/Metering/SDPLocation.py:23 -/
def d_SDPLocation : RClass := ⟨0x5344504c6f636174696f6e, 0x43494d31352e49454336313936382e4d65746572696e672e5344504c6f636174696f6e, 0x43494d31352e49454336313936382e436f6d6d6f6e2e4c6f636174696f6e,
  [(0x6163636573734d6574686f64, .str 0), (0x72656d61726b, .str 0), (0x7369746541636365737350726f626c656d, .str 0), (0x6f63637570616e637944617465, .str 0)],
  [0x6163636573734d6574686f64, 0x72656d61726b, 0x7369746541636365737350726f626c656d, 0x6f63637570616e637944617465],
  [(0x6163636573734d6574686f64, .str 0), (0x72656d61726b, .str 0), (0x7369746541636365737350726f626c656d, .str 0), (0x6f63637570616e637944617465, .str 0)],
  [(0x6163636573734d6574686f64, 0x737472), (0x72656d61726b, 0x737472), (0x7369746541636365737350726f626c656d, 0x737472), (0x6f63637570616e637944617465, 0x737472)],
  [],
  [⟨0x5365727669636544656c6976657279506f696e7473, .many2many, 0x5344504c6f636174696f6e73, 0, false⟩],
  [0x5365727669636544656c6976657279506f696e7473]⟩
def m_SDPLocation : List RClass := d_SDPLocation :: m_Location

/-- CIM15/IEC61968/PaymentMetering/AuxiliaryAccount.py:23 -/
def d_AuxiliaryAccount : RClass := ⟨0x417578696c696172794163636f756e74, 0x43494d31352e49454336313936382e5061796d656e744d65746572696e672e417578696c696172794163636f756e74, 0x43494d31352e49454336313936382e436f6d6d6f6e2e446f63756d656e74,
  [(0x7072696e6369706c65416d6f756e74, .flt 0x0), (0x62616c616e6365, .flt 0x0)],
  [0x7072696e6369706c65416d6f756e74, 0x62616c616e6365],
  [(0x7072696e6369706c65416d6f756e74, .flt 0x0), (0x62616c616e6365, .flt 0x0)],
  [(0x7072696e6369706c65416d6f756e74, 0x666c6f6174), (0x62616c616e6365, 0x666c6f6174)],
  [],
  [⟨0x6c6173744465626974, .plainOne, 0, 0, false⟩, ⟨0x5061796d656e745472616e73616374696f6e73, .many2one, 0x417578696c696172794163636f756e74, 0, false⟩, ⟨0x43686172676573, .many2many, 0x417578696c696172794163636f756e7473, 0, false⟩, ⟨0x6c617374437265646974, .plainOne, 0, 0, false⟩, ⟨0x417578696c6961727941677265656d656e74, .one2many, 0x417578696c696172794163636f756e7473, 0, false⟩, ⟨0x647565, .plainOne, 0, 0, false⟩],
  [0x5061796d656e745472616e73616374696f6e73, 0x43686172676573]⟩
def m_AuxiliaryAccount : List RClass := d_AuxiliaryAccount :: m_Document

/-- CIM15/IEC61968/PaymentMetering/CashierShift.py:23 -/
def d_CashierShift : RClass := ⟨0x436173686965725368696674, 0x43494d31352e49454336313936382e5061796d656e744d65746572696e672e436173686965725368696674, 0x43494d31352e49454336313936382e5061796d656e744d65746572696e672e5368696674,
  [(0x63617368466c6f6174, .flt 0x0)],
  [0x63617368466c6f6174],
  [(0x63617368466c6f6174, .flt 0x0)],
  [(0x63617368466c6f6174, 0x666c6f6174)],
  [],
  [⟨0x5472616e73616374696f6e73, .many2one, 0x436173686965725368696674, 0, false⟩, ⟨0x506f696e744f6653616c65, .one2many, 0x43617368696572536869667473, 0, false⟩, ⟨0x5265636569707473, .many2one, 0x436173686965725368696674, 0, false⟩, ⟨0x43617368696572, .one2many, 0x43617368696572536869667473, 0, false⟩],
  [0x5472616e73616374696f6e73, 0x5265636569707473]⟩
def m_CashierShift : List RClass := d_CashierShift :: m_Shift

/-- CIM15/IEC61968/PaymentMetering/MerchantAccount.py:23 -/
def d_MerchantAccount : RClass := ⟨0x4d65726368616e744163636f756e74, 0x43494d31352e49454336313936382e5061796d656e744d65746572696e672e4d65726368616e744163636f756e74, 0x43494d31352e49454336313936382e436f6d6d6f6e2e446f63756d656e74,
  [(0x63757272656e7442616c616e6365, .flt 0x0), (0x70726f766973696f6e616c42616c616e6365, .flt 0x0)],
  [0x63757272656e7442616c616e6365, 0x70726f766973696f6e616c42616c616e6365],
  [(0x63757272656e7442616c616e6365, .flt 0x0), (0x70726f766973696f6e616c42616c616e6365, .flt 0x0)],
  [(0x63757272656e7442616c616e6365, 0x666c6f6174), (0x70726f766973696f6e616c42616c616e6365, 0x666c6f6174)],
  [],
  [⟨0x4d65726368616e7441677265656d656e74, .one2many, 0x4d65726368616e744163636f756e7473, 0, false⟩, ⟨0x5472616e736163746f7273, .many2many, 0x4d65726368616e744163636f756e7473, 0, false⟩, ⟨0x56656e646f72536869667473, .many2one, 0x4d65726368616e744163636f756e74, 0, false⟩],
  [0x5472616e736163746f7273, 0x56656e646f72536869667473]⟩
def m_MerchantAccount : List RClass := d_MerchantAccount :: m_Document

/-- CIM15/IEC61968/PaymentMetering/ServiceSupplier.py:23 -/
def d_ServiceSupplier : RClass := ⟨0x53657276696365537570706c696572, 0x43494d31352e49454336313936382e5061796d656e744d65746572696e672e53657276696365537570706c696572, 0x43494d31352e49454336313936382e436f6d6d6f6e2e4f7267616e69736174696f6e,
  [(0x6973737565724964656e74696669636174696f6e4e756d626572, .str 0), (0x6b696e64, .str 0x6f74686572)],
  [0x6973737565724964656e74696669636174696f6e4e756d626572, 0x6b696e64],
  [(0x6973737565724964656e74696669636174696f6e4e756d626572, .str 0), (0x6b696e64, .str 0x6f74686572)],
  [(0x6973737565724964656e74696669636174696f6e4e756d626572, 0x737472), (0x6b696e64, 0x737472)],
  [(0x6b696e64, 0x537570706c6965724b696e64)],
  [⟨0x42616e6b4163636f756e7473, .many2one, 0x53657276696365537570706c696572, 0, false⟩, ⟨0x5365727669636544656c6976657279506f696e7473, .many2one, 0x53657276696365537570706c696572, 0, false⟩, ⟨0x437573746f6d657241677265656d656e7473, .many2one, 0x53657276696365537570706c696572, 0, false⟩],
  [0x42616e6b4163636f756e7473, 0x5365727669636544656c6976657279506f696e7473, 0x437573746f6d657241677265656d656e7473]⟩
def m_ServiceSupplier : List RClass := d_ServiceSupplier :: m_Organisation

/-- CIM15/IEC61968/PaymentMetering/TariffProfile.py:23 -/
def d_TariffProfile : RClass := ⟨0x54617269666650726f66696c65, 0x43494d31352e49454336313936382e5061796d656e744d65746572696e672e54617269666650726f66696c65, 0x43494d31352e49454336313936382e436f6d6d6f6e2e446f63756d656e74,
  [(0x7461726966664379636c65, .str 0)],
  [0x7461726966664379636c65],
  [(0x7461726966664379636c65, .str 0)],
  [(0x7461726966664379636c65, 0x737472)],
  [],
  [⟨0x54617269666673, .many2many, 0x54617269666650726f66696c6573, 0, false⟩, ⟨0x436f6e73756d7074696f6e546172696666496e74657276616c73, .many2many, 0x54617269666650726f66696c6573, 0, false⟩, ⟨0x54696d65546172696666496e74657276616c73, .many2many, 0x54617269666650726f66696c6573, 0, false⟩],
  [0x54617269666673, 0x436f6e73756d7074696f6e546172696666496e74657276616c73, 0x54696d65546172696666496e74657276616c73]⟩
def m_TariffProfile : List RClass := d_TariffProfile :: m_Document

/-- CIM15/IEC61968/PaymentMetering/VendorShift.py:23 -/
def d_VendorShift : RClass := ⟨0x56656e646f725368696674, 0x43494d31352e49454336313936382e5061796d656e744d65746572696e672e56656e646f725368696674, 0x43494d31352e49454336313936382e5061796d656e744d65746572696e672e5368696674,
  [(0x6d65726368616e744465626974416d6f756e74, .flt 0x0), (0x706f73746564, .bool false)],
  [0x6d65726368616e744465626974416d6f756e74, 0x706f73746564],
  [(0x6d65726368616e744465626974416d6f756e74, .flt 0x0), (0x706f73746564, .bool false)],
  [(0x6d65726368616e744465626974416d6f756e74, 0x666c6f6174), (0x706f73746564, 0x626f6f6c)],
  [],
  [⟨0x56656e646f72, .one2many, 0x56656e646f72536869667473, 0, false⟩, ⟨0x5265636569707473, .many2one, 0x56656e646f725368696674, 0, false⟩, ⟨0x4d65726368616e744163636f756e74, .one2many, 0x56656e646f72536869667473, 0, false⟩, ⟨0x5472616e73616374696f6e73, .many2one, 0x56656e646f725368696674, 0, false⟩],
  [0x5265636569707473, 0x5472616e73616374696f6e73]⟩
def m_VendorShift : List RClass := d_VendorShift :: m_Shift

/-- CIM15/IEC61968/Work/Work.py:23 -/
def d_Work : RClass := ⟨0x576f726b, 0x43494d31352e49454336313936382e576f726b2e576f726b, 0x43494d31352e49454336313936382e436f6d6d6f6e2e446f63756d656e74,
  [(0x6b696e64, .str 0x646973636f6e6e656374), (0x7072696f72697479, .str 0), (0x726571756573744461746554696d65, .str 0)],
  [0x6b696e64, 0x7072696f72697479, 0x726571756573744461746554696d65],
  [(0x6b696e64, .str 0x646973636f6e6e656374), (0x7072696f72697479, .str 0), (0x726571756573744461746554696d65, .str 0)],
  [(0x6b696e64, 0x737472), (0x7072696f72697479, 0x737472), (0x726571756573744461746554696d65, 0x737472)],
  [(0x6b696e64, 0x576f726b4b696e64)],
  [⟨0x44657369676e73, .many2one, 0x576f726b, 0, false⟩, ⟨0x576f726b436f737444657461696c73, .many2many, 0x576f726b73, 0, false⟩, ⟨0x45727050726f6a6563744163636f756e74696e67, .one2many, 0x576f726b73, 0, false⟩, ⟨0x50726f6a656374, .one2many, 0x576f726b73, 0, false⟩, ⟨0x576f726b466c6f775374657073, .many2one, 0x576f726b, 0, false⟩, ⟨0x576f726b5461736b73, .many2one, 0x576f726b, 0, false⟩, ⟨0x427573696e65737343617365, .one2many, 0x576f726b73, 0, false⟩, ⟨0x576f726b42696c6c696e67496e666f, .one2many, 0x576f726b73, 0, false⟩, ⟨0x52657175657374, .one2many, 0x576f726b73, 0, false⟩, ⟨0x437573746f6d657273, .many2many, 0x576f726b73, 0, false⟩],
  [0x44657369676e73, 0x576f726b436f737444657461696c73, 0x576f726b466c6f775374657073, 0x576f726b5461736b73, 0x437573746f6d657273]⟩
def m_Work : List RClass := d_Work :: m_Document

/-- CIM15/IEC61970/Contingency/ContingencyEquipment.py:23 -/
def d_ContingencyEquipment : RClass := ⟨0x436f6e74696e67656e637945717569706d656e74, 0x43494d31352e49454336313937302e436f6e74696e67656e63792e436f6e74696e67656e637945717569706d656e74, 0x43494d31352e49454336313937302e436f6e74696e67656e63792e436f6e74696e67656e6379456c656d656e74,
  [(0x636f6e74696e67656e74537461747573, .str 0x6f75744f6653657276696365)],
  [0x636f6e74696e67656e74537461747573],
  [(0x636f6e74696e67656e74537461747573, .str 0x6f75744f6653657276696365)],
  [(0x636f6e74696e67656e74537461747573, 0x737472)],
  [(0x636f6e74696e67656e74537461747573, 0x436f6e74696e67656e637945717569706d656e745374617475734b696e64)],
  [⟨0x45717569706d656e74, .one2many, 0x436f6e74696e67656e637945717569706d656e74, 0, false⟩],
  []⟩
def m_ContingencyEquipment : List RClass := d_ContingencyEquipment :: m_ContingencyElement

/-- CIM15/IEC61970/ControlArea/ControlArea.py:23 -/
def d_ControlArea : RClass := ⟨0x436f6e74726f6c41726561, 0x43494d31352e49454336313937302e436f6e74726f6c417265612e436f6e74726f6c41726561, 0x43494d31352e49454336313937302e436f72652e506f77657253797374656d5265736f75726365,
  [(0x74797065, .str 0x466f726563617374), (0x70546f6c6572616e6365, .flt 0x0), (0x6e6574496e7465726368616e6765, .flt 0x0)],
  [0x74797065, 0x70546f6c6572616e6365, 0x6e6574496e7465726368616e6765],
  [(0x74797065, .str 0x466f726563617374), (0x70546f6c6572616e6365, .flt 0x0), (0x6e6574496e7465726368616e6765, .flt 0x0)],
  [(0x74797065, 0x737472), (0x70546f6c6572616e6365, 0x666c6f6174), (0x6e6574496e7465726368616e6765, 0x666c6f6174)],
  [(0x74797065, 0x436f6e74726f6c41726561547970654b696e64)],
  [⟨0x436f6e74726f6c4172656147656e65726174696e67556e6974, .many2one, 0x436f6e74726f6c41726561, 0, false⟩, ⟨0x546965466c6f77, .many2one, 0x436f6e74726f6c41726561, 0, false⟩, ⟨0x456e6572677941726561, .one2one, 0x436f6e74726f6c41726561, 0, false⟩],
  [0x436f6e74726f6c4172656147656e65726174696e67556e6974, 0x546965466c6f77]⟩
def m_ControlArea : List RClass := d_ControlArea :: m_PowerSystemResource

/-- CIM15/IEC61970/Core/ConnectivityNodeContainer.py:23 -/
def d_ConnectivityNodeContainer : RClass := ⟨0x436f6e6e65637469766974794e6f6465436f6e7461696e6572, 0x43494d31352e49454336313937302e436f72652e436f6e6e65637469766974794e6f6465436f6e7461696e6572, 0x43494d31352e49454336313937302e436f72652e506f77657253797374656d5265736f75726365,
  [],
  [],
  [],
  [],
  [],
  [⟨0x546f706f6c6f676963616c4e6f6465, .many2one, 0x436f6e6e65637469766974794e6f6465436f6e7461696e6572, 0, false⟩, ⟨0x436f6e6e65637469766974794e6f646573, .many2one, 0x436f6e6e65637469766974794e6f6465436f6e7461696e6572, 0, false⟩],
  [0x546f706f6c6f676963616c4e6f6465, 0x436f6e6e65637469766974794e6f646573]⟩
def m_ConnectivityNodeContainer : List RClass := d_ConnectivityNodeContainer :: m_PowerSystemResource

/-- CIM15/IEC61970/Core/Equipment.py:24 -/
def d_Equipment : RClass := ⟨0x45717569706d656e74, 0x43494d31352e49454336313937302e436f72652e45717569706d656e74, 0x43494d31352e49454336313937302e436f72652e506f77657253797374656d5265736f75726365,
  [(0x6e6f726d616c6c79496e53657276696365, .bool false), (0x616767726567617465, .bool false)],
  [0x6e6f726d616c6c79496e53657276696365, 0x616767726567617465],
  [(0x6e6f726d616c6c79496e53657276696365, .bool false), (0x616767726567617465, .bool false)],
  [(0x6e6f726d616c6c79496e53657276696365, 0x626f6f6c), (0x616767726567617465, 0x626f6f6c)],
  [],
  [⟨0x436f6e74696e67656e637945717569706d656e74, .many2one, 0x45717569706d656e74, 0, false⟩, ⟨0x437573746f6d657241677265656d656e7473, .many2many, 0x45717569706d656e7473, 0, false⟩, ⟨0x45717569706d656e74436f6e7461696e6572, .one2many, 0x45717569706d656e7473, 0, false⟩, ⟨0x4f7065726174696f6e616c4c696d6974536574, .many2one, 0x45717569706d656e74, 0, true⟩],
  [0x436f6e74696e67656e637945717569706d656e74, 0x437573746f6d657241677265656d656e7473, 0x4f7065726174696f6e616c4c696d6974536574]⟩
def m_Equipment : List RClass := d_Equipment :: m_PowerSystemResource

/-- CIM15/IEC61970/Core/IrregularIntervalSchedule.py:23 -/
def d_IrregularIntervalSchedule : RClass := ⟨0x4972726567756c6172496e74657276616c5363686564756c65, 0x43494d31352e49454336313937302e436f72652e4972726567756c6172496e74657276616c5363686564756c65, 0x43494d31352e49454336313937302e436f72652e4261736963496e74657276616c5363686564756c65,
  [],
  [],
  [],
  [],
  [],
  [⟨0x54696d65506f696e7473, .many2one, 0x496e74657276616c5363686564756c65, 0, false⟩],
  [0x54696d65506f696e7473]⟩
def m_IrregularIntervalSchedule : List RClass := d_IrregularIntervalSchedule :: m_BasicIntervalSchedule

/-- CIM15/IEC61970/Core/RegularIntervalSchedule.py:23 -/
def d_RegularIntervalSchedule : RClass := ⟨0x526567756c6172496e74657276616c5363686564756c65, 0x43494d31352e49454336313937302e436f72652e526567756c6172496e74657276616c5363686564756c65, 0x43494d31352e49454336313937302e436f72652e4261736963496e74657276616c5363686564756c65,
  [(0x656e6454696d65, .str 0), (0x74696d6553746570, .flt 0x0)],
  [0x656e6454696d65, 0x74696d6553746570],
  [(0x656e6454696d65, .str 0), (0x74696d6553746570, .flt 0x0)],
  [(0x656e6454696d65, 0x737472), (0x74696d6553746570, 0x666c6f6174)],
  [],
  [⟨0x54696d65506f696e7473, .many2one, 0x496e74657276616c5363686564756c65, 0, false⟩],
  [0x54696d65506f696e7473]⟩
def m_RegularIntervalSchedule : List RClass := d_RegularIntervalSchedule :: m_BasicIntervalSchedule

/-- CIM15/IEC61970/Generation/GenerationDynamics/CTTempActivePowerCurve.py:23 -/
def d_CTTempActivePowerCurve : RClass := ⟨0x435454656d70416374697665506f7765724375727665, 0x43494d31352e49454336313937302e47656e65726174696f6e2e47656e65726174696f6e44796e616d6963732e435454656d70416374697665506f7765724375727665, 0x43494d31352e49454336313937302e436f72652e4375727665,
  [],
  [],
  [],
  [],
  [],
  [⟨0x436f6d62757374696f6e54757262696e65, .one2one, 0x435454656d70416374697665506f7765724375727665, 0, false⟩],
  []⟩
def m_CTTempActivePowerCurve : List RClass := d_CTTempActivePowerCurve :: m_Curve

/-- CIM15/IEC61970/Generation/GenerationDynamics/PrimeMover.py:23 -/
def d_PrimeMover : RClass := ⟨0x5072696d654d6f766572, 0x43494d31352e49454336313937302e47656e65726174696f6e2e47656e65726174696f6e44796e616d6963732e5072696d654d6f766572, 0x43494d31352e49454336313937302e436f72652e506f77657253797374656d5265736f75726365,
  [(0x7072696d654d6f766572526174696e67, .flt 0x0)],
  [0x7072696d654d6f766572526174696e67],
  [(0x7072696d654d6f766572526174696e67, .flt 0x0)],
  [(0x7072696d654d6f766572526174696e67, 0x666c6f6174)],
  [],
  [⟨0x53796e6368726f6e6f75734d616368696e6573, .many2many, 0x5072696d654d6f76657273, 0, false⟩],
  [0x53796e6368726f6e6f75734d616368696e6573]⟩
def m_PrimeMover : List RClass := d_PrimeMover :: m_PowerSystemResource

/-- CIM15/IEC61970/Generation/GenerationDynamics/SteamSupply.py:23 -/
def d_SteamSupply : RClass := ⟨0x537465616d537570706c79, 0x43494d31352e49454336313937302e47656e65726174696f6e2e47656e65726174696f6e44796e616d6963732e537465616d537570706c79, 0x43494d31352e49454336313937302e436f72652e506f77657253797374656d5265736f75726365,
  [(0x737465616d537570706c79526174696e67, .flt 0x0)],
  [0x737465616d537570706c79526174696e67],
  [(0x737465616d537570706c79526174696e67, .flt 0x0)],
  [(0x737465616d537570706c79526174696e67, 0x666c6f6174)],
  [],
  [⟨0x537465616d54757262696e6573, .many2many, 0x537465616d537570706c7973, 0, false⟩],
  [0x537465616d54757262696e6573]⟩
def m_SteamSupply : List RClass := d_SteamSupply :: m_PowerSystemResource

/-- CIM15/IEC61970/Generation/Production/AirCompressor.py:23 -/
def d_AirCompressor : RClass := ⟨0x416972436f6d70726573736f72, 0x43494d31352e49454336313937302e47656e65726174696f6e2e50726f64756374696f6e2e416972436f6d70726573736f72, 0x43494d31352e49454336313937302e436f72652e506f77657253797374656d5265736f75726365,
  [(0x616972436f6d70726573736f72526174696e67, .flt 0x0)],
  [0x616972436f6d70726573736f72526174696e67],
  [(0x616972436f6d70726573736f72526174696e67, .flt 0x0)],
  [(0x616972436f6d70726573736f72526174696e67, 0x666c6f6174)],
  [],
  [⟨0x436f6d62757374696f6e54757262696e65, .one2one, 0x416972436f6d70726573736f72, 0, false⟩, ⟨0x43414553506c616e74, .one2one, 0x416972436f6d70726573736f72, 0, false⟩],
  []⟩
def m_AirCompressor : List RClass := d_AirCompressor :: m_PowerSystemResource

/-- CIM15/IEC61970/Generation/Production/CAESPlant.py:23 -/
def d_CAESPlant : RClass := ⟨0x43414553506c616e74, 0x43494d31352e49454336313937302e47656e65726174696f6e2e50726f64756374696f6e2e43414553506c616e74, 0x43494d31352e49454336313937302e436f72652e506f77657253797374656d5265736f75726365,
  [(0x7261746564436170616369747950, .flt 0x0), (0x656e6572677953746f726167654361706163697479, .flt 0x0)],
  [0x7261746564436170616369747950, 0x656e6572677953746f726167654361706163697479],
  [(0x7261746564436170616369747950, .flt 0x0), (0x656e6572677953746f726167654361706163697479, .flt 0x0)],
  [(0x7261746564436170616369747950, 0x666c6f6174), (0x656e6572677953746f726167654361706163697479, 0x666c6f6174)],
  [],
  [⟨0x416972436f6d70726573736f72, .one2one, 0x43414553506c616e74, 0, false⟩, ⟨0x546865726d616c47656e65726174696e67556e6974, .one2one, 0x43414553506c616e74, 0, false⟩],
  []⟩
def m_CAESPlant : List RClass := d_CAESPlant :: m_PowerSystemResource

/-- CIM15/IEC61970/Generation/Production/CogenerationPlant.py:23 -/
def d_CogenerationPlant : RClass := ⟨0x436f67656e65726174696f6e506c616e74, 0x43494d31352e49454336313937302e47656e65726174696f6e2e50726f64756374696f6e2e436f67656e65726174696f6e506c616e74, 0x43494d31352e49454336313937302e436f72652e506f77657253797374656d5265736f75726365,
  [(0x636f67656e4c50537465616d526174696e67, .flt 0x0), (0x636f67656e4c5053656e646f7574526174696e67, .flt 0x0), (0x726174656450, .flt 0x0), (0x636f67656e485053656e646f7574526174696e67, .flt 0x0), (0x636f67656e4850537465616d526174696e67, .flt 0x0)],
  [0x636f67656e4c50537465616d526174696e67, 0x636f67656e4c5053656e646f7574526174696e67, 0x726174656450, 0x636f67656e485053656e646f7574526174696e67, 0x636f67656e4850537465616d526174696e67],
  [(0x636f67656e4c50537465616d526174696e67, .flt 0x0), (0x636f67656e4c5053656e646f7574526174696e67, .flt 0x0), (0x726174656450, .flt 0x0), (0x636f67656e485053656e646f7574526174696e67, .flt 0x0), (0x636f67656e4850537465616d526174696e67, .flt 0x0)],
  [(0x636f67656e4c50537465616d526174696e67, 0x666c6f6174), (0x636f67656e4c5053656e646f7574526174696e67, 0x666c6f6174), (0x726174656450, 0x666c6f6174), (0x636f67656e485053656e646f7574526174696e67, 0x666c6f6174), (0x636f67656e4850537465616d526174696e67, 0x666c6f6174)],
  [],
  [⟨0x537465616d53656e646f75745363686564756c65, .one2one, 0x436f67656e65726174696f6e506c616e74, 0, false⟩, ⟨0x546865726d616c47656e65726174696e67556e697473, .many2one, 0x436f67656e65726174696f6e506c616e74, 0, false⟩],
  [0x546865726d616c47656e65726174696e67556e697473]⟩
def m_CogenerationPlant : List RClass := d_CogenerationPlant :: m_PowerSystemResource

/-- CIM15/IEC61970/Generation/Production/CombinedCyclePlant.py:23 -/
def d_CombinedCyclePlant : RClass := ⟨0x436f6d62696e65644379636c65506c616e74, 0x43494d31352e49454336313937302e47656e65726174696f6e2e50726f64756374696f6e2e436f6d62696e65644379636c65506c616e74, 0x43494d31352e49454336313937302e436f72652e506f77657253797374656d5265736f75726365,
  [(0x636f6d624379636c65506c616e74526174696e67, .flt 0x0)],
  [0x636f6d624379636c65506c616e74526174696e67],
  [(0x636f6d624379636c65506c616e74526174696e67, .flt 0x0)],
  [(0x636f6d624379636c65506c616e74526174696e67, 0x666c6f6174)],
  [],
  [⟨0x546865726d616c47656e65726174696e67556e697473, .many2one, 0x436f6d62696e65644379636c65506c616e74, 0, false⟩],
  [0x546865726d616c47656e65726174696e67556e697473]⟩
def m_CombinedCyclePlant : List RClass := d_CombinedCyclePlant :: m_PowerSystemResource

/-- CIM15/IEC61970/Generation/Production/EmissionAccount.py:23 -/
def d_EmissionAccount : RClass := ⟨0x456d697373696f6e4163636f756e74, 0x43494d31352e49454336313937302e47656e65726174696f6e2e50726f64756374696f6e2e456d697373696f6e4163636f756e74, 0x43494d31352e49454336313937302e436f72652e4375727665,
  [(0x656d697373696f6e54797065, .str 0x636172626f6e446973756c66696465), (0x656d697373696f6e56616c7565536f75726365, .str 0x63616c63756c61746564)],
  [0x656d697373696f6e54797065, 0x656d697373696f6e56616c7565536f75726365],
  [(0x656d697373696f6e54797065, .str 0x636172626f6e446973756c66696465), (0x656d697373696f6e56616c7565536f75726365, .str 0x63616c63756c61746564)],
  [(0x656d697373696f6e54797065, 0x737472), (0x656d697373696f6e56616c7565536f75726365, 0x737472)],
  [(0x656d697373696f6e54797065, 0x456d697373696f6e54797065), (0x656d697373696f6e56616c7565536f75726365, 0x456d697373696f6e56616c7565536f75726365)],
  [⟨0x546865726d616c47656e65726174696e67556e6974, .one2many, 0x456d6d697373696f6e4163636f756e7473, 0, false⟩],
  []⟩
def m_EmissionAccount : List RClass := d_EmissionAccount :: m_Curve

/-- CIM15/IEC61970/Generation/Production/EmissionCurve.py:23 -/
def d_EmissionCurve : RClass := ⟨0x456d697373696f6e4375727665, 0x43494d31352e49454336313937302e47656e65726174696f6e2e50726f64756374696f6e2e456d697373696f6e4375727665, 0x43494d31352e49454336313937302e436f72652e4375727665,
  [(0x656d697373696f6e436f6e74656e74, .flt 0x0), (0x69734e657447726f737350, .bool false), (0x656d697373696f6e54797065, .str 0x636172626f6e446973756c66696465)],
  [0x656d697373696f6e436f6e74656e74, 0x69734e657447726f737350, 0x656d697373696f6e54797065],
  [(0x656d697373696f6e436f6e74656e74, .flt 0x0), (0x69734e657447726f737350, .bool false), (0x656d697373696f6e54797065, .str 0x636172626f6e446973756c66696465)],
  [(0x656d697373696f6e436f6e74656e74, 0x666c6f6174), (0x69734e657447726f737350, 0x626f6f6c), (0x656d697373696f6e54797065, 0x737472)],
  [(0x656d697373696f6e54797065, 0x456d697373696f6e54797065)],
  [⟨0x546865726d616c47656e65726174696e67556e6974, .one2many, 0x456d697373696f6e437572766573, 0, false⟩],
  []⟩
def m_EmissionCurve : List RClass := d_EmissionCurve :: m_Curve

/-- CIM15/IEC61970/Generation/Production/FuelAllocationSchedule.py:23 -/
def d_FuelAllocationSchedule : RClass := ⟨0x4675656c416c6c6f636174696f6e5363686564756c65, 0x43494d31352e49454336313937302e47656e65726174696f6e2e50726f64756374696f6e2e4675656c416c6c6f636174696f6e5363686564756c65, 0x43494d31352e49454336313937302e436f72652e4375727665,
  [(0x6d696e4675656c416c6c6f636174696f6e, .flt 0x0), (0x6675656c416c6c6f636174696f6e456e6444617465, .str 0), (0x6d61784675656c416c6c6f636174696f6e, .flt 0x0), (0x6675656c416c6c6f636174696f6e537461727444617465, .str 0), (0x6675656c54797065, .str 0x6f696c)],
  [0x6d696e4675656c416c6c6f636174696f6e, 0x6675656c416c6c6f636174696f6e456e6444617465, 0x6d61784675656c416c6c6f636174696f6e, 0x6675656c416c6c6f636174696f6e537461727444617465, 0x6675656c54797065],
  [(0x6d696e4675656c416c6c6f636174696f6e, .flt 0x0), (0x6675656c416c6c6f636174696f6e456e6444617465, .str 0), (0x6d61784675656c416c6c6f636174696f6e, .flt 0x0), (0x6675656c416c6c6f636174696f6e537461727444617465, .str 0), (0x6675656c54797065, .str 0x6f696c)],
  [(0x6d696e4675656c416c6c6f636174696f6e, 0x666c6f6174), (0x6675656c416c6c6f636174696f6e456e6444617465, 0x737472), (0x6d61784675656c416c6c6f636174696f6e, 0x666c6f6174), (0x6675656c416c6c6f636174696f6e537461727444617465, 0x737472), (0x6675656c54797065, 0x737472)],
  [(0x6675656c54797065, 0x4675656c54797065)],
  [⟨0x466f7373696c4675656c, .one2many, 0x4675656c416c6c6f636174696f6e5363686564756c6573, 0, false⟩, ⟨0x546865726d616c47656e65726174696e67556e6974, .one2many, 0x4675656c416c6c6f636174696f6e5363686564756c6573, 0, false⟩],
  []⟩
def m_FuelAllocationSchedule : List RClass := d_FuelAllocationSchedule :: m_Curve

/-- CIM15/IEC61970/Generation/Production/GenUnitOpCostCurve.py:23 -/
def d_GenUnitOpCostCurve : RClass := ⟨0x47656e556e69744f70436f73744375727665, 0x43494d31352e49454336313937302e47656e65726174696f6e2e50726f64756374696f6e2e47656e556e69744f70436f73744375727665, 0x43494d31352e49454336313937302e436f72652e4375727665,
  [(0x69734e657447726f737350, .bool false)],
  [0x69734e657447726f737350],
  [(0x69734e657447726f737350, .bool false)],
  [(0x69734e657447726f737350, 0x626f6f6c)],
  [],
  [⟨0x47656e65726174696e67556e6974, .one2many, 0x47656e556e69744f70436f7374437572766573, 0, false⟩],
  []⟩
def m_GenUnitOpCostCurve : List RClass := d_GenUnitOpCostCurve :: m_Curve

/-- CIM15/IEC61970/Generation/Production/GrossToNetActivePowerCurve.py:23 -/
def d_GrossToNetActivePowerCurve : RClass := ⟨0x47726f7373546f4e6574416374697665506f7765724375727665, 0x43494d31352e49454336313937302e47656e65726174696f6e2e50726f64756374696f6e2e47726f7373546f4e6574416374697665506f7765724375727665, 0x43494d31352e49454336313937302e436f72652e4375727665,
  [],
  [],
  [],
  [],
  [],
  [⟨0x47656e65726174696e67556e6974, .one2many, 0x47726f7373546f4e6574416374697665506f776572437572766573, 0, false⟩],
  []⟩
def m_GrossToNetActivePowerCurve : List RClass := d_GrossToNetActivePowerCurve :: m_Curve

/-- CIM15/IEC61970/Generation/Production/HeatInputCurve.py:23 -/
def d_HeatInputCurve : RClass := ⟨0x48656174496e7075744375727665, 0x43494d31352e49454336313937302e47656e65726174696f6e2e50726f64756374696f6e2e48656174496e7075744375727665, 0x43494d31352e49454336313937302e436f72652e4375727665,
  [(0x69734e657447726f737350, .bool false), (0x68656174496e707574456666, .flt 0x0), (0x68656174496e7075744f6666736574, .flt 0x0), (0x617578506f7765724f6666736574, .flt 0x0), (0x617578506f7765724d756c74, .flt 0x0)],
  [0x69734e657447726f737350, 0x68656174496e707574456666, 0x68656174496e7075744f6666736574, 0x617578506f7765724f6666736574, 0x617578506f7765724d756c74],
  [(0x69734e657447726f737350, .bool false), (0x68656174496e707574456666, .flt 0x0), (0x68656174496e7075744f6666736574, .flt 0x0), (0x617578506f7765724f6666736574, .flt 0x0), (0x617578506f7765724d756c74, .flt 0x0)],
  [(0x69734e657447726f737350, 0x626f6f6c), (0x68656174496e707574456666, 0x666c6f6174), (0x68656174496e7075744f6666736574, 0x666c6f6174), (0x617578506f7765724f6666736574, 0x666c6f6174), (0x617578506f7765724d756c74, 0x666c6f6174)],
  [],
  [⟨0x546865726d616c47656e65726174696e67556e6974, .one2one, 0x48656174496e7075744375727665, 0, false⟩],
  []⟩
def m_HeatInputCurve : List RClass := d_HeatInputCurve :: m_Curve

/-- CIM15/IEC61970/Generation/Production/HeatRateCurve.py:23 -/
def d_HeatRateCurve : RClass := ⟨0x48656174526174654375727665, 0x43494d31352e49454336313937302e47656e65726174696f6e2e50726f64756374696f6e2e48656174526174654375727665, 0x43494d31352e49454336313937302e436f72652e4375727665,
  [(0x69734e657447726f737350, .bool false)],
  [0x69734e657447726f737350],
  [(0x69734e657447726f737350, .bool false)],
  [(0x69734e657447726f737350, 0x626f6f6c)],
  [],
  [⟨0x546865726d616c47656e65726174696e67556e6974, .one2one, 0x48656174526174654375727665, 0, false⟩],
  []⟩
def m_HeatRateCurve : List RClass := d_HeatRateCurve :: m_Curve

/-- CIM15/IEC61970/Generation/Production/HydroGeneratingEfficiencyCurve.py:23 -/
def d_HydroGeneratingEfficiencyCurve : RClass := ⟨0x487964726f47656e65726174696e67456666696369656e63794375727665, 0x43494d31352e49454336313937302e47656e65726174696f6e2e50726f64756374696f6e2e487964726f47656e65726174696e67456666696369656e63794375727665, 0x43494d31352e49454336313937302e436f72652e4375727665,
  [],
  [],
  [],
  [],
  [],
  [⟨0x487964726f47656e65726174696e67556e6974, .one2many, 0x487964726f47656e65726174696e67456666696369656e6379437572766573, 0, false⟩],
  []⟩
def m_HydroGeneratingEfficiencyCurve : List RClass := d_HydroGeneratingEfficiencyCurve :: m_Curve

/-- CIM15/IEC61970/Generation/Production/HydroPowerPlant.py:23 -/
def d_HydroPowerPlant : RClass := ⟨0x487964726f506f776572506c616e74, 0x43494d31352e49454336313937302e47656e65726174696f6e2e50726f64756374696f6e2e487964726f506f776572506c616e74, 0x43494d31352e49454336313937302e436f72652e506f77657253797374656d5265736f75726365,
  [(0x70656e73746f636b54797065, .str 0), (0x70756d70526174656450, .flt 0x0), (0x687964726f506c616e7454797065, .str 0x70756d70656453746f72616765), (0x737572676554616e6b43726573744c6576656c, .flt 0x0), (0x64697363686172676554726176656c44656c6179, .flt 0x0), (0x706c616e744469736368617267654361706163697479, .flt 0x0), (0x706c616e74526174656448656164, .flt 0x0), (0x67656e526174656450, .flt 0x0), (0x737572676554616e6b436f6465, .str 0)],
  [0x70656e73746f636b54797065, 0x70756d70526174656450, 0x687964726f506c616e7454797065, 0x737572676554616e6b43726573744c6576656c, 0x64697363686172676554726176656c44656c6179, 0x706c616e744469736368617267654361706163697479, 0x706c616e74526174656448656164, 0x67656e526174656450, 0x737572676554616e6b436f6465],
  [(0x70656e73746f636b54797065, .str 0), (0x70756d70526174656450, .flt 0x0), (0x687964726f506c616e7454797065, .str 0x70756d70656453746f72616765), (0x737572676554616e6b43726573744c6576656c, .flt 0x0), (0x64697363686172676554726176656c44656c6179, .flt 0x0), (0x706c616e744469736368617267654361706163697479, .flt 0x0), (0x706c616e74526174656448656164, .flt 0x0), (0x67656e526174656450, .flt 0x0), (0x737572676554616e6b436f6465, .str 0)],
  [(0x70656e73746f636b54797065, 0x737472), (0x70756d70526174656450, 0x666c6f6174), (0x687964726f506c616e7454797065, 0x737472), (0x737572676554616e6b43726573744c6576656c, 0x666c6f6174), (0x64697363686172676554726176656c44656c6179, 0x666c6f6174), (0x706c616e744469736368617267654361706163697479, 0x666c6f6174), (0x706c616e74526174656448656164, 0x666c6f6174), (0x67656e526174656450, 0x666c6f6174), (0x737572676554616e6b436f6465, 0x737472)],
  [(0x70656e73746f636b54797065, 0x50656e73746f636b54797065), (0x687964726f506c616e7454797065, 0x487964726f506c616e7454797065), (0x737572676554616e6b436f6465, 0x537572676554616e6b436f6465)],
  [⟨0x487964726f47656e65726174696e67556e697473, .many2one, 0x487964726f506f776572506c616e74, 0, false⟩, ⟨0x47656e536f7572636550756d704469736368617267655265736572766f6972, .one2many, 0x557073747265616d46726f6d487964726f506f776572506c616e7473, 0, false⟩, ⟨0x5265736572766f6972, .one2many, 0x487964726f506f776572506c616e7473, 0, false⟩, ⟨0x487964726f50756d7073, .many2one, 0x487964726f506f776572506c616e74, 0, false⟩],
  [0x487964726f47656e65726174696e67556e697473, 0x487964726f50756d7073]⟩
def m_HydroPowerPlant : List RClass := d_HydroPowerPlant :: m_PowerSystemResource

/-- CIM15/IEC61970/Generation/Production/HydroPump.py:23 -/
def d_HydroPump : RClass := ⟨0x487964726f50756d70, 0x43494d31352e49454336313937302e47656e65726174696f6e2e50726f64756374696f6e2e487964726f50756d70, 0x43494d31352e49454336313937302e436f72652e506f77657253797374656d5265736f75726365,
  [(0x70756d70446973636841744d617848656164, .flt 0x0), (0x70756d70446973636841744d696e48656164, .flt 0x0), (0x70756d70506f77657241744d696e48656164, .flt 0x0), (0x70756d70506f77657241744d617848656164, .flt 0x0)],
  [0x70756d70446973636841744d617848656164, 0x70756d70446973636841744d696e48656164, 0x70756d70506f77657241744d696e48656164, 0x70756d70506f77657241744d617848656164],
  [(0x70756d70446973636841744d617848656164, .flt 0x0), (0x70756d70446973636841744d696e48656164, .flt 0x0), (0x70756d70506f77657241744d696e48656164, .flt 0x0), (0x70756d70506f77657241744d617848656164, .flt 0x0)],
  [(0x70756d70446973636841744d617848656164, 0x666c6f6174), (0x70756d70446973636841744d696e48656164, 0x666c6f6174), (0x70756d70506f77657241744d696e48656164, 0x666c6f6174), (0x70756d70506f77657241744d617848656164, 0x666c6f6174)],
  [],
  [⟨0x487964726f506f776572506c616e74, .one2many, 0x487964726f50756d7073, 0, false⟩, ⟨0x487964726f50756d704f705363686564756c65, .one2one, 0x487964726f50756d70, 0, false⟩, ⟨0x53796e6368726f6e6f75734d616368696e65, .one2one, 0x487964726f50756d70, 0, false⟩],
  []⟩
def m_HydroPump : List RClass := d_HydroPump :: m_PowerSystemResource

/-- CIM15/IEC61970/Generation/Production/IncrementalHeatRateCurve.py:23 -/
def d_IncrementalHeatRateCurve : RClass := ⟨0x496e6372656d656e74616c48656174526174654375727665, 0x43494d31352e49454336313937302e47656e65726174696f6e2e50726f64756374696f6e2e496e6372656d656e74616c48656174526174654375727665, 0x43494d31352e49454336313937302e436f72652e4375727665,
  [(0x69734e657447726f737350, .bool false)],
  [0x69734e657447726f737350],
  [(0x69734e657447726f737350, .bool false)],
  [(0x69734e657447726f737350, 0x626f6f6c)],
  [],
  [⟨0x546865726d616c47656e65726174696e67556e6974, .one2one, 0x496e6372656d656e74616c48656174526174654375727665, 0, false⟩],
  []⟩
def m_IncrementalHeatRateCurve : List RClass := d_IncrementalHeatRateCurve :: m_Curve

/-- CIM15/IEC61970/Generation/Production/LevelVsVolumeCurve.py:23 -/
def d_LevelVsVolumeCurve : RClass := ⟨0x4c6576656c5673566f6c756d654375727665, 0x43494d31352e49454336313937302e47656e65726174696f6e2e50726f64756374696f6e2e4c6576656c5673566f6c756d654375727665, 0x43494d31352e49454336313937302e436f72652e4375727665,
  [],
  [],
  [],
  [],
  [],
  [⟨0x5265736572766f6972, .one2many, 0x4c6576656c5673566f6c756d65437572766573, 0, false⟩],
  []⟩
def m_LevelVsVolumeCurve : List RClass := d_LevelVsVolumeCurve :: m_Curve

/-- CIM15/IEC61970/Generation/Production/PenstockLossCurve.py:23 -/
def d_PenstockLossCurve : RClass := ⟨0x50656e73746f636b4c6f73734375727665, 0x43494d31352e49454336313937302e47656e65726174696f6e2e50726f64756374696f6e2e50656e73746f636b4c6f73734375727665, 0x43494d31352e49454336313937302e436f72652e4375727665,
  [],
  [],
  [],
  [],
  [],
  [⟨0x487964726f47656e65726174696e67556e6974, .one2one, 0x50656e73746f636b4c6f73734375727665, 0, false⟩],
  []⟩
def m_PenstockLossCurve : List RClass := d_PenstockLossCurve :: m_Curve

/-- CIM15/IEC61970/Generation/Production/Reservoir.py:23 -/
def d_Reservoir : RClass := ⟨0x5265736572766f6972, 0x43494d31352e49454336313937302e47656e65726174696f6e2e50726f64756374696f6e2e5265736572766f6972, 0x43494d31352e49454336313937302e436f72652e506f77657253797374656d5265736f75726365,
  [(0x7370696c6c7761794361706163697479, .flt 0x0), (0x656e6572677953746f72616765526174696e67, .flt 0x0), (0x67726f73734361706163697479, .flt 0x0), (0x72697665724f75746c6574576f726b73, .str 0), (0x7370696c6c77617943726573744c6576656c, .flt 0x0), (0x6e6f726d616c4d696e4f7065726174654c6576656c, .flt 0x0), (0x7370696c6c77617943726573744c656e677468, .flt 0x0), (0x7370696c6c54726176656c44656c6179, .flt 0x0), (0x61637469766553746f726167654361706163697479, .flt 0x0), (0x7370696c6c5761794761746554797065, .str 0), (0x66756c6c537570706c794c6576656c, .flt 0x0)],
  [0x7370696c6c7761794361706163697479, 0x656e6572677953746f72616765526174696e67, 0x67726f73734361706163697479, 0x72697665724f75746c6574576f726b73, 0x7370696c6c77617943726573744c6576656c, 0x6e6f726d616c4d696e4f7065726174654c6576656c, 0x7370696c6c77617943726573744c656e677468, 0x7370696c6c54726176656c44656c6179, 0x61637469766553746f726167654361706163697479, 0x7370696c6c5761794761746554797065, 0x66756c6c537570706c794c6576656c],
  [(0x7370696c6c7761794361706163697479, .flt 0x0), (0x656e6572677953746f72616765526174696e67, .flt 0x0), (0x67726f73734361706163697479, .flt 0x0), (0x72697665724f75746c6574576f726b73, .str 0), (0x7370696c6c77617943726573744c6576656c, .flt 0x0), (0x6e6f726d616c4d696e4f7065726174654c6576656c, .flt 0x0), (0x7370696c6c77617943726573744c656e677468, .flt 0x0), (0x7370696c6c54726176656c44656c6179, .flt 0x0), (0x61637469766553746f726167654361706163697479, .flt 0x0), (0x7370696c6c5761794761746554797065, .str 0), (0x66756c6c537570706c794c6576656c, .flt 0x0)],
  [(0x7370696c6c7761794361706163697479, 0x666c6f6174), (0x656e6572677953746f72616765526174696e67, 0x666c6f6174), (0x67726f73734361706163697479, 0x666c6f6174), (0x72697665724f75746c6574576f726b73, 0x737472), (0x7370696c6c77617943726573744c6576656c, 0x666c6f6174), (0x6e6f726d616c4d696e4f7065726174654c6576656c, 0x666c6f6174), (0x7370696c6c77617943726573744c656e677468, 0x666c6f6174), (0x7370696c6c54726176656c44656c6179, 0x666c6f6174), (0x61637469766553746f726167654361706163697479, 0x666c6f6174), (0x7370696c6c5761794761746554797065, 0x737472), (0x66756c6c537570706c794c6576656c, 0x666c6f6174)],
  [(0x7370696c6c5761794761746554797065, 0x5370696c6c7761794761746554797065)],
  [⟨0x4c6576656c5673566f6c756d65437572766573, .many2one, 0x5265736572766f6972, 0, false⟩, ⟨0x5461726765744c6576656c5363686564756c65, .one2one, 0x5265736572766f6972, 0, false⟩, ⟨0x487964726f506f776572506c616e7473, .many2one, 0x5265736572766f6972, 0, false⟩, ⟨0x557073747265616d46726f6d487964726f506f776572506c616e7473, .many2one, 0x47656e536f7572636550756d704469736368617267655265736572766f6972, 0, false⟩, ⟨0x496e666c6f77466f72656361737473, .many2one, 0x5265736572766f6972, 0, false⟩, ⟨0x5370696c6c7346726f6d5265736572766f6972, .one2many, 0x5370696c6c73496e746f5265736572766f697273, 0, false⟩, ⟨0x5370696c6c73496e746f5265736572766f697273, .many2one, 0x5370696c6c7346726f6d5265736572766f6972, 0, false⟩],
  [0x4c6576656c5673566f6c756d65437572766573, 0x487964726f506f776572506c616e7473, 0x557073747265616d46726f6d487964726f506f776572506c616e7473, 0x496e666c6f77466f72656361737473, 0x5370696c6c73496e746f5265736572766f697273]⟩
def m_Reservoir : List RClass := d_Reservoir :: m_PowerSystemResource

/-- CIM15/IEC61970/Generation/Production/ShutdownCurve.py:23 -/
def d_ShutdownCurve : RClass := ⟨0x53687574646f776e4375727665, 0x43494d31352e49454336313937302e47656e65726174696f6e2e50726f64756374696f6e2e53687574646f776e4375727665, 0x43494d31352e49454336313937302e436f72652e4375727665,
  [(0x73687574646f776e44617465, .str 0), (0x73687574646f776e436f7374, .flt 0x0)],
  [0x73687574646f776e44617465, 0x73687574646f776e436f7374],
  [(0x73687574646f776e44617465, .str 0), (0x73687574646f776e436f7374, .flt 0x0)],
  [(0x73687574646f776e44617465, 0x737472), (0x73687574646f776e436f7374, 0x666c6f6174)],
  [],
  [⟨0x546865726d616c47656e65726174696e67556e6974, .one2one, 0x53687574646f776e4375727665, 0, false⟩],
  []⟩
def m_ShutdownCurve : List RClass := d_ShutdownCurve :: m_Curve

/-- CIM15/IEC61970/Generation/Production/StartIgnFuelCurve.py:23 -/
def d_StartIgnFuelCurve : RClass := ⟨0x537461727449676e4675656c4375727665, 0x43494d31352e49454336313937302e47656e65726174696f6e2e50726f64756374696f6e2e537461727449676e4675656c4375727665, 0x43494d31352e49454336313937302e436f72652e4375727665,
  [(0x69676e6974696f6e4675656c54797065, .str 0x6f696c)],
  [0x69676e6974696f6e4675656c54797065],
  [(0x69676e6974696f6e4675656c54797065, .str 0x6f696c)],
  [(0x69676e6974696f6e4675656c54797065, 0x737472)],
  [(0x69676e6974696f6e4675656c54797065, 0x4675656c54797065)],
  [⟨0x537461727475704d6f64656c, .one2one, 0x537461727449676e4675656c4375727665, 0, false⟩],
  []⟩
def m_StartIgnFuelCurve : List RClass := d_StartIgnFuelCurve :: m_Curve

/-- CIM15/IEC61970/Generation/Production/StartMainFuelCurve.py:23 -/
def d_StartMainFuelCurve : RClass := ⟨0x53746172744d61696e4675656c4375727665, 0x43494d31352e49454336313937302e47656e65726174696f6e2e50726f64756374696f6e2e53746172744d61696e4675656c4375727665, 0x43494d31352e49454336313937302e436f72652e4375727665,
  [(0x6d61696e4675656c54797065, .str 0x6f696c)],
  [0x6d61696e4675656c54797065],
  [(0x6d61696e4675656c54797065, .str 0x6f696c)],
  [(0x6d61696e4675656c54797065, 0x737472)],
  [(0x6d61696e4675656c54797065, 0x4675656c54797065)],
  [⟨0x537461727475704d6f64656c, .one2one, 0x53746172744d61696e4675656c4375727665, 0, false⟩],
  []⟩
def m_StartMainFuelCurve : List RClass := d_StartMainFuelCurve :: m_Curve

/-- CIM15/IEC61970/Generation/Production/StartRampCurve.py:23 -/
def d_StartRampCurve : RClass := ⟨0x537461727452616d704375727665, 0x43494d31352e49454336313937302e47656e65726174696f6e2e50726f64756374696f6e2e537461727452616d704375727665, 0x43494d31352e49454336313937302e436f72652e4375727665,
  [(0x686f745374616e64627952616d70, .flt 0x0)],
  [0x686f745374616e64627952616d70],
  [(0x686f745374616e64627952616d70, .flt 0x0)],
  [(0x686f745374616e64627952616d70, 0x666c6f6174)],
  [],
  [⟨0x537461727475704d6f64656c, .one2one, 0x537461727452616d704375727665, 0, false⟩],
  []⟩
def m_StartRampCurve : List RClass := d_StartRampCurve :: m_Curve

/-- CIM15/IEC61970/Generation/Production/TailbayLossCurve.py:23 -/
def d_TailbayLossCurve : RClass := ⟨0x5461696c6261794c6f73734375727665, 0x43494d31352e49454336313937302e47656e65726174696f6e2e50726f64756374696f6e2e5461696c6261794c6f73734375727665, 0x43494d31352e49454336313937302e436f72652e4375727665,
  [],
  [],
  [],
  [],
  [],
  [⟨0x487964726f47656e65726174696e67556e6974, .one2many, 0x5461696c6261794c6f73734375727665, 0, false⟩],
  []⟩
def m_TailbayLossCurve : List RClass := d_TailbayLossCurve :: m_Curve

/-- CIM15/IEC61970/Generation/Production/TargetLevelSchedule.py:23 -/
def d_TargetLevelSchedule : RClass := ⟨0x5461726765744c6576656c5363686564756c65, 0x43494d31352e49454336313937302e47656e65726174696f6e2e50726f64756374696f6e2e5461726765744c6576656c5363686564756c65, 0x43494d31352e49454336313937302e436f72652e4375727665,
  [(0x6c6f774c6576656c4c696d6974, .flt 0x0), (0x686967684c6576656c4c696d6974, .flt 0x0)],
  [0x6c6f774c6576656c4c696d6974, 0x686967684c6576656c4c696d6974],
  [(0x6c6f774c6576656c4c696d6974, .flt 0x0), (0x686967684c6576656c4c696d6974, .flt 0x0)],
  [(0x6c6f774c6576656c4c696d6974, 0x666c6f6174), (0x686967684c6576656c4c696d6974, 0x666c6f6174)],
  [],
  [⟨0x5265736572766f6972, .one2one, 0x5461726765744c6576656c5363686564756c65, 0, false⟩],
  []⟩
def m_TargetLevelSchedule : List RClass := d_TargetLevelSchedule :: m_Curve

/-- CIM15/IEC61970/Graphics/TextDiagramObject.py:23 -/
def d_TextDiagramObject : RClass := ⟨0x546578744469616772616d4f626a656374, 0x43494d31352e49454336313937302e47726170686963732e546578744469616772616d4f626a656374, 0x43494d31352e49454336313937302e47726170686963732e4469616772616d4f626a656374,
  [(0x74657874, .str 0)],
  [0x74657874],
  [(0x74657874, .str 0)],
  [(0x74657874, 0x737472)],
  [],
  [],
  []⟩
def m_TextDiagramObject : List RClass := d_TextDiagramObject :: m_DiagramObject

/-- CIM15/IEC61970/Informative/InfAssetModels/AssetModelCatalogueItem.py:23 -/
def d_AssetModelCatalogueItem : RClass := ⟨0x41737365744d6f64656c436174616c6f6775654974656d, 0x43494d31352e49454336313937302e496e666f726d61746976652e496e6641737365744d6f64656c732e41737365744d6f64656c436174616c6f6775654974656d, 0x43494d31352e49454336313936382e436f6d6d6f6e2e446f63756d656e74,
  [(0x756e6974436f7374, .flt 0x0)],
  [0x756e6974436f7374],
  [(0x756e6974436f7374, .flt 0x0)],
  [(0x756e6974436f7374, 0x666c6f6174)],
  [],
  [⟨0x457270504f4c696e654974656d73, .many2one, 0x41737365744d6f64656c436174616c6f6775654974656d, 0, false⟩, ⟨0x41737365744d6f64656c436174616c6f677565, .one2many, 0x41737365744d6f64656c436174616c6f6775654974656d73, 0, false⟩, ⟨0x41737365744d6f64656c, .one2many, 0x41737365744d6f64656c436174616c6f6775654974656d73, 0, false⟩, ⟨0x45727051756f74654c696e654974656d73, .many2one, 0x41737365744d6f64656c436174616c6f6775654974656d, 0, false⟩],
  [0x457270504f4c696e654974656d73, 0x45727051756f74654c696e654974656d73]⟩
def m_AssetModelCatalogueItem : List RClass := d_AssetModelCatalogueItem :: m_Document

/-- CIM15/IEC61970/Informative/InfAssets/AssetAssetRole.py:23 -/
def d_AssetAssetRole : RClass := ⟨0x41737365744173736574526f6c65, 0x43494d31352e49454336313937302e496e666f726d61746976652e496e664173736574732e41737365744173736574526f6c65, 0x43494d31352e49454336313937302e496e666f726d61746976652e496e66436f6d6d6f6e2e526f6c65,
  [],
  [],
  [],
  [],
  [],
  [⟨0x546f4173736574, .one2many, 0x46726f6d4173736574526f6c6573, 0, false⟩, ⟨0x46726f6d4173736574, .one2many, 0x546f4173736574526f6c6573, 0, false⟩],
  []⟩
def m_AssetAssetRole : List RClass := d_AssetAssetRole :: m_Role

/-- CIM15/IEC61970/Informative/InfAssets/AssetPropertyCurve.py:23 -/
def d_AssetPropertyCurve : RClass := ⟨0x417373657450726f70657274794375727665, 0x43494d31352e49454336313937302e496e666f726d61746976652e496e664173736574732e417373657450726f70657274794375727665, 0x43494d31352e49454336313937302e436f72652e4375727665,
  [],
  [],
  [],
  [],
  [],
  [⟨0x53706563696669636174696f6e, .one2many, 0x417373657450726f7065727479437572766573, 0, false⟩, ⟨0x417373657473, .many2many, 0x417373657450726f7065727479437572766573, 0, false⟩],
  [0x417373657473]⟩
def m_AssetPropertyCurve : List RClass := d_AssetPropertyCurve :: m_Curve

/-- CIM15/IEC61970/Informative/InfAssets/Bushing.py:23 -/
def d_Bushing : RClass := ⟨0x42757368696e67, 0x43494d31352e49454336313937302e496e666f726d61746976652e496e664173736574732e42757368696e67, 0x43494d31352e49454336313936382e4173736574732e4173736574,
  [(0x6332506f776572466163746f72, .flt 0x0), (0x633243617061636974616e6365, .flt 0x0), (0x6331506f776572466163746f72, .flt 0x0), (0x696e73756c6174696f6e4b696e64, .str 0x736f6c6964506f7263656c61696e), (0x633143617061636974616e6365, .flt 0x0)],
  [0x6332506f776572466163746f72, 0x633243617061636974616e6365, 0x6331506f776572466163746f72, 0x696e73756c6174696f6e4b696e64, 0x633143617061636974616e6365],
  [(0x6332506f776572466163746f72, .flt 0x0), (0x633243617061636974616e6365, .flt 0x0), (0x6331506f776572466163746f72, .flt 0x0), (0x696e73756c6174696f6e4b696e64, .str 0x736f6c6964506f7263656c61696e), (0x633143617061636974616e6365, .flt 0x0)],
  [(0x6332506f776572466163746f72, 0x666c6f6174), (0x633243617061636974616e6365, 0x666c6f6174), (0x6331506f776572466163746f72, 0x666c6f6174), (0x696e73756c6174696f6e4b696e64, 0x737472), (0x633143617061636974616e6365, 0x666c6f6174)],
  [(0x696e73756c6174696f6e4b696e64, 0x42757368696e67496e73756c6174696f6e4b696e64)],
  [⟨0x5465726d696e616c, .one2one, 0x42757368696e67496e666f, 0, false⟩, ⟨0x42757368696e67496e73756c6174696f6e504673, .many2one, 0x42757368696e67496e666f, 0, false⟩],
  [0x42757368696e67496e73756c6174696f6e504673]⟩
def m_Bushing : List RClass := d_Bushing :: m_Asset

/-- CIM15/IEC61970/Informative/InfAssets/ComEquipment.py:23 -/
def d_ComEquipment : RClass := ⟨0x436f6d45717569706d656e74, 0x43494d31352e49454336313937302e496e666f726d61746976652e496e664173736574732e436f6d45717569706d656e74, 0x43494d31352e49454336313936382e4173736574732e4173736574,
  [],
  [],
  [],
  [],
  [],
  [⟨0x456e6444657669636546756e6374696f6e73, .many2one, 0x436f6d45717569706d656e74, 0, false⟩],
  [0x456e6444657669636546756e6374696f6e73]⟩
def m_ComEquipment : List RClass := d_ComEquipment :: m_Asset

/-- CIM15/IEC61970/Informative/InfAssets/CompositeSwitchInfo.py:23 -/
def d_CompositeSwitchInfo : RClass := ⟨0x436f6d706f73697465537769746368496e666f, 0x43494d31352e49454336313937302e496e666f726d61746976652e496e664173736574732e436f6d706f73697465537769746368496e666f, 0x43494d31352e49454336313936382e4173736574732e4173736574496e666f,
  [(0x6b696e64, .str 0x7468726f774f766572), (0x7068617365436f6465, .str 0x7331324e), (0x72656d6f7465, .bool false), (0x7377697463685374617465436f756e74, .int 0), (0x7261746564566f6c74616765, .flt 0x0), (0x67616e676564, .bool false), (0x7068617365436f756e74, .int 0), (0x696e69744f704d6f6465, .str 0), (0x696e74657272757074696e67526174696e67, .flt 0x0)],
  [0x6b696e64, 0x7068617365436f6465, 0x72656d6f7465, 0x7377697463685374617465436f756e74, 0x7261746564566f6c74616765, 0x67616e676564, 0x7068617365436f756e74, 0x696e69744f704d6f6465, 0x696e74657272757074696e67526174696e67],
  [(0x6b696e64, .str 0x7468726f774f766572), (0x7068617365436f6465, .str 0x7331324e), (0x72656d6f7465, .bool false), (0x7377697463685374617465436f756e74, .int 0), (0x7261746564566f6c74616765, .flt 0x0), (0x67616e676564, .bool false), (0x7068617365436f756e74, .int 0), (0x696e69744f704d6f6465, .str 0), (0x696e74657272757074696e67526174696e67, .flt 0x0)],
  [(0x6b696e64, 0x737472), (0x7068617365436f6465, 0x737472), (0x72656d6f7465, 0x626f6f6c), (0x7377697463685374617465436f756e74, 0x696e74), (0x7261746564566f6c74616765, 0x666c6f6174), (0x67616e676564, 0x626f6f6c), (0x7068617365436f756e74, 0x696e74), (0x696e69744f704d6f6465, 0x737472), (0x696e74657272757074696e67526174696e67, 0x666c6f6174)],
  [(0x6b696e64, 0x436f6d706f736974655377697463684b696e64), (0x7068617365436f6465, 0x5068617365436f6465)],
  [],
  []⟩
def m_CompositeSwitchInfo : List RClass := d_CompositeSwitchInfo :: m_AssetInfo

/-- CIM15/IEC61970/Informative/InfAssets/ConductorAsset.py:23 -/
def d_ConductorAsset : RClass := ⟨0x436f6e647563746f724173736574, 0x43494d31352e49454336313937302e496e666f726d61746976652e496e664173736574732e436f6e647563746f724173736574, 0x43494d31352e49454336313936382e4173736574732e4173736574,
  [(0x6973486f72697a6f6e74616c, .bool false), (0x67726f756e64696e674d6574686f64, .str 0), (0x696e73756c61746564, .bool false)],
  [0x6973486f72697a6f6e74616c, 0x67726f756e64696e674d6574686f64, 0x696e73756c61746564],
  [(0x6973486f72697a6f6e74616c, .bool false), (0x67726f756e64696e674d6574686f64, .str 0), (0x696e73756c61746564, .bool false)],
  [(0x6973486f72697a6f6e74616c, 0x626f6f6c), (0x67726f756e64696e674d6574686f64, 0x737472), (0x696e73756c61746564, 0x626f6f6c)],
  [],
  [⟨0x4369726375697453656374696f6e, .one2many, 0x436f6e647563746f72417373657473, 0, false⟩, ⟨0x436f6e647563746f725365676d656e74, .one2many, 0x436f6e647563746f72417373657473, 0, false⟩],
  []⟩
def m_ConductorAsset : List RClass := d_ConductorAsset :: m_Asset

/-- CIM15/IEC61970/Informative/InfAssets/CurrentTransformerInfo.py:23 -/
def d_CurrentTransformerInfo : RClass := ⟨0x43757272656e745472616e73666f726d6572496e666f, 0x43494d31352e49454336313937302e496e666f726d61746976652e496e664173736574732e43757272656e745472616e73666f726d6572496e666f, 0x43494d31352e49454336313936382e4173736574732e4173736574496e666f,
  [(0x7465727469617279466c73526174696e67, .flt 0x0), (0x636f7265436f756e74, .int 0), (0x7365636f6e64617279466c73526174696e67, .flt 0x0), (0x7573616765, .str 0), (0x6163637572616379436c617373, .str 0), (0x6374436c617373, .str 0), (0x6b6e6565506f696e74566f6c74616765, .flt 0x0), (0x636f726542757264656e, .flt 0x0), (0x61636375726163794c696d6974, .flt 0x0), (0x6b6e6565506f696e7443757272656e74, .flt 0x0), (0x7072696d617279466c73526174696e67, .flt 0x0)],
  [0x7465727469617279466c73526174696e67, 0x636f7265436f756e74, 0x7365636f6e64617279466c73526174696e67, 0x7573616765, 0x6163637572616379436c617373, 0x6374436c617373, 0x6b6e6565506f696e74566f6c74616765, 0x636f726542757264656e, 0x61636375726163794c696d6974, 0x6b6e6565506f696e7443757272656e74, 0x7072696d617279466c73526174696e67],
  [(0x7465727469617279466c73526174696e67, .flt 0x0), (0x636f7265436f756e74, .int 0), (0x7365636f6e64617279466c73526174696e67, .flt 0x0), (0x7573616765, .str 0), (0x6163637572616379436c617373, .str 0), (0x6374436c617373, .str 0), (0x6b6e6565506f696e74566f6c74616765, .flt 0x0), (0x636f726542757264656e, .flt 0x0), (0x61636375726163794c696d6974, .flt 0x0), (0x6b6e6565506f696e7443757272656e74, .flt 0x0), (0x7072696d617279466c73526174696e67, .flt 0x0)],
  [(0x7465727469617279466c73526174696e67, 0x666c6f6174), (0x636f7265436f756e74, 0x696e74), (0x7365636f6e64617279466c73526174696e67, 0x666c6f6174), (0x7573616765, 0x737472), (0x6163637572616379436c617373, 0x737472), (0x6374436c617373, 0x737472), (0x6b6e6565506f696e74566f6c74616765, 0x666c6f6174), (0x636f726542757264656e, 0x666c6f6174), (0x61636375726163794c696d6974, 0x666c6f6174), (0x6b6e6565506f696e7443757272656e74, 0x666c6f6174), (0x7072696d617279466c73526174696e67, 0x666c6f6174)],
  [],
  [⟨0x6e6f6d696e616c526174696f, .plainOne, 0, 0, false⟩, ⟨0x7365636f6e64617279526174696f, .plainOne, 0, 0, false⟩, ⟨0x435473, .many2one, 0x4354496e666f, 0, false⟩, ⟨0x7465727469617279526174696f, .plainOne, 0, 0, false⟩, ⟨0x6d6178526174696f, .plainOne, 0, 0, false⟩, ⟨0x7072696d617279526174696f, .plainOne, 0, 0, false⟩],
  [0x435473]⟩
def m_CurrentTransformerInfo : List RClass := d_CurrentTransformerInfo :: m_AssetInfo

/-- CIM15/IEC61970/Informative/InfAssets/DocAssetRole.py:23 -/
def d_DocAssetRole : RClass := ⟨0x446f634173736574526f6c65, 0x43494d31352e49454336313937302e496e666f726d61746976652e496e664173736574732e446f634173736574526f6c65, 0x43494d31352e49454336313937302e496e666f726d61746976652e496e66436f6d6d6f6e2e526f6c65,
  [],
  [],
  [],
  [],
  [],
  [⟨0x446f63756d656e74, .one2many, 0x4173736574526f6c6573, 0, false⟩, ⟨0x4173736574, .one2many, 0x446f63756d656e74526f6c6573, 0, false⟩],
  []⟩
def m_DocAssetRole : List RClass := d_DocAssetRole :: m_Role

/-- CIM15/IEC61970/Informative/InfAssets/ElectricalInfo.py:23 -/
def d_ElectricalInfo : RClass := ⟨0x456c656374726963616c496e666f, 0x43494d31352e49454336313937302e496e666f726d61746976652e496e664173736574732e456c656374726963616c496e666f, 0x43494d31352e49454336313936382e4173736574732e4173736574496e666f,
  [(0x7068617365436f756e74, .int 0), (0x72617465644170706172656e74506f776572, .flt 0x0), (0x7068617365436f6465, .str 0x7331324e), (0x6672657175656e6379, .flt 0x0), (0x7230, .flt 0x0), (0x72, .flt 0x0), (0x62696c, .flt 0x0), (0x7830, .flt 0x0), (0x78, .flt 0x0), (0x726174656443757272656e74, .flt 0x0), (0x77697265436f756e74, .int 0), (0x6230, .flt 0x0), (0x62, .flt 0x0), (0x7261746564566f6c74616765, .flt 0x0), (0x67, .flt 0x0), (0x6730, .flt 0x0), (0x6973436f6e6e6563746564, .bool false)],
  [0x7068617365436f756e74, 0x72617465644170706172656e74506f776572, 0x7068617365436f6465, 0x6672657175656e6379, 0x7230, 0x72, 0x62696c, 0x7830, 0x78, 0x726174656443757272656e74, 0x77697265436f756e74, 0x6230, 0x62, 0x7261746564566f6c74616765, 0x67, 0x6730, 0x6973436f6e6e6563746564],
  [(0x7068617365436f756e74, .int 0), (0x72617465644170706172656e74506f776572, .flt 0x0), (0x7068617365436f6465, .str 0x7331324e), (0x6672657175656e6379, .flt 0x0), (0x7230, .flt 0x0), (0x72, .flt 0x0), (0x62696c, .flt 0x0), (0x7830, .flt 0x0), (0x78, .flt 0x0), (0x726174656443757272656e74, .flt 0x0), (0x77697265436f756e74, .int 0), (0x6230, .flt 0x0), (0x62, .flt 0x0), (0x7261746564566f6c74616765, .flt 0x0), (0x67, .flt 0x0), (0x6730, .flt 0x0), (0x6973436f6e6e6563746564, .bool false)],
  [(0x7068617365436f756e74, 0x696e74), (0x72617465644170706172656e74506f776572, 0x666c6f6174), (0x7068617365436f6465, 0x737472), (0x6672657175656e6379, 0x666c6f6174), (0x7230, 0x666c6f6174), (0x72, 0x666c6f6174), (0x62696c, 0x666c6f6174), (0x7830, 0x666c6f6174), (0x78, 0x666c6f6174), (0x726174656443757272656e74, 0x666c6f6174), (0x77697265436f756e74, 0x696e74), (0x6230, 0x666c6f6174), (0x62, 0x666c6f6174), (0x7261746564566f6c74616765, 0x666c6f6174), (0x67, 0x666c6f6174), (0x6730, 0x666c6f6174), (0x6973436f6e6e6563746564, 0x626f6f6c)],
  [(0x7068617365436f6465, 0x5068617365436f6465)],
  [],
  []⟩
def m_ElectricalInfo : List RClass := d_ElectricalInfo :: m_AssetInfo

/-- CIM15/IEC61970/Informative/InfAssets/FACTSDevice.py:23 -/
def d_FACTSDevice : RClass := ⟨0x4641435453446576696365, 0x43494d31352e49454336313937302e496e666f726d61746976652e496e664173736574732e4641435453446576696365, 0x43494d31352e49454336313936382e4173736574732e4173736574,
  [(0x6b696e64, .str 0x7463706172)],
  [0x6b696e64],
  [(0x6b696e64, .str 0x7463706172)],
  [(0x6b696e64, 0x737472)],
  [(0x6b696e64, 0x46414354534465766963654b696e64)],
  [],
  []⟩
def m_FACTSDevice : List RClass := d_FACTSDevice :: m_Asset

/-- CIM15/IEC61970/Informative/InfAssets/FailureEvent.py:23 -/
def d_FailureEvent : RClass := ⟨0x4661696c7572654576656e74, 0x43494d31352e49454336313937302e496e666f726d61746976652e496e664173736574732e4661696c7572654576656e74, 0x43494d31352e49454336313936382e436f6d6d6f6e2e41637469766974795265636f7264,
  [(0x6661696c75726549736f6c6174696f6e4d6574686f64, .str 0x66757365), (0x636f72706f72617465436f6465, .str 0), (0x6661756c744c6f636174696e674d6574686f64, .str 0), (0x6c6f636174696f6e, .str 0)],
  [0x6661696c75726549736f6c6174696f6e4d6574686f64, 0x636f72706f72617465436f6465, 0x6661756c744c6f636174696e674d6574686f64, 0x6c6f636174696f6e],
  [(0x6661696c75726549736f6c6174696f6e4d6574686f64, .str 0x66757365), (0x636f72706f72617465436f6465, .str 0), (0x6661756c744c6f636174696e674d6574686f64, .str 0), (0x6c6f636174696f6e, .str 0)],
  [(0x6661696c75726549736f6c6174696f6e4d6574686f64, 0x737472), (0x636f72706f72617465436f6465, 0x737472), (0x6661756c744c6f636174696e674d6574686f64, 0x737472), (0x6c6f636174696f6e, 0x737472)],
  [(0x6661696c75726549736f6c6174696f6e4d6574686f64, 0x4661696c75726549736f6c6174696f6e4d6574686f644b696e64)],
  [],
  []⟩
def m_FailureEvent : List RClass := d_FailureEvent :: m_ActivityRecord

/-- CIM15/IEC61970/Informative/InfAssets/FaultIndicatorInfo.py:23 -/
def d_FaultIndicatorInfo : RClass := ⟨0x4661756c74496e64696361746f72496e666f, 0x43494d31352e49454336313937302e496e666f726d61746976652e496e664173736574732e4661756c74496e64696361746f72496e666f, 0x43494d31352e49454336313936382e4173736574732e4173736574496e666f,
  [(0x72657365744b696e64, .str 0x6175746f6d61746963)],
  [0x72657365744b696e64],
  [(0x72657365744b696e64, .str 0x6175746f6d61746963)],
  [(0x72657365744b696e64, 0x737472)],
  [(0x72657365744b696e64, 0x4661756c74496e64696361746f7252657365744b696e64)],
  [⟨0x4661756c74496e64696361746f7273, .many2one, 0x4661756c74496e64696361746f72496e666f, 0, false⟩],
  [0x4661756c74496e64696361746f7273]⟩
def m_FaultIndicatorInfo : List RClass := d_FaultIndicatorInfo :: m_AssetInfo

/-- CIM15/IEC61970/Informative/InfAssets/GenericAssetModelOrMaterial.py:23 -/
def d_GenericAssetModelOrMaterial : RClass := ⟨0x47656e6572696341737365744d6f64656c4f724d6174657269616c, 0x43494d31352e49454336313937302e496e666f726d61746976652e496e664173736574732e47656e6572696341737365744d6f64656c4f724d6174657269616c, 0x43494d31352e49454336313936382e4173736574732e41737365744d6f64656c,
  [(0x657374696d61746564556e6974436f7374, .flt 0x0), (0x73746f636b4974656d, .bool false), (0x7175616e74697479, .str 0)],
  [0x657374696d61746564556e6974436f7374, 0x73746f636b4974656d, 0x7175616e74697479],
  [(0x657374696d61746564556e6974436f7374, .flt 0x0), (0x73746f636b4974656d, .bool false), (0x7175616e74697479, .str 0)],
  [(0x657374696d61746564556e6974436f7374, 0x666c6f6174), (0x73746f636b4974656d, 0x626f6f6c), (0x7175616e74697479, 0x737472)],
  [],
  [⟨0x4572705265714c696e654974656d73, .many2one, 0x547970654173736574, 0, false⟩, ⟨0x50726f6475637441737365744d6f64656c73, .many2one, 0x47656e6572696341737365744d6f64656c4f724d6174657269616c, 0, false⟩, ⟨0x457270496e76656e746f7279497373756573, .many2one, 0x547970654173736574, 0, false⟩, ⟨0x4355576f726b45717569706d656e744173736574, .one2one, 0x547970654173736574, 0, false⟩, ⟨0x547970654173736574436174616c6f677565, .one2many, 0x54797065417373657473, 0, false⟩, ⟨0x43554173736574, .one2one, 0x547970654173736574, 0, false⟩, ⟨0x457270426f6d4974656d4461746173, .many2one, 0x547970654173736574, 0, false⟩],
  [0x4572705265714c696e654974656d73, 0x50726f6475637441737365744d6f64656c73, 0x457270496e76656e746f7279497373756573, 0x457270426f6d4974656d4461746173]⟩
def m_GenericAssetModelOrMaterial : List RClass := d_GenericAssetModelOrMaterial :: m_AssetModel

/-- CIM15/IEC61970/Informative/InfAssets/Joint.py:23 -/
def d_Joint : RClass := ⟨0x4a6f696e74, 0x43494d31352e49454336313937302e496e666f726d61746976652e496e664173736574732e4a6f696e74, 0x43494d31352e49454336313936382e4173736574732e4173736574,
  [(0x696e73756c6174696f6e, .str 0), (0x66696c6c4b696e64, .str 0x65706f7879), (0x636f6e66696775726174696f6e4b696e64, .str 0x6f74686572)],
  [0x696e73756c6174696f6e, 0x66696c6c4b696e64, 0x636f6e66696775726174696f6e4b696e64],
  [(0x696e73756c6174696f6e, .str 0), (0x66696c6c4b696e64, .str 0x65706f7879), (0x636f6e66696775726174696f6e4b696e64, .str 0x6f74686572)],
  [(0x696e73756c6174696f6e, 0x737472), (0x66696c6c4b696e64, 0x737472), (0x636f6e66696775726174696f6e4b696e64, 0x737472)],
  [(0x66696c6c4b696e64, 0x4a6f696e7446696c6c4b696e64), (0x636f6e66696775726174696f6e4b696e64, 0x4a6f696e74436f6e66696775726174696f6e4b696e64)],
  [],
  []⟩
def m_Joint : List RClass := d_Joint :: m_Asset

/-- CIM15/IEC61970/Informative/InfAssets/OrgAssetRole.py:23 -/
def d_OrgAssetRole : RClass := ⟨0x4f72674173736574526f6c65, 0x43494d31352e49454336313937302e496e666f726d61746976652e496e664173736574732e4f72674173736574526f6c65, 0x43494d31352e49454336313937302e496e666f726d61746976652e496e66436f6d6d6f6e2e526f6c65,
  [(0x70657263656e744f776e657273686970, .flt 0x0)],
  [0x70657263656e744f776e657273686970],
  [(0x70657263656e744f776e657273686970, .flt 0x0)],
  [(0x70657263656e744f776e657273686970, 0x666c6f6174)],
  [],
  [⟨0x4572704f7267616e69736174696f6e, .one2many, 0x4173736574526f6c6573, 0, false⟩, ⟨0x4173736574, .one2many, 0x4572704f7267616e69736174696f6e526f6c6573, 0, false⟩],
  []⟩
def m_OrgAssetRole : List RClass := d_OrgAssetRole :: m_Role

/-- CIM15/IEC61970/Informative/InfAssets/PotentialTransformerInfo.py:23 -/
def d_PotentialTransformerInfo : RClass := ⟨0x506f74656e7469616c5472616e73666f726d6572496e666f, 0x43494d31352e49454336313937302e496e666f726d61746976652e496e664173736574732e506f74656e7469616c5472616e73666f726d6572496e666f, 0x43494d31352e49454336313936382e4173736574732e4173736574496e666f,
  [(0x7074436c617373, .str 0), (0x6163637572616379436c617373, .str 0)],
  [0x7074436c617373, 0x6163637572616379436c617373],
  [(0x7074436c617373, .str 0), (0x6163637572616379436c617373, .str 0)],
  [(0x7074436c617373, 0x737472), (0x6163637572616379436c617373, 0x737472)],
  [],
  [⟨0x6e6f6d696e616c526174696f, .plainOne, 0, 0, false⟩, ⟨0x7072696d617279526174696f, .plainOne, 0, 0, false⟩, ⟨0x7465727469617279526174696f, .plainOne, 0, 0, false⟩, ⟨0x505473, .many2one, 0x5054496e666f, 0, false⟩, ⟨0x7365636f6e64617279526174696f, .plainOne, 0, 0, false⟩],
  [0x505473]⟩
def m_PotentialTransformerInfo : List RClass := d_PotentialTransformerInfo :: m_AssetInfo

/-- CIM15/IEC61970/Informative/InfAssets/Procedure.py:23 -/
def d_Procedure : RClass := ⟨0x50726f636564757265, 0x43494d31352e49454336313937302e496e666f726d61746976652e496e664173736574732e50726f636564757265, 0x43494d31352e49454336313936382e436f6d6d6f6e2e446f63756d656e74,
  [(0x636f72706f72617465436f6465, .str 0), (0x73657175656e63654e756d626572, .str 0), (0x6b696e64, .str 0x74657374), (0x696e737472756374696f6e, .str 0)],
  [0x636f72706f72617465436f6465, 0x73657175656e63654e756d626572, 0x6b696e64, 0x696e737472756374696f6e],
  [(0x636f72706f72617465436f6465, .str 0), (0x73657175656e63654e756d626572, .str 0), (0x6b696e64, .str 0x74657374), (0x696e737472756374696f6e, .str 0)],
  [(0x636f72706f72617465436f6465, 0x737472), (0x73657175656e63654e756d626572, 0x737472), (0x6b696e64, 0x737472), (0x696e737472756374696f6e, 0x737472)],
  [(0x6b696e64, 0x50726f6365647572654b696e64)],
  [⟨0x50726f63656475726556616c756573, .many2one, 0x50726f636564757265, 0, false⟩, ⟨0x50726f6365647572654461746153657473, .many2one, 0x50726f636564757265, 0, false⟩, ⟨0x436f6d70617469626c65556e697473, .many2many, 0x50726f63656475726573, 0, false⟩, ⟨0x4c696d697473, .many2many, 0x50726f63656475726573, 0, false⟩],
  [0x50726f63656475726556616c756573, 0x50726f6365647572654461746153657473, 0x436f6d70617469626c65556e697473, 0x4c696d697473]⟩
def m_Procedure : List RClass := d_Procedure :: m_Document

/-- CIM15/IEC61970/Informative/InfAssets/ProcedureDataSet.py:23 -/
def d_ProcedureDataSet : RClass := ⟨0x50726f63656475726544617461536574, 0x43494d31352e49454336313937302e496e666f726d61746976652e496e664173736574732e50726f63656475726544617461536574, 0x43494d31352e49454336313936382e436f6d6d6f6e2e446f63756d656e74,
  [(0x636f6d706c657465644461746554696d65, .str 0)],
  [0x636f6d706c657465644461746554696d65],
  [(0x636f6d706c657465644461746554696d65, .str 0)],
  [(0x636f6d706c657465644461746554696d65, 0x737472)],
  [],
  [⟨0x50726f70657274696573, .many2many, 0x50726f6365647572654461746153657473, 0, false⟩, ⟨0x5472616e73666f726d65724f62736572766174696f6e73, .many2many, 0x50726f6365647572654461746153657473, 0, false⟩, ⟨0x50726f636564757265, .one2many, 0x50726f6365647572654461746153657473, 0, false⟩, ⟨0x4d6561737572656d656e7456616c756573, .many2many, 0x50726f6365647572654461746153657473, 0, false⟩],
  [0x50726f70657274696573, 0x5472616e73666f726d65724f62736572766174696f6e73, 0x4d6561737572656d656e7456616c756573]⟩
def m_ProcedureDataSet : List RClass := d_ProcedureDataSet :: m_Document

/-- CIM15/IEC61970/Informative/InfAssets/ProtectionEquipmentInfo.py:23 -/
def d_ProtectionEquipmentInfo : RClass := ⟨0x50726f74656374696f6e45717569706d656e74496e666f, 0x43494d31352e49454336313937302e496e666f726d61746976652e496e664173736574732e50726f74656374696f6e45717569706d656e74496e666f, 0x43494d31352e49454336313936382e4173736574732e4173736574496e666f,
  [(0x67726f756e6454726970, .flt 0x0), (0x706861736554726970, .flt 0x0)],
  [0x67726f756e6454726970, 0x706861736554726970],
  [(0x67726f756e6454726970, .flt 0x0), (0x706861736554726970, .flt 0x0)],
  [(0x67726f756e6454726970, 0x666c6f6174), (0x706861736554726970, 0x666c6f6174)],
  [],
  [],
  []⟩
def m_ProtectionEquipmentInfo : List RClass := d_ProtectionEquipmentInfo :: m_AssetInfo

/-- CIM15/IEC61970/Informative/InfAssets/ShuntCompensatorInfo.py:23 -/
def d_ShuntCompensatorInfo : RClass := ⟨0x5368756e74436f6d70656e7361746f72496e666f, 0x43494d31352e49454336313937302e496e666f726d61746976652e496e664173736574732e5368756e74436f6d70656e7361746f72496e666f, 0x43494d31352e49454336313936382e4173736574732e4173736574496e666f,
  [(0x6d6178506f7765724c6f7373, .flt 0x0)],
  [0x6d6178506f7765724c6f7373],
  [(0x6d6178506f7765724c6f7373, .flt 0x0)],
  [(0x6d6178506f7765724c6f7373, 0x666c6f6174)],
  [],
  [⟨0x5368756e74496d706564616e6365496e666f, .one2many, 0x5368756e74436f6d70656e7361746f72496e666f73, 0, false⟩],
  []⟩
def m_ShuntCompensatorInfo : List RClass := d_ShuntCompensatorInfo :: m_AssetInfo

/-- CIM15/IEC61970/Informative/InfAssets/ShuntImpedanceInfo.py:23 -/
def d_ShuntImpedanceInfo : RClass := ⟨0x5368756e74496d706564616e6365496e666f, 0x43494d31352e49454336313937302e496e666f726d61746976652e496e664173736574732e5368756e74496d706564616e6365496e666f, 0x43494d31352e49454336313936382e4173736574732e4173736574496e666f,
  [(0x6d61785377697463684f7065726174696f6e436f756e74, .int 0), (0x6c6f63616c436f6e74726f6c4b696e64, .str 0x6e6f6e65), (0x7377697463684f7065726174696f6e4379636c65, .flt 0x0), (0x765265674c696e654c696e65, .bool false), (0x68696768566f6c746167654f76657272696465, .flt 0x0), (0x6c6f77566f6c746167654f76657272696465, .flt 0x0), (0x7265674272616e6368, .str 0), (0x63656c6c53697a65, .flt 0x0), (0x6c6f63616c4f6e4c6576656c, .str 0), (0x7265674272616e63684b696e64, .str 0x7265636c6f736572), (0x6e6f726d616c4f70656e, .bool false), (0x636f6e74726f6c4b696e64, .str 0x72656d6f74654f6e6c79), (0x7265674272616e6368456e64, .int 0), (0x6272616e6368446972656374, .int 0), (0x6c6f63616c4f66664c6576656c, .str 0), (0x73656e73696e675068617365436f6465, .str 0x7331324e), (0x6c6f63616c4f76657272696465, .bool false)],
  [0x6d61785377697463684f7065726174696f6e436f756e74, 0x6c6f63616c436f6e74726f6c4b696e64, 0x7377697463684f7065726174696f6e4379636c65, 0x765265674c696e654c696e65, 0x68696768566f6c746167654f76657272696465, 0x6c6f77566f6c746167654f76657272696465, 0x7265674272616e6368, 0x63656c6c53697a65, 0x6c6f63616c4f6e4c6576656c, 0x7265674272616e63684b696e64, 0x6e6f726d616c4f70656e, 0x636f6e74726f6c4b696e64, 0x7265674272616e6368456e64, 0x6272616e6368446972656374, 0x6c6f63616c4f66664c6576656c, 0x73656e73696e675068617365436f6465, 0x6c6f63616c4f76657272696465],
  [(0x6d61785377697463684f7065726174696f6e436f756e74, .int 0), (0x6c6f63616c436f6e74726f6c4b696e64, .str 0x6e6f6e65), (0x7377697463684f7065726174696f6e4379636c65, .flt 0x0), (0x765265674c696e654c696e65, .bool false), (0x68696768566f6c746167654f76657272696465, .flt 0x0), (0x6c6f77566f6c746167654f76657272696465, .flt 0x0), (0x7265674272616e6368, .str 0), (0x63656c6c53697a65, .flt 0x0), (0x6c6f63616c4f6e4c6576656c, .str 0), (0x7265674272616e63684b696e64, .str 0x7265636c6f736572), (0x6e6f726d616c4f70656e, .bool false), (0x636f6e74726f6c4b696e64, .str 0x72656d6f74654f6e6c79), (0x7265674272616e6368456e64, .int 0), (0x6272616e6368446972656374, .int 0), (0x6c6f63616c4f66664c6576656c, .str 0), (0x73656e73696e675068617365436f6465, .str 0x7331324e), (0x6c6f63616c4f76657272696465, .bool false)],
  [(0x6d61785377697463684f7065726174696f6e436f756e74, 0x696e74), (0x6c6f63616c436f6e74726f6c4b696e64, 0x737472), (0x7377697463684f7065726174696f6e4379636c65, 0x666c6f6174), (0x765265674c696e654c696e65, 0x626f6f6c), (0x68696768566f6c746167654f76657272696465, 0x666c6f6174), (0x6c6f77566f6c746167654f76657272696465, 0x666c6f6174), (0x7265674272616e6368, 0x737472), (0x63656c6c53697a65, 0x666c6f6174), (0x6c6f63616c4f6e4c6576656c, 0x737472), (0x7265674272616e63684b696e64, 0x737472), (0x6e6f726d616c4f70656e, 0x626f6f6c), (0x636f6e74726f6c4b696e64, 0x737472), (0x7265674272616e6368456e64, 0x696e74), (0x6272616e6368446972656374, 0x696e74), (0x6c6f63616c4f66664c6576656c, 0x737472), (0x73656e73696e675068617365436f6465, 0x737472), (0x6c6f63616c4f76657272696465, 0x626f6f6c)],
  [(0x6c6f63616c436f6e74726f6c4b696e64, 0x5368756e74496d706564616e63654c6f63616c436f6e74726f6c4b696e64), (0x7265674272616e63684b696e64, 0x526567756c6174696f6e4272616e63684b696e64), (0x636f6e74726f6c4b696e64, 0x5368756e74496d706564616e6365436f6e74726f6c4b696e64), (0x73656e73696e675068617365436f6465, 0x5068617365436f6465)],
  [⟨0x5368756e74436f6d70656e7361746f72496e666f73, .many2one, 0x5368756e74496d706564616e6365496e666f, 0, false⟩],
  [0x5368756e74436f6d70656e7361746f72496e666f73]⟩
def m_ShuntImpedanceInfo : List RClass := d_ShuntImpedanceInfo :: m_AssetInfo

/-- CIM15/IEC61970/Informative/InfAssets/Specification.py:23 -/
def d_Specification : RClass := ⟨0x53706563696669636174696f6e, 0x43494d31352e49454336313937302e496e666f726d61746976652e496e664173736574732e53706563696669636174696f6e, 0x43494d31352e49454336313936382e436f6d6d6f6e2e446f63756d656e74,
  [],
  [],
  [],
  [],
  [],
  [⟨0x417373657450726f7065727479437572766573, .many2one, 0x53706563696669636174696f6e, 0, false⟩, ⟨0x4d656469756d73, .many2one, 0x53706563696669636174696f6e, 0, false⟩, ⟨0x417373657450726f70657269746573, .many2one, 0x50726f706572747953706563696669636174696f6e, 0, false⟩, ⟨0x52656c696162696c697479496e666f73, .many2one, 0x53706563696669636174696f6e, 0, false⟩, ⟨0x44696d656e73696f6e73496e666f73, .many2many, 0x53706563696669636174696f6e73, 0, false⟩, ⟨0x526174696e6773, .many2one, 0x526174696e6753706563696669636174696f6e, 0, false⟩, ⟨0x5175616c696669636174696f6e526571756972656d656e7473, .many2many, 0x53706563696669636174696f6e73, 0, false⟩],
  [0x417373657450726f7065727479437572766573, 0x4d656469756d73, 0x417373657450726f70657269746573, 0x52656c696162696c697479496e666f73, 0x44696d656e73696f6e73496e666f73, 0x526174696e6773, 0x5175616c696669636174696f6e526571756972656d656e7473]⟩
def m_Specification : List RClass := d_Specification :: m_Document

/-- CIM15/IEC61970/Informative/InfAssets/Streetlight.py:23 -/
def d_Streetlight : RClass := ⟨0x5374726565746c69676874, 0x43494d31352e49454336313937302e496e666f726d61746976652e496e664173736574732e5374726565746c69676874, 0x43494d31352e49454336313936382e4173736574732e4173736574,
  [(0x61726d4c656e677468, .flt 0x0), (0x6c616d704b696e64, .str 0x6d6574616c48616c696465), (0x6c69676874526174696e67, .flt 0x0)],
  [0x61726d4c656e677468, 0x6c616d704b696e64, 0x6c69676874526174696e67],
  [(0x61726d4c656e677468, .flt 0x0), (0x6c616d704b696e64, .str 0x6d6574616c48616c696465), (0x6c69676874526174696e67, .flt 0x0)],
  [(0x61726d4c656e677468, 0x666c6f6174), (0x6c616d704b696e64, 0x737472), (0x6c69676874526174696e67, 0x666c6f6174)],
  [(0x6c616d704b696e64, 0x5374726565746c696768744c616d704b696e64)],
  [⟨0x506f6c65, .one2many, 0x5374726565746c6967687473, 0, false⟩],
  []⟩
def m_Streetlight : List RClass := d_Streetlight :: m_Asset

/-- CIM15/IEC61970/Informative/InfAssets/StructureSupport.py:23 -/
def d_StructureSupport : RClass := ⟨0x537472756374757265537570706f7274, 0x43494d31352e49454336313937302e496e666f726d61746976652e496e664173736574732e537472756374757265537570706f7274, 0x43494d31352e49454336313936382e4173736574732e4173736574,
  [(0x616e63686f72526f64436f756e74, .int 0), (0x6c656e677468, .flt 0x0), (0x616e63686f72526f644c656e677468, .flt 0x0), (0x646972656374696f6e, .flt 0x0), (0x616e63686f724b696e64, .str 0x636f6e6372657465), (0x6b696e64, .str 0x677579), (0x73697a65, .str 0)],
  [0x616e63686f72526f64436f756e74, 0x6c656e677468, 0x616e63686f72526f644c656e677468, 0x646972656374696f6e, 0x616e63686f724b696e64, 0x6b696e64, 0x73697a65],
  [(0x616e63686f72526f64436f756e74, .int 0), (0x6c656e677468, .flt 0x0), (0x616e63686f72526f644c656e677468, .flt 0x0), (0x646972656374696f6e, .flt 0x0), (0x616e63686f724b696e64, .str 0x636f6e6372657465), (0x6b696e64, .str 0x677579), (0x73697a65, .str 0)],
  [(0x616e63686f72526f64436f756e74, 0x696e74), (0x6c656e677468, 0x666c6f6174), (0x616e63686f72526f644c656e677468, 0x666c6f6174), (0x646972656374696f6e, 0x666c6f6174), (0x616e63686f724b696e64, 0x737472), (0x6b696e64, 0x737472), (0x73697a65, 0x737472)],
  [(0x616e63686f724b696e64, 0x416e63686f724b696e64), (0x6b696e64, 0x537472756374757265537570706f72744b696e64)],
  [⟨0x53656375726564537472756374757265, .one2many, 0x537472756374757265537570706f7274496e666f73, 0, false⟩],
  []⟩
def m_StructureSupport : List RClass := d_StructureSupport :: m_Asset

/-- CIM15/IEC61970/Informative/InfAssets/SubstationAsset.py:23 -/
def d_SubstationAsset : RClass := ⟨0x53756273746174696f6e4173736574, 0x43494d31352e49454336313937302e496e666f726d61746976652e496e664173736574732e53756273746174696f6e4173736574, 0x43494d31352e49454336313936382e4173736574732e4173736574,
  [(0x66756e6374696f6e, .str 0x7472616e736d697373696f6e)],
  [0x66756e6374696f6e],
  [(0x66756e6374696f6e, .str 0x7472616e736d697373696f6e)],
  [(0x66756e6374696f6e, 0x737472)],
  [(0x66756e6374696f6e, 0x53756273746174696f6e46756e6374696f6e4b696e64)],
  [],
  []⟩
def m_SubstationAsset : List RClass := d_SubstationAsset :: m_Asset

/-- CIM15/IEC61970/Informative/InfAssets/SurgeProtectorInfo.py:23 -/
def d_SurgeProtectorInfo : RClass := ⟨0x537572676550726f746563746f72496e666f, 0x43494d31352e49454336313937302e496e666f726d61746976652e496e664173736574732e537572676550726f746563746f72496e666f, 0x43494d31352e49454336313936382e4173736574732e4173736574496e666f,
  [(0x6d617843757272656e74526174696e67, .flt 0x0), (0x6d6178436f6e74696e6f75734f7065726174696e67566f6c74616765, .flt 0x0), (0x6e6f6d696e616c44657369676e566f6c74616765, .flt 0x0), (0x6d6178456e657267794162736f727074696f6e, .flt 0x0)],
  [0x6d617843757272656e74526174696e67, 0x6d6178436f6e74696e6f75734f7065726174696e67566f6c74616765, 0x6e6f6d696e616c44657369676e566f6c74616765, 0x6d6178456e657267794162736f727074696f6e],
  [(0x6d617843757272656e74526174696e67, .flt 0x0), (0x6d6178436f6e74696e6f75734f7065726174696e67566f6c74616765, .flt 0x0), (0x6e6f6d696e616c44657369676e566f6c74616765, .flt 0x0), (0x6d6178456e657267794162736f727074696f6e, .flt 0x0)],
  [(0x6d617843757272656e74526174696e67, 0x666c6f6174), (0x6d6178436f6e74696e6f75734f7065726174696e67566f6c74616765, 0x666c6f6174), (0x6e6f6d696e616c44657369676e566f6c74616765, 0x666c6f6174), (0x6d6178456e657267794162736f727074696f6e, 0x666c6f6174)],
  [],
  [⟨0x537572676550726f746563746f7273, .many2one, 0x537572676550726f746563746f72496e666f, 0, false⟩],
  [0x537572676550726f746563746f7273]⟩
def m_SurgeProtectorInfo : List RClass := d_SurgeProtectorInfo :: m_AssetInfo

/-- CIM15/IEC61970/Informative/InfAssets/SwitchInfo.py:23 -/
def d_SwitchInfo : RClass := ⟨0x537769746368496e666f, 0x43494d31352e49454336313937302e496e666f726d61746976652e496e664173736574732e537769746368496e666f, 0x43494d31352e49454336313936382e4173736574732e4173736574496e666f,
  [(0x6469656c656374726963537472656e677468, .flt 0x0), (0x67616e67, .bool false), (0x6d616b696e674361706163697479, .flt 0x0), (0x776974687374616e6443757272656e74, .flt 0x0), (0x6c6f6164427265616b, .bool false), (0x6d696e696d756d43757272656e74, .flt 0x0), (0x696e74657272757074696e67526174696e67, .flt 0x0), (0x72656d6f7465, .bool false), (0x706f6c65436f756e74, .int 0)],
  [0x6469656c656374726963537472656e677468, 0x67616e67, 0x6d616b696e674361706163697479, 0x776974687374616e6443757272656e74, 0x6c6f6164427265616b, 0x6d696e696d756d43757272656e74, 0x696e74657272757074696e67526174696e67, 0x72656d6f7465, 0x706f6c65436f756e74],
  [(0x6469656c656374726963537472656e677468, .flt 0x0), (0x67616e67, .bool false), (0x6d616b696e674361706163697479, .flt 0x0), (0x776974687374616e6443757272656e74, .flt 0x0), (0x6c6f6164427265616b, .bool false), (0x6d696e696d756d43757272656e74, .flt 0x0), (0x696e74657272757074696e67526174696e67, .flt 0x0), (0x72656d6f7465, .bool false), (0x706f6c65436f756e74, .int 0)],
  [(0x6469656c656374726963537472656e677468, 0x666c6f6174), (0x67616e67, 0x626f6f6c), (0x6d616b696e674361706163697479, 0x666c6f6174), (0x776974687374616e6443757272656e74, 0x666c6f6174), (0x6c6f6164427265616b, 0x626f6f6c), (0x6d696e696d756d43757272656e74, 0x666c6f6174), (0x696e74657272757074696e67526174696e67, 0x666c6f6174), (0x72656d6f7465, 0x626f6f6c), (0x706f6c65436f756e74, 0x696e74)],
  [],
  [],
  []⟩
def m_SwitchInfo : List RClass := d_SwitchInfo :: m_AssetInfo

/-- CIM15/IEC61970/Informative/InfAssets/Tool.py:23 -/
def d_Tool : RClass := ⟨0x546f6f6c, 0x43494d31352e49454336313937302e496e666f726d61746976652e496e664173736574732e546f6f6c, 0x43494d31352e49454336313936382e4173736574732e4173736574,
  [(0x6c61737443616c6962726174696f6e44617465, .str 0)],
  [0x6c61737443616c6962726174696f6e44617465],
  [(0x6c61737443616c6962726174696f6e44617465, .str 0)],
  [(0x6c61737443616c6962726174696f6e44617465, 0x737472)],
  [],
  [⟨0x43726577, .one2many, 0x546f6f6c73, 0, false⟩],
  []⟩
def m_Tool : List RClass := d_Tool :: m_Asset

/-- CIM15/IEC61970/Informative/InfAssets/TransformerAsset.py:23 -/
def d_TransformerAsset : RClass := ⟨0x5472616e73666f726d65724173736574, 0x43494d31352e49454336313937302e496e666f726d61746976652e496e664173736574732e5472616e73666f726d65724173736574, 0x43494d31352e49454336313936382e4173736574732e4173736574,
  [(0x7265636f6e646974696f6e65644461746554696d65, .str 0)],
  [0x7265636f6e646974696f6e65644461746554696d65],
  [(0x7265636f6e646974696f6e65644461746554696d65, .str 0)],
  [(0x7265636f6e646974696f6e65644461746554696d65, 0x737472)],
  [],
  [⟨0x506f776572526174696e6773, .many2many, 0x5472616e73666f726d6572417373657473, 0, false⟩, ⟨0x5472616e73666f726d65724f62736572766174696f6e73, .many2one, 0x5472616e73666f726d65724173736574, 0, false⟩, ⟨0x5472616e73666f726d6572496e666f, .one2many, 0x5472616e73666f726d6572417373657473, 0, false⟩, ⟨0x5472616e73666f726d657241737365744d6f64656c, .one2many, 0x5472616e73666f726d6572417373657473, 0, false⟩],
  [0x506f776572526174696e6773, 0x5472616e73666f726d65724f62736572766174696f6e73]⟩
def m_TransformerAsset : List RClass := d_TransformerAsset :: m_Asset

/-- CIM15/IEC61970/Informative/InfAssets/Vehicle.py:23 -/
def d_Vehicle : RClass := ⟨0x56656869636c65, 0x43494d31352e49454336313937302e496e666f726d61746976652e496e664173736574732e56656869636c65, 0x43494d31352e49454336313936382e4173736574732e4173736574,
  [(0x6f646f6d6574657252656164696e67, .flt 0x0), (0x6f646f6d65746572526561644461746554696d65, .str 0), (0x75736167654b696e64, .str 0x63726577)],
  [0x6f646f6d6574657252656164696e67, 0x6f646f6d65746572526561644461746554696d65, 0x75736167654b696e64],
  [(0x6f646f6d6574657252656164696e67, .flt 0x0), (0x6f646f6d65746572526561644461746554696d65, .str 0), (0x75736167654b696e64, .str 0x63726577)],
  [(0x6f646f6d6574657252656164696e67, 0x666c6f6174), (0x6f646f6d65746572526561644461746554696d65, 0x737472), (0x75736167654b696e64, 0x737472)],
  [(0x75736167654b696e64, 0x56656869636c6555736167654b696e64)],
  [⟨0x43726577, .one2many, 0x56656869636c6573, 0, false⟩],
  []⟩
def m_Vehicle : List RClass := d_Vehicle :: m_Asset

/-- CIM15/IEC61970/Informative/InfAssets/WorkEquipment.py:23 -/
def d_WorkEquipment : RClass := ⟨0x576f726b45717569706d656e74, 0x43494d31352e49454336313937302e496e666f726d61746976652e496e664173736574732e576f726b45717569706d656e74, 0x43494d31352e49454336313936382e4173736574732e4173736574,
  [],
  [],
  [],
  [],
  [],
  [⟨0x43726577, .one2many, 0x576f726b45717569706d656e74417373657473, 0, false⟩, ⟨0x557361676573, .many2one, 0x576f726b45717569706d656e744173736574, 0, false⟩],
  [0x557361676573]⟩
def m_WorkEquipment : List RClass := d_WorkEquipment :: m_Asset

/-- CIM15/IEC61970/Informative/InfCommon/Bank.py:23 -/
def d_Bank : RClass := ⟨0x42616e6b, 0x43494d31352e49454336313937302e496e666f726d61746976652e496e66436f6d6d6f6e2e42616e6b, 0x43494d31352e49454336313936382e436f6d6d6f6e2e4f7267616e69736174696f6e,
  [(0x626963, .str 0), (0x6962616e, .str 0), (0x6272616e6368436f6465, .str 0)],
  [0x626963, 0x6962616e, 0x6272616e6368436f6465],
  [(0x626963, .str 0), (0x6962616e, .str 0), (0x6272616e6368436f6465, .str 0)],
  [(0x626963, 0x737472), (0x6962616e, 0x737472), (0x6272616e6368436f6465, 0x737472)],
  [],
  [⟨0x42616e6b4163636f756e7473, .many2one, 0x42616e6b, 0, false⟩],
  [0x42616e6b4163636f756e7473]⟩
def m_Bank : List RClass := d_Bank :: m_Organisation

/-- CIM15/IEC61970/Informative/InfCommon/BankAccount.py:23 -/
def d_BankAccount : RClass := ⟨0x42616e6b4163636f756e74, 0x43494d31352e49454336313937302e496e666f726d61746976652e496e66436f6d6d6f6e2e42616e6b4163636f756e74, 0x43494d31352e49454336313936382e436f6d6d6f6e2e446f63756d656e74,
  [(0x6163636f756e744e756d626572, .str 0)],
  [0x6163636f756e744e756d626572],
  [(0x6163636f756e744e756d626572, .str 0)],
  [(0x6163636f756e744e756d626572, 0x737472)],
  [],
  [⟨0x53657276696365537570706c696572, .one2many, 0x42616e6b4163636f756e7473, 0, false⟩, ⟨0x42616e6b, .one2many, 0x42616e6b4163636f756e7473, 0, false⟩],
  []⟩
def m_BankAccount : List RClass := d_BankAccount :: m_Document

/-- CIM15/IEC61970/Informative/InfCommon/BusinessPlan.py:23 -/
def d_BusinessPlan : RClass := ⟨0x427573696e657373506c616e, 0x43494d31352e49454336313937302e496e666f726d61746976652e496e66436f6d6d6f6e2e427573696e657373506c616e, 0x43494d31352e49454336313936382e436f6d6d6f6e2e446f63756d656e74,
  [],
  [],
  [],
  [],
  [],
  [],
  []⟩
def m_BusinessPlan : List RClass := d_BusinessPlan :: m_Document

/-- CIM15/IEC61970/Informative/InfCommon/DocDocRole.py:23 -/
def d_DocDocRole : RClass := ⟨0x446f63446f63526f6c65, 0x43494d31352e49454336313937302e496e666f726d61746976652e496e66436f6d6d6f6e2e446f63446f63526f6c65, 0x43494d31352e49454336313937302e496e666f726d61746976652e496e66436f6d6d6f6e2e526f6c65,
  [],
  [],
  [],
  [],
  [],
  [⟨0x546f446f63756d656e74, .one2many, 0x46726f6d446f63756d656e74526f6c6573, 0, false⟩, ⟨0x46726f6d446f63756d656e74, .one2many, 0x546f446f63756d656e74526f6c6573, 0, false⟩],
  []⟩
def m_DocDocRole : List RClass := d_DocDocRole :: m_Role

/-- CIM15/IEC61970/Informative/InfCommon/DocPsrRole.py:23 -/
def d_DocPsrRole : RClass := ⟨0x446f63507372526f6c65, 0x43494d31352e49454336313937302e496e666f726d61746976652e496e66436f6d6d6f6e2e446f63507372526f6c65, 0x43494d31352e49454336313937302e496e666f726d61746976652e496e66436f6d6d6f6e2e526f6c65,
  [],
  [],
  [],
  [],
  [],
  [⟨0x446f63756d656e74, .one2many, 0x506f77657253797374656d5265736f75726365526f6c6573, 0, false⟩, ⟨0x506f77657253797374656d5265736f75726365, .one2many, 0x446f63756d656e74526f6c6573, 0, false⟩],
  []⟩
def m_DocPsrRole : List RClass := d_DocPsrRole :: m_Role

/-- CIM15/IEC61970/Informative/InfCommon/Skill.py:23 -/
def d_Skill : RClass := ⟨0x536b696c6c, 0x43494d31352e49454336313937302e496e666f726d61746976652e496e66436f6d6d6f6e2e536b696c6c, 0x43494d31352e49454336313936382e436f6d6d6f6e2e446f63756d656e74,
  [(0x6566666563746976654461746554696d65, .str 0), (0x6c6576656c, .str 0x61707072656e74696365)],
  [0x6566666563746976654461746554696d65, 0x6c6576656c],
  [(0x6566666563746976654461746554696d65, .str 0), (0x6c6576656c, .str 0x61707072656e74696365)],
  [(0x6566666563746976654461746554696d65, 0x737472), (0x6c6576656c, 0x737472)],
  [(0x6c6576656c, 0x536b696c6c4c6576656c4b696e64)],
  [⟨0x437261667473, .many2many, 0x536b696c6c73, 0, false⟩, ⟨0x457270506572736f6e, .one2many, 0x536b696c6c73, 0, false⟩, ⟨0x5175616c696669636174696f6e526571756972656d656e7473, .many2many, 0x536b696c6c73, 0, false⟩, ⟨0x63657274696669636174696f6e506572696f64, .plainOne, 0, 0, false⟩],
  [0x437261667473, 0x5175616c696669636174696f6e526571756972656d656e7473]⟩
def m_Skill : List RClass := d_Skill :: m_Document

/-- CIM15/IEC61970/Informative/InfCustomers/ComplianceEvent.py:23 -/
def d_ComplianceEvent : RClass := ⟨0x436f6d706c69616e63654576656e74, 0x43494d31352e49454336313937302e496e666f726d61746976652e496e66437573746f6d6572732e436f6d706c69616e63654576656e74, 0x43494d31352e49454336313936382e436f6d6d6f6e2e41637469766974795265636f7264,
  [(0x646561646c696e65, .str 0)],
  [0x646561646c696e65],
  [(0x646561646c696e65, .str 0)],
  [(0x646561646c696e65, 0x737472)],
  [],
  [],
  []⟩
def m_ComplianceEvent : List RClass := d_ComplianceEvent :: m_ActivityRecord

/-- CIM15/IEC61970/Informative/InfCustomers/CustomerBillingInfo.py:23 -/
def d_CustomerBillingInfo : RClass := ⟨0x437573746f6d657242696c6c696e67496e666f, 0x43494d31352e49454336313937302e496e666f726d61746976652e496e66437573746f6d6572732e437573746f6d657242696c6c696e67496e666f, 0x43494d31352e49454336313936382e436f6d6d6f6e2e446f63756d656e74,
  [(0x70796d74506c616e54797065, .str 0), (0x6b696e64, .str 0x636f6e736f6c696461746564556463), (0x70796d74506c616e416d74, .flt 0x0), (0x6c6173745061796d656e74416d74, .flt 0x0), (0x64756544617465, .str 0), (0x6f757442616c616e6365, .flt 0x0), (0x6c6173745061796d656e7444617465, .str 0), (0x62696c6c696e6744617465, .str 0)],
  [0x70796d74506c616e54797065, 0x6b696e64, 0x70796d74506c616e416d74, 0x6c6173745061796d656e74416d74, 0x64756544617465, 0x6f757442616c616e6365, 0x6c6173745061796d656e7444617465, 0x62696c6c696e6744617465],
  [(0x70796d74506c616e54797065, .str 0), (0x6b696e64, .str 0x636f6e736f6c696461746564556463), (0x70796d74506c616e416d74, .flt 0x0), (0x6c6173745061796d656e74416d74, .flt 0x0), (0x64756544617465, .str 0), (0x6f757442616c616e6365, .flt 0x0), (0x6c6173745061796d656e7444617465, .str 0), (0x62696c6c696e6744617465, .str 0)],
  [(0x70796d74506c616e54797065, 0x737472), (0x6b696e64, 0x737472), (0x70796d74506c616e416d74, 0x666c6f6174), (0x6c6173745061796d656e74416d74, 0x666c6f6174), (0x64756544617465, 0x737472), (0x6f757442616c616e6365, 0x666c6f6174), (0x6c6173745061796d656e7444617465, 0x737472), (0x62696c6c696e6744617465, 0x737472)],
  [(0x6b696e64, 0x437573746f6d657242696c6c696e674b696e64)],
  [⟨0x457270496e766f6963654c696e654974656d73, .many2many, 0x437573746f6d657242696c6c696e67496e666f73, 0, false⟩, ⟨0x437573746f6d65724163636f756e74, .one2many, 0x437573746f6d657242696c6c696e67496e666f73, 0, false⟩],
  [0x457270496e766f6963654c696e654974656d73]⟩
def m_CustomerBillingInfo : List RClass := d_CustomerBillingInfo :: m_Document

/-- CIM15/IEC61970/Informative/InfCustomers/OutageHistory.py:23 -/
def d_OutageHistory : RClass := ⟨0x4f7574616765486973746f7279, 0x43494d31352e49454336313937302e496e666f726d61746976652e496e66437573746f6d6572732e4f7574616765486973746f7279, 0x43494d31352e49454336313936382e436f6d6d6f6e2e446f63756d656e74,
  [],
  [],
  [],
  [],
  [],
  [⟨0x4f75746167655265706f727473, .many2one, 0x4f7574616765486973746f7279, 0, false⟩],
  [0x4f75746167655265706f727473]⟩
def m_OutageHistory : List RClass := d_OutageHistory :: m_Document

/-- CIM15/IEC61970/Informative/InfCustomers/PowerQualityPricing.py:23 -/
def d_PowerQualityPricing : RClass := ⟨0x506f7765725175616c69747950726963696e67, 0x43494d31352e49454336313937302e496e666f726d61746976652e496e66437573746f6d6572732e506f7765725175616c69747950726963696e67, 0x43494d31352e49454336313936382e436f6d6d6f6e2e446f63756d656e74,
  [(0x6e6f726d616c4c6f77566f6c744c696d6974, .flt 0x0), (0x76616c7565556e696e74657272757074656453657276696365456e65726779, .flt 0x0), (0x766f6c744c696d697456696f6c436f7374, .flt 0x0), (0x6e6f726d616c48696768566f6c744c696d6974, .flt 0x0), (0x656d657267656e637948696768566f6c744c696d6974, .flt 0x0), (0x656d657267656e63794c6f77566f6c744c696d6974, .flt 0x0), (0x706f776572466163746f724d696e, .flt 0x0), (0x766f6c74496d62616c616e636556696f6c436f7374, .flt 0x0), (0x76616c7565556e696e7465727275707465645365727669636550, .flt 0x0)],
  [0x6e6f726d616c4c6f77566f6c744c696d6974, 0x76616c7565556e696e74657272757074656453657276696365456e65726779, 0x766f6c744c696d697456696f6c436f7374, 0x6e6f726d616c48696768566f6c744c696d6974, 0x656d657267656e637948696768566f6c744c696d6974, 0x656d657267656e63794c6f77566f6c744c696d6974, 0x706f776572466163746f724d696e, 0x766f6c74496d62616c616e636556696f6c436f7374, 0x76616c7565556e696e7465727275707465645365727669636550],
  [(0x6e6f726d616c4c6f77566f6c744c696d6974, .flt 0x0), (0x76616c7565556e696e74657272757074656453657276696365456e65726779, .flt 0x0), (0x766f6c744c696d697456696f6c436f7374, .flt 0x0), (0x6e6f726d616c48696768566f6c744c696d6974, .flt 0x0), (0x656d657267656e637948696768566f6c744c696d6974, .flt 0x0), (0x656d657267656e63794c6f77566f6c744c696d6974, .flt 0x0), (0x706f776572466163746f724d696e, .flt 0x0), (0x766f6c74496d62616c616e636556696f6c436f7374, .flt 0x0), (0x76616c7565556e696e7465727275707465645365727669636550, .flt 0x0)],
  [(0x6e6f726d616c4c6f77566f6c744c696d6974, 0x666c6f6174), (0x76616c7565556e696e74657272757074656453657276696365456e65726779, 0x666c6f6174), (0x766f6c744c696d697456696f6c436f7374, 0x666c6f6174), (0x6e6f726d616c48696768566f6c744c696d6974, 0x666c6f6174), (0x656d657267656e637948696768566f6c744c696d6974, 0x666c6f6174), (0x656d657267656e63794c6f77566f6c744c696d6974, 0x666c6f6174), (0x706f776572466163746f724d696e, 0x666c6f6174), (0x766f6c74496d62616c616e636556696f6c436f7374, 0x666c6f6174), (0x76616c7565556e696e7465727275707465645365727669636550, 0x666c6f6174)],
  [],
  [],
  []⟩
def m_PowerQualityPricing : List RClass := d_PowerQualityPricing :: m_Document

/-- CIM15/IEC61970/Informative/InfCustomers/ServiceGuarantee.py:23 -/
def d_ServiceGuarantee : RClass := ⟨0x5365727669636547756172616e746565, 0x43494d31352e49454336313937302e496e666f726d61746976652e496e66437573746f6d6572732e5365727669636547756172616e746565, 0x43494d31352e49454336313936382e436f6d6d6f6e2e446f63756d656e74,
  [(0x6175746f6d61746963506179, .bool false), (0x706179416d6f756e74, .flt 0x0), (0x73657276696365526571756972656d656e74, .str 0)],
  [0x6175746f6d61746963506179, 0x706179416d6f756e74, 0x73657276696365526571756972656d656e74],
  [(0x6175746f6d61746963506179, .bool false), (0x706179416d6f756e74, .flt 0x0), (0x73657276696365526571756972656d656e74, .str 0)],
  [(0x6175746f6d61746963506179, 0x626f6f6c), (0x706179416d6f756e74, 0x666c6f6174), (0x73657276696365526571756972656d656e74, 0x737472)],
  [],
  [⟨0x6170706c69636174696f6e506572696f64, .plainOne, 0, 0, false⟩],
  []⟩
def m_ServiceGuarantee : List RClass := d_ServiceGuarantee :: m_Document

/-- CIM15/IEC61970/Informative/InfCustomers/StandardIndustryCode.py:23 -/
def d_StandardIndustryCode : RClass := ⟨0x5374616e64617264496e647573747279436f6465, 0x43494d31352e49454336313937302e496e666f726d61746976652e496e66437573746f6d6572732e5374616e64617264496e647573747279436f6465, 0x43494d31352e49454336313936382e436f6d6d6f6e2e446f63756d656e74,
  [(0x636f6465, .str 0)],
  [0x636f6465],
  [(0x636f6465, .str 0)],
  [(0x636f6465, 0x737472)],
  [],
  [⟨0x437573746f6d657241677265656d656e7473, .many2one, 0x5374616e64617264496e647573747279436f6465, 0, false⟩],
  [0x437573746f6d657241677265656d656e7473]⟩
def m_StandardIndustryCode : List RClass := d_StandardIndustryCode :: m_Document

/-- CIM15/IEC61970/Informative/InfCustomers/SubscribePowerCurve.py:23 -/
def d_SubscribePowerCurve : RClass := ⟨0x537562736372696265506f7765724375727665, 0x43494d31352e49454336313937302e496e666f726d61746976652e496e66437573746f6d6572732e537562736372696265506f7765724375727665, 0x43494d31352e49454336313937302e436f72652e4375727665,
  [],
  [],
  [],
  [],
  [],
  [],
  []⟩
def m_SubscribePowerCurve : List RClass := d_SubscribePowerCurve :: m_Curve

/-- CIM15/IEC61970/Informative/InfCustomers/WorkBillingInfo.py:23 -/
def d_WorkBillingInfo : RClass := ⟨0x576f726b42696c6c696e67496e666f, 0x43494d31352e49454336313937302e496e666f726d61746976652e496e66437573746f6d6572732e576f726b42696c6c696e67496e666f, 0x43494d31352e49454336313936382e436f6d6d6f6e2e446f63756d656e74,
  [(0x69737375654461746554696d65, .str 0), (0x6465706f736974, .flt 0x0), (0x636f7374457374696d617465, .flt 0x0), (0x646973636f756e74, .flt 0x0), (0x6475654461746554696d65, .str 0), (0x72656365697665644461746554696d65, .str 0), (0x776f726b5072696365, .flt 0x0)],
  [0x69737375654461746554696d65, 0x6465706f736974, 0x636f7374457374696d617465, 0x646973636f756e74, 0x6475654461746554696d65, 0x72656365697665644461746554696d65, 0x776f726b5072696365],
  [(0x69737375654461746554696d65, .str 0), (0x6465706f736974, .flt 0x0), (0x636f7374457374696d617465, .flt 0x0), (0x646973636f756e74, .flt 0x0), (0x6475654461746554696d65, .str 0), (0x72656365697665644461746554696d65, .str 0), (0x776f726b5072696365, .flt 0x0)],
  [(0x69737375654461746554696d65, 0x737472), (0x6465706f736974, 0x666c6f6174), (0x636f7374457374696d617465, 0x666c6f6174), (0x646973636f756e74, 0x666c6f6174), (0x6475654461746554696d65, 0x737472), (0x72656365697665644461746554696d65, 0x737472), (0x776f726b5072696365, 0x666c6f6174)],
  [],
  [⟨0x576f726b73, .many2one, 0x576f726b42696c6c696e67496e666f, 0, false⟩, ⟨0x437573746f6d65724163636f756e74, .one2many, 0x576f726b42696c6c696e67496e666f73, 0, false⟩, ⟨0x4572704c696e654974656d73, .many2many, 0x576f726b42696c6c696e67496e666f73, 0, false⟩],
  [0x576f726b73, 0x4572704c696e654974656d73]⟩
def m_WorkBillingInfo : List RClass := d_WorkBillingInfo :: m_Document

/-- CIM15/IEC61970/Informative/InfERPSupport/DocErpPersonRole.py:23 -/
def d_DocErpPersonRole : RClass := ⟨0x446f63457270506572736f6e526f6c65, 0x43494d31352e49454336313937302e496e666f726d61746976652e496e66455250537570706f72742e446f63457270506572736f6e526f6c65, 0x43494d31352e49454336313937302e496e666f726d61746976652e496e66436f6d6d6f6e2e526f6c65,
  [],
  [],
  [],
  [],
  [],
  [⟨0x446f63756d656e74, .one2many, 0x457270506572736f6e526f6c6573, 0, false⟩, ⟨0x457270506572736f6e, .one2many, 0x446f63756d656e74526f6c6573, 0, false⟩],
  []⟩
def m_DocErpPersonRole : List RClass := d_DocErpPersonRole :: m_Role

/-- CIM15/IEC61970/Informative/InfERPSupport/DocOrgRole.py:23 -/
def d_DocOrgRole : RClass := ⟨0x446f634f7267526f6c65, 0x43494d31352e49454336313937302e496e666f726d61746976652e496e66455250537570706f72742e446f634f7267526f6c65, 0x43494d31352e49454336313937302e496e666f726d61746976652e496e66436f6d6d6f6e2e526f6c65,
  [],
  [],
  [],
  [],
  [],
  [⟨0x446f63756d656e74, .one2many, 0x4572704f7267616e69736174696f6e526f6c6573, 0, false⟩, ⟨0x4572704f7267616e69736174696f6e, .one2many, 0x446f63756d656e74526f6c6573, 0, false⟩],
  []⟩
def m_DocOrgRole : List RClass := d_DocOrgRole :: m_Role

/-- CIM15/IEC61970/Informative/InfERPSupport/ErpBOM.py:23 -/
def d_ErpBOM : RClass := ⟨0x457270424f4d, 0x43494d31352e49454336313937302e496e666f726d61746976652e496e66455250537570706f72742e457270424f4d, 0x43494d31352e49454336313936382e436f6d6d6f6e2e446f63756d656e74,
  [],
  [],
  [],
  [],
  [],
  [⟨0x44657369676e, .one2many, 0x457270424f4d73, 0, false⟩, ⟨0x457270426f6d4974656d4461746173, .many2one, 0x457270424f4d, 0, false⟩],
  [0x457270426f6d4974656d4461746173]⟩
def m_ErpBOM : List RClass := d_ErpBOM :: m_Document

/-- CIM15/IEC61970/Informative/InfERPSupport/ErpChartOfAccounts.py:23 -/
def d_ErpChartOfAccounts : RClass := ⟨0x45727043686172744f664163636f756e7473, 0x43494d31352e49454336313937302e496e666f726d61746976652e496e66455250537570706f72742e45727043686172744f664163636f756e7473, 0x43494d31352e49454336313936382e436f6d6d6f6e2e446f63756d656e74,
  [],
  [],
  [],
  [],
  [],
  [],
  []⟩
def m_ErpChartOfAccounts : List RClass := d_ErpChartOfAccounts :: m_Document

/-- CIM15/IEC61970/Informative/InfERPSupport/ErpEngChangeOrder.py:23 -/
def d_ErpEngChangeOrder : RClass := ⟨0x457270456e674368616e67654f72646572, 0x43494d31352e49454336313937302e496e666f726d61746976652e496e66455250537570706f72742e457270456e674368616e67654f72646572, 0x43494d31352e49454336313936382e436f6d6d6f6e2e446f63756d656e74,
  [],
  [],
  [],
  [],
  [],
  [],
  []⟩
def m_ErpEngChangeOrder : List RClass := d_ErpEngChangeOrder :: m_Document

/-- CIM15/IEC61970/Informative/InfERPSupport/ErpInvoice.py:23 -/
def d_ErpInvoice : RClass := ⟨0x457270496e766f696365, 0x43494d31352e49454336313937302e496e666f726d61746976652e496e66455250537570706f72742e457270496e766f696365, 0x43494d31352e49454336313936382e436f6d6d6f6e2e446f63756d656e74,
  [(0x6d61696c656444617465, .str 0), (0x7472616e73616374696f6e4461746554696d65, .str 0), (0x616d6f756e74, .flt 0x0), (0x64756544617465, .str 0), (0x62696c6c4d656469614b696e64, .str 0x6f74686572), (0x7265666572656e63654e756d626572, .str 0), (0x6b696e64, .str 0x73616c6573), (0x7472616e7366657254797065, .str 0), (0x70726f466f726d61, .bool false)],
  [0x6d61696c656444617465, 0x7472616e73616374696f6e4461746554696d65, 0x616d6f756e74, 0x64756544617465, 0x62696c6c4d656469614b696e64, 0x7265666572656e63654e756d626572, 0x6b696e64, 0x7472616e7366657254797065, 0x70726f466f726d61],
  [(0x6d61696c656444617465, .str 0), (0x7472616e73616374696f6e4461746554696d65, .str 0), (0x616d6f756e74, .flt 0x0), (0x64756544617465, .str 0), (0x62696c6c4d656469614b696e64, .str 0x6f74686572), (0x7265666572656e63654e756d626572, .str 0), (0x6b696e64, .str 0x73616c6573), (0x7472616e7366657254797065, .str 0), (0x70726f466f726d61, .bool false)],
  [(0x6d61696c656444617465, 0x737472), (0x7472616e73616374696f6e4461746554696d65, 0x737472), (0x616d6f756e74, 0x666c6f6174), (0x64756544617465, 0x737472), (0x62696c6c4d656469614b696e64, 0x737472), (0x7265666572656e63654e756d626572, 0x737472), (0x6b696e64, 0x737472), (0x7472616e7366657254797065, 0x737472), (0x70726f466f726d61, 0x626f6f6c)],
  [(0x62696c6c4d656469614b696e64, 0x42696c6c4d656469614b696e64), (0x6b696e64, 0x457270496e766f6963654b696e64)],
  [⟨0x457270496e766f6963654c696e654974656d73, .many2one, 0x457270496e766f696365, 0, false⟩, ⟨0x437573746f6d65724163636f756e74, .one2many, 0x457270496e766f6963656573, 0, false⟩],
  [0x457270496e766f6963654c696e654974656d73]⟩
def m_ErpInvoice : List RClass := d_ErpInvoice :: m_Document

/-- CIM15/IEC61970/Informative/InfERPSupport/ErpInvoiceLineItem.py:23 -/
def d_ErpInvoiceLineItem : RClass := ⟨0x457270496e766f6963654c696e654974656d, 0x43494d31352e49454336313937302e496e666f726d61746976652e496e66455250537570706f72742e457270496e766f6963654c696e654974656d, 0x43494d31352e49454336313936382e436f6d6d6f6e2e446f63756d656e74,
  [(0x6c696e654e756d626572, .str 0), (0x676c4461746554696d65, .str 0), (0x6c696e65416d6f756e74, .flt 0x0), (0x6e6574416d6f756e74, .flt 0x0), (0x6b696e64, .str 0x6f74686572), (0x6c696e6556657273696f6e, .str 0), (0x676c4163636f756e74, .str 0), (0x70726576696f7573416d6f756e74, .flt 0x0)],
  [0x6c696e654e756d626572, 0x676c4461746554696d65, 0x6c696e65416d6f756e74, 0x6e6574416d6f756e74, 0x6b696e64, 0x6c696e6556657273696f6e, 0x676c4163636f756e74, 0x70726576696f7573416d6f756e74],
  [(0x6c696e654e756d626572, .str 0), (0x676c4461746554696d65, .str 0), (0x6c696e65416d6f756e74, .flt 0x0), (0x6e6574416d6f756e74, .flt 0x0), (0x6b696e64, .str 0x6f74686572), (0x6c696e6556657273696f6e, .str 0), (0x676c4163636f756e74, .str 0), (0x70726576696f7573416d6f756e74, .flt 0x0)],
  [(0x6c696e654e756d626572, 0x737472), (0x676c4461746554696d65, 0x737472), (0x6c696e65416d6f756e74, 0x666c6f6174), (0x6e6574416d6f756e74, 0x666c6f6174), (0x6b696e64, 0x737472), (0x6c696e6556657273696f6e, 0x737472), (0x676c4163636f756e74, 0x737472), (0x70726576696f7573416d6f756e74, 0x666c6f6174)],
  [(0x6b696e64, 0x457270496e766f6963654c696e654974656d4b696e64)],
  [⟨0x4572705061796d656e7473, .many2many, 0x457270496e766f6963654c696e654974656d73, 0, false⟩, ⟨0x436f6e7461696e6572457270496e766f6963654c696e654974656d, .one2many, 0x436f6d706f6e656e74457270496e766f6963654c696e654974656d73, 0, false⟩, ⟨0x576f726b42696c6c696e67496e666f73, .many2many, 0x4572704c696e654974656d73, 0, false⟩, ⟨0x45727051756f74654c696e654974656d, .one2one, 0x457270496e766f6963654c696e654974656d, 0, false⟩, ⟨0x5573657241747472696275746573, .many2many, 0x457270496e766f6963654c696e654974656d73, 0, false⟩, ⟨0x45727052656344656c764c696e654974656d, .one2one, 0x457270496e766f6963654c696e654974656d, 0, false⟩, ⟨0x45727050617961626c654c696e654974656d, .one2one, 0x457270496e766f6963654c696e654974656d, 0, false⟩, ⟨0x436f6d706f6e656e74457270496e766f6963654c696e654974656d73, .many2one, 0x436f6e7461696e6572457270496e766f6963654c696e654974656d, 0, false⟩, ⟨0x62696c6c506572696f64, .plainOne, 0, 0, false⟩, ⟨0x457270496e766f696365, .one2many, 0x457270496e766f6963654c696e654974656d73, 0, false⟩, ⟨0x437573746f6d657242696c6c696e67496e666f73, .many2many, 0x457270496e766f6963654c696e654974656d73, 0, false⟩, ⟨0x4572705265634c696e654974656d, .one2one, 0x457270496e766f6963654c696e654974656d, 0, false⟩, ⟨0x4572704a6f75726e616c456e7472696573, .many2one, 0x457270496e766f6963654c696e654974656d, 0, false⟩],
  [0x4572705061796d656e7473, 0x576f726b42696c6c696e67496e666f73, 0x5573657241747472696275746573, 0x436f6d706f6e656e74457270496e766f6963654c696e654974656d73, 0x437573746f6d657242696c6c696e67496e666f73, 0x4572704a6f75726e616c456e7472696573]⟩
def m_ErpInvoiceLineItem : List RClass := d_ErpInvoiceLineItem :: m_Document

/-- CIM15/IEC61970/Informative/InfERPSupport/ErpJournal.py:23 -/
def d_ErpJournal : RClass := ⟨0x4572704a6f75726e616c, 0x43494d31352e49454336313937302e496e666f726d61746976652e496e66455250537570706f72742e4572704a6f75726e616c, 0x43494d31352e49454336313936382e436f6d6d6f6e2e446f63756d656e74,
  [],
  [],
  [],
  [],
  [],
  [⟨0x4572704a6f75726e616c456e7472696573, .many2one, 0x4572704a6f75726e616c, 0, false⟩],
  [0x4572704a6f75726e616c456e7472696573]⟩
def m_ErpJournal : List RClass := d_ErpJournal :: m_Document

/-- CIM15/IEC61970/Informative/InfERPSupport/ErpLedger.py:23 -/
def d_ErpLedger : RClass := ⟨0x4572704c6564676572, 0x43494d31352e49454336313937302e496e666f726d61746976652e496e66455250537570706f72742e4572704c6564676572, 0x43494d31352e49454336313936382e436f6d6d6f6e2e446f63756d656e74,
  [],
  [],
  [],
  [],
  [],
  [⟨0x4572704c6564676572456e7472696573, .many2one, 0x4572704c6564676572, 0, false⟩],
  [0x4572704c6564676572456e7472696573]⟩
def m_ErpLedger : List RClass := d_ErpLedger :: m_Document

/-- CIM15/IEC61970/Informative/InfERPSupport/ErpLedgerBudget.py:23 -/
def d_ErpLedgerBudget : RClass := ⟨0x4572704c6564676572427564676574, 0x43494d31352e49454336313937302e496e666f726d61746976652e496e66455250537570706f72742e4572704c6564676572427564676574, 0x43494d31352e49454336313936382e436f6d6d6f6e2e446f63756d656e74,
  [],
  [],
  [],
  [],
  [],
  [⟨0x4572704c65644275644c696e654974656d73, .many2one, 0x4572704c6564676572427564676574, 0, false⟩],
  [0x4572704c65644275644c696e654974656d73]⟩
def m_ErpLedgerBudget : List RClass := d_ErpLedgerBudget :: m_Document

/-- CIM15/IEC61970/Informative/InfERPSupport/ErpOrganisation.py:23 -/
def d_ErpOrganisation : RClass := ⟨0x4572704f7267616e69736174696f6e, 0x43494d31352e49454336313937302e496e666f726d61746976652e496e66455250537570706f72742e4572704f7267616e69736174696f6e, 0x43494d31352e49454336313936382e436f6d6d6f6e2e4f7267616e69736174696f6e,
  [(0x63617465676f7279, .str 0), (0x636f6465, .str 0), (0x696e6475737472794944, .str 0), (0x676f7665726e6d656e744944, .str 0), (0x6f70744f7574, .bool false), (0x6973436f737443656e746572, .bool false), (0x697350726f66697443656e746572, .bool false), (0x6d6f6465, .str 0)],
  [0x63617465676f7279, 0x636f6465, 0x696e6475737472794944, 0x676f7665726e6d656e744944, 0x6f70744f7574, 0x6973436f737443656e746572, 0x697350726f66697443656e746572, 0x6d6f6465],
  [(0x63617465676f7279, .str 0), (0x636f6465, .str 0), (0x696e6475737472794944, .str 0), (0x676f7665726e6d656e744944, .str 0), (0x6f70744f7574, .bool false), (0x6973436f737443656e746572, .bool false), (0x697350726f66697443656e746572, .bool false), (0x6d6f6465, .str 0)],
  [(0x63617465676f7279, 0x737472), (0x636f6465, 0x737472), (0x696e6475737472794944, 0x737472), (0x676f7665726e6d656e744944, 0x737472), (0x6f70744f7574, 0x626f6f6c), (0x6973436f737443656e746572, 0x626f6f6c), (0x697350726f66697443656e746572, 0x626f6f6c), (0x6d6f6465, 0x737472)],
  [],
  [⟨0x4173736574526f6c6573, .many2one, 0x4572704f7267616e69736174696f6e, 0, false⟩, ⟨0x5265717565737473, .many2one, 0x4f7267616e69736174696f6e, 0, false⟩, ⟨0x4372657773, .many2many, 0x4f7267616e69736174696f6e73, 0, false⟩, ⟨0x4368616e67654974656d73, .many2one, 0x4f7267616e69736174696f6e, 0, false⟩, ⟨0x457270506572736f6e526f6c6573, .many2one, 0x4572704f7267616e69736174696f6e, 0, false⟩, ⟨0x41637469766974795265636f726473, .many2many, 0x4f7267616e69736174696f6e73, 0, false⟩, ⟨0x506172656e744f7267616e69736174696f6e526f6c6573, .many2one, 0x4368696c644f7267616e69736174696f6e, 0, false⟩, ⟨0x4c6f636174696f6e73, .many2many, 0x4572704f7267616e69736174696f6e73, 0, false⟩, ⟨0x4368696c644f7267616e69736174696f6e526f6c6573, .many2one, 0x506172656e744f7267616e69736174696f6e, 0, false⟩, ⟨0x506f77657253797374656d5265736f75726365526f6c6573, .many2one, 0x4572704f7267616e69736174696f6e, 0, false⟩, ⟨0x4c616e6450726f7065727479526f6c6573, .many2one, 0x4572704f7267616e69736174696f6e, 0, false⟩, ⟨0x446f63756d656e74526f6c6573, .many2one, 0x4572704f7267616e69736174696f6e, 0, false⟩],
  [0x4173736574526f6c6573, 0x5265717565737473, 0x4372657773, 0x4368616e67654974656d73, 0x457270506572736f6e526f6c6573, 0x41637469766974795265636f726473, 0x506172656e744f7267616e69736174696f6e526f6c6573, 0x4c6f636174696f6e73, 0x4368696c644f7267616e69736174696f6e526f6c6573, 0x506f77657253797374656d5265736f75726365526f6c6573, 0x4c616e6450726f7065727479526f6c6573, 0x446f63756d656e74526f6c6573]⟩
def m_ErpOrganisation : List RClass := d_ErpOrganisation :: m_Organisation

/-- CIM15/IEC61970/Informative/InfERPSupport/ErpPOLineItem.py:23 -/
def d_ErpPOLineItem : RClass := ⟨0x457270504f4c696e654974656d, 0x43494d31352e49454336313937302e496e666f726d61746976652e496e66455250537570706f72742e457270504f4c696e654974656d, 0x43494d31352e49454336313936382e436f6d6d6f6e2e446f63756d656e74,
  [],
  [],
  [],
  [],
  [],
  [⟨0x45727050757263686173654f72646572, .one2many, 0x457270504f4c696e654974656d73, 0, false⟩, ⟨0x45727052656344656c4c696e654974656d, .one2one, 0x457270504f4c696e654974656d, 0, false⟩, ⟨0x41737365744d6f64656c436174616c6f6775654974656d, .one2many, 0x457270504f4c696e654974656d73, 0, false⟩, ⟨0x4d6174657269616c4974656d, .one2many, 0x457270504f4c696e654974656d73, 0, false⟩, ⟨0x4572705265714c696e654974656d, .one2one, 0x457270504f4c696e654974656d, 0, false⟩],
  []⟩
def m_ErpPOLineItem : List RClass := d_ErpPOLineItem :: m_Document

/-- CIM15/IEC61970/Informative/InfERPSupport/ErpPayable.py:23 -/
def d_ErpPayable : RClass := ⟨0x45727050617961626c65, 0x43494d31352e49454336313937302e496e666f726d61746976652e496e66455250537570706f72742e45727050617961626c65, 0x43494d31352e49454336313936382e436f6d6d6f6e2e446f63756d656e74,
  [],
  [],
  [],
  [],
  [],
  [⟨0x436f6e74726163746f724974656d73, .many2many, 0x45727050617961626c6573, 0, false⟩, ⟨0x45727050617961626c654c696e654974656d73, .many2one, 0x45727050617961626c65, 0, false⟩],
  [0x436f6e74726163746f724974656d73, 0x45727050617961626c654c696e654974656d73]⟩
def m_ErpPayable : List RClass := d_ErpPayable :: m_Document

/-- CIM15/IEC61970/Informative/InfERPSupport/ErpPayment.py:23 -/
def d_ErpPayment : RClass := ⟨0x4572705061796d656e74, 0x43494d31352e49454336313937302e496e666f726d61746976652e496e66455250537570706f72742e4572705061796d656e74, 0x43494d31352e49454336313936382e436f6d6d6f6e2e446f63756d656e74,
  [(0x7465726d735061796d656e74, .str 0)],
  [0x7465726d735061796d656e74],
  [(0x7465726d735061796d656e74, .str 0)],
  [(0x7465726d735061796d656e74, 0x737472)],
  [],
  [⟨0x4572705265634c696e654974656d73, .many2many, 0x4572705061796d656e7473, 0, false⟩, ⟨0x45727050617961626c654c696e654974656d73, .many2many, 0x4572705061796d656e7473, 0, false⟩, ⟨0x457270496e766f6963654c696e654974656d73, .many2many, 0x4572705061796d656e7473, 0, false⟩],
  [0x4572705265634c696e654974656d73, 0x45727050617961626c654c696e654974656d73, 0x457270496e766f6963654c696e654974656d73]⟩
def m_ErpPayment : List RClass := d_ErpPayment :: m_Document

/-- CIM15/IEC61970/Informative/InfERPSupport/ErpProjectAccounting.py:23 -/
def d_ErpProjectAccounting : RClass := ⟨0x45727050726f6a6563744163636f756e74696e67, 0x43494d31352e49454336313937302e496e666f726d61746976652e496e66455250537570706f72742e45727050726f6a6563744163636f756e74696e67, 0x43494d31352e49454336313936382e436f6d6d6f6e2e446f63756d656e74,
  [],
  [],
  [],
  [],
  [],
  [⟨0x576f726b73, .many2one, 0x45727050726f6a6563744163636f756e74696e67, 0, false⟩, ⟨0x50726f6a65637473, .many2one, 0x45727050726f6a6563744163636f756e74696e67, 0, false⟩, ⟨0x45727054696d65456e7472696573, .many2one, 0x45727050726f6a6563744163636f756e74696e67, 0, false⟩, ⟨0x576f726b436f737444657461696c73, .many2one, 0x45727050726f6a6563744163636f756e74696e67, 0, false⟩],
  [0x576f726b73, 0x50726f6a65637473, 0x45727054696d65456e7472696573, 0x576f726b436f737444657461696c73]⟩
def m_ErpProjectAccounting : List RClass := d_ErpProjectAccounting :: m_Document

/-- CIM15/IEC61970/Informative/InfERPSupport/ErpPurchaseOrder.py:23 -/
def d_ErpPurchaseOrder : RClass := ⟨0x45727050757263686173654f72646572, 0x43494d31352e49454336313937302e496e666f726d61746976652e496e66455250537570706f72742e45727050757263686173654f72646572, 0x43494d31352e49454336313936382e436f6d6d6f6e2e446f63756d656e74,
  [],
  [],
  [],
  [],
  [],
  [⟨0x457270504f4c696e654974656d73, .many2one, 0x45727050757263686173654f72646572, 0, false⟩],
  [0x457270504f4c696e654974656d73]⟩
def m_ErpPurchaseOrder : List RClass := d_ErpPurchaseOrder :: m_Document

/-- CIM15/IEC61970/Informative/InfERPSupport/ErpQuote.py:23 -/
def d_ErpQuote : RClass := ⟨0x45727051756f7465, 0x43494d31352e49454336313937302e496e666f726d61746976652e496e66455250537570706f72742e45727051756f7465, 0x43494d31352e49454336313936382e436f6d6d6f6e2e446f63756d656e74,
  [],
  [],
  [],
  [],
  [],
  [⟨0x45727051756f74654c696e654974656d73, .many2one, 0x45727051756f7465, 0, false⟩],
  [0x45727051756f74654c696e654974656d73]⟩
def m_ErpQuote : List RClass := d_ErpQuote :: m_Document

/-- CIM15/IEC61970/Informative/InfERPSupport/ErpReceivable.py:23 -/
def d_ErpReceivable : RClass := ⟨0x45727052656365697661626c65, 0x43494d31352e49454336313937302e496e666f726d61746976652e496e66455250537570706f72742e45727052656365697661626c65, 0x43494d31352e49454336313936382e436f6d6d6f6e2e446f63756d656e74,
  [],
  [],
  [],
  [],
  [],
  [⟨0x4572705265634c696e654974656d73, .many2one, 0x45727052656365697661626c65, 0, false⟩],
  [0x4572705265634c696e654974656d73]⟩
def m_ErpReceivable : List RClass := d_ErpReceivable :: m_Document

/-- CIM15/IEC61970/Informative/InfERPSupport/ErpReceiveDelivery.py:23 -/
def d_ErpReceiveDelivery : RClass := ⟨0x4572705265636569766544656c6976657279, 0x43494d31352e49454336313937302e496e666f726d61746976652e496e66455250537570706f72742e4572705265636569766544656c6976657279, 0x43494d31352e49454336313936382e436f6d6d6f6e2e446f63756d656e74,
  [],
  [],
  [],
  [],
  [],
  [⟨0x45727052656344656c764c696e654974656d73, .many2one, 0x4572705265636569766544656c6976657279, 0, false⟩],
  [0x45727052656344656c764c696e654974656d73]⟩
def m_ErpReceiveDelivery : List RClass := d_ErpReceiveDelivery :: m_Document

/-- CIM15/IEC61970/Informative/InfERPSupport/ErpRequisition.py:23 -/
def d_ErpRequisition : RClass := ⟨0x4572705265717569736974696f6e, 0x43494d31352e49454336313937302e496e666f726d61746976652e496e66455250537570706f72742e4572705265717569736974696f6e, 0x43494d31352e49454336313936382e436f6d6d6f6e2e446f63756d656e74,
  [],
  [],
  [],
  [],
  [],
  [⟨0x4572705265714c696e654974656d73, .many2one, 0x4572705265717569736974696f6e, 0, false⟩],
  [0x4572705265714c696e654974656d73]⟩
def m_ErpRequisition : List RClass := d_ErpRequisition :: m_Document

/-- CIM15/IEC61970/Informative/InfERPSupport/ErpSalesOrder.py:23 -/
def d_ErpSalesOrder : RClass := ⟨0x45727053616c65734f72646572, 0x43494d31352e49454336313937302e496e666f726d61746976652e496e66455250537570706f72742e45727053616c65734f72646572, 0x43494d31352e49454336313936382e436f6d6d6f6e2e446f63756d656e74,
  [],
  [],
  [],
  [],
  [],
  [],
  []⟩
def m_ErpSalesOrder : List RClass := d_ErpSalesOrder :: m_Document

/-- CIM15/IEC61970/Informative/InfERPSupport/ErpTimeSheet.py:23 -/
def d_ErpTimeSheet : RClass := ⟨0x45727054696d655368656574, 0x43494d31352e49454336313937302e496e666f726d61746976652e496e66455250537570706f72742e45727054696d655368656574, 0x43494d31352e49454336313936382e436f6d6d6f6e2e446f63756d656e74,
  [],
  [],
  [],
  [],
  [],
  [⟨0x45727054696d65456e7472696573, .many2one, 0x45727054696d655368656574, 0, false⟩],
  [0x45727054696d65456e7472696573]⟩
def m_ErpTimeSheet : List RClass := d_ErpTimeSheet :: m_Document

/-- CIM15/IEC61970/Informative/InfERPSupport/OrgErpPersonRole.py:23 -/
def d_OrgErpPersonRole : RClass := ⟨0x4f7267457270506572736f6e526f6c65, 0x43494d31352e49454336313937302e496e666f726d61746976652e496e66455250537570706f72742e4f7267457270506572736f6e526f6c65, 0x43494d31352e49454336313937302e496e666f726d61746976652e496e66436f6d6d6f6e2e526f6c65,
  [(0x636c69656e744944, .str 0)],
  [0x636c69656e744944],
  [(0x636c69656e744944, .str 0)],
  [(0x636c69656e744944, 0x737472)],
  [],
  [⟨0x457270506572736f6e, .one2many, 0x4572704f7267616e69736174696f6e526f6c6573, 0, false⟩, ⟨0x4572704f7267616e69736174696f6e, .one2many, 0x457270506572736f6e526f6c6573, 0, false⟩],
  []⟩
def m_OrgErpPersonRole : List RClass := d_OrgErpPersonRole :: m_Role

/-- CIM15/IEC61970/Informative/InfERPSupport/OrgOrgRole.py:23 -/
def d_OrgOrgRole : RClass := ⟨0x4f72674f7267526f6c65, 0x43494d31352e49454336313937302e496e666f726d61746976652e496e66455250537570706f72742e4f72674f7267526f6c65, 0x43494d31352e49454336313937302e496e666f726d61746976652e496e66436f6d6d6f6e2e526f6c65,
  [(0x636c69656e744944, .str 0)],
  [0x636c69656e744944],
  [(0x636c69656e744944, .str 0)],
  [(0x636c69656e744944, 0x737472)],
  [],
  [⟨0x506172656e744f7267616e69736174696f6e, .one2many, 0x4368696c644f7267616e69736174696f6e526f6c6573, 0, false⟩, ⟨0x4368696c644f7267616e69736174696f6e, .one2many, 0x506172656e744f7267616e69736174696f6e526f6c6573, 0, false⟩],
  []⟩
def m_OrgOrgRole : List RClass := d_OrgOrgRole :: m_Role

/-- CIM15/IEC61970/Informative/InfGMLSupport/Diagram.py:23 -/
def d_Diagram : RClass := ⟨0x4469616772616d, 0x43494d31352e49454336313937302e496e666f726d61746976652e496e66474d4c537570706f72742e4469616772616d, 0x43494d31352e49454336313936382e436f6d6d6f6e2e446f63756d656e74,
  [(0x7931496e697469616c56696577, .flt 0x0), (0x6b696e64, .str 0x6f74686572), (0x7832496e697469616c56696577, .flt 0x0), (0x7831496e697469616c56696577, .flt 0x0), (0x6f7269656e746174696f6e, .str 0x6e65676174697665), (0x7932496e697469616c56696577, .flt 0x0)],
  [0x7931496e697469616c56696577, 0x6b696e64, 0x7832496e697469616c56696577, 0x7831496e697469616c56696577, 0x6f7269656e746174696f6e, 0x7932496e697469616c56696577],
  [(0x7931496e697469616c56696577, .flt 0x0), (0x6b696e64, .str 0x6f74686572), (0x7832496e697469616c56696577, .flt 0x0), (0x7831496e697469616c56696577, .flt 0x0), (0x6f7269656e746174696f6e, .str 0x6e65676174697665), (0x7932496e697469616c56696577, .flt 0x0)],
  [(0x7931496e697469616c56696577, 0x666c6f6174), (0x6b696e64, 0x737472), (0x7832496e697469616c56696577, 0x666c6f6174), (0x7831496e697469616c56696577, 0x666c6f6174), (0x6f7269656e746174696f6e, 0x737472), (0x7932496e697469616c56696577, 0x666c6f6174)],
  [(0x6b696e64, 0x4469616772616d4b696e64), (0x6f7269656e746174696f6e, 0x4f7269656e746174696f6e4b696e64)],
  [⟨0x4469616772616d4f626a65637473, .many2one, 0x4469616772616d, 0, false⟩, ⟨0x436f6f7264696e61746553797374656d, .one2many, 0x4469616772616d73, 0, false⟩, ⟨0x476d6c4469616772616d4f626a65637473, .many2many, 0x4469616772616d73, 0, false⟩, ⟨0x44657369676e4c6f636174696f6e73, .many2many, 0x4469616772616d73, 0, false⟩],
  [0x4469616772616d4f626a65637473, 0x476d6c4469616772616d4f626a65637473, 0x44657369676e4c6f636174696f6e73]⟩
def m_Diagram : List RClass := d_Diagram :: m_Document

/-- CIM15/IEC61970/Informative/InfGMLSupport/GmlLineGeometry.py:23 -/
def d_GmlLineGeometry : RClass := ⟨0x476d6c4c696e6547656f6d65747279, 0x43494d31352e49454336313937302e496e666f726d61746976652e496e66474d4c537570706f72742e476d6c4c696e6547656f6d65747279, 0x43494d31352e49454336313937302e496e666f726d61746976652e496e66474d4c537570706f72742e476d6c4469616772616d4f626a656374,
  [(0x736f7572636553696465, .str 0)],
  [0x736f7572636553696465],
  [(0x736f7572636553696465, .str 0)],
  [(0x736f7572636553696465, 0x737472)],
  [],
  [],
  []⟩
def m_GmlLineGeometry : List RClass := d_GmlLineGeometry :: m_GmlDiagramObject

/-- CIM15/IEC61970/Informative/InfGMLSupport/GmlLineSymbol.py:23 -/
def d_GmlLineSymbol : RClass := ⟨0x476d6c4c696e6553796d626f6c, 0x43494d31352e49454336313937302e496e666f726d61746976652e496e66474d4c537570706f72742e476d6c4c696e6553796d626f6c, 0x43494d31352e49454336313937302e496e666f726d61746976652e496e66474d4c537570706f72742e476d6c53796d626f6c,
  [(0x736f7572636553696465, .str 0)],
  [0x736f7572636553696465],
  [(0x736f7572636553696465, .str 0)],
  [(0x736f7572636553696465, 0x737472)],
  [],
  [⟨0x476d6c5374726f6b65, .one2many, 0x476d6c4c696e6553796d626f6c73, 0, false⟩, ⟨0x476d6c4469616772616d4f626a656374, .one2many, 0x476d6c4c696e6553796d626f6c73, 0, false⟩],
  []⟩
def m_GmlLineSymbol : List RClass := d_GmlLineSymbol :: m_GmlSymbol

/-- CIM15/IEC61970/Informative/InfGMLSupport/GmlPointGeometry.py:23 -/
def d_GmlPointGeometry : RClass := ⟨0x476d6c506f696e7447656f6d65747279, 0x43494d31352e49454336313937302e496e666f726d61746976652e496e66474d4c537570706f72742e476d6c506f696e7447656f6d65747279, 0x43494d31352e49454336313937302e496e666f726d61746976652e496e66474d4c537570706f72742e476d6c4469616772616d4f626a656374,
  [],
  [],
  [],
  [],
  [],
  [],
  []⟩
def m_GmlPointGeometry : List RClass := d_GmlPointGeometry :: m_GmlDiagramObject

/-- CIM15/IEC61970/Informative/InfGMLSupport/GmlPointSymbol.py:23 -/
def d_GmlPointSymbol : RClass := ⟨0x476d6c506f696e7453796d626f6c, 0x43494d31352e49454336313937302e496e666f726d61746976652e496e66474d4c537570706f72742e476d6c506f696e7453796d626f6c, 0x43494d31352e49454336313937302e496e666f726d61746976652e496e66474d4c537570706f72742e476d6c53796d626f6c,
  [],
  [],
  [],
  [],
  [],
  [⟨0x476d6c47726170686963, .one2many, 0x476d6c506f696e7453796d626f6c73, 0, false⟩, ⟨0x476d6c4469616772616d4f626a656374, .one2many, 0x476d6c506f696e7453796d626f6c73, 0, false⟩],
  []⟩
def m_GmlPointSymbol : List RClass := d_GmlPointSymbol :: m_GmlSymbol

/-- CIM15/IEC61970/Informative/InfGMLSupport/GmlPolygonGeometry.py:23 -/
def d_GmlPolygonGeometry : RClass := ⟨0x476d6c506f6c79676f6e47656f6d65747279, 0x43494d31352e49454336313937302e496e666f726d61746976652e496e66474d4c537570706f72742e476d6c506f6c79676f6e47656f6d65747279, 0x43494d31352e49454336313937302e496e666f726d61746976652e496e66474d4c537570706f72742e476d6c4469616772616d4f626a656374,
  [],
  [],
  [],
  [],
  [],
  [],
  []⟩
def m_GmlPolygonGeometry : List RClass := d_GmlPolygonGeometry :: m_GmlDiagramObject

/-- CIM15/IEC61970/Informative/InfGMLSupport/GmlPolygonSymbol.py:23 -/
def d_GmlPolygonSymbol : RClass := ⟨0x476d6c506f6c79676f6e53796d626f6c, 0x43494d31352e49454336313937302e496e666f726d61746976652e496e66474d4c537570706f72742e476d6c506f6c79676f6e53796d626f6c, 0x43494d31352e49454336313937302e496e666f726d61746976652e496e66474d4c537570706f72742e476d6c53796d626f6c,
  [],
  [],
  [],
  [],
  [],
  [⟨0x476d6c4469616772616d4f626a656374, .one2many, 0x476d6c506f6c79676f6e53796d626f6c73, 0, false⟩, ⟨0x476d6c46696c6c, .one2many, 0x476d6c506f6c79676f6e53796d626f6c73, 0, false⟩, ⟨0x476d6c5374726f6b65, .one2many, 0x476d6c506f6c79676f6e53796d626f6c73, 0, false⟩],
  []⟩
def m_GmlPolygonSymbol : List RClass := d_GmlPolygonSymbol :: m_GmlSymbol

/-- CIM15/IEC61970/Informative/InfGMLSupport/GmlRasterSymbol.py:23 -/
def d_GmlRasterSymbol : RClass := ⟨0x476d6c52617374657253796d626f6c, 0x43494d31352e49454336313937302e496e666f726d61746976652e496e66474d4c537570706f72742e476d6c52617374657253796d626f6c, 0x43494d31352e49454336313937302e496e666f726d61746976652e496e66474d4c537570706f72742e476d6c53796d626f6c,
  [(0x67726179536f757263656e616d65, .str 0), (0x677265656e536f757263654e616d65, .str 0), (0x6f706163697479, .flt 0x0), (0x72656c696566466163746f72, .str 0), (0x726564536f757263656e616d65, .str 0), (0x6f7665726c61706265686176696f7572, .str 0), (0x62726967686e6573734f6e6c79, .bool false), (0x626c7565536f757263656e616d65, .str 0)],
  [0x67726179536f757263656e616d65, 0x677265656e536f757263654e616d65, 0x6f706163697479, 0x72656c696566466163746f72, 0x726564536f757263656e616d65, 0x6f7665726c61706265686176696f7572, 0x62726967686e6573734f6e6c79, 0x626c7565536f757263656e616d65],
  [(0x67726179536f757263656e616d65, .str 0), (0x677265656e536f757263654e616d65, .str 0), (0x6f706163697479, .flt 0x0), (0x72656c696566466163746f72, .str 0), (0x726564536f757263656e616d65, .str 0), (0x6f7665726c61706265686176696f7572, .str 0), (0x62726967686e6573734f6e6c79, .bool false), (0x626c7565536f757263656e616d65, .str 0)],
  [(0x67726179536f757263656e616d65, 0x737472), (0x677265656e536f757263654e616d65, 0x737472), (0x6f706163697479, 0x666c6f6174), (0x72656c696566466163746f72, 0x737472), (0x726564536f757263656e616d65, 0x737472), (0x6f7665726c61706265686176696f7572, 0x737472), (0x62726967686e6573734f6e6c79, 0x626f6f6c), (0x626c7565536f757263656e616d65, 0x737472)],
  [],
  [⟨0x476d6c4469616772616d4f626a656374, .one2many, 0x476d6c52617374657253796d626f6c73, 0, false⟩],
  []⟩
def m_GmlRasterSymbol : List RClass := d_GmlRasterSymbol :: m_GmlSymbol

/-- CIM15/IEC61970/Informative/InfGMLSupport/GmlTextSymbol.py:23 -/
def d_GmlTextSymbol : RClass := ⟨0x476d6c5465787453796d626f6c, 0x43494d31352e49454336313937302e496e666f726d61746976652e496e66474d4c537570706f72742e476d6c5465787453796d626f6c, 0x43494d31352e49454336313937302e496e666f726d61746976652e496e66474d4c537570706f72742e476d6c53796d626f6c,
  [(0x6c6162656c, .str 0), (0x6c6162656c54797065, .str 0), (0x6669656c644944, .str 0), (0x6d696e466f6e7453697a65, .int 0), (0x70726f7065727479, .str 0)],
  [0x6c6162656c, 0x6c6162656c54797065, 0x6669656c644944, 0x6d696e466f6e7453697a65, 0x70726f7065727479],
  [(0x6c6162656c, .str 0), (0x6c6162656c54797065, .str 0), (0x6669656c644944, .str 0), (0x6d696e466f6e7453697a65, .int 0), (0x70726f7065727479, .str 0)],
  [(0x6c6162656c, 0x737472), (0x6c6162656c54797065, 0x737472), (0x6669656c644944, 0x737472), (0x6d696e466f6e7453697a65, 0x696e74), (0x70726f7065727479, 0x737472)],
  [],
  [⟨0x476d6c46696c6c, .one2many, 0x476d6c5465787453796d626f6c73, 0, false⟩, ⟨0x476d6c4c6162656c506c6163656d656e74, .one2many, 0x476d6c5465787453796d626f6c73, 0, false⟩, ⟨0x476d6c48616c6f, .one2many, 0x476d6c5465787453796d626f6c73, 0, false⟩, ⟨0x476d6c466f6e74, .one2many, 0x476d6c5465787453796d626f6c73, 0, false⟩, ⟨0x476d6c4469616772616d4f626a656374, .one2many, 0x476d6c5465787453796d626f6c73, 0, false⟩],
  []⟩
def m_GmlTextSymbol : List RClass := d_GmlTextSymbol :: m_GmlSymbol

/-- CIM15/IEC61970/Informative/InfLoadControl/LoadMgmtRecord.py:23 -/
def d_LoadMgmtRecord : RClass := ⟨0x4c6f61644d676d745265636f7264, 0x43494d31352e49454336313937302e496e666f726d61746976652e496e664c6f6164436f6e74726f6c2e4c6f61644d676d745265636f7264, 0x43494d31352e49454336313936382e436f6d6d6f6e2e41637469766974795265636f7264,
  [(0x6c6f6164526564756374696f6e, .flt 0x0)],
  [0x6c6f6164526564756374696f6e],
  [(0x6c6f6164526564756374696f6e, .flt 0x0)],
  [(0x6c6f6164526564756374696f6e, 0x666c6f6174)],
  [],
  [⟨0x4c6f61644d676d7446756e6374696f6e, .one2many, 0x4c6f61644d676d745265636f726473, 0, false⟩],
  []⟩
def m_LoadMgmtRecord : List RClass := d_LoadMgmtRecord :: m_ActivityRecord

/-- CIM15/IEC61970/Informative/InfLocations/OrgPropertyRole.py:23 -/
def d_OrgPropertyRole : RClass := ⟨0x4f726750726f7065727479526f6c65, 0x43494d31352e49454336313937302e496e666f726d61746976652e496e664c6f636174696f6e732e4f726750726f7065727479526f6c65, 0x43494d31352e49454336313937302e496e666f726d61746976652e496e66436f6d6d6f6e2e526f6c65,
  [],
  [],
  [],
  [],
  [],
  [⟨0x4c616e6450726f7065727479, .many2many, 0x4572704f7267616e69736174696f6e526f6c6573, 0, false⟩, ⟨0x4572704f7267616e69736174696f6e, .one2many, 0x4c616e6450726f7065727479526f6c6573, 0, false⟩],
  [0x4c616e6450726f7065727479]⟩
def m_OrgPropertyRole : List RClass := d_OrgPropertyRole :: m_Role

/-- CIM15/IEC61970/Informative/InfLocations/PersonPropertyRole.py:23 -/
def d_PersonPropertyRole : RClass := ⟨0x506572736f6e50726f7065727479526f6c65, 0x43494d31352e49454336313937302e496e666f726d61746976652e496e664c6f636174696f6e732e506572736f6e50726f7065727479526f6c65, 0x43494d31352e49454336313937302e496e666f726d61746976652e496e66436f6d6d6f6e2e526f6c65,
  [],
  [],
  [],
  [],
  [],
  [⟨0x457270506572736f6e, .one2many, 0x4c616e6450726f7065727479526f6c6573, 0, false⟩, ⟨0x4c616e6450726f7065727479, .one2many, 0x457270506572736f6e526f6c6573, 0, false⟩],
  []⟩
def m_PersonPropertyRole : List RClass := d_PersonPropertyRole :: m_Role

/-- CIM15/IEC61970/Informative/InfLocations/Zone.py:23 -/
def d_Zone : RClass := ⟨0x5a6f6e65, 0x43494d31352e49454336313937302e496e666f726d61746976652e496e664c6f636174696f6e732e5a6f6e65, 0x43494d31352e49454336313936382e436f6d6d6f6e2e4c6f636174696f6e,
  [(0x6b696e64, .str 0x776561746865725a6f6e65)],
  [0x6b696e64],
  [(0x6b696e64, .str 0x776561746865725a6f6e65)],
  [(0x6b696e64, 0x737472)],
  [(0x6b696e64, 0x5a6f6e654b696e64)],
  [],
  []⟩
def m_Zone : List RClass := d_Zone :: m_Location

/-- CIM15/IEC61970/Informative/InfOperations/ErpPersonScheduleStepRole.py:23 -/
def d_ErpPersonScheduleStepRole : RClass := ⟨0x457270506572736f6e5363686564756c6553746570526f6c65, 0x43494d31352e49454336313937302e496e666f726d61746976652e496e664f7065726174696f6e732e457270506572736f6e5363686564756c6553746570526f6c65, 0x43494d31352e49454336313937302e496e666f726d61746976652e496e66436f6d6d6f6e2e526f6c65,
  [],
  [],
  [],
  [],
  [],
  [⟨0x457270506572736f6e, .one2many, 0x537769746368696e6753746570526f6c6573, 0, false⟩, ⟨0x537769746368696e6753746570, .one2one, 0x457270506572736f6e526f6c65, 0, false⟩],
  []⟩
def m_ErpPersonScheduleStepRole : List RClass := d_ErpPersonScheduleStepRole :: m_Role

/-- CIM15/IEC61970/Informative/InfOperations/IncidentRecord.py:23 -/
def d_IncidentRecord : RClass := ⟨0x496e636964656e745265636f7264, 0x43494d31352e49454336313937302e496e666f726d61746976652e496e664f7065726174696f6e732e496e636964656e745265636f7264, 0x43494d31352e49454336313936382e436f6d6d6f6e2e446f63756d656e74,
  [],
  [],
  [],
  [],
  [],
  [⟨0x54726f75626c655469636b657473, .many2one, 0x496e636964656e745265636f7264, 0, false⟩, ⟨0x706572696f64, .plainOne, 0, 0, false⟩, ⟨0x496e636964656e74436f646573, .many2many, 0x496e636964656e745265636f726473, 0, false⟩],
  [0x54726f75626c655469636b657473, 0x496e636964656e74436f646573]⟩
def m_IncidentRecord : List RClass := d_IncidentRecord :: m_Document

/-- CIM15/IEC61970/Informative/InfOperations/LandBase.py:23 -/
def d_LandBase : RClass := ⟨0x4c616e6442617365, 0x43494d31352e49454336313937302e496e666f726d61746976652e496e664f7065726174696f6e732e4c616e6442617365, 0x43494d31352e49454336313936382e436f6d6d6f6e2e446f63756d656e74,
  [],
  [],
  [],
  [],
  [],
  [],
  []⟩
def m_LandBase : List RClass := d_LandBase :: m_Document

/-- CIM15/IEC61970/Informative/InfOperations/OperationalRestriction.py:23 -/
def d_OperationalRestriction : RClass := ⟨0x4f7065726174696f6e616c5265737472696374696f6e, 0x43494d31352e49454336313937302e496e666f726d61746976652e496e664f7065726174696f6e732e4f7065726174696f6e616c5265737472696374696f6e, 0x43494d31352e49454336313936382e436f6d6d6f6e2e446f63756d656e74,
  [],
  [],
  [],
  [],
  [],
  [⟨0x616374697665506572696f64, .plainOne, 0, 0, false⟩],
  []⟩
def m_OperationalRestriction : List RClass := d_OperationalRestriction :: m_Document

/-- CIM15/IEC61970/Informative/InfOperations/OrgPsrRole.py:23 -/
def d_OrgPsrRole : RClass := ⟨0x4f7267507372526f6c65, 0x43494d31352e49454336313937302e496e666f726d61746976652e496e664f7065726174696f6e732e4f7267507372526f6c65, 0x43494d31352e49454336313937302e496e666f726d61746976652e496e66436f6d6d6f6e2e526f6c65,
  [],
  [],
  [],
  [],
  [],
  [⟨0x4572704f7267616e69736174696f6e, .one2many, 0x506f77657253797374656d5265736f75726365526f6c6573, 0, false⟩, ⟨0x506f77657253797374656d5265736f75726365, .one2many, 0x4572704f7267616e69736174696f6e526f6c6573, 0, false⟩],
  []⟩
def m_OrgPsrRole : List RClass := d_OrgPsrRole :: m_Role

/-- CIM15/IEC61970/Informative/InfOperations/OutageNotification.py:23 -/
def d_OutageNotification : RClass := ⟨0x4f75746167654e6f74696669636174696f6e, 0x43494d31352e49454336313937302e496e666f726d61746976652e496e664f7065726174696f6e732e4f75746167654e6f74696669636174696f6e, 0x43494d31352e49454336313936382e436f6d6d6f6e2e446f63756d656e74,
  [(0x6578706563746564496e74657272757074696f6e436f756e74, .int 0), (0x6475726174696f6e, .flt 0x0), (0x726561736f6e, .str 0)],
  [0x6578706563746564496e74657272757074696f6e436f756e74, 0x6475726174696f6e, 0x726561736f6e],
  [(0x6578706563746564496e74657272757074696f6e436f756e74, .int 0), (0x6475726174696f6e, .flt 0x0), (0x726561736f6e, .str 0)],
  [(0x6578706563746564496e74657272757074696f6e436f756e74, 0x696e74), (0x6475726174696f6e, 0x666c6f6174), (0x726561736f6e, 0x737472)],
  [],
  [⟨0x437573746f6d65724461746173, .many2many, 0x4f75746167654e6f74696669636174696f6e73, 0, false⟩],
  [0x437573746f6d65724461746173]⟩
def m_OutageNotification : List RClass := d_OutageNotification :: m_Document

/-- CIM15/IEC61970/Informative/InfOperations/OutageRecord.py:23 -/
def d_OutageRecord : RClass := ⟨0x4f75746167655265636f7264, 0x43494d31352e49454336313937302e496e666f726d61746976652e496e664f7065726174696f6e732e4f75746167655265636f7264, 0x43494d31352e49454336313936382e436f6d6d6f6e2e446f63756d656e74,
  [(0x656e644461746554696d65, .str 0), (0x6973506c616e6e6564, .bool false), (0x64616d616765436f6465, .str 0), (0x616374696f6e54616b656e, .str 0), (0x6d6f6465, .str 0)],
  [0x656e644461746554696d65, 0x6973506c616e6e6564, 0x64616d616765436f6465, 0x616374696f6e54616b656e, 0x6d6f6465],
  [(0x656e644461746554696d65, .str 0), (0x6973506c616e6e6564, .bool false), (0x64616d616765436f6465, .str 0), (0x616374696f6e54616b656e, .str 0), (0x6d6f6465, .str 0)],
  [(0x656e644461746554696d65, 0x737472), (0x6973506c616e6e6564, 0x626f6f6c), (0x64616d616765436f6465, 0x737472), (0x616374696f6e54616b656e, 0x737472), (0x6d6f6465, 0x737472)],
  [],
  [⟨0x4f7574616765436f646573, .many2many, 0x4f75746167655265636f726473, 0, false⟩, ⟨0x4f75746167655265706f7274, .one2one, 0x4f75746167655265636f7264, 0, false⟩, ⟨0x4f75746167655374657073, .many2one, 0x4f75746167655265636f7264, 0, false⟩],
  [0x4f7574616765436f646573, 0x4f75746167655374657073]⟩
def m_OutageRecord : List RClass := d_OutageRecord :: m_Document

/-- CIM15/IEC61970/Informative/InfOperations/OutageReport.py:23 -/
def d_OutageReport : RClass := ⟨0x4f75746167655265706f7274, 0x43494d31352e49454336313937302e496e666f726d61746976652e496e664f7065726174696f6e732e4f75746167655265706f7274, 0x43494d31352e49454336313936382e436f6d6d6f6e2e446f63756d656e74,
  [(0x637573746f6d6572436f756e74, .int 0), (0x61766572616765436d6c, .flt 0x0), (0x6f75746167654475726174696f6e, .flt 0x0), (0x746f74616c436d6c, .flt 0x0)],
  [0x637573746f6d6572436f756e74, 0x61766572616765436d6c, 0x6f75746167654475726174696f6e, 0x746f74616c436d6c],
  [(0x637573746f6d6572436f756e74, .int 0), (0x61766572616765436d6c, .flt 0x0), (0x6f75746167654475726174696f6e, .flt 0x0), (0x746f74616c436d6c, .flt 0x0)],
  [(0x637573746f6d6572436f756e74, 0x696e74), (0x61766572616765436d6c, 0x666c6f6174), (0x6f75746167654475726174696f6e, 0x666c6f6174), (0x746f74616c436d6c, 0x666c6f6174)],
  [],
  [⟨0x4f75746167655265636f7264, .one2one, 0x4f75746167655265706f7274, 0, false⟩, ⟨0x4f7574616765486973746f7279, .one2many, 0x4f75746167655265706f727473, 0, false⟩],
  []⟩
def m_OutageReport : List RClass := d_OutageReport :: m_Document

/-- CIM15/IEC61970/Informative/InfOperations/OutageStepPsrRole.py:23 -/
def d_OutageStepPsrRole : RClass := ⟨0x4f757461676553746570507372526f6c65, 0x43494d31352e49454336313937302e496e666f726d61746976652e496e664f7065726174696f6e732e4f757461676553746570507372526f6c65, 0x43494d31352e49454336313937302e496e666f726d61746976652e496e66436f6d6d6f6e2e526f6c65,
  [],
  [],
  [],
  [],
  [],
  [⟨0x4f757461676553746570, .one2many, 0x436f6e64756374696e6745717569706d656e74526f6c6573, 0, false⟩, ⟨0x436f6e64756374696e6745717569706d656e74, .one2many, 0x4f757461676553746570526f6c6573, 0, false⟩],
  []⟩
def m_OutageStepPsrRole : List RClass := d_OutageStepPsrRole :: m_Role

/-- CIM15/IEC61970/Informative/InfOperations/PSREvent.py:23 -/
def d_PSREvent : RClass := ⟨0x5053524576656e74, 0x43494d31352e49454336313937302e496e666f726d61746976652e496e664f7065726174696f6e732e5053524576656e74, 0x43494d31352e49454336313936382e436f6d6d6f6e2e41637469766974795265636f7264,
  [(0x6b696e64, .str 0x70656e64696e6752656d6f7665)],
  [0x6b696e64],
  [(0x6b696e64, .str 0x70656e64696e6752656d6f7665)],
  [(0x6b696e64, 0x737472)],
  [(0x6b696e64, 0x5053524576656e744b696e64)],
  [⟨0x506f77657253797374656d5265736f75726365, .one2many, 0x5053524576656e74, 0, false⟩],
  []⟩
def m_PSREvent : List RClass := d_PSREvent :: m_ActivityRecord

/-- CIM15/IEC61970/Informative/InfOperations/PlannedOutage.py:23 -/
def d_PlannedOutage : RClass := ⟨0x506c616e6e65644f7574616765, 0x43494d31352e49454336313937302e496e666f726d61746976652e496e664f7065726174696f6e732e506c616e6e65644f7574616765, 0x43494d31352e49454336313936382e436f6d6d6f6e2e446f63756d656e74,
  [(0x6b696e64, .str 0x6669786564)],
  [0x6b696e64],
  [(0x6b696e64, .str 0x6669786564)],
  [(0x6b696e64, 0x737472)],
  [(0x6b696e64, 0x4f75746167654b696e64)],
  [⟨0x437573746f6d65724461746173, .many2one, 0x506c616e6e65644f7574616765, 0, false⟩, ⟨0x4f75746167655363686564756c6573, .many2one, 0x506c616e6e65644f7574616765, 0, false⟩],
  [0x437573746f6d65724461746173, 0x4f75746167655363686564756c6573]⟩
def m_PlannedOutage : List RClass := d_PlannedOutage :: m_Document

/-- CIM15/IEC61970/Informative/InfOperations/SafetyDocument.py:23 -/
def d_SafetyDocument : RClass := ⟨0x536166657479446f63756d656e74, 0x43494d31352e49454336313937302e496e666f726d61746976652e496e664f7065726174696f6e732e536166657479446f63756d656e74, 0x43494d31352e49454336313936382e436f6d6d6f6e2e446f63756d656e74,
  [],
  [],
  [],
  [],
  [],
  [⟨0x436c656172616e636554616773, .many2one, 0x536166657479446f63756d656e74, 0, false⟩, ⟨0x5363686564756c655374657073, .many2one, 0x536166657479446f63756d656e74, 0, false⟩, ⟨0x506f77657253797374656d5265736f75726365, .one2many, 0x536166657479446f63756d656e7473, 0, false⟩],
  [0x436c656172616e636554616773, 0x5363686564756c655374657073]⟩
def m_SafetyDocument : List RClass := d_SafetyDocument :: m_Document

/-- CIM15/IEC61970/Informative/InfOperations/SwitchingSchedule.py:23 -/
def d_SwitchingSchedule : RClass := ⟨0x537769746368696e675363686564756c65, 0x43494d31352e49454336313937302e496e666f726d61746976652e496e664f7065726174696f6e732e537769746368696e675363686564756c65, 0x43494d31352e49454336313936382e436f6d6d6f6e2e446f63756d656e74,
  [(0x726561736f6e, .str 0)],
  [0x726561736f6e],
  [(0x726561736f6e, .str 0)],
  [(0x726561736f6e, 0x737472)],
  [],
  [⟨0x5363686564756c655374657073, .many2one, 0x537769746368696e675363686564756c65, 0, false⟩, ⟨0x576f726b5461736b, .one2many, 0x537769746368696e675363686564756c6573, 0, false⟩, ⟨0x4372657773, .many2many, 0x537769746368696e675363686564756c6573, 0, false⟩, ⟨0x696e74657276616c, .plainOne, 0, 0, false⟩],
  [0x5363686564756c655374657073, 0x4372657773]⟩
def m_SwitchingSchedule : List RClass := d_SwitchingSchedule :: m_Document

/-- CIM15/IEC61970/Informative/InfOperations/TroubleTicket.py:23 -/
def d_TroubleTicket : RClass := ⟨0x54726f75626c655469636b6574, 0x43494d31352e49454336313937302e496e666f726d61746976652e496e664f7065726174696f6e732e54726f75626c655469636b6574, 0x43494d31352e49454336313936382e436f6d6d6f6e2e446f63756d656e74,
  [(0x666972737443616c6c4461746554696d65, .str 0), (0x657374696d61746564526573746f72654461746554696d65, .str 0), (0x696e666f726d4265666f7265526573746f726564, .bool false), (0x7265706f7274696e674b696e64, .str 0x656d61696c), (0x7072696f72697479, .str 0), (0x696e666f726d4166746572526573746f726564, .bool false), (0x616476696365, .str 0), (0x68617a617264436f6465, .str 0), (0x63616c6c4261636b, .bool false)],
  [0x666972737443616c6c4461746554696d65, 0x657374696d61746564526573746f72654461746554696d65, 0x696e666f726d4265666f7265526573746f726564, 0x7265706f7274696e674b696e64, 0x7072696f72697479, 0x696e666f726d4166746572526573746f726564, 0x616476696365, 0x68617a617264436f6465, 0x63616c6c4261636b],
  [(0x666972737443616c6c4461746554696d65, .str 0), (0x657374696d61746564526573746f72654461746554696d65, .str 0), (0x696e666f726d4265666f7265526573746f726564, .bool false), (0x7265706f7274696e674b696e64, .str 0x656d61696c), (0x7072696f72697479, .str 0), (0x696e666f726d4166746572526573746f726564, .bool false), (0x616476696365, .str 0), (0x68617a617264436f6465, .str 0), (0x63616c6c4261636b, .bool false)],
  [(0x666972737443616c6c4461746554696d65, 0x737472), (0x657374696d61746564526573746f72654461746554696d65, 0x737472), (0x696e666f726d4265666f7265526573746f726564, 0x626f6f6c), (0x7265706f7274696e674b696e64, 0x737472), (0x7072696f72697479, 0x737472), (0x696e666f726d4166746572526573746f726564, 0x626f6f6c), (0x616476696365, 0x737472), (0x68617a617264436f6465, 0x737472), (0x63616c6c4261636b, 0x626f6f6c)],
  [(0x7265706f7274696e674b696e64, 0x54726f75626c655265706f7274696e674b696e64)],
  [⟨0x43616c6c4261636b73, .many2many, 0x54726f75626c655469636b657473, 0, false⟩, ⟨0x74726f75626c65506572696f64, .plainOne, 0, 0, false⟩, ⟨0x437573746f6d657244617461, .one2many, 0x54726f75626c655469636b657473, 0, false⟩, ⟨0x496e636964656e745265636f7264, .one2many, 0x54726f75626c655469636b657473, 0, false⟩],
  [0x43616c6c4261636b73]⟩
def m_TroubleTicket : List RClass := d_TroubleTicket :: m_Document

/-- CIM15/IEC61970/Informative/InfWork/AccessPermit.py:23 -/
def d_AccessPermit : RClass := ⟨0x4163636573735065726d6974, 0x43494d31352e49454336313937302e496e666f726d61746976652e496e66576f726b2e4163636573735065726d6974, 0x43494d31352e49454336313936382e436f6d6d6f6e2e446f63756d656e74,
  [(0x6170706c69636174696f6e4e756d626572, .str 0), (0x7061796d656e74, .flt 0x0), (0x65666665637469766544617465, .str 0), (0x65787069726174696f6e44617465, .str 0), (0x7065726d69744944, .str 0)],
  [0x6170706c69636174696f6e4e756d626572, 0x7061796d656e74, 0x65666665637469766544617465, 0x65787069726174696f6e44617465, 0x7065726d69744944],
  [(0x6170706c69636174696f6e4e756d626572, .str 0), (0x7061796d656e74, .flt 0x0), (0x65666665637469766544617465, .str 0), (0x65787069726174696f6e44617465, .str 0), (0x7065726d69744944, .str 0)],
  [(0x6170706c69636174696f6e4e756d626572, 0x737472), (0x7061796d656e74, 0x666c6f6174), (0x65666665637469766544617465, 0x737472), (0x65787069726174696f6e44617465, 0x737472), (0x7065726d69744944, 0x737472)],
  [],
  [],
  []⟩
def m_AccessPermit : List RClass := d_AccessPermit :: m_Document

/-- CIM15/IEC61970/Informative/InfWork/Appointment.py:23 -/
def d_Appointment : RClass := ⟨0x4170706f696e746d656e74, 0x43494d31352e49454336313937302e496e666f726d61746976652e496e66576f726b2e4170706f696e746d656e74, 0x43494d31352e49454336313937302e496e666f726d61746976652e496e66436f6d6d6f6e2e5363686564756c65644576656e74,
  [(0x63616c6c4168656164, .bool false), (0x72656d61726b, .str 0)],
  [0x63616c6c4168656164, 0x72656d61726b],
  [(0x63616c6c4168656164, .bool false), (0x72656d61726b, .str 0)],
  [(0x63616c6c4168656164, 0x626f6f6c), (0x72656d61726b, 0x737472)],
  [],
  [⟨0x61646472657373, .plainOne, 0, 0, false⟩, ⟨0x457270506572736f6e73, .many2many, 0x4170706f696e746d656e7473, 0, false⟩, ⟨0x6d656574696e67496e74657276616c, .plainOne, 0, 0, false⟩, ⟨0x43616c6c4261636b, .one2many, 0x4170706f696e746d656e7473, 0, false⟩],
  [0x457270506572736f6e73]⟩
def m_Appointment : List RClass := d_Appointment :: m_ScheduledEvent

/-- CIM15/IEC61970/Informative/InfWork/Assignment.py:23 -/
def d_Assignment : RClass := ⟨0x41737369676e6d656e74, 0x43494d31352e49454336313937302e496e666f726d61746976652e496e66576f726b2e41737369676e6d656e74, 0x43494d31352e49454336313936382e436f6d6d6f6e2e446f63756d656e74,
  [],
  [],
  [],
  [],
  [],
  [⟨0x4372657773, .many2many, 0x41737369676e6d656e7473, 0, false⟩, ⟨0x656666656374697665506572696f64, .plainOne, 0, 0, false⟩],
  [0x4372657773]⟩
def m_Assignment : List RClass := d_Assignment :: m_Document

/-- CIM15/IEC61970/Informative/InfWork/BusinessCase.py:23 -/
def d_BusinessCase : RClass := ⟨0x427573696e65737343617365, 0x43494d31352e49454336313937302e496e666f726d61746976652e496e66576f726b2e427573696e65737343617365, 0x43494d31352e49454336313936382e436f6d6d6f6e2e446f63756d656e74,
  [(0x636f72706f72617465436f6465, .str 0)],
  [0x636f72706f72617465436f6465],
  [(0x636f72706f72617465436f6465, .str 0)],
  [(0x636f72706f72617465436f6465, 0x737472)],
  [],
  [⟨0x50726f6a65637473, .many2one, 0x427573696e65737343617365, 0, false⟩, ⟨0x576f726b73, .many2one, 0x427573696e65737343617365, 0, false⟩],
  [0x50726f6a65637473, 0x576f726b73]⟩
def m_BusinessCase : List RClass := d_BusinessCase :: m_Document

/-- CIM15/IEC61970/Informative/InfWork/CompatibleUnit.py:23 -/
def d_CompatibleUnit : RClass := ⟨0x436f6d70617469626c65556e6974, 0x43494d31352e49454336313937302e496e666f726d61746976652e496e66576f726b2e436f6d70617469626c65556e6974, 0x43494d31352e49454336313936382e436f6d6d6f6e2e446f63756d656e74,
  [(0x7175616e74697479, .str 0), (0x657374436f7374, .flt 0x0)],
  [0x7175616e74697479, 0x657374436f7374],
  [(0x7175616e74697479, .str 0), (0x657374436f7374, .flt 0x0)],
  [(0x7175616e74697479, 0x737472), (0x657374436f7374, 0x666c6f6174)],
  [],
  [⟨0x4355576f726b45717569706d656e744974656d73, .many2many, 0x436f6d70617469626c65556e697473, 0, false⟩, ⟨0x44657369676e4c6f636174696f6e435573, .many2many, 0x436f6d70617469626c65556e697473, 0, false⟩, ⟨0x435547726f7570, .one2many, 0x436f6d70617469626c65556e697473, 0, false⟩, ⟨0x4355417373657473, .many2many, 0x436f6d70617469626c65556e697473, 0, false⟩, ⟨0x50726f7065727479556e6974, .one2many, 0x436f6d70617469626c65556e697473, 0, false⟩, ⟨0x436f737454797065, .one2many, 0x436f6d70617469626c65556e697473, 0, false⟩, ⟨0x4355416c6c6f7761626c65416374696f6e, .one2many, 0x436f6d70617469626c65556e697473, 0, false⟩, ⟨0x50726f63656475726573, .many2many, 0x436f6d70617469626c65556e697473, 0, false⟩, ⟨0x4355436f6e74726163746f724974656d73, .many2many, 0x436f6d70617469626c65556e697473, 0, false⟩, ⟨0x43554d6174657269616c4974656d73, .many2many, 0x436f6d70617469626c65556e697473, 0, false⟩, ⟨0x43554c61626f724974656d73, .many2many, 0x436f6d70617469626c65556e697473, 0, false⟩],
  [0x4355576f726b45717569706d656e744974656d73, 0x44657369676e4c6f636174696f6e435573, 0x4355417373657473, 0x50726f63656475726573, 0x4355436f6e74726163746f724974656d73, 0x43554d6174657269616c4974656d73, 0x43554c61626f724974656d73]⟩
def m_CompatibleUnit : List RClass := d_CompatibleUnit :: m_Document

/-- CIM15/IEC61970/Informative/InfWork/Design.py:23 -/
def d_Design : RClass := ⟨0x44657369676e, 0x43494d31352e49454336313937302e496e666f726d61746976652e496e66576f726b2e44657369676e, 0x43494d31352e49454336313936382e436f6d6d6f6e2e446f63756d656e74,
  [(0x636f7374457374696d617465, .flt 0x0), (0x6b696e64, .str 0x61734275696c74), (0x7072696365, .flt 0x0)],
  [0x636f7374457374696d617465, 0x6b696e64, 0x7072696365],
  [(0x636f7374457374696d617465, .flt 0x0), (0x6b696e64, .str 0x61734275696c74), (0x7072696365, .flt 0x0)],
  [(0x636f7374457374696d617465, 0x666c6f6174), (0x6b696e64, 0x737472), (0x7072696365, 0x666c6f6174)],
  [(0x6b696e64, 0x44657369676e4b696e64)],
  [⟨0x44657369676e4c6f636174696f6e73, .many2many, 0x44657369676e73, 0, false⟩, ⟨0x576f726b436f737444657461696c73, .many2one, 0x44657369676e, 0, false⟩, ⟨0x436f6e646974696f6e466163746f7273, .many2many, 0x44657369676e73, 0, false⟩, ⟨0x576f726b5461736b73, .many2one, 0x44657369676e, 0, false⟩, ⟨0x457270424f4d73, .many2one, 0x44657369676e, 0, false⟩, ⟨0x576f726b, .one2many, 0x44657369676e73, 0, false⟩, ⟨0x44657369676e4c6f636174696f6e73435573, .many2many, 0x44657369676e73, 0, false⟩, ⟨0x45727051756f74654c696e654974656d, .one2one, 0x44657369676e, 0, false⟩],
  [0x44657369676e4c6f636174696f6e73, 0x576f726b436f737444657461696c73, 0x436f6e646974696f6e466163746f7273, 0x576f726b5461736b73, 0x457270424f4d73, 0x44657369676e4c6f636174696f6e73435573]⟩
def m_Design : List RClass := d_Design :: m_Document

/-- CIM15/IEC61970/Informative/InfWork/InfoQuestion.py:23 -/
def d_InfoQuestion : RClass := ⟨0x496e666f5175657374696f6e, 0x43494d31352e49454336313937302e496e666f726d61746976652e496e66576f726b2e496e666f5175657374696f6e, 0x43494d31352e49454336313936382e436f6d6d6f6e2e446f63756d656e74,
  [(0x616e73776572, .str 0), (0x616e7377657252656d61726b, .str 0), (0x7175657374696f6e54657874, .str 0), (0x616e737765724461746554696d65, .str 0), (0x7175657374696f6e436f6465, .str 0), (0x7175657374696f6e52656d61726b, .str 0), (0x7175657374696f6e43617465676f7279, .str 0)],
  [0x616e73776572, 0x616e7377657252656d61726b, 0x7175657374696f6e54657874, 0x616e737765724461746554696d65, 0x7175657374696f6e436f6465, 0x7175657374696f6e52656d61726b, 0x7175657374696f6e43617465676f7279],
  [(0x616e73776572, .str 0), (0x616e7377657252656d61726b, .str 0), (0x7175657374696f6e54657874, .str 0), (0x616e737765724461746554696d65, .str 0), (0x7175657374696f6e436f6465, .str 0), (0x7175657374696f6e52656d61726b, .str 0), (0x7175657374696f6e43617465676f7279, .str 0)],
  [(0x616e73776572, 0x737472), (0x616e7377657252656d61726b, 0x737472), (0x7175657374696f6e54657874, 0x737472), (0x616e737765724461746554696d65, 0x737472), (0x7175657374696f6e436f6465, 0x737472), (0x7175657374696f6e52656d61726b, 0x737472), (0x7175657374696f6e43617465676f7279, 0x737472)],
  [],
  [],
  []⟩
def m_InfoQuestion : List RClass := d_InfoQuestion :: m_Document

/-- CIM15/IEC61970/Informative/InfWork/NonStandardItem.py:23 -/
def d_NonStandardItem : RClass := ⟨0x4e6f6e5374616e646172644974656d, 0x43494d31352e49454336313937302e496e666f726d61746976652e496e66576f726b2e4e6f6e5374616e646172644974656d, 0x43494d31352e49454336313936382e436f6d6d6f6e2e446f63756d656e74,
  [(0x636f6465, .str 0), (0x616d6f756e74, .flt 0x0)],
  [0x636f6465, 0x616d6f756e74],
  [(0x636f6465, .str 0), (0x616d6f756e74, .flt 0x0)],
  [(0x636f6465, 0x737472), (0x616d6f756e74, 0x666c6f6174)],
  [],
  [],
  []⟩
def m_NonStandardItem : List RClass := d_NonStandardItem :: m_Document

/-- CIM15/IEC61970/Informative/InfWork/OneCallRequest.py:23 -/
def d_OneCallRequest : RClass := ⟨0x4f6e6543616c6c52657175657374, 0x43494d31352e49454336313937302e496e666f726d61746976652e496e66576f726b2e4f6e6543616c6c52657175657374, 0x43494d31352e49454336313936382e436f6d6d6f6e2e446f63756d656e74,
  [(0x6d61726b6564496e64696361746f72, .bool false), (0x6578706c6f736976657355736564, .bool false), (0x6d61726b696e67496e737472756374696f6e, .str 0)],
  [0x6d61726b6564496e64696361746f72, 0x6578706c6f736976657355736564, 0x6d61726b696e67496e737472756374696f6e],
  [(0x6d61726b6564496e64696361746f72, .bool false), (0x6578706c6f736976657355736564, .bool false), (0x6d61726b696e67496e737472756374696f6e, .str 0)],
  [(0x6d61726b6564496e64696361746f72, 0x626f6f6c), (0x6578706c6f736976657355736564, 0x626f6f6c), (0x6d61726b696e67496e737472756374696f6e, 0x737472)],
  [],
  [⟨0x576f726b4c6f636174696f6e73, .many2one, 0x4f6e6543616c6c52657175657374, 0, false⟩],
  [0x576f726b4c6f636174696f6e73]⟩
def m_OneCallRequest : List RClass := d_OneCallRequest :: m_Document

/-- CIM15/IEC61970/Informative/InfWork/Project.py:23 -/
def d_Project : RClass := ⟨0x50726f6a656374, 0x43494d31352e49454336313937302e496e666f726d61746976652e496e66576f726b2e50726f6a656374, 0x43494d31352e49454336313936382e436f6d6d6f6e2e446f63756d656e74,
  [(0x627564676574, .flt 0x0)],
  [0x627564676574],
  [(0x627564676574, .flt 0x0)],
  [(0x627564676574, 0x666c6f6174)],
  [],
  [⟨0x427573696e65737343617365, .one2many, 0x50726f6a65637473, 0, false⟩, ⟨0x53756250726f6a65637473, .many2one, 0x506172656e7450726f6a656374, 0, false⟩, ⟨0x45727050726f6a6563744163636f756e74696e67, .one2many, 0x50726f6a65637473, 0, false⟩, ⟨0x5265717565737473, .many2many, 0x50726f6a65637473, 0, false⟩, ⟨0x576f726b73, .many2one, 0x50726f6a656374, 0, false⟩, ⟨0x506172656e7450726f6a656374, .one2many, 0x53756250726f6a65637473, 0, false⟩],
  [0x53756250726f6a65637473, 0x5265717565737473, 0x576f726b73]⟩
def m_Project : List RClass := d_Project :: m_Document

/-- CIM15/IEC61970/Informative/InfWork/Regulation.py:23 -/
def d_Regulation : RClass := ⟨0x526567756c6174696f6e, 0x43494d31352e49454336313937302e496e666f726d61746976652e496e66576f726b2e526567756c6174696f6e, 0x43494d31352e49454336313936382e436f6d6d6f6e2e446f63756d656e74,
  [(0x7265666572656e63654e756d626572, .str 0)],
  [0x7265666572656e63654e756d626572],
  [(0x7265666572656e63654e756d626572, .str 0)],
  [(0x7265666572656e63654e756d626572, 0x737472)],
  [],
  [],
  []⟩
def m_Regulation : List RClass := d_Regulation :: m_Document

/-- CIM15/IEC61970/Informative/InfWork/Request.py:23 -/
def d_Request : RClass := ⟨0x52657175657374, 0x43494d31352e49454336313937302e496e666f726d61746976652e496e66576f726b2e52657175657374, 0x43494d31352e49454336313936382e436f6d6d6f6e2e446f63756d656e74,
  [(0x616374696f6e4e6565646564, .str 0), (0x7072696f72697479, .str 0), (0x636f72706f72617465436f6465, .str 0)],
  [0x616374696f6e4e6565646564, 0x7072696f72697479, 0x636f72706f72617465436f6465],
  [(0x616374696f6e4e6565646564, .str 0), (0x7072696f72697479, .str 0), (0x636f72706f72617465436f6465, .str 0)],
  [(0x616374696f6e4e6565646564, 0x737472), (0x7072696f72697479, 0x737472), (0x636f72706f72617465436f6465, 0x737472)],
  [],
  [⟨0x45727051756f74654c696e654974656d, .one2one, 0x52657175657374, 0, false⟩, ⟨0x50726f6a65637473, .many2many, 0x5265717565737473, 0, false⟩, ⟨0x4f7267616e69736174696f6e, .one2many, 0x5265717565737473, 0, false⟩, ⟨0x576f726b73, .many2one, 0x52657175657374, 0, false⟩],
  [0x50726f6a65637473, 0x576f726b73]⟩
def m_Request : List RClass := d_Request :: m_Document

/-- CIM15/IEC61970/Informative/InfWork/TypeMaterial.py:23 -/
def d_TypeMaterial : RClass := ⟨0x547970654d6174657269616c, 0x43494d31352e49454336313937302e496e666f726d61746976652e496e66576f726b2e547970654d6174657269616c, 0x43494d31352e49454336313936382e436f6d6d6f6e2e446f63756d656e74,
  [(0x73746f636b4974656d, .bool false), (0x636f737454797065, .str 0), (0x7175616e74697479, .str 0), (0x657374556e6974436f7374, .flt 0x0)],
  [0x73746f636b4974656d, 0x636f737454797065, 0x7175616e74697479, 0x657374556e6974436f7374],
  [(0x73746f636b4974656d, .bool false), (0x636f737454797065, .str 0), (0x7175616e74697479, .str 0), (0x657374556e6974436f7374, .flt 0x0)],
  [(0x73746f636b4974656d, 0x626f6f6c), (0x636f737454797065, 0x737472), (0x7175616e74697479, 0x737472), (0x657374556e6974436f7374, 0x666c6f6174)],
  [],
  [⟨0x4572704973737565496e76656e746f72696573, .many2one, 0x547970654d6174657269616c, 0, false⟩, ⟨0x4d6174657269616c4974656d73, .many2one, 0x547970654d6174657269616c, 0, false⟩, ⟨0x43554d6174657269616c4974656d73, .many2one, 0x547970654d6174657269616c, 0, false⟩, ⟨0x4572705265714c696e654974656d73, .many2one, 0x547970654d6174657269616c, 0, false⟩],
  [0x4572704973737565496e76656e746f72696573, 0x4d6174657269616c4974656d73, 0x43554d6174657269616c4974656d73, 0x4572705265714c696e654974656d73]⟩
def m_TypeMaterial : List RClass := d_TypeMaterial :: m_Document

/-- CIM15/IEC61970/Informative/InfWork/WorkCostDetail.py:23 -/
def d_WorkCostDetail : RClass := ⟨0x576f726b436f737444657461696c, 0x43494d31352e49454336313937302e496e666f726d61746976652e496e66576f726b2e576f726b436f737444657461696c, 0x43494d31352e49454336313936382e436f6d6d6f6e2e446f63756d656e74,
  [(0x74797065, .str 0), (0x69734465626974, .bool false), (0x7472616e73616374696f6e4461746554696d65, .str 0), (0x616d6f756e74, .flt 0x0)],
  [0x74797065, 0x69734465626974, 0x7472616e73616374696f6e4461746554696d65, 0x616d6f756e74],
  [(0x74797065, .str 0), (0x69734465626974, .bool false), (0x7472616e73616374696f6e4461746554696d65, .str 0), (0x616d6f756e74, .flt 0x0)],
  [(0x74797065, 0x737472), (0x69734465626974, 0x626f6f6c), (0x7472616e73616374696f6e4461746554696d65, 0x737472), (0x616d6f756e74, 0x666c6f6174)],
  [],
  [⟨0x576f726b5461736b, .one2many, 0x576f726b436f737444657461696c73, 0, false⟩, ⟨0x576f726b73, .many2many, 0x576f726b436f737444657461696c73, 0, false⟩, ⟨0x44657369676e, .one2many, 0x576f726b436f737444657461696c73, 0, false⟩, ⟨0x4d697363436f73744974656d73, .many2one, 0x576f726b436f737444657461696c, 0, false⟩, ⟨0x576f726b436f737453756d6d617279, .one2one, 0x576f726b436f737444657461696c, 0, false⟩, ⟨0x50726f7065727479556e697473, .many2many, 0x576f726b436f737444657461696c73, 0, false⟩, ⟨0x45727050726f6a6563744163636f756e74696e67, .one2many, 0x576f726b436f737444657461696c73, 0, false⟩, ⟨0x4c61626f724974656d73, .many2one, 0x576f726b436f737444657461696c, 0, false⟩, ⟨0x4d6174657269616c4974656d73, .many2one, 0x576f726b436f737444657461696c, 0, false⟩, ⟨0x45717569706d656e744974656d73, .many2one, 0x576f726b436f737444657461696c, 0, false⟩, ⟨0x436f6e74726163746f724974656d73, .many2one, 0x576f726b436f737444657461696c, 0, false⟩, ⟨0x4f76657268656164436f7374, .one2many, 0x576f726b436f737444657461696c73, 0, false⟩, ⟨0x436f737454797065, .one2many, 0x576f726b436f737444657461696c73, 0, false⟩],
  [0x576f726b73, 0x4d697363436f73744974656d73, 0x50726f7065727479556e697473, 0x4c61626f724974656d73, 0x4d6174657269616c4974656d73, 0x45717569706d656e744974656d73, 0x436f6e74726163746f724974656d73]⟩
def m_WorkCostDetail : List RClass := d_WorkCostDetail :: m_Document

/-- CIM15/IEC61970/Informative/InfWork/WorkCostSummary.py:23 -/
def d_WorkCostSummary : RClass := ⟨0x576f726b436f737453756d6d617279, 0x43494d31352e49454336313937302e496e666f726d61746976652e496e66576f726b2e576f726b436f737453756d6d617279, 0x43494d31352e49454336313936382e436f6d6d6f6e2e446f63756d656e74,
  [],
  [],
  [],
  [],
  [],
  [⟨0x576f726b436f737444657461696c, .one2one, 0x576f726b436f737453756d6d617279, 0, false⟩],
  []⟩
def m_WorkCostSummary : List RClass := d_WorkCostSummary :: m_Document

/-- CIM15/IEC61970/Informative/InfWork/WorkLocation.py:23 -/
def d_WorkLocation : RClass := ⟨0x576f726b4c6f636174696f6e, 0x43494d31352e49454336313937302e496e666f726d61746976652e496e66576f726b2e576f726b4c6f636174696f6e, 0x43494d31352e49454336313936382e436f6d6d6f6e2e4c6f636174696f6e,
  [(0x7375626469766973696f6e, .str 0), (0x6e656172657374496e74657273656374696f6e, .str 0), (0x626c6f636b, .str 0), (0x6c6f74, .str 0)],
  [0x7375626469766973696f6e, 0x6e656172657374496e74657273656374696f6e, 0x626c6f636b, 0x6c6f74],
  [(0x7375626469766973696f6e, .str 0), (0x6e656172657374496e74657273656374696f6e, .str 0), (0x626c6f636b, .str 0), (0x6c6f74, .str 0)],
  [(0x7375626469766973696f6e, 0x737472), (0x6e656172657374496e74657273656374696f6e, 0x737472), (0x626c6f636b, 0x737472), (0x6c6f74, 0x737472)],
  [],
  [⟨0x4f6e6543616c6c52657175657374, .one2many, 0x576f726b4c6f636174696f6e73, 0, false⟩, ⟨0x44657369676e4c6f636174696f6e73, .many2many, 0x576f726b4c6f636174696f6e73, 0, false⟩],
  [0x44657369676e4c6f636174696f6e73]⟩
def m_WorkLocation : List RClass := d_WorkLocation :: m_Location

/-- CIM15/IEC61970/Informative/InfWork/WorkStatusEntry.py:23 -/
def d_WorkStatusEntry : RClass := ⟨0x576f726b537461747573456e747279, 0x43494d31352e49454336313937302e496e666f726d61746976652e496e66576f726b2e576f726b537461747573456e747279, 0x43494d31352e49454336313936382e436f6d6d6f6e2e41637469766974795265636f7264,
  [(0x70657263656e74436f6d706c657465, .flt 0x0)],
  [0x70657263656e74436f6d706c657465],
  [(0x70657263656e74436f6d706c657465, .flt 0x0)],
  [(0x70657263656e74436f6d706c657465, 0x666c6f6174)],
  [],
  [],
  []⟩
def m_WorkStatusEntry : List RClass := d_WorkStatusEntry :: m_ActivityRecord

/-- CIM15/IEC61970/Informative/InfWork/WorkTask.py:23 -/
def d_WorkTask : RClass := ⟨0x576f726b5461736b, 0x43494d31352e49454336313937302e496e666f726d61746976652e496e66576f726b2e576f726b5461736b, 0x43494d31352e49454336313936382e436f6d6d6f6e2e446f63756d656e74,
  [(0x7072696f72697479, .str 0), (0x73636865644f76657272696465, .str 0)],
  [0x7072696f72697479, 0x73636865644f76657272696465],
  [(0x7072696f72697479, .str 0), (0x73636865644f76657272696465, .str 0)],
  [(0x7072696f72697479, 0x737472), (0x73636865644f76657272696465, 0x737472)],
  [],
  [⟨0x45717569706d656e744974656d73, .many2one, 0x576f726b5461736b, 0, false⟩, ⟨0x557361676573, .many2one, 0x576f726b5461736b, 0, false⟩, ⟨0x4d697363436f73744974656d73, .many2one, 0x576f726b5461736b, 0, false⟩, ⟨0x4372657773, .many2many, 0x576f726b5461736b73, 0, false⟩, ⟨0x576f726b, .one2many, 0x576f726b5461736b73, 0, false⟩, ⟨0x4f76657268656164436f7374, .one2many, 0x576f726b5461736b73, 0, false⟩, ⟨0x44657369676e4c6f636174696f6e435573, .many2many, 0x576f726b5461736b73, 0, false⟩, ⟨0x436f6e74726163746f724974656d73, .many2one, 0x576f726b5461736b, 0, false⟩, ⟨0x537769746368696e675363686564756c6573, .many2one, 0x576f726b5461736b, 0, false⟩, ⟨0x576f726b466c6f7753746570, .one2many, 0x576f726b5461736b73, 0, false⟩, ⟨0x44657369676e, .one2many, 0x576f726b5461736b73, 0, false⟩, ⟨0x5175616c696669636174696f6e526571756972656d656e7473, .many2many, 0x576f726b5461736b73, 0, false⟩, ⟨0x4361706162696c6974696573, .many2many, 0x576f726b5461736b73, 0, false⟩, ⟨0x576f726b436f737444657461696c73, .many2one, 0x576f726b5461736b, 0, false⟩, ⟨0x417373657473, .many2one, 0x576f726b5461736b, 0, false⟩, ⟨0x4c61626f724974656d73, .many2one, 0x576f726b5461736b, 0, false⟩, ⟨0x4d6174657269616c4974656d73, .many2one, 0x576f726b5461736b, 0, false⟩],
  [0x45717569706d656e744974656d73, 0x557361676573, 0x4d697363436f73744974656d73, 0x4372657773, 0x44657369676e4c6f636174696f6e435573, 0x436f6e74726163746f724974656d73, 0x537769746368696e675363686564756c6573, 0x5175616c696669636174696f6e526571756972656d656e7473, 0x4361706162696c6974696573, 0x576f726b436f737444657461696c73, 0x417373657473, 0x4c61626f724974656d73, 0x4d6174657269616c4974656d73]⟩
def m_WorkTask : List RClass := d_WorkTask :: m_Document

/-- CIM15/IEC61970/LoadModel/ConformLoadGroup.py:23 -/
def d_ConformLoadGroup : RClass := ⟨0x436f6e666f726d4c6f616447726f7570, 0x43494d31352e49454336313937302e4c6f61644d6f64656c2e436f6e666f726d4c6f616447726f7570, 0x43494d31352e49454336313937302e4c6f61644d6f64656c2e4c6f616447726f7570,
  [],
  [],
  [],
  [],
  [],
  [⟨0x436f6e666f726d4c6f61645363686564756c6573, .many2one, 0x436f6e666f726d4c6f616447726f7570, 0, false⟩, ⟨0x456e65726779436f6e73756d657273, .many2one, 0x4c6f616447726f7570, 0, false⟩],
  [0x436f6e666f726d4c6f61645363686564756c6573, 0x456e65726779436f6e73756d657273]⟩
def m_ConformLoadGroup : List RClass := d_ConformLoadGroup :: m_LoadGroup

/-- CIM15/IEC61970/LoadModel/LoadArea.py:23 -/
def d_LoadArea : RClass := ⟨0x4c6f616441726561, 0x43494d31352e49454336313937302e4c6f61644d6f64656c2e4c6f616441726561, 0x43494d31352e49454336313937302e4c6f61644d6f64656c2e456e6572677941726561,
  [],
  [],
  [],
  [],
  [],
  [⟨0x5375624c6f61644172656173, .many2one, 0x4c6f616441726561, 0, false⟩],
  [0x5375624c6f61644172656173]⟩
def m_LoadArea : List RClass := d_LoadArea :: m_EnergyArea

/-- CIM15/IEC61970/LoadModel/NonConformLoadGroup.py:23 -/
def d_NonConformLoadGroup : RClass := ⟨0x4e6f6e436f6e666f726d4c6f616447726f7570, 0x43494d31352e49454336313937302e4c6f61644d6f64656c2e4e6f6e436f6e666f726d4c6f616447726f7570, 0x43494d31352e49454336313937302e4c6f61644d6f64656c2e4c6f616447726f7570,
  [],
  [],
  [],
  [],
  [],
  [⟨0x4e6f6e436f6e666f726d4c6f61645363686564756c6573, .many2one, 0x4e6f6e436f6e666f726d4c6f616447726f7570, 0, false⟩, ⟨0x456e65726779436f6e73756d657273, .many2one, 0x4c6f616447726f7570, 0, false⟩],
  [0x4e6f6e436f6e666f726d4c6f61645363686564756c6573, 0x456e65726779436f6e73756d657273]⟩
def m_NonConformLoadGroup : List RClass := d_NonConformLoadGroup :: m_LoadGroup

/-- CIM15/IEC61970/LoadModel/PowerCutZone.py:23 -/
def d_PowerCutZone : RClass := ⟨0x506f7765724375745a6f6e65, 0x43494d31352e49454336313937302e4c6f61644d6f64656c2e506f7765724375745a6f6e65, 0x43494d31352e49454336313937302e436f72652e506f77657253797374656d5265736f75726365,
  [(0x6375744c6576656c32, .flt 0x0), (0x6375744c6576656c31, .flt 0x0)],
  [0x6375744c6576656c32, 0x6375744c6576656c31],
  [(0x6375744c6576656c32, .flt 0x0), (0x6375744c6576656c31, .flt 0x0)],
  [(0x6375744c6576656c32, 0x666c6f6174), (0x6375744c6576656c31, 0x666c6f6174)],
  [],
  [⟨0x456e65726779436f6e73756d657273, .many2one, 0x506f7765724375745a6f6e65, 0, false⟩],
  [0x456e65726779436f6e73756d657273]⟩
def m_PowerCutZone : List RClass := d_PowerCutZone :: m_PowerSystemResource

/-- CIM15/IEC61970/LoadModel/SubLoadArea.py:23 -/
def d_SubLoadArea : RClass := ⟨0x5375624c6f616441726561, 0x43494d31352e49454336313937302e4c6f61644d6f64656c2e5375624c6f616441726561, 0x43494d31352e49454336313937302e4c6f61644d6f64656c2e456e6572677941726561,
  [],
  [],
  [],
  [],
  [],
  [⟨0x4c6f616447726f757073, .many2one, 0x5375624c6f616441726561, 0, false⟩, ⟨0x4c6f616441726561, .one2many, 0x5375624c6f61644172656173, 0, false⟩],
  [0x4c6f616447726f757073]⟩
def m_SubLoadArea : List RClass := d_SubLoadArea :: m_EnergyArea

/-- CIM15/IEC61970/Meas/Accumulator.py:23 -/
def d_Accumulator : RClass := ⟨0x416363756d756c61746f72, 0x43494d31352e49454336313937302e4d6561732e416363756d756c61746f72, 0x43494d31352e49454336313937302e4d6561732e4d6561737572656d656e74,
  [(0x6d617856616c7565, .int 0)],
  [0x6d617856616c7565],
  [(0x6d617856616c7565, .int 0)],
  [(0x6d617856616c7565, 0x696e74)],
  [],
  [⟨0x4c696d697453657473, .many2many, 0x4d6561737572656d656e7473, 0, false⟩, ⟨0x416363756d756c61746f7256616c756573, .many2one, 0x416363756d756c61746f72, 0, false⟩],
  [0x4c696d697453657473, 0x416363756d756c61746f7256616c756573]⟩
def m_Accumulator : List RClass := d_Accumulator :: m_Measurement

/-- CIM15/IEC61970/Meas/AccumulatorLimit.py:23 -/
def d_AccumulatorLimit : RClass := ⟨0x416363756d756c61746f724c696d6974, 0x43494d31352e49454336313937302e4d6561732e416363756d756c61746f724c696d6974, 0x43494d31352e49454336313937302e4d6561732e4c696d6974,
  [(0x76616c7565, .int 0)],
  [0x76616c7565],
  [(0x76616c7565, .int 0)],
  [(0x76616c7565, 0x696e74)],
  [],
  [⟨0x4c696d6974536574, .one2many, 0x4c696d697473, 0, false⟩],
  []⟩
def m_AccumulatorLimit : List RClass := d_AccumulatorLimit :: m_Limit

/-- CIM15/IEC61970/Meas/AccumulatorLimitSet.py:23 -/
def d_AccumulatorLimitSet : RClass := ⟨0x416363756d756c61746f724c696d6974536574, 0x43494d31352e49454336313937302e4d6561732e416363756d756c61746f724c696d6974536574, 0x43494d31352e49454336313937302e4d6561732e4c696d6974536574,
  [],
  [],
  [],
  [],
  [],
  [⟨0x4c696d697473, .many2one, 0x4c696d6974536574, 0, false⟩, ⟨0x4d6561737572656d656e7473, .many2many, 0x4c696d697453657473, 0, false⟩],
  [0x4c696d697473, 0x4d6561737572656d656e7473]⟩
def m_AccumulatorLimitSet : List RClass := d_AccumulatorLimitSet :: m_LimitSet

/-- CIM15/IEC61970/Meas/AccumulatorValue.py:23 -/
def d_AccumulatorValue : RClass := ⟨0x416363756d756c61746f7256616c7565, 0x43494d31352e49454336313937302e4d6561732e416363756d756c61746f7256616c7565, 0x43494d31352e49454336313937302e4d6561732e4d6561737572656d656e7456616c7565,
  [(0x76616c7565, .int 0)],
  [0x76616c7565],
  [(0x76616c7565, .int 0)],
  [(0x76616c7565, 0x696e74)],
  [],
  [⟨0x416363756d756c61746f72, .one2many, 0x416363756d756c61746f7256616c756573, 0, false⟩],
  []⟩
def m_AccumulatorValue : List RClass := d_AccumulatorValue :: m_MeasurementValue

/-- CIM15/IEC61970/Meas/Analog.py:23 -/
def d_Analog : RClass := ⟨0x416e616c6f67, 0x43494d31352e49454336313937302e4d6561732e416e616c6f67, 0x43494d31352e49454336313937302e4d6561732e4d6561737572656d656e74,
  [(0x6d617856616c7565, .flt 0x0), (0x6e6f726d616c56616c7565, .flt 0x0), (0x706f736974697665466c6f77496e, .bool false), (0x6d696e56616c7565, .flt 0x0)],
  [0x6d617856616c7565, 0x6e6f726d616c56616c7565, 0x706f736974697665466c6f77496e, 0x6d696e56616c7565],
  [(0x6d617856616c7565, .flt 0x0), (0x6e6f726d616c56616c7565, .flt 0x0), (0x706f736974697665466c6f77496e, .bool false), (0x6d696e56616c7565, .flt 0x0)],
  [(0x6d617856616c7565, 0x666c6f6174), (0x6e6f726d616c56616c7565, 0x666c6f6174), (0x706f736974697665466c6f77496e, 0x626f6f6c), (0x6d696e56616c7565, 0x666c6f6174)],
  [],
  [⟨0x4c696d697453657473, .many2many, 0x4d6561737572656d656e7473, 0, false⟩, ⟨0x416e616c6f6756616c756573, .many2one, 0x416e616c6f67, 0, false⟩, ⟨0x536574506f696e74, .one2one, 0x416e616c6f67, 0, false⟩],
  [0x4c696d697453657473, 0x416e616c6f6756616c756573]⟩
def m_Analog : List RClass := d_Analog :: m_Measurement

/-- CIM15/IEC61970/Meas/AnalogLimit.py:23 -/
def d_AnalogLimit : RClass := ⟨0x416e616c6f674c696d6974, 0x43494d31352e49454336313937302e4d6561732e416e616c6f674c696d6974, 0x43494d31352e49454336313937302e4d6561732e4c696d6974,
  [(0x76616c7565, .flt 0x0)],
  [0x76616c7565],
  [(0x76616c7565, .flt 0x0)],
  [(0x76616c7565, 0x666c6f6174)],
  [],
  [⟨0x4c696d6974536574, .one2many, 0x4c696d697473, 0, false⟩],
  []⟩
def m_AnalogLimit : List RClass := d_AnalogLimit :: m_Limit

/-- CIM15/IEC61970/Meas/AnalogLimitSet.py:23 -/
def d_AnalogLimitSet : RClass := ⟨0x416e616c6f674c696d6974536574, 0x43494d31352e49454336313937302e4d6561732e416e616c6f674c696d6974536574, 0x43494d31352e49454336313937302e4d6561732e4c696d6974536574,
  [],
  [],
  [],
  [],
  [],
  [⟨0x4c696d697473, .many2one, 0x4c696d6974536574, 0, false⟩, ⟨0x4d6561737572656d656e7473, .many2many, 0x4c696d697453657473, 0, false⟩],
  [0x4c696d697473, 0x4d6561737572656d656e7473]⟩
def m_AnalogLimitSet : List RClass := d_AnalogLimitSet :: m_LimitSet

/-- CIM15/IEC61970/Meas/AnalogValue.py:23 -/
def d_AnalogValue : RClass := ⟨0x416e616c6f6756616c7565, 0x43494d31352e49454336313937302e4d6561732e416e616c6f6756616c7565, 0x43494d31352e49454336313937302e4d6561732e4d6561737572656d656e7456616c7565,
  [(0x76616c7565, .flt 0x0)],
  [0x76616c7565],
  [(0x76616c7565, .flt 0x0)],
  [(0x76616c7565, 0x666c6f6174)],
  [],
  [⟨0x416c745469654d656173, .many2one, 0x416e616c6f6756616c7565, 0, false⟩, ⟨0x416e616c6f67, .one2many, 0x416e616c6f6756616c756573, 0, false⟩, ⟨0x416c7447656e65726174696e67556e6974, .many2one, 0x416e616c6f6756616c7565, 0, false⟩],
  [0x416c745469654d656173, 0x416c7447656e65726174696e67556e6974]⟩
def m_AnalogValue : List RClass := d_AnalogValue :: m_MeasurementValue

/-- CIM15/IEC61970/Meas/Command.py:23 -/
def d_Command : RClass := ⟨0x436f6d6d616e64, 0x43494d31352e49454336313937302e4d6561732e436f6d6d616e64, 0x43494d31352e49454336313937302e4d6561732e436f6e74726f6c,
  [(0x76616c7565, .int 0), (0x6e6f726d616c56616c7565, .int 0)],
  [0x76616c7565, 0x6e6f726d616c56616c7565],
  [(0x76616c7565, .int 0), (0x6e6f726d616c56616c7565, .int 0)],
  [(0x76616c7565, 0x696e74), (0x6e6f726d616c56616c7565, 0x696e74)],
  [],
  [⟨0x4469736372657465, .one2one, 0x436f6d6d616e64, 0, false⟩, ⟨0x56616c7565416c696173536574, .one2many, 0x436f6d6d616e6473, 0, false⟩],
  []⟩
def m_Command : List RClass := d_Command :: m_Control

/-- CIM15/IEC61970/Meas/Discrete.py:23 -/
def d_Discrete : RClass := ⟨0x4469736372657465, 0x43494d31352e49454336313937302e4d6561732e4469736372657465, 0x43494d31352e49454336313937302e4d6561732e4d6561737572656d656e74,
  [(0x6e6f726d616c56616c7565, .int 0), (0x6d696e56616c7565, .int 0), (0x6d617856616c7565, .int 0)],
  [0x6e6f726d616c56616c7565, 0x6d696e56616c7565, 0x6d617856616c7565],
  [(0x6e6f726d616c56616c7565, .int 0), (0x6d696e56616c7565, .int 0), (0x6d617856616c7565, .int 0)],
  [(0x6e6f726d616c56616c7565, 0x696e74), (0x6d696e56616c7565, 0x696e74), (0x6d617856616c7565, 0x696e74)],
  [],
  [⟨0x436f6d6d616e64, .one2one, 0x4469736372657465, 0, false⟩, ⟨0x446973637265746556616c756573, .many2one, 0x4469736372657465, 0, false⟩, ⟨0x56616c7565416c696173536574, .one2many, 0x446973637265746573, 0, false⟩],
  [0x446973637265746556616c756573]⟩
def m_Discrete : List RClass := d_Discrete :: m_Measurement

/-- CIM15/IEC61970/Meas/DiscreteValue.py:23 -/
def d_DiscreteValue : RClass := ⟨0x446973637265746556616c7565, 0x43494d31352e49454336313937302e4d6561732e446973637265746556616c7565, 0x43494d31352e49454336313937302e4d6561732e4d6561737572656d656e7456616c7565,
  [(0x76616c7565, .int 0)],
  [0x76616c7565],
  [(0x76616c7565, .int 0)],
  [(0x76616c7565, 0x696e74)],
  [],
  [⟨0x4469736372657465, .one2many, 0x446973637265746556616c756573, 0, false⟩],
  []⟩
def m_DiscreteValue : List RClass := d_DiscreteValue :: m_MeasurementValue

/-- CIM15/IEC61970/Meas/SetPoint.py:23 -/
def d_SetPoint : RClass := ⟨0x536574506f696e74, 0x43494d31352e49454336313937302e4d6561732e536574506f696e74, 0x43494d31352e49454336313937302e4d6561732e436f6e74726f6c,
  [(0x6d617856616c7565, .flt 0x0), (0x6d696e56616c7565, .flt 0x0), (0x6e6f726d616c56616c7565, .flt 0x0), (0x76616c7565, .flt 0x0)],
  [0x6d617856616c7565, 0x6d696e56616c7565, 0x6e6f726d616c56616c7565, 0x76616c7565],
  [(0x6d617856616c7565, .flt 0x0), (0x6d696e56616c7565, .flt 0x0), (0x6e6f726d616c56616c7565, .flt 0x0), (0x76616c7565, .flt 0x0)],
  [(0x6d617856616c7565, 0x666c6f6174), (0x6d696e56616c7565, 0x666c6f6174), (0x6e6f726d616c56616c7565, 0x666c6f6174), (0x76616c7565, 0x666c6f6174)],
  [],
  [⟨0x416e616c6f67, .one2one, 0x536574506f696e74, 0, false⟩],
  []⟩
def m_SetPoint : List RClass := d_SetPoint :: m_Control

/-- CIM15/IEC61970/Meas/StringMeasurement.py:23 -/
def d_StringMeasurement : RClass := ⟨0x537472696e674d6561737572656d656e74, 0x43494d31352e49454336313937302e4d6561732e537472696e674d6561737572656d656e74, 0x43494d31352e49454336313937302e4d6561732e4d6561737572656d656e74,
  [],
  [],
  [],
  [],
  [],
  [⟨0x537472696e674d6561737572656d656e7456616c756573, .many2one, 0x537472696e674d6561737572656d656e74, 0, false⟩],
  [0x537472696e674d6561737572656d656e7456616c756573]⟩
def m_StringMeasurement : List RClass := d_StringMeasurement :: m_Measurement

/-- CIM15/IEC61970/Meas/StringMeasurementValue.py:23 -/
def d_StringMeasurementValue : RClass := ⟨0x537472696e674d6561737572656d656e7456616c7565, 0x43494d31352e49454336313937302e4d6561732e537472696e674d6561737572656d656e7456616c7565, 0x43494d31352e49454336313937302e4d6561732e4d6561737572656d656e7456616c7565,
  [(0x76616c7565, .str 0)],
  [0x76616c7565],
  [(0x76616c7565, .str 0)],
  [(0x76616c7565, 0x737472)],
  [],
  [⟨0x537472696e674d6561737572656d656e74, .one2many, 0x537472696e674d6561737572656d656e7456616c756573, 0, false⟩],
  []⟩
def m_StringMeasurementValue : List RClass := d_StringMeasurementValue :: m_MeasurementValue

/-- CIM15/IEC61970/OperationalLimits/ActivePowerLimit.py:23 -/
def d_ActivePowerLimit : RClass := ⟨0x416374697665506f7765724c696d6974, 0x43494d31352e49454336313937302e4f7065726174696f6e616c4c696d6974732e416374697665506f7765724c696d6974, 0x43494d31352e49454336313937302e4f7065726174696f6e616c4c696d6974732e4f7065726174696f6e616c4c696d6974,
  [(0x76616c7565, .flt 0x0)],
  [0x76616c7565],
  [(0x76616c7565, .flt 0x0)],
  [(0x76616c7565, 0x666c6f6174)],
  [],
  [⟨0x416374697665506f7765724c696d6974536574, .one2many, 0x416374697665506f7765724c696d697473, 0, false⟩],
  []⟩
def m_ActivePowerLimit : List RClass := d_ActivePowerLimit :: m_OperationalLimit

/-- CIM15/IEC61970/OperationalLimits/ActivePowerLimitSet.py:23 -/
def d_ActivePowerLimitSet : RClass := ⟨0x416374697665506f7765724c696d6974536574, 0x43494d31352e49454336313937302e4f7065726174696f6e616c4c696d6974732e416374697665506f7765724c696d6974536574, 0x43494d31352e49454336313937302e4f7065726174696f6e616c4c696d6974732e4f7065726174696f6e616c4c696d6974536574,
  [],
  [],
  [],
  [],
  [],
  [⟨0x416374697665506f7765724c696d697473, .many2one, 0x416374697665506f7765724c696d6974536574, 0, false⟩],
  [0x416374697665506f7765724c696d697473]⟩
def m_ActivePowerLimitSet : List RClass := d_ActivePowerLimitSet :: m_OperationalLimitSet

/-- CIM15/IEC61970/OperationalLimits/ApparentPowerLimit.py:23 -/
def d_ApparentPowerLimit : RClass := ⟨0x4170706172656e74506f7765724c696d6974, 0x43494d31352e49454336313937302e4f7065726174696f6e616c4c696d6974732e4170706172656e74506f7765724c696d6974, 0x43494d31352e49454336313937302e4f7065726174696f6e616c4c696d6974732e4f7065726174696f6e616c4c696d6974,
  [(0x76616c7565, .flt 0x0)],
  [0x76616c7565],
  [(0x76616c7565, .flt 0x0)],
  [(0x76616c7565, 0x666c6f6174)],
  [],
  [⟨0x4170706172656e74506f7765724c696d6974536574, .one2many, 0x4170706172656e74506f7765724c696d697473, 0, false⟩],
  []⟩
def m_ApparentPowerLimit : List RClass := d_ApparentPowerLimit :: m_OperationalLimit

/-- CIM15/IEC61970/OperationalLimits/ApparentPowerLimitSet.py:23 -/
def d_ApparentPowerLimitSet : RClass := ⟨0x4170706172656e74506f7765724c696d6974536574, 0x43494d31352e49454336313937302e4f7065726174696f6e616c4c696d6974732e4170706172656e74506f7765724c696d6974536574, 0x43494d31352e49454336313937302e4f7065726174696f6e616c4c696d6974732e4f7065726174696f6e616c4c696d6974536574,
  [],
  [],
  [],
  [],
  [],
  [⟨0x4170706172656e74506f7765724c696d697473, .many2one, 0x4170706172656e74506f7765724c696d6974536574, 0, false⟩],
  [0x4170706172656e74506f7765724c696d697473]⟩
def m_ApparentPowerLimitSet : List RClass := d_ApparentPowerLimitSet :: m_OperationalLimitSet

/-- CIM15/IEC61970/OperationalLimits/CurrentLimit.py:23 -/
def d_CurrentLimit : RClass := ⟨0x43757272656e744c696d6974, 0x43494d31352e49454336313937302e4f7065726174696f6e616c4c696d6974732e43757272656e744c696d6974, 0x43494d31352e49454336313937302e4f7065726174696f6e616c4c696d6974732e4f7065726174696f6e616c4c696d6974,
  [(0x76616c7565, .flt 0x0)],
  [0x76616c7565],
  [(0x76616c7565, .flt 0x0)],
  [(0x76616c7565, 0x666c6f6174)],
  [],
  [⟨0x43757272656e744c696d6974536574, .one2many, 0x43757272656e744c696d697473, 0, false⟩],
  []⟩
def m_CurrentLimit : List RClass := d_CurrentLimit :: m_OperationalLimit

/-- CIM15/IEC61970/OperationalLimits/CurrentLimitSet.py:23 -/
def d_CurrentLimitSet : RClass := ⟨0x43757272656e744c696d6974536574, 0x43494d31352e49454336313937302e4f7065726174696f6e616c4c696d6974732e43757272656e744c696d6974536574, 0x43494d31352e49454336313937302e4f7065726174696f6e616c4c696d6974732e4f7065726174696f6e616c4c696d6974536574,
  [],
  [],
  [],
  [],
  [],
  [⟨0x43757272656e744c696d697473, .many2one, 0x43757272656e744c696d6974536574, 0, false⟩],
  [0x43757272656e744c696d697473]⟩
def m_CurrentLimitSet : List RClass := d_CurrentLimitSet :: m_OperationalLimitSet

/-- CIM15/IEC61970/OperationalLimits/VoltageCheckPoint.py:24 -/
def d_VoltageCheckPoint : RClass := ⟨0x566f6c74616765436865636b506f696e74, 0x43494d31352e49454336313937302e4f7065726174696f6e616c4c696d6974732e566f6c74616765436865636b506f696e74, 0x43494d31352e49454336313937302e4f7065726174696f6e616c4c696d6974732e436865636b506f696e74,
  [],
  [],
  [],
  [],
  [],
  [⟨0x4c6f7765724c696d6974734375727665, .oneNoInv, 0, 0, false⟩, ⟨0x55707065724c696d6974734375727665, .oneNoInv, 0, 0, false⟩, ⟨0x566f6c746167654c696d6974536574, .oneNoInv, 0, 0, false⟩],
  []⟩
def m_VoltageCheckPoint : List RClass := d_VoltageCheckPoint :: m_CheckPoint

/-- CIM15/IEC61970/OperationalLimits/VoltageLimit.py:23 -/
def d_VoltageLimit : RClass := ⟨0x566f6c746167654c696d6974, 0x43494d31352e49454336313937302e4f7065726174696f6e616c4c696d6974732e566f6c746167654c696d6974, 0x43494d31352e49454336313937302e4f7065726174696f6e616c4c696d6974732e4f7065726174696f6e616c4c696d6974,
  [(0x76616c7565, .flt 0x0)],
  [0x76616c7565],
  [(0x76616c7565, .flt 0x0)],
  [(0x76616c7565, 0x666c6f6174)],
  [],
  [⟨0x566f6c746167654c696d6974536574, .one2many, 0x566f6c746167654c696d697473, 0, false⟩],
  []⟩
def m_VoltageLimit : List RClass := d_VoltageLimit :: m_OperationalLimit

/-- CIM15/IEC61970/OperationalLimits/VoltageLimitSet.py:23 -/
def d_VoltageLimitSet : RClass := ⟨0x566f6c746167654c696d6974536574, 0x43494d31352e49454336313937302e4f7065726174696f6e616c4c696d6974732e566f6c746167654c696d6974536574, 0x43494d31352e49454336313937302e4f7065726174696f6e616c4c696d6974732e4f7065726174696f6e616c4c696d6974536574,
  [],
  [],
  [],
  [],
  [],
  [⟨0x566f6c746167654c696d697473, .many2one, 0x566f6c746167654c696d6974536574, 0, false⟩],
  [0x566f6c746167654c696d697473]⟩
def m_VoltageLimitSet : List RClass := d_VoltageLimitSet :: m_OperationalLimitSet

/-- CIM15/IEC61970/OperationalLimits/VoltageTimeCurve.py:24 -/
def d_VoltageTimeCurve : RClass := ⟨0x566f6c7461676554696d654375727665, 0x43494d31352e49454336313937302e4f7065726174696f6e616c4c696d6974732e566f6c7461676554696d654375727665, 0x43494d31352e49454336313937302e436f72652e4375727665,
  [],
  [],
  [],
  [],
  [],
  [],
  []⟩
def m_VoltageTimeCurve : List RClass := d_VoltageTimeCurve :: m_Curve

/-- CIM15/IEC61970/SCADA/CommunicationLink.py:23 -/
def d_CommunicationLink : RClass := ⟨0x436f6d6d756e69636174696f6e4c696e6b, 0x43494d31352e49454336313937302e53434144412e436f6d6d756e69636174696f6e4c696e6b, 0x43494d31352e49454336313937302e436f72652e506f77657253797374656d5265736f75726365,
  [],
  [],
  [],
  [],
  [],
  [⟨0x52656d6f7465556e697473, .many2many, 0x436f6d6d756e69636174696f6e4c696e6b73, 0, false⟩],
  [0x52656d6f7465556e697473]⟩
def m_CommunicationLink : List RClass := d_CommunicationLink :: m_PowerSystemResource

/-- CIM15/IEC61970/SCADA/RemoteControl.py:23 -/
def d_RemoteControl : RClass := ⟨0x52656d6f7465436f6e74726f6c, 0x43494d31352e49454336313937302e53434144412e52656d6f7465436f6e74726f6c, 0x43494d31352e49454336313937302e53434144412e52656d6f7465506f696e74,
  [(0x6163747561746f724d6178696d756d, .flt 0x0), (0x6163747561746f724d696e696d756d, .flt 0x0), (0x72656d6f7465436f6e74726f6c6c6564, .bool false)],
  [0x6163747561746f724d6178696d756d, 0x6163747561746f724d696e696d756d, 0x72656d6f7465436f6e74726f6c6c6564],
  [(0x6163747561746f724d6178696d756d, .flt 0x0), (0x6163747561746f724d696e696d756d, .flt 0x0), (0x72656d6f7465436f6e74726f6c6c6564, .bool false)],
  [(0x6163747561746f724d6178696d756d, 0x666c6f6174), (0x6163747561746f724d696e696d756d, 0x666c6f6174), (0x72656d6f7465436f6e74726f6c6c6564, 0x626f6f6c)],
  [],
  [⟨0x436f6e74726f6c, .one2one, 0x52656d6f7465436f6e74726f6c, 0, false⟩],
  []⟩
def m_RemoteControl : List RClass := d_RemoteControl :: m_RemotePoint

/-- CIM15/IEC61970/SCADA/RemoteSource.py:23 -/
def d_RemoteSource : RClass := ⟨0x52656d6f7465536f75726365, 0x43494d31352e49454336313937302e53434144412e52656d6f7465536f75726365, 0x43494d31352e49454336313937302e53434144412e52656d6f7465506f696e74,
  [(0x73656e736f724d696e696d756d, .flt 0x0), (0x6465616462616e64, .flt 0x0), (0x73656e736f724d6178696d756d, .flt 0x0), (0x7363616e496e74657276616c, .flt 0x0)],
  [0x73656e736f724d696e696d756d, 0x6465616462616e64, 0x73656e736f724d6178696d756d, 0x7363616e496e74657276616c],
  [(0x73656e736f724d696e696d756d, .flt 0x0), (0x6465616462616e64, .flt 0x0), (0x73656e736f724d6178696d756d, .flt 0x0), (0x7363616e496e74657276616c, .flt 0x0)],
  [(0x73656e736f724d696e696d756d, 0x666c6f6174), (0x6465616462616e64, 0x666c6f6174), (0x73656e736f724d6178696d756d, 0x666c6f6174), (0x7363616e496e74657276616c, 0x666c6f6174)],
  [],
  [⟨0x4d6561737572656d656e7456616c7565, .one2one, 0x52656d6f7465536f75726365, 0, false⟩],
  []⟩
def m_RemoteSource : List RClass := d_RemoteSource :: m_RemotePoint

/-- CIM15/IEC61970/SCADA/RemoteUnit.py:23 -/
def d_RemoteUnit : RClass := ⟨0x52656d6f7465556e6974, 0x43494d31352e49454336313937302e53434144412e52656d6f7465556e6974, 0x43494d31352e49454336313937302e436f72652e506f77657253797374656d5265736f75726365,
  [(0x72656d6f7465556e697454797065, .str 0x53756273746174696f6e436f6e74726f6c53797374656d)],
  [0x72656d6f7465556e697454797065],
  [(0x72656d6f7465556e697454797065, .str 0x53756273746174696f6e436f6e74726f6c53797374656d)],
  [(0x72656d6f7465556e697454797065, 0x737472)],
  [(0x72656d6f7465556e697454797065, 0x52656d6f7465556e697454797065)],
  [⟨0x52656d6f7465506f696e7473, .many2one, 0x52656d6f7465556e6974, 0, false⟩, ⟨0x436f6d6d756e69636174696f6e4c696e6b73, .many2many, 0x52656d6f7465556e697473, 0, false⟩],
  [0x52656d6f7465506f696e7473, 0x436f6d6d756e69636174696f6e4c696e6b73]⟩
def m_RemoteUnit : List RClass := d_RemoteUnit :: m_PowerSystemResource

/-- CIM15/IEC61970/Wires/CurrentTemperatureCurve.py:24 -/
def d_CurrentTemperatureCurve : RClass := ⟨0x43757272656e7454656d70657261747572654375727665, 0x43494d31352e49454336313937302e57697265732e43757272656e7454656d70657261747572654375727665, 0x43494d31352e49454336313937302e436f72652e4375727665,
  [],
  [],
  [],
  [],
  [],
  [⟨0x41434c696e655365676d656e7473, .many2many, 0x43757272656e7454656d7065726174757265437572766573, 0, false⟩],
  [0x41434c696e655365676d656e7473]⟩
def m_CurrentTemperatureCurve : List RClass := d_CurrentTemperatureCurve :: m_Curve

/-- CIM15/IEC61970/Wires/PowerTransformerEnd.py:23 -/
def d_PowerTransformerEnd : RClass := ⟨0x506f7765725472616e73666f726d6572456e64, 0x43494d31352e49454336313937302e57697265732e506f7765725472616e73666f726d6572456e64, 0x43494d31352e49454336313937302e57697265732e5472616e73666f726d6572456e64,
  [(0x7830, .flt 0x0), (0x6230, .flt 0x0), (0x6730, .flt 0x0), (0x726174656453, .flt 0x0), (0x62, .flt 0x0), (0x726174656455, .flt 0x0), (0x67, .flt 0x0), (0x72, .flt 0x0), (0x78, .flt 0x0), (0x7230, .flt 0x0), (0x636f6e6e656374696f6e4b696e64, .str 0x5a)],
  [0x7830, 0x6230, 0x6730, 0x726174656453, 0x62, 0x726174656455, 0x67, 0x72, 0x78, 0x7230, 0x636f6e6e656374696f6e4b696e64],
  [(0x7830, .flt 0x0), (0x6230, .flt 0x0), (0x6730, .flt 0x0), (0x726174656453, .flt 0x0), (0x62, .flt 0x0), (0x726174656455, .flt 0x0), (0x67, .flt 0x0), (0x72, .flt 0x0), (0x78, .flt 0x0), (0x7230, .flt 0x0), (0x636f6e6e656374696f6e4b696e64, .str 0x5a)],
  [(0x7830, 0x666c6f6174), (0x6230, 0x666c6f6174), (0x6730, 0x666c6f6174), (0x726174656453, 0x666c6f6174), (0x62, 0x666c6f6174), (0x726174656455, 0x666c6f6174), (0x67, 0x666c6f6174), (0x72, 0x666c6f6174), (0x78, 0x666c6f6174), (0x7230, 0x666c6f6174), (0x636f6e6e656374696f6e4b696e64, 0x737472)],
  [(0x636f6e6e656374696f6e4b696e64, 0x57696e64696e67436f6e6e656374696f6e)],
  [⟨0x506f7765725472616e73666f726d6572, .one2many, 0x506f7765725472616e73666f726d6572456e64, 0, false⟩],
  []⟩
def m_PowerTransformerEnd : List RClass := d_PowerTransformerEnd :: m_TransformerEnd

/-- CIM15/IEC61970/Wires/ReactiveCapabilityCurve.py:23 -/
def d_ReactiveCapabilityCurve : RClass := ⟨0x52656163746976654361706162696c6974794375727665, 0x43494d31352e49454336313937302e57697265732e52656163746976654361706162696c6974794375727665, 0x43494d31352e49454336313937302e436f72652e4375727665,
  [(0x687964726f67656e5072657373757265, .flt 0x0), (0x636f6f6c616e7454656d7065726174757265, .flt 0x0)],
  [0x687964726f67656e5072657373757265, 0x636f6f6c616e7454656d7065726174757265],
  [(0x687964726f67656e5072657373757265, .flt 0x0), (0x636f6f6c616e7454656d7065726174757265, .flt 0x0)],
  [(0x687964726f67656e5072657373757265, 0x666c6f6174), (0x636f6f6c616e7454656d7065726174757265, 0x666c6f6174)],
  [],
  [⟨0x496e697469616c6c7955736564427953796e6368726f6e6f75734d616368696e6573, .many2one, 0x496e697469616c52656163746976654361706162696c6974794375727665, 0, false⟩, ⟨0x53796e6368726f6e6f75734d616368696e6573, .many2many, 0x52656163746976654361706162696c697479437572766573, 0, false⟩],
  [0x496e697469616c6c7955736564427953796e6368726f6e6f75734d616368696e6573, 0x53796e6368726f6e6f75734d616368696e6573]⟩
def m_ReactiveCapabilityCurve : List RClass := d_ReactiveCapabilityCurve :: m_Curve

/-- CIM15/IEC61970/Wires/RegulatingControl.py:23 -/
def d_RegulatingControl : RClass := ⟨0x526567756c6174696e67436f6e74726f6c, 0x43494d31352e49454336313937302e57697265732e526567756c6174696e67436f6e74726f6c, 0x43494d31352e49454336313937302e436f72652e506f77657253797374656d5265736f75726365,
  [(0x6d6f6465, .str 0x6669786564), (0x74617267657452616e6765, .flt 0x0), (0x6469736372657465, .bool false), (0x74617267657456616c7565, .flt 0x0), (0x6d6f6e69746f7265645068617365, .str 0x7331324e)],
  [0x6d6f6465, 0x74617267657452616e6765, 0x6469736372657465, 0x74617267657456616c7565, 0x6d6f6e69746f7265645068617365],
  [(0x6d6f6465, .str 0x6669786564), (0x74617267657452616e6765, .flt 0x0), (0x6469736372657465, .bool false), (0x74617267657456616c7565, .flt 0x0), (0x6d6f6e69746f7265645068617365, .str 0x7331324e)],
  [(0x6d6f6465, 0x737472), (0x74617267657452616e6765, 0x666c6f6174), (0x6469736372657465, 0x626f6f6c), (0x74617267657456616c7565, 0x666c6f6174), (0x6d6f6e69746f7265645068617365, 0x737472)],
  [(0x6d6f6465, 0x526567756c6174696e67436f6e74726f6c4d6f64654b696e64), (0x6d6f6e69746f7265645068617365, 0x5068617365436f6465)],
  [⟨0x526567756c6174696e67436f6e644571, .many2one, 0x526567756c6174696e67436f6e74726f6c, 0, false⟩, ⟨0x5465726d696e616c, .one2many, 0x526567756c6174696e67436f6e74726f6c, 0, false⟩, ⟨0x526567756c6174696f6e5363686564756c65, .many2one, 0x526567756c6174696e67436f6e74726f6c, 0, false⟩],
  [0x526567756c6174696e67436f6e644571, 0x526567756c6174696f6e5363686564756c65]⟩
def m_RegulatingControl : List RClass := d_RegulatingControl :: m_PowerSystemResource

/-- CIM15/IEC61970/Wires/TapChanger.py:23 -/
def d_TapChanger : RClass := ⟨0x5461704368616e676572, 0x43494d31352e49454336313937302e57697265732e5461704368616e676572, 0x43494d31352e49454336313937302e436f72652e506f77657253797374656d5265736f75726365,
  [(0x6e65757472616c55, .flt 0x0), (0x726567756c6174696f6e537461747573, .bool false), (0x73756273657175656e7444656c6179, .flt 0x0), (0x6e6f726d616c53746570, .int 0), (0x6c7463466c6167, .bool false), (0x6c6f7753746570, .int 0), (0x6e65757472616c53746570, .int 0), (0x696e697469616c44656c6179, .flt 0x0), (0x6869676853746570, .int 0)],
  [0x6e65757472616c55, 0x726567756c6174696f6e537461747573, 0x73756273657175656e7444656c6179, 0x6e6f726d616c53746570, 0x6c7463466c6167, 0x6c6f7753746570, 0x6e65757472616c53746570, 0x696e697469616c44656c6179, 0x6869676853746570],
  [(0x6e65757472616c55, .flt 0x0), (0x726567756c6174696f6e537461747573, .bool false), (0x73756273657175656e7444656c6179, .flt 0x0), (0x6e6f726d616c53746570, .int 0), (0x6c7463466c6167, .bool false), (0x6c6f7753746570, .int 0), (0x6e65757472616c53746570, .int 0), (0x696e697469616c44656c6179, .flt 0x0), (0x6869676853746570, .int 0)],
  [(0x6e65757472616c55, 0x666c6f6174), (0x726567756c6174696f6e537461747573, 0x626f6f6c), (0x73756273657175656e7444656c6179, 0x666c6f6174), (0x6e6f726d616c53746570, 0x696e74), (0x6c7463466c6167, 0x626f6f6c), (0x6c6f7753746570, 0x696e74), (0x6e65757472616c53746570, 0x696e74), (0x696e697469616c44656c6179, 0x666c6f6174), (0x6869676853746570, 0x696e74)],
  [],
  [⟨0x5461704368616e676572496e666f, .one2many, 0x5461704368616e67657273, 0, false⟩, ⟨0x5461705363686564756c6573, .many2one, 0x5461704368616e676572, 0, false⟩, ⟨0x5461704368616e676572436f6e74726f6c, .one2many, 0x5461704368616e676572, 0, false⟩, ⟨0x537654617053746570, .one2one, 0x5461704368616e676572, 0, false⟩],
  [0x5461705363686564756c6573]⟩
def m_TapChanger : List RClass := d_TapChanger :: m_PowerSystemResource

/-- CIM15/IEC61970/Wires/TransformerTankEnd.py:23 -/
def d_TransformerTankEnd : RClass := ⟨0x5472616e73666f726d657254616e6b456e64, 0x43494d31352e49454336313937302e57697265732e5472616e73666f726d657254616e6b456e64, 0x43494d31352e49454336313937302e57697265732e5472616e73666f726d6572456e64,
  [(0x706861736573, .str 0x7331324e)],
  [0x706861736573],
  [(0x706861736573, .str 0x7331324e)],
  [(0x706861736573, 0x737472)],
  [(0x706861736573, 0x5068617365436f6465)],
  [⟨0x5472616e73666f726d657254616e6b, .one2many, 0x5472616e73666f726d657254616e6b456e6473, 0, false⟩],
  []⟩
def m_TransformerTankEnd : List RClass := d_TransformerTankEnd :: m_TransformerEnd

/-- CIM15/IEC61970/Wires/VoltageControlZone.py:23 -/
def d_VoltageControlZone : RClass := ⟨0x566f6c74616765436f6e74726f6c5a6f6e65, 0x43494d31352e49454336313937302e57697265732e566f6c74616765436f6e74726f6c5a6f6e65, 0x43494d31352e49454336313937302e436f72652e506f77657253797374656d5265736f75726365,
  [],
  [],
  [],
  [],
  [],
  [⟨0x526567756c6174696f6e5363686564756c65, .one2many, 0x566f6c74616765436f6e74726f6c5a6f6e6573, 0, false⟩, ⟨0x42757362617253656374696f6e, .one2one, 0x566f6c74616765436f6e74726f6c5a6f6e65, 0, false⟩],
  []⟩
def m_VoltageControlZone : List RClass := d_VoltageControlZone :: m_PowerSystemResource

/-- CIM15/IEC61970/WiresPhaseModel/ACLineSegmentPhase.py:24 -/
def d_ACLineSegmentPhase : RClass := ⟨0x41434c696e655365676d656e745068617365, 0x43494d31352e49454336313937302e576972657350686173654d6f64656c2e41434c696e655365676d656e745068617365, 0x43494d31352e49454336313937302e436f72652e506f77657253797374656d5265736f75726365,
  [(0x7068617365, .none)],
  [0x7068617365],
  [(0x7068617365, .str 0x43)],
  [(0x7068617365, 0x737472)],
  [(0x7068617365, 0x53696e676c6550686173654b696e64)],
  [⟨0x41434c696e655365676d656e74, .one2many, 0x41434c696e655365676d656e74506861736573, 0, false⟩],
  []⟩
def m_ACLineSegmentPhase : List RClass := d_ACLineSegmentPhase :: m_PowerSystemResource

/-- CIM15/IEC61970/WiresPhaseModel/EnergyConsumerPhase.py:23 -/
def d_EnergyConsumerPhase : RClass := ⟨0x456e65726779436f6e73756d65725068617365, 0x43494d31352e49454336313937302e576972657350686173654d6f64656c2e456e65726779436f6e73756d65725068617365, 0x43494d31352e49454336313937302e436f72652e506f77657253797374656d5265736f75726365,
  [(0x7068617365, .none), (0x706669786564, .flt 0x0), (0x716669786564, .flt 0x0)],
  [0x706669786564, 0x716669786564],
  [(0x706669786564, .flt 0x0), (0x716669786564, .flt 0x0)],
  [(0x706669786564, 0x666c6f6174), (0x716669786564, 0x666c6f6174)],
  [],
  [⟨0x456e65726779436f6e73756d6572, .one2many, 0x456e65726779436f6e73756d6572506861736573, 0, false⟩],
  []⟩
def m_EnergyConsumerPhase : List RClass := d_EnergyConsumerPhase :: m_PowerSystemResource

/-- CIM15/IEC61970/WiresPhaseModel/ShuntCompensatorPhase.py:23 -/
def d_ShuntCompensatorPhase : RClass := ⟨0x5368756e74436f6d70656e7361746f725068617365, 0x43494d31352e49454336313937302e576972657350686173654d6f64656c2e5368756e74436f6d70656e7361746f725068617365, 0x43494d31352e49454336313937302e436f72652e506f77657253797374656d5265736f75726365,
  [],
  [],
  [],
  [],
  [],
  [⟨0x5368756e74436f6d70656e7361746f72, .one2many, 0x5368756e74436f6d70656e7361746f72506861736573, 0, false⟩],
  []⟩
def m_ShuntCompensatorPhase : List RClass := d_ShuntCompensatorPhase :: m_PowerSystemResource

/-- CIM15/IEC61970/WiresPhaseModel/SwitchPhase.py:23 -/
def d_SwitchPhase : RClass := ⟨0x5377697463685068617365, 0x43494d31352e49454336313937302e576972657350686173654d6f64656c2e5377697463685068617365, 0x43494d31352e49454336313937302e436f72652e506f77657253797374656d5265736f75726365,
  [(0x70686173655369646531, .str 0x43), (0x70686173655369646532, .str 0x43), (0x6e6f726d616c4f70656e, .bool false)],
  [0x70686173655369646531, 0x70686173655369646532, 0x6e6f726d616c4f70656e],
  [(0x70686173655369646531, .str 0x43), (0x70686173655369646532, .str 0x43), (0x6e6f726d616c4f70656e, .bool false)],
  [(0x70686173655369646531, 0x737472), (0x70686173655369646532, 0x737472), (0x6e6f726d616c4f70656e, 0x626f6f6c)],
  [(0x70686173655369646531, 0x53696e676c6550686173654b696e64), (0x70686173655369646532, 0x53696e676c6550686173654b696e64)],
  [⟨0x537769746368, .one2many, 0x537769746368506861736573, 0, false⟩],
  []⟩
def m_SwitchPhase : List RClass := d_SwitchPhase :: m_PowerSystemResource

/-- CIM15/IEC62325/MarketParticipant.py:23 -/
def d_MarketParticipant : RClass := ⟨0x4d61726b65745061727469636970616e74, 0x43494d31352e49454336323332352e4d61726b65745061727469636970616e74, 0x43494d31352e49454336313936382e436f6d6d6f6e2e4f7267616e69736174696f6e,
  [],
  [],
  [],
  [],
  [],
  [⟨0x4d61726b6574526f6c6573, .many2many, 0x4d61726b65745061727469636970616e7473, 0, false⟩],
  [0x4d61726b6574526f6c6573]⟩
def m_MarketParticipant : List RClass := d_MarketParticipant :: m_Organisation

/-- CIM15/IEC61968/AssetModels/CableInfo.py:23 -/
def d_CableInfo : RClass := ⟨0x4361626c65496e666f, 0x43494d31352e49454336313936382e41737365744d6f64656c732e4361626c65496e666f, 0x43494d31352e49454336313936382e41737365744d6f64656c732e436f6e647563746f72496e666f,
  [(0x6f757465724a61636b65744b696e64, .str 0x707663), (0x73686561746841734e65757472616c, .bool false), (0x6973537472616e6446696c6c, .bool false), (0x6e6f6d696e616c54656d7065726174757265, .flt 0x0), (0x636f6e737472756374696f6e4b696e64, .str 0x736563746f72), (0x6469616d657465724f7665724a61636b6574, .flt 0x0), (0x6469616d657465724f766572496e73756c6174696f6e, .flt 0x0), (0x6469616d657465724f76657253637265656e, .flt 0x0), (0x736869656c644d6174657269616c, .str 0x6c656164), (0x6469616d657465724f766572436f7265, .flt 0x0)],
  [0x6f757465724a61636b65744b696e64, 0x73686561746841734e65757472616c, 0x6973537472616e6446696c6c, 0x6e6f6d696e616c54656d7065726174757265, 0x636f6e737472756374696f6e4b696e64, 0x6469616d657465724f7665724a61636b6574, 0x6469616d657465724f766572496e73756c6174696f6e, 0x6469616d657465724f76657253637265656e, 0x736869656c644d6174657269616c, 0x6469616d657465724f766572436f7265],
  [(0x6f757465724a61636b65744b696e64, .str 0x707663), (0x73686561746841734e65757472616c, .bool false), (0x6973537472616e6446696c6c, .bool false), (0x6e6f6d696e616c54656d7065726174757265, .flt 0x0), (0x636f6e737472756374696f6e4b696e64, .str 0x736563746f72), (0x6469616d657465724f7665724a61636b6574, .flt 0x0), (0x6469616d657465724f766572496e73756c6174696f6e, .flt 0x0), (0x6469616d657465724f76657253637265656e, .flt 0x0), (0x736869656c644d6174657269616c, .str 0x6c656164), (0x6469616d657465724f766572436f7265, .flt 0x0)],
  [(0x6f757465724a61636b65744b696e64, 0x737472), (0x73686561746841734e65757472616c, 0x626f6f6c), (0x6973537472616e6446696c6c, 0x626f6f6c), (0x6e6f6d696e616c54656d7065726174757265, 0x666c6f6174), (0x636f6e737472756374696f6e4b696e64, 0x737472), (0x6469616d657465724f7665724a61636b6574, 0x666c6f6174), (0x6469616d657465724f766572496e73756c6174696f6e, 0x666c6f6174), (0x6469616d657465724f76657253637265656e, 0x666c6f6174), (0x736869656c644d6174657269616c, 0x737472), (0x6469616d657465724f766572436f7265, 0x666c6f6174)],
  [(0x6f757465724a61636b65744b696e64, 0x4361626c654f757465724a61636b65744b696e64), (0x636f6e737472756374696f6e4b696e64, 0x4361626c65436f6e737472756374696f6e4b696e64), (0x736869656c644d6174657269616c, 0x4361626c65536869656c644d6174657269616c4b696e64)],
  [⟨0x4475637442616e6b496e666f, .one2many, 0x4361626c65496e666f73, 0, false⟩],
  []⟩
def m_CableInfo : List RClass := d_CableInfo :: m_ConductorInfo

/-- CIM15/IEC61968/AssetModels/OverheadConductorInfo.py:23 -/
def d_OverheadConductorInfo : RClass := ⟨0x4f76657268656164436f6e647563746f72496e666f, 0x43494d31352e49454336313936382e41737365744d6f64656c732e4f76657268656164436f6e647563746f72496e666f, 0x43494d31352e49454336313936382e41737365744d6f64656c732e436f6e647563746f72496e666f,
  [(0x6e65757472616c496e73756c6174696f6e546869636b6e657373, .flt 0x0), (0x7068617365436f6e647563746f7253706163696e67, .flt 0x0), (0x7068617365436f6e647563746f72436f756e74, .int 0)],
  [0x6e65757472616c496e73756c6174696f6e546869636b6e657373, 0x7068617365436f6e647563746f7253706163696e67, 0x7068617365436f6e647563746f72436f756e74],
  [(0x6e65757472616c496e73756c6174696f6e546869636b6e657373, .flt 0x0), (0x7068617365436f6e647563746f7253706163696e67, .flt 0x0), (0x7068617365436f6e647563746f72436f756e74, .int 0)],
  [(0x6e65757472616c496e73756c6174696f6e546869636b6e657373, 0x666c6f6174), (0x7068617365436f6e647563746f7253706163696e67, 0x666c6f6174), (0x7068617365436f6e647563746f72436f756e74, 0x696e74)],
  [],
  [⟨0x4d6f756e74696e67506f696e74, .one2many, 0x4f76657268656164436f6e647563746f7273, 0, false⟩],
  []⟩
def m_OverheadConductorInfo : List RClass := d_OverheadConductorInfo :: m_ConductorInfo

/-- CIM15/IEC61968/Customers/CustomerAgreement.py:23 -/
def d_CustomerAgreement : RClass := ⟨0x437573746f6d657241677265656d656e74, 0x43494d31352e49454336313936382e437573746f6d6572732e437573746f6d657241677265656d656e74, 0x43494d31352e49454336313936382e436f6d6d6f6e2e41677265656d656e74,
  [(0x62696c6c696e674379636c65, .str 0), (0x6c6f61644d676d74, .str 0), (0x62756467657442696c6c, .str 0)],
  [0x62696c6c696e674379636c65, 0x6c6f61644d676d74, 0x62756467657442696c6c],
  [(0x62696c6c696e674379636c65, .str 0), (0x6c6f61644d676d74, .str 0), (0x62756467657442696c6c, .str 0)],
  [(0x62696c6c696e674379636c65, 0x737472), (0x6c6f61644d676d74, 0x737472), (0x62756467657442696c6c, 0x737472)],
  [],
  [⟨0x50726963696e6753747275637475726573, .many2many, 0x437573746f6d657241677265656d656e7473, 0, false⟩, ⟨0x437573746f6d65724163636f756e74, .one2many, 0x437573746f6d657241677265656d656e7473, 0, false⟩, ⟨0x5374616e64617264496e647573747279436f6465, .one2many, 0x437573746f6d657241677265656d656e7473, 0, false⟩, ⟨0x417578696c6961727941677265656d656e7473, .many2one, 0x437573746f6d657241677265656d656e74, 0, false⟩, ⟨0x4d6574657252656164696e6773, .many2one, 0x437573746f6d657241677265656d656e74, 0, false⟩, ⟨0x45717569706d656e7473, .many2many, 0x437573746f6d657241677265656d656e7473, 0, false⟩, ⟨0x53657276696365537570706c696572, .one2many, 0x437573746f6d657241677265656d656e7473, 0, false⟩, ⟨0x536572766963654c6f636174696f6e73, .many2many, 0x437573746f6d657241677265656d656e7473, 0, false⟩, ⟨0x44656d616e64526573706f6e736550726f6772616d, .one2many, 0x437573746f6d657241677265656d656e7473, 0, false⟩, ⟨0x5365727669636544656c6976657279506f696e7473, .many2one, 0x437573746f6d657241677265656d656e74, 0, false⟩, ⟨0x437573746f6d6572, .one2many, 0x437573746f6d657241677265656d656e7473, 0, false⟩, ⟨0x456e64446576696365436f6e74726f6c73, .many2one, 0x437573746f6d657241677265656d656e74, 0, false⟩],
  [0x50726963696e6753747275637475726573, 0x417578696c6961727941677265656d656e7473, 0x4d6574657252656164696e6773, 0x45717569706d656e7473, 0x536572766963654c6f636174696f6e73, 0x5365727669636544656c6976657279506f696e7473, 0x456e64446576696365436f6e74726f6c73]⟩
def m_CustomerAgreement : List RClass := d_CustomerAgreement :: m_Agreement

/-- CIM15/IEC61968/LoadControl/ConnectDisconnectFunction.py:23 -/
def d_ConnectDisconnectFunction : RClass := ⟨0x436f6e6e656374446973636f6e6e65637446756e6374696f6e, 0x43494d31352e49454336313936382e4c6f6164436f6e74726f6c2e436f6e6e656374446973636f6e6e65637446756e6374696f6e, 0x43494d31352e49454336313936382e4d65746572696e672e456e6444657669636546756e6374696f6e,
  [(0x697344656c61796564446973636f6e, .bool false), (0x6576656e74436f756e74, .int 0), (0x697352656d6f74654175746f5265636f6e4f70, .bool false), (0x697352656d6f74654175746f446973636f6e4f70, .bool false), (0x69734c6f63616c4175746f446973636f6e4f70, .bool false), (0x69734c6f63616c4175746f5265636f6e4f70, .bool false), (0x6973436f6e6e6563746564, .bool false)],
  [0x697344656c61796564446973636f6e, 0x6576656e74436f756e74, 0x697352656d6f74654175746f5265636f6e4f70, 0x697352656d6f74654175746f446973636f6e4f70, 0x69734c6f63616c4175746f446973636f6e4f70, 0x69734c6f63616c4175746f5265636f6e4f70, 0x6973436f6e6e6563746564],
  [(0x697344656c61796564446973636f6e, .bool false), (0x6576656e74436f756e74, .int 0), (0x697352656d6f74654175746f5265636f6e4f70, .bool false), (0x697352656d6f74654175746f446973636f6e4f70, .bool false), (0x69734c6f63616c4175746f446973636f6e4f70, .bool false), (0x69734c6f63616c4175746f5265636f6e4f70, .bool false), (0x6973436f6e6e6563746564, .bool false)],
  [(0x697344656c61796564446973636f6e, 0x626f6f6c), (0x6576656e74436f756e74, 0x696e74), (0x697352656d6f74654175746f5265636f6e4f70, 0x626f6f6c), (0x697352656d6f74654175746f446973636f6e4f70, 0x626f6f6c), (0x69734c6f63616c4175746f446973636f6e4f70, 0x626f6f6c), (0x69734c6f63616c4175746f5265636f6e4f70, 0x626f6f6c), (0x6973436f6e6e6563746564, 0x626f6f6c)],
  [],
  [⟨0x726364496e666f, .plainOne, 0, 0, false⟩, ⟨0x5377697463686573, .many2many, 0x436f6e6e656374446973636f6e6e65637446756e6374696f6e73, 0, false⟩],
  [0x5377697463686573]⟩
def m_ConnectDisconnectFunction : List RClass := d_ConnectDisconnectFunction :: m_EndDeviceFunction

/-- CIM15/IEC61968/Metering/ComFunction.py:23 -/
def d_ComFunction : RClass := ⟨0x436f6d46756e6374696f6e, 0x43494d31352e49454336313936382e4d65746572696e672e436f6d46756e6374696f6e, 0x43494d31352e49454336313936382e4d65746572696e672e456e6444657669636546756e6374696f6e,
  [(0x616d72526f75746572, .str 0), (0x616d7241646472657373, .str 0), (0x74776f576179, .bool false)],
  [0x616d72526f75746572, 0x616d7241646472657373, 0x74776f576179],
  [(0x616d72526f75746572, .str 0), (0x616d7241646472657373, .str 0), (0x74776f576179, .bool false)],
  [(0x616d72526f75746572, 0x737472), (0x616d7241646472657373, 0x737472), (0x74776f576179, 0x626f6f6c)],
  [],
  [],
  []⟩
def m_ComFunction : List RClass := d_ComFunction :: m_EndDeviceFunction

/-- CIM15/IEC61968/Metering/ElectricMeteringFunction.py:23 -/
def d_ElectricMeteringFunction : RClass := ⟨0x456c6563747269634d65746572696e6746756e6374696f6e, 0x43494d31352e49454336313936382e4d65746572696e672e456c6563747269634d65746572696e6746756e6374696f6e, 0x43494d31352e49454336313936382e4d65746572696e672e456e6444657669636546756e6374696f6e,
  [(0x6b574d756c7469706c696572, .int 0), (0x6b57684d756c7469706c696572, .int 0)],
  [0x6b574d756c7469706c696572, 0x6b57684d756c7469706c696572],
  [(0x6b574d756c7469706c696572, .int 0), (0x6b57684d756c7469706c696572, .int 0)],
  [(0x6b574d756c7469706c696572, 0x696e74), (0x6b57684d756c7469706c696572, 0x696e74)],
  [],
  [⟨0x6374526174696f4d756c7469706c696572, .plainOne, 0, 0, false⟩, ⟨0x62696c6c696e674d756c7469706c696572, .plainOne, 0, 0, false⟩, ⟨0x7674526174696f4d756c7469706c696572, .plainOne, 0, 0, false⟩, ⟨0x64656d616e644d756c7469706c696572, .plainOne, 0, 0, false⟩],
  []⟩
def m_ElectricMeteringFunction : List RClass := d_ElectricMeteringFunction :: m_EndDeviceFunction

/-- CIM15/IEC61968/Metering/EndDevice.py:23 -/
def d_EndDevice : RClass := ⟨0x456e64446576696365, 0x43494d31352e49454336313936382e4d65746572696e672e456e64446576696365, 0x43494d31352e49454336313936382e4173736574732e4173736574436f6e7461696e6572,
  [(0x74696d655a6f6e654f6666736574, .flt 0x0), (0x616d7253797374656d, .str 0)],
  [0x74696d655a6f6e654f6666736574, 0x616d7253797374656d],
  [(0x74696d655a6f6e654f6666736574, .flt 0x0), (0x616d7253797374656d, .str 0)],
  [(0x74696d655a6f6e654f6666736574, 0x666c6f6174), (0x616d7253797374656d, 0x737472)],
  [],
  [⟨0x456e64446576696365496e666f, .one2many, 0x456e6444657669636573, 0, false⟩, ⟨0x5365727669636544656c6976657279506f696e74, .one2many, 0x456e6444657669636573, 0, false⟩, ⟨0x536572766963654c6f636174696f6e, .one2many, 0x456e6444657669636573, 0, false⟩, ⟨0x456e6444657669636546756e6374696f6e73, .many2one, 0x456e64446576696365, 0, false⟩, ⟨0x456e64446576696365436f6e74726f6c73, .many2one, 0x456e64446576696365, 0, false⟩, ⟨0x437573746f6d6572, .one2many, 0x456e6444657669636573, 0, false⟩, ⟨0x456e6444657669636547726f757073, .many2many, 0x456e6444657669636573, 0, false⟩],
  [0x456e6444657669636546756e6374696f6e73, 0x456e64446576696365436f6e74726f6c73, 0x456e6444657669636547726f757073]⟩
def m_EndDevice : List RClass := d_EndDevice :: m_AssetContainer

/-- CIM15/IEC61968/Metering/MeterServiceWork.py:23 -/
def d_MeterServiceWork : RClass := ⟨0x4d6574657253657276696365576f726b, 0x43494d31352e49454336313936382e4d65746572696e672e4d6574657253657276696365576f726b, 0x43494d31352e49454336313936382e576f726b2e576f726b,
  [],
  [],
  [],
  [],
  [],
  [⟨0x4f6c644d65746572, .one2many, 0x4d657465725265706c6163656d656e74576f726b73, 0, false⟩, ⟨0x4d65746572, .one2many, 0x4d6574657253657276696365576f726b73, 0, false⟩],
  []⟩
def m_MeterServiceWork : List RClass := d_MeterServiceWork :: m_Work

/-- CIM15/IEC61968/Metering/SimpleEndDeviceFunction.py:23 -/
def d_SimpleEndDeviceFunction : RClass := ⟨0x53696d706c65456e6444657669636546756e6374696f6e, 0x43494d31352e49454336313936382e4d65746572696e672e53696d706c65456e6444657669636546756e6374696f6e, 0x43494d31352e49454336313936382e4d65746572696e672e456e6444657669636546756e6374696f6e,
  [(0x6b696e64, .str 0x6f6e5265717565737452656164)],
  [0x6b696e64],
  [(0x6b696e64, .str 0x6f6e5265717565737452656164)],
  [(0x6b696e64, 0x737472)],
  [(0x6b696e64, 0x456e6444657669636546756e6374696f6e4b696e64)],
  [],
  []⟩
def m_SimpleEndDeviceFunction : List RClass := d_SimpleEndDeviceFunction :: m_EndDeviceFunction

/-- CIM15/IEC61968/PaymentMetering/AuxiliaryAgreement.py:23 -/
def d_AuxiliaryAgreement : RClass := ⟨0x417578696c6961727941677265656d656e74, 0x43494d31352e49454336313936382e5061796d656e744d65746572696e672e417578696c6961727941677265656d656e74, 0x43494d31352e49454336313936382e436f6d6d6f6e2e41677265656d656e74,
  [(0x76656e64506f7274696f6e417272656172, .flt 0x0), (0x617578526566, .str 0), (0x7061794379636c65, .str 0), (0x61727265617273496e746572657374, .flt 0x0), (0x6669786564416d6f756e74, .flt 0x0), (0x76656e64506f7274696f6e, .flt 0x0), (0x73756243617465676f7279, .str 0), (0x6175784379636c65, .str 0), (0x6175785072696f72697479436f6465, .str 0), (0x6d696e416d6f756e74, .flt 0x0)],
  [0x76656e64506f7274696f6e417272656172, 0x617578526566, 0x7061794379636c65, 0x61727265617273496e746572657374, 0x6669786564416d6f756e74, 0x76656e64506f7274696f6e, 0x73756243617465676f7279, 0x6175784379636c65, 0x6175785072696f72697479436f6465, 0x6d696e416d6f756e74],
  [(0x76656e64506f7274696f6e417272656172, .flt 0x0), (0x617578526566, .str 0), (0x7061794379636c65, .str 0), (0x61727265617273496e746572657374, .flt 0x0), (0x6669786564416d6f756e74, .flt 0x0), (0x76656e64506f7274696f6e, .flt 0x0), (0x73756243617465676f7279, .str 0), (0x6175784379636c65, .str 0), (0x6175785072696f72697479436f6465, .str 0), (0x6d696e416d6f756e74, .flt 0x0)],
  [(0x76656e64506f7274696f6e417272656172, 0x666c6f6174), (0x617578526566, 0x737472), (0x7061794379636c65, 0x737472), (0x61727265617273496e746572657374, 0x666c6f6174), (0x6669786564416d6f756e74, 0x666c6f6174), (0x76656e64506f7274696f6e, 0x666c6f6174), (0x73756243617465676f7279, 0x737472), (0x6175784379636c65, 0x737472), (0x6175785072696f72697479436f6465, 0x737472), (0x6d696e416d6f756e74, 0x666c6f6174)],
  [],
  [⟨0x437573746f6d657241677265656d656e74, .one2many, 0x417578696c6961727941677265656d656e7473, 0, false⟩, ⟨0x417578696c696172794163636f756e7473, .many2one, 0x417578696c6961727941677265656d656e74, 0, false⟩],
  [0x417578696c696172794163636f756e7473]⟩
def m_AuxiliaryAgreement : List RClass := d_AuxiliaryAgreement :: m_Agreement

/-- CIM15/IEC61968/PaymentMetering/MerchantAgreement.py:23 -/
def d_MerchantAgreement : RClass := ⟨0x4d65726368616e7441677265656d656e74, 0x43494d31352e49454336313936382e5061796d656e744d65746572696e672e4d65726368616e7441677265656d656e74, 0x43494d31352e49454336313936382e436f6d6d6f6e2e41677265656d656e74,
  [],
  [],
  [],
  [],
  [],
  [⟨0x4d65726368616e744163636f756e7473, .many2one, 0x4d65726368616e7441677265656d656e74, 0, false⟩],
  [0x4d65726368616e744163636f756e7473]⟩
def m_MerchantAgreement : List RClass := d_MerchantAgreement :: m_Agreement

/-- CIM15/IEC61970/AuxiliaryEquipment/AuxiliaryEquipment.py:23 -/
def d_AuxiliaryEquipment : RClass := ⟨0x417578696c6961727945717569706d656e74, 0x43494d31352e49454336313937302e417578696c6961727945717569706d656e742e417578696c6961727945717569706d656e74, 0x43494d31352e49454336313937302e436f72652e45717569706d656e74,
  [],
  [],
  [],
  [],
  [],
  [⟨0x5465726d696e616c, .one2many, 0x417578696c6961727945717569706d656e74, 0, false⟩],
  []⟩
def m_AuxiliaryEquipment : List RClass := d_AuxiliaryEquipment :: m_Equipment

/-- CIM15/IEC61970/Core/ConductingEquipment.py:23 -/
def d_ConductingEquipment : RClass := ⟨0x436f6e64756374696e6745717569706d656e74, 0x43494d31352e49454336313937302e436f72652e436f6e64756374696e6745717569706d656e74, 0x43494d31352e49454336313937302e436f72652e45717569706d656e74,
  [],
  [],
  [],
  [],
  [],
  [⟨0x42617365566f6c74616765, .one2many, 0x436f6e64756374696e6745717569706d656e74, 0, false⟩, ⟨0x436c656172616e636554616773, .many2one, 0x436f6e64756374696e6745717569706d656e74, 0, false⟩, ⟨0x50726f74656374696f6e45717569706d656e7473, .many2many, 0x436f6e64756374696e6745717569706d656e7473, 0, false⟩, ⟨0x5465726d696e616c73, .many2one, 0x436f6e64756374696e6745717569706d656e74, 0, false⟩, ⟨0x4f757461676553746570526f6c6573, .many2one, 0x436f6e64756374696e6745717569706d656e74, 0, false⟩, ⟨0x5376537461747573, .one2one, 0x436f6e64756374696e6745717569706d656e74, 0, false⟩],
  [0x436c656172616e636554616773, 0x50726f74656374696f6e45717569706d656e7473, 0x5465726d696e616c73, 0x4f757461676553746570526f6c6573]⟩
def m_ConductingEquipment : List RClass := d_ConductingEquipment :: m_Equipment

/-- CIM15/IEC61970/Core/EquipmentContainer.py:23 -/
def d_EquipmentContainer : RClass := ⟨0x45717569706d656e74436f6e7461696e6572, 0x43494d31352e49454336313937302e436f72652e45717569706d656e74436f6e7461696e6572, 0x43494d31352e49454336313937302e436f72652e436f6e6e65637469766974794e6f6465436f6e7461696e6572,
  [],
  [],
  [],
  [],
  [],
  [⟨0x45717569706d656e7473, .many2one, 0x45717569706d656e74436f6e7461696e6572, 0, false⟩],
  [0x45717569706d656e7473]⟩
def m_EquipmentContainer : List RClass := d_EquipmentContainer :: m_ConnectivityNodeContainer

/-- CIM15/IEC61970/Equivalents/EquivalentNetwork.py:23 -/
def d_EquivalentNetwork : RClass := ⟨0x4571756976616c656e744e6574776f726b, 0x43494d31352e49454336313937302e4571756976616c656e74732e4571756976616c656e744e6574776f726b, 0x43494d31352e49454336313937302e436f72652e436f6e6e65637469766974794e6f6465436f6e7461696e6572,
  [],
  [],
  [],
  [],
  [],
  [⟨0x4571756976616c656e7445717569706d656e7473, .many2one, 0x4571756976616c656e744e6574776f726b, 0, false⟩],
  [0x4571756976616c656e7445717569706d656e7473]⟩
def m_EquivalentNetwork : List RClass := d_EquivalentNetwork :: m_ConnectivityNodeContainer

/-- CIM15/IEC61970/Generation/GenerationDynamics/BWRSteamSupply.py:23 -/
def d_BWRSteamSupply : RClass := ⟨0x425752537465616d537570706c79, 0x43494d31352e49454336313937302e47656e65726174696f6e2e47656e65726174696f6e44796e616d6963732e425752537465616d537570706c79, 0x43494d31352e49454336313937302e47656e65726174696f6e2e47656e65726174696f6e44796e616d6963732e537465616d537570706c79,
  [(0x6c6f7765724c696d6974, .flt 0x0), (0x7072657373757265536574706f696e74544331, .flt 0x0), (0x7072657373757265536574706f696e74544332, .flt 0x0), (0x726f645061747465726e, .flt 0x0), (0x7072657373757265536574706f696e744741, .flt 0x0), (0x75707065724c696d6974, .flt 0x0), (0x70726573737572654c696d6974, .flt 0x0), (0x726641757835, .flt 0x0), (0x726641757836, .flt 0x0), (0x726641757833, .flt 0x0), (0x726f645061747465726e436f6e7374616e74, .flt 0x0), (0x726641757834, .flt 0x0), (0x726641757837, .flt 0x0), (0x726641757838, .flt 0x0), (0x68696768506f7765724c696d6974, .flt 0x0), (0x726641757831, .flt 0x0), (0x696e436f7265546865726d616c5443, .flt 0x0), (0x726641757832, .flt 0x0), (0x70726f706f7274696f6e616c4761696e, .flt 0x0), (0x6c6f77506f7765724c696d6974, .flt 0x0), (0x696e74656772616c4761696e, .flt 0x0)],
  [0x6c6f7765724c696d6974, 0x7072657373757265536574706f696e74544331, 0x7072657373757265536574706f696e74544332, 0x726f645061747465726e, 0x7072657373757265536574706f696e744741, 0x75707065724c696d6974, 0x70726573737572654c696d6974, 0x726641757835, 0x726641757836, 0x726641757833, 0x726f645061747465726e436f6e7374616e74, 0x726641757834, 0x726641757837, 0x726641757838, 0x68696768506f7765724c696d6974, 0x726641757831, 0x696e436f7265546865726d616c5443, 0x726641757832, 0x70726f706f7274696f6e616c4761696e, 0x6c6f77506f7765724c696d6974, 0x696e74656772616c4761696e],
  [(0x6c6f7765724c696d6974, .flt 0x0), (0x7072657373757265536574706f696e74544331, .flt 0x0), (0x7072657373757265536574706f696e74544332, .flt 0x0), (0x726f645061747465726e, .flt 0x0), (0x7072657373757265536574706f696e744741, .flt 0x0), (0x75707065724c696d6974, .flt 0x0), (0x70726573737572654c696d6974, .flt 0x0), (0x726641757835, .flt 0x0), (0x726641757836, .flt 0x0), (0x726641757833, .flt 0x0), (0x726f645061747465726e436f6e7374616e74, .flt 0x0), (0x726641757834, .flt 0x0), (0x726641757837, .flt 0x0), (0x726641757838, .flt 0x0), (0x68696768506f7765724c696d6974, .flt 0x0), (0x726641757831, .flt 0x0), (0x696e436f7265546865726d616c5443, .flt 0x0), (0x726641757832, .flt 0x0), (0x70726f706f7274696f6e616c4761696e, .flt 0x0), (0x6c6f77506f7765724c696d6974, .flt 0x0), (0x696e74656772616c4761696e, .flt 0x0)],
  [(0x6c6f7765724c696d6974, 0x666c6f6174), (0x7072657373757265536574706f696e74544331, 0x666c6f6174), (0x7072657373757265536574706f696e74544332, 0x666c6f6174), (0x726f645061747465726e, 0x666c6f6174), (0x7072657373757265536574706f696e744741, 0x666c6f6174), (0x75707065724c696d6974, 0x666c6f6174), (0x70726573737572654c696d6974, 0x666c6f6174), (0x726641757835, 0x666c6f6174), (0x726641757836, 0x666c6f6174), (0x726641757833, 0x666c6f6174), (0x726f645061747465726e436f6e7374616e74, 0x666c6f6174), (0x726641757834, 0x666c6f6174), (0x726641757837, 0x666c6f6174), (0x726641757838, 0x666c6f6174), (0x68696768506f7765724c696d6974, 0x666c6f6174), (0x726641757831, 0x666c6f6174), (0x696e436f7265546865726d616c5443, 0x666c6f6174), (0x726641757832, 0x666c6f6174), (0x70726f706f7274696f6e616c4761696e, 0x666c6f6174), (0x6c6f77506f7765724c696d6974, 0x666c6f6174), (0x696e74656772616c4761696e, 0x666c6f6174)],
  [],
  [],
  []⟩
def m_BWRSteamSupply : List RClass := d_BWRSteamSupply :: m_SteamSupply

/-- CIM15/IEC61970/Generation/GenerationDynamics/CombustionTurbine.py:23 -/
def d_CombustionTurbine : RClass := ⟨0x436f6d62757374696f6e54757262696e65, 0x43494d31352e49454336313937302e47656e65726174696f6e2e47656e65726174696f6e44796e616d6963732e436f6d62757374696f6e54757262696e65, 0x43494d31352e49454336313937302e47656e65726174696f6e2e47656e65726174696f6e44796e616d6963732e5072696d654d6f766572,
  [(0x6361706162696c6974795665727375734672657175656e6379, .flt 0x0), (0x7265666572656e636554656d70, .flt 0x0), (0x617578506f7765725665727375734672657175656e6379, .flt 0x0), (0x706f776572566172696174696f6e427954656d70, .flt 0x0), (0x617578506f776572566572737573566f6c74616765, .flt 0x0), (0x74696d65436f6e7374616e74, .flt 0x0), (0x686561745265636f76657279466c6167, .bool false), (0x616d6269656e7454656d70, .flt 0x0)],
  [0x6361706162696c6974795665727375734672657175656e6379, 0x7265666572656e636554656d70, 0x617578506f7765725665727375734672657175656e6379, 0x706f776572566172696174696f6e427954656d70, 0x617578506f776572566572737573566f6c74616765, 0x74696d65436f6e7374616e74, 0x686561745265636f76657279466c6167, 0x616d6269656e7454656d70],
  [(0x6361706162696c6974795665727375734672657175656e6379, .flt 0x0), (0x7265666572656e636554656d70, .flt 0x0), (0x617578506f7765725665727375734672657175656e6379, .flt 0x0), (0x706f776572566172696174696f6e427954656d70, .flt 0x0), (0x617578506f776572566572737573566f6c74616765, .flt 0x0), (0x74696d65436f6e7374616e74, .flt 0x0), (0x686561745265636f76657279466c6167, .bool false), (0x616d6269656e7454656d70, .flt 0x0)],
  [(0x6361706162696c6974795665727375734672657175656e6379, 0x666c6f6174), (0x7265666572656e636554656d70, 0x666c6f6174), (0x617578506f7765725665727375734672657175656e6379, 0x666c6f6174), (0x706f776572566172696174696f6e427954656d70, 0x666c6f6174), (0x617578506f776572566572737573566f6c74616765, 0x666c6f6174), (0x74696d65436f6e7374616e74, 0x666c6f6174), (0x686561745265636f76657279466c6167, 0x626f6f6c), (0x616d6269656e7454656d70, 0x666c6f6174)],
  [],
  [⟨0x486561745265636f76657279426f696c6572, .one2many, 0x436f6d62757374696f6e54757262696e6573, 0, false⟩, ⟨0x416972436f6d70726573736f72, .one2one, 0x436f6d62757374696f6e54757262696e65, 0, false⟩, ⟨0x435454656d70416374697665506f7765724375727665, .one2one, 0x436f6d62757374696f6e54757262696e65, 0, false⟩],
  []⟩
def m_CombustionTurbine : List RClass := d_CombustionTurbine :: m_PrimeMover

/-- CIM15/IEC61970/Generation/GenerationDynamics/FossilSteamSupply.py:23 -/
def d_FossilSteamSupply : RClass := ⟨0x466f7373696c537465616d537570706c79, 0x43494d31352e49454336313937302e47656e65726174696f6e2e47656e65726174696f6e44796e616d6963732e466f7373696c537465616d537570706c79, 0x43494d31352e49454336313937302e47656e65726174696f6e2e47656e65726174696f6e44796e616d6963732e537465616d537570706c79,
  [(0x6675656c44656d616e644c696d6974, .flt 0x0), (0x617578506f7765725665727375734672657175656e6379, .flt 0x0), (0x6d656368506f77657253656e736f724c6167, .flt 0x0), (0x70726573737572654374726c4447, .flt 0x0), (0x7468726f74746c6550726573737572655350, .flt 0x0), (0x6665656457617465725047, .flt 0x0), (0x6665656457617465725443, .flt 0x0), (0x636f6e74726f6c5043, .flt 0x0), (0x6675656c537570706c7944656c6179, .flt 0x0), (0x636f6e74726f6c504544, .flt 0x0), (0x636f6e74726f6c504542, .flt 0x0), (0x626f696c6572436f6e74726f6c4d6f6465, .str 0x666f6c6c6f77696e67), (0x636f6e74726f6c5443, .flt 0x0), (0x6d696e4572726f725261746550, .flt 0x0), (0x7375706572486561746572314361706163697479, .flt 0x0), (0x636f6e74726f6c4572726f724269617350, .flt 0x0), (0x70726573737572654374726c4947, .flt 0x0), (0x6665656457617465724947, .flt 0x0), (0x7072657373757265466565646261636b, .int 0), (0x617578506f776572566572737573566f6c74616765, .flt 0x0), (0x6675656c537570706c795443, .flt 0x0), (0x6d61784572726f725261746550, .flt 0x0), (0x7375706572486561746572506970655044, .flt 0x0), (0x70726573737572654374726c5047, .flt 0x0), (0x7375706572486561746572324361706163697479, .flt 0x0), (0x636f6e74726f6c4943, .flt 0x0)],
  [0x6675656c44656d616e644c696d6974, 0x617578506f7765725665727375734672657175656e6379, 0x6d656368506f77657253656e736f724c6167, 0x70726573737572654374726c4447, 0x7468726f74746c6550726573737572655350, 0x6665656457617465725047, 0x6665656457617465725443, 0x636f6e74726f6c5043, 0x6675656c537570706c7944656c6179, 0x636f6e74726f6c504544, 0x636f6e74726f6c504542, 0x626f696c6572436f6e74726f6c4d6f6465, 0x636f6e74726f6c5443, 0x6d696e4572726f725261746550, 0x7375706572486561746572314361706163697479, 0x636f6e74726f6c4572726f724269617350, 0x70726573737572654374726c4947, 0x6665656457617465724947, 0x7072657373757265466565646261636b, 0x617578506f776572566572737573566f6c74616765, 0x6675656c537570706c795443, 0x6d61784572726f725261746550, 0x7375706572486561746572506970655044, 0x70726573737572654374726c5047, 0x7375706572486561746572324361706163697479, 0x636f6e74726f6c4943],
  [(0x6675656c44656d616e644c696d6974, .flt 0x0), (0x617578506f7765725665727375734672657175656e6379, .flt 0x0), (0x6d656368506f77657253656e736f724c6167, .flt 0x0), (0x70726573737572654374726c4447, .flt 0x0), (0x7468726f74746c6550726573737572655350, .flt 0x0), (0x6665656457617465725047, .flt 0x0), (0x6665656457617465725443, .flt 0x0), (0x636f6e74726f6c5043, .flt 0x0), (0x6675656c537570706c7944656c6179, .flt 0x0), (0x636f6e74726f6c504544, .flt 0x0), (0x636f6e74726f6c504542, .flt 0x0), (0x626f696c6572436f6e74726f6c4d6f6465, .str 0x666f6c6c6f77696e67), (0x636f6e74726f6c5443, .flt 0x0), (0x6d696e4572726f725261746550, .flt 0x0), (0x7375706572486561746572314361706163697479, .flt 0x0), (0x636f6e74726f6c4572726f724269617350, .flt 0x0), (0x70726573737572654374726c4947, .flt 0x0), (0x6665656457617465724947, .flt 0x0), (0x7072657373757265466565646261636b, .int 0), (0x617578506f776572566572737573566f6c74616765, .flt 0x0), (0x6675656c537570706c795443, .flt 0x0), (0x6d61784572726f725261746550, .flt 0x0), (0x7375706572486561746572506970655044, .flt 0x0), (0x70726573737572654374726c5047, .flt 0x0), (0x7375706572486561746572324361706163697479, .flt 0x0), (0x636f6e74726f6c4943, .flt 0x0)],
  [(0x6675656c44656d616e644c696d6974, 0x666c6f6174), (0x617578506f7765725665727375734672657175656e6379, 0x666c6f6174), (0x6d656368506f77657253656e736f724c6167, 0x666c6f6174), (0x70726573737572654374726c4447, 0x666c6f6174), (0x7468726f74746c6550726573737572655350, 0x666c6f6174), (0x6665656457617465725047, 0x666c6f6174), (0x6665656457617465725443, 0x666c6f6174), (0x636f6e74726f6c5043, 0x666c6f6174), (0x6675656c537570706c7944656c6179, 0x666c6f6174), (0x636f6e74726f6c504544, 0x666c6f6174), (0x636f6e74726f6c504542, 0x666c6f6174), (0x626f696c6572436f6e74726f6c4d6f6465, 0x737472), (0x636f6e74726f6c5443, 0x666c6f6174), (0x6d696e4572726f725261746550, 0x666c6f6174), (0x7375706572486561746572314361706163697479, 0x666c6f6174), (0x636f6e74726f6c4572726f724269617350, 0x666c6f6174), (0x70726573737572654374726c4947, 0x666c6f6174), (0x6665656457617465724947, 0x666c6f6174), (0x7072657373757265466565646261636b, 0x696e74), (0x617578506f776572566572737573566f6c74616765, 0x666c6f6174), (0x6675656c537570706c795443, 0x666c6f6174), (0x6d61784572726f725261746550, 0x666c6f6174), (0x7375706572486561746572506970655044, 0x666c6f6174), (0x70726573737572654374726c5047, 0x666c6f6174), (0x7375706572486561746572324361706163697479, 0x666c6f6174), (0x636f6e74726f6c4943, 0x666c6f6174)],
  [(0x626f696c6572436f6e74726f6c4d6f6465, 0x426f696c6572436f6e74726f6c4d6f6465)],
  [],
  []⟩
def m_FossilSteamSupply : List RClass := d_FossilSteamSupply :: m_SteamSupply

/-- CIM15/IEC61970/Generation/GenerationDynamics/HydroTurbine.py:23 -/
def d_HydroTurbine : RClass := ⟨0x487964726f54757262696e65, 0x43494d31352e49454336313937302e47656e65726174696f6e2e47656e65726174696f6e44796e616d6963732e487964726f54757262696e65, 0x43494d31352e49454336313937302e47656e65726174696f6e2e47656e65726174696f6e44796e616d6963732e5072696d654d6f766572,
  [(0x6d6178486561644d617850, .flt 0x0), (0x6d696e486561644d617850, .flt 0x0), (0x74757262696e65526174696e67, .flt 0x0), (0x67617465526174654c696d6974, .flt 0x0), (0x74757262696e6554797065, .str 0x70656c746f6e), (0x6761746555707065724c696d6974, .flt 0x0), (0x7370656564526174696e67, .flt 0x0), (0x7370656564526567756c6174696f6e, .flt 0x0), (0x7472616e7369656e7444726f6f7054696d65, .flt 0x0), (0x7472616e7369656e74526567756c6174696f6e, .flt 0x0), (0x77617465725374617274696e6754696d65, .flt 0x0)],
  [0x6d6178486561644d617850, 0x6d696e486561644d617850, 0x74757262696e65526174696e67, 0x67617465526174654c696d6974, 0x74757262696e6554797065, 0x6761746555707065724c696d6974, 0x7370656564526174696e67, 0x7370656564526567756c6174696f6e, 0x7472616e7369656e7444726f6f7054696d65, 0x7472616e7369656e74526567756c6174696f6e, 0x77617465725374617274696e6754696d65],
  [(0x6d6178486561644d617850, .flt 0x0), (0x6d696e486561644d617850, .flt 0x0), (0x74757262696e65526174696e67, .flt 0x0), (0x67617465526174654c696d6974, .flt 0x0), (0x74757262696e6554797065, .str 0x70656c746f6e), (0x6761746555707065724c696d6974, .flt 0x0), (0x7370656564526174696e67, .flt 0x0), (0x7370656564526567756c6174696f6e, .flt 0x0), (0x7472616e7369656e7444726f6f7054696d65, .flt 0x0), (0x7472616e7369656e74526567756c6174696f6e, .flt 0x0), (0x77617465725374617274696e6754696d65, .flt 0x0)],
  [(0x6d6178486561644d617850, 0x666c6f6174), (0x6d696e486561644d617850, 0x666c6f6174), (0x74757262696e65526174696e67, 0x666c6f6174), (0x67617465526174654c696d6974, 0x666c6f6174), (0x74757262696e6554797065, 0x737472), (0x6761746555707065724c696d6974, 0x666c6f6174), (0x7370656564526174696e67, 0x666c6f6174), (0x7370656564526567756c6174696f6e, 0x666c6f6174), (0x7472616e7369656e7444726f6f7054696d65, 0x666c6f6174), (0x7472616e7369656e74526567756c6174696f6e, 0x666c6f6174), (0x77617465725374617274696e6754696d65, 0x666c6f6174)],
  [(0x74757262696e6554797065, 0x54757262696e6554797065)],
  [],
  []⟩
def m_HydroTurbine : List RClass := d_HydroTurbine :: m_PrimeMover

/-- CIM15/IEC61970/Generation/GenerationDynamics/PWRSteamSupply.py:23 -/
def d_PWRSteamSupply : RClass := ⟨0x505752537465616d537570706c79, 0x43494d31352e49454336313937302e47656e65726174696f6e2e47656e65726174696f6e44796e616d6963732e505752537465616d537570706c79, 0x43494d31352e49454336313937302e47656e65726174696f6e2e47656e65726174696f6e44796e616d6963732e537465616d537570706c79,
  [(0x636f72654e657574726f6e6963734854, .flt 0x0), (0x737465616d466c6f774647, .flt 0x0), (0x686f744c6567546f436f6c644c65674761696e, .flt 0x0), (0x737465616d507265737375726544726f704c61675443, .flt 0x0), (0x636f726548544c6167544331, .flt 0x0), (0x636f726548544c6167544332, .flt 0x0), (0x686f744c65674c61675443, .flt 0x0), (0x7468726f74746c6550726573737572655350, .flt 0x0), (0x686f744c6567537465616d4761696e, .flt 0x0), (0x7468726f74746c655072657373757265466163746f72, .flt 0x0), (0x636f6c644c656746424c61675443, .flt 0x0), (0x70726573737572654347, .flt 0x0), (0x737465616d50726573737572654647, .flt 0x0), (0x666565646261636b466163746f72, .flt 0x0), (0x636f72654e657574726f6e6963734566665443, .flt 0x0), (0x636f6c644c6567464732, .flt 0x0), (0x636f6c644c6567464731, .flt 0x0), (0x636f6c644c65674c61675443, .flt 0x0), (0x636f6c644c656746424c656164544332, .flt 0x0), (0x636f6c644c656746424c656164544331, .flt 0x0)],
  [0x636f72654e657574726f6e6963734854, 0x737465616d466c6f774647, 0x686f744c6567546f436f6c644c65674761696e, 0x737465616d507265737375726544726f704c61675443, 0x636f726548544c6167544331, 0x636f726548544c6167544332, 0x686f744c65674c61675443, 0x7468726f74746c6550726573737572655350, 0x686f744c6567537465616d4761696e, 0x7468726f74746c655072657373757265466163746f72, 0x636f6c644c656746424c61675443, 0x70726573737572654347, 0x737465616d50726573737572654647, 0x666565646261636b466163746f72, 0x636f72654e657574726f6e6963734566665443, 0x636f6c644c6567464732, 0x636f6c644c6567464731, 0x636f6c644c65674c61675443, 0x636f6c644c656746424c656164544332, 0x636f6c644c656746424c656164544331],
  [(0x636f72654e657574726f6e6963734854, .flt 0x0), (0x737465616d466c6f774647, .flt 0x0), (0x686f744c6567546f436f6c644c65674761696e, .flt 0x0), (0x737465616d507265737375726544726f704c61675443, .flt 0x0), (0x636f726548544c6167544331, .flt 0x0), (0x636f726548544c6167544332, .flt 0x0), (0x686f744c65674c61675443, .flt 0x0), (0x7468726f74746c6550726573737572655350, .flt 0x0), (0x686f744c6567537465616d4761696e, .flt 0x0), (0x7468726f74746c655072657373757265466163746f72, .flt 0x0), (0x636f6c644c656746424c61675443, .flt 0x0), (0x70726573737572654347, .flt 0x0), (0x737465616d50726573737572654647, .flt 0x0), (0x666565646261636b466163746f72, .flt 0x0), (0x636f72654e657574726f6e6963734566665443, .flt 0x0), (0x636f6c644c6567464732, .flt 0x0), (0x636f6c644c6567464731, .flt 0x0), (0x636f6c644c65674c61675443, .flt 0x0), (0x636f6c644c656746424c656164544332, .flt 0x0), (0x636f6c644c656746424c656164544331, .flt 0x0)],
  [(0x636f72654e657574726f6e6963734854, 0x666c6f6174), (0x737465616d466c6f774647, 0x666c6f6174), (0x686f744c6567546f436f6c644c65674761696e, 0x666c6f6174), (0x737465616d507265737375726544726f704c61675443, 0x666c6f6174), (0x636f726548544c6167544331, 0x666c6f6174), (0x636f726548544c6167544332, 0x666c6f6174), (0x686f744c65674c61675443, 0x666c6f6174), (0x7468726f74746c6550726573737572655350, 0x666c6f6174), (0x686f744c6567537465616d4761696e, 0x666c6f6174), (0x7468726f74746c655072657373757265466163746f72, 0x666c6f6174), (0x636f6c644c656746424c61675443, 0x666c6f6174), (0x70726573737572654347, 0x666c6f6174), (0x737465616d50726573737572654647, 0x666c6f6174), (0x666565646261636b466163746f72, 0x666c6f6174), (0x636f72654e657574726f6e6963734566665443, 0x666c6f6174), (0x636f6c644c6567464732, 0x666c6f6174), (0x636f6c644c6567464731, 0x666c6f6174), (0x636f6c644c65674c61675443, 0x666c6f6174), (0x636f6c644c656746424c656164544332, 0x666c6f6174), (0x636f6c644c656746424c656164544331, 0x666c6f6174)],
  [],
  [],
  []⟩
def m_PWRSteamSupply : List RClass := d_PWRSteamSupply :: m_SteamSupply

/-- CIM15/IEC61970/Generation/GenerationDynamics/SteamTurbine.py:23 -/
def d_SteamTurbine : RClass := ⟨0x537465616d54757262696e65, 0x43494d31352e49454336313937302e47656e65726174696f6e2e47656e65726174696f6e44796e616d6963732e537465616d54757262696e65, 0x43494d31352e49454336313937302e47656e65726174696f6e2e47656e65726174696f6e44796e616d6963732e5072696d654d6f766572,
  [(0x736861667431506f7765724950, .flt 0x0), (0x736861667432506f7765724950, .flt 0x0), (0x63726f73736f7665725443, .flt 0x0), (0x736861667431506f7765724c5031, .flt 0x0), (0x736861667431506f7765724c5032, .flt 0x0), (0x7265686561746572315443, .flt 0x0), (0x736861667432506f7765724c5031, .flt 0x0), (0x736861667432506f7765724c5032, .flt 0x0), (0x7265686561746572325443, .flt 0x0), (0x737465616d43686573745443, .flt 0x0), (0x736861667431506f7765724850, .flt 0x0), (0x736861667432506f7765724850, .flt 0x0)],
  [0x736861667431506f7765724950, 0x736861667432506f7765724950, 0x63726f73736f7665725443, 0x736861667431506f7765724c5031, 0x736861667431506f7765724c5032, 0x7265686561746572315443, 0x736861667432506f7765724c5031, 0x736861667432506f7765724c5032, 0x7265686561746572325443, 0x737465616d43686573745443, 0x736861667431506f7765724850, 0x736861667432506f7765724850],
  [(0x736861667431506f7765724950, .flt 0x0), (0x736861667432506f7765724950, .flt 0x0), (0x63726f73736f7665725443, .flt 0x0), (0x736861667431506f7765724c5031, .flt 0x0), (0x736861667431506f7765724c5032, .flt 0x0), (0x7265686561746572315443, .flt 0x0), (0x736861667432506f7765724c5031, .flt 0x0), (0x736861667432506f7765724c5032, .flt 0x0), (0x7265686561746572325443, .flt 0x0), (0x737465616d43686573745443, .flt 0x0), (0x736861667431506f7765724850, .flt 0x0), (0x736861667432506f7765724850, .flt 0x0)],
  [(0x736861667431506f7765724950, 0x666c6f6174), (0x736861667432506f7765724950, 0x666c6f6174), (0x63726f73736f7665725443, 0x666c6f6174), (0x736861667431506f7765724c5031, 0x666c6f6174), (0x736861667431506f7765724c5032, 0x666c6f6174), (0x7265686561746572315443, 0x666c6f6174), (0x736861667432506f7765724c5031, 0x666c6f6174), (0x736861667432506f7765724c5032, 0x666c6f6174), (0x7265686561746572325443, 0x666c6f6174), (0x737465616d43686573745443, 0x666c6f6174), (0x736861667431506f7765724850, 0x666c6f6174), (0x736861667432506f7765724850, 0x666c6f6174)],
  [],
  [⟨0x537465616d537570706c7973, .many2many, 0x537465616d54757262696e6573, 0, false⟩],
  [0x537465616d537570706c7973]⟩
def m_SteamTurbine : List RClass := d_SteamTurbine :: m_PrimeMover

/-- CIM15/IEC61970/Generation/Production/GenUnitOpSchedule.py:23 -/
def d_GenUnitOpSchedule : RClass := ⟨0x47656e556e69744f705363686564756c65, 0x43494d31352e49454336313937302e47656e65726174696f6e2e50726f64756374696f6e2e47656e556e69744f705363686564756c65, 0x43494d31352e49454336313937302e436f72652e526567756c6172496e74657276616c5363686564756c65,
  [],
  [],
  [],
  [],
  [],
  [⟨0x47656e65726174696e67556e6974, .one2one, 0x47656e556e69744f705363686564756c65, 0, false⟩],
  []⟩
def m_GenUnitOpSchedule : List RClass := d_GenUnitOpSchedule :: m_RegularIntervalSchedule

/-- CIM15/IEC61970/Generation/Production/GeneratingUnit.py:23 -/
def d_GeneratingUnit : RClass := ⟨0x47656e65726174696e67556e6974, 0x43494d31352e49454336313937302e47656e65726174696f6e2e50726f64756374696f6e2e47656e65726174696e67556e6974, 0x43494d31352e49454336313937302e436f72652e45717569706d656e74,
  [(0x726174656447726f73734d696e50, .flt 0x0), (0x656666696369656e6379, .flt 0x0), (0x737465704368616e6765, .flt 0x0), (0x72617465644e65744d617850, .flt 0x0), (0x7469654c696e655046, .flt 0x0), (0x6469737052657365727665466c6167, .bool false), (0x636f6e74726f6c50756c736548696768, .flt 0x0), (0x7374617274757054696d65, .flt 0x0), (0x6d61784f7065726174696e6750, .flt 0x0), (0x67656e436f6e74726f6c536f75726365, .str 0x706c616e74436f6e74726f6c), (0x6e6f726d616c5046, .flt 0x0), (0x696e697469616c50, .flt 0x0), (0x7370696e5265736572766552616d70, .flt 0x0), (0x616c6c6f635370696e52657350, .flt 0x0), (0x6d696e45636f6e6f6d696350, .flt 0x0), (0x6c6f6e675046, .flt 0x0), (0x6e6f6d696e616c50, .flt 0x0), (0x636f6e74726f6c526573706f6e736552617465, .flt 0x0), (0x726174656447726f73734d617850, .flt 0x0), (0x70656e616c7479466163746f72, .flt 0x0), (0x666173745374617274466c6167, .bool false), (0x6d696e696d756d4f666654696d65, .flt 0x0), (0x73686f72745046, .flt 0x0), (0x676f7665726e6f724d504c, .flt 0x0), (0x656e657267794d696e50, .flt 0x0), (0x6675656c5072696f72697479, .int 0), (0x6d617845636f6e6f6d696350, .flt 0x0), (0x6175746f436e74726c4d617267696e50, .flt 0x0), (0x68696768436f6e74726f6c4c696d6974, .flt 0x0), (0x6d6f64656c44657461696c, .str 0), (0x636f6e74726f6c50756c73654c6f77, .flt 0x0), (0x726169736552616d7052617465, .flt 0x0), (0x636f6e74726f6c4465616462616e64, .flt 0x0), (0x6261736550, .flt 0x0), (0x73746172747570436f7374, .flt 0x0), (0x7661726961626c65436f7374, .flt 0x0), (0x67656e4f7065726174696e674d6f6465, .str 0x4d524e), (0x6c6f77657252616d7052617465, .flt 0x0), (0x6d696e4f7065726174696e6750, .flt 0x0), (0x6c6f77436f6e74726f6c4c696d6974, .flt 0x0), (0x6d6178696d756d416c6c6f7761626c655370696e6e696e6752657365727665, .flt 0x0), (0x67656e436f6e74726f6c4d6f6465, .str 0x736574706f696e74), (0x676f7665726e6f72534344, .flt 0x0)],
  [0x726174656447726f73734d696e50, 0x656666696369656e6379, 0x737465704368616e6765, 0x72617465644e65744d617850, 0x7469654c696e655046, 0x6469737052657365727665466c6167, 0x636f6e74726f6c50756c736548696768, 0x7374617274757054696d65, 0x6d61784f7065726174696e6750, 0x67656e436f6e74726f6c536f75726365, 0x6e6f726d616c5046, 0x696e697469616c50, 0x7370696e5265736572766552616d70, 0x616c6c6f635370696e52657350, 0x6d696e45636f6e6f6d696350, 0x6c6f6e675046, 0x6e6f6d696e616c50, 0x636f6e74726f6c526573706f6e736552617465, 0x726174656447726f73734d617850, 0x70656e616c7479466163746f72, 0x666173745374617274466c6167, 0x6d696e696d756d4f666654696d65, 0x73686f72745046, 0x676f7665726e6f724d504c, 0x656e657267794d696e50, 0x6675656c5072696f72697479, 0x6d617845636f6e6f6d696350, 0x6175746f436e74726c4d617267696e50, 0x68696768436f6e74726f6c4c696d6974, 0x6d6f64656c44657461696c, 0x636f6e74726f6c50756c73654c6f77, 0x726169736552616d7052617465, 0x636f6e74726f6c4465616462616e64, 0x6261736550, 0x73746172747570436f7374, 0x7661726961626c65436f7374, 0x67656e4f7065726174696e674d6f6465, 0x6c6f77657252616d7052617465, 0x6d696e4f7065726174696e6750, 0x6c6f77436f6e74726f6c4c696d6974, 0x6d6178696d756d416c6c6f7761626c655370696e6e696e6752657365727665, 0x67656e436f6e74726f6c4d6f6465, 0x676f7665726e6f72534344],
  [(0x726174656447726f73734d696e50, .flt 0x0), (0x656666696369656e6379, .flt 0x0), (0x737465704368616e6765, .flt 0x0), (0x72617465644e65744d617850, .flt 0x0), (0x7469654c696e655046, .flt 0x0), (0x6469737052657365727665466c6167, .bool false), (0x636f6e74726f6c50756c736548696768, .flt 0x0), (0x7374617274757054696d65, .flt 0x0), (0x6d61784f7065726174696e6750, .flt 0x0), (0x67656e436f6e74726f6c536f75726365, .str 0x706c616e74436f6e74726f6c), (0x6e6f726d616c5046, .flt 0x0), (0x696e697469616c50, .flt 0x0), (0x7370696e5265736572766552616d70, .flt 0x0), (0x616c6c6f635370696e52657350, .flt 0x0), (0x6d696e45636f6e6f6d696350, .flt 0x0), (0x6c6f6e675046, .flt 0x0), (0x6e6f6d696e616c50, .flt 0x0), (0x636f6e74726f6c526573706f6e736552617465, .flt 0x0), (0x726174656447726f73734d617850, .flt 0x0), (0x70656e616c7479466163746f72, .flt 0x0), (0x666173745374617274466c6167, .bool false), (0x6d696e696d756d4f666654696d65, .flt 0x0), (0x73686f72745046, .flt 0x0), (0x676f7665726e6f724d504c, .flt 0x0), (0x656e657267794d696e50, .flt 0x0), (0x6675656c5072696f72697479, .int 0), (0x6d617845636f6e6f6d696350, .flt 0x0), (0x6175746f436e74726c4d617267696e50, .flt 0x0), (0x68696768436f6e74726f6c4c696d6974, .flt 0x0), (0x6d6f64656c44657461696c, .str 0), (0x636f6e74726f6c50756c73654c6f77, .flt 0x0), (0x726169736552616d7052617465, .flt 0x0), (0x636f6e74726f6c4465616462616e64, .flt 0x0), (0x6261736550, .flt 0x0), (0x73746172747570436f7374, .flt 0x0), (0x7661726961626c65436f7374, .flt 0x0), (0x67656e4f7065726174696e674d6f6465, .str 0x4d524e), (0x6c6f77657252616d7052617465, .flt 0x0), (0x6d696e4f7065726174696e6750, .flt 0x0), (0x6c6f77436f6e74726f6c4c696d6974, .flt 0x0), (0x6d6178696d756d416c6c6f7761626c655370696e6e696e6752657365727665, .flt 0x0), (0x67656e436f6e74726f6c4d6f6465, .str 0x736574706f696e74), (0x676f7665726e6f72534344, .flt 0x0)],
  [(0x726174656447726f73734d696e50, 0x666c6f6174), (0x656666696369656e6379, 0x666c6f6174), (0x737465704368616e6765, 0x666c6f6174), (0x72617465644e65744d617850, 0x666c6f6174), (0x7469654c696e655046, 0x666c6f6174), (0x6469737052657365727665466c6167, 0x626f6f6c), (0x636f6e74726f6c50756c736548696768, 0x666c6f6174), (0x7374617274757054696d65, 0x666c6f6174), (0x6d61784f7065726174696e6750, 0x666c6f6174), (0x67656e436f6e74726f6c536f75726365, 0x737472), (0x6e6f726d616c5046, 0x666c6f6174), (0x696e697469616c50, 0x666c6f6174), (0x7370696e5265736572766552616d70, 0x666c6f6174), (0x616c6c6f635370696e52657350, 0x666c6f6174), (0x6d696e45636f6e6f6d696350, 0x666c6f6174), (0x6c6f6e675046, 0x666c6f6174), (0x6e6f6d696e616c50, 0x666c6f6174), (0x636f6e74726f6c526573706f6e736552617465, 0x666c6f6174), (0x726174656447726f73734d617850, 0x666c6f6174), (0x70656e616c7479466163746f72, 0x666c6f6174), (0x666173745374617274466c6167, 0x626f6f6c), (0x6d696e696d756d4f666654696d65, 0x666c6f6174), (0x73686f72745046, 0x666c6f6174), (0x676f7665726e6f724d504c, 0x666c6f6174), (0x656e657267794d696e50, 0x666c6f6174), (0x6675656c5072696f72697479, 0x696e74), (0x6d617845636f6e6f6d696350, 0x666c6f6174), (0x6175746f436e74726c4d617267696e50, 0x666c6f6174), (0x68696768436f6e74726f6c4c696d6974, 0x666c6f6174), (0x6d6f64656c44657461696c, 0x737472), (0x636f6e74726f6c50756c73654c6f77, 0x666c6f6174), (0x726169736552616d7052617465, 0x666c6f6174), (0x636f6e74726f6c4465616462616e64, 0x666c6f6174), (0x6261736550, 0x666c6f6174), (0x73746172747570436f7374, 0x666c6f6174), (0x7661726961626c65436f7374, 0x666c6f6174), (0x67656e4f7065726174696e674d6f6465, 0x737472), (0x6c6f77657252616d7052617465, 0x666c6f6174), (0x6d696e4f7065726174696e6750, 0x666c6f6174), (0x6c6f77436f6e74726f6c4c696d6974, 0x666c6f6174), (0x6d6178696d756d416c6c6f7761626c655370696e6e696e6752657365727665, 0x666c6f6174), (0x67656e436f6e74726f6c4d6f6465, 0x737472), (0x676f7665726e6f72534344, 0x666c6f6174)],
  [(0x67656e436f6e74726f6c536f75726365, 0x47656e657261746f72436f6e74726f6c536f75726365), (0x67656e4f7065726174696e674d6f6465, 0x47656e657261746f724f7065726174696e674d6f6465), (0x67656e436f6e74726f6c4d6f6465, 0x47656e657261746f72436f6e74726f6c4d6f6465)],
  [⟨0x436f6e74726f6c4172656147656e65726174696e67556e6974, .many2one, 0x47656e65726174696e67556e6974, 0, false⟩, ⟨0x53796e6368726f6e6f75734d616368696e6573, .many2one, 0x47656e65726174696e67556e6974, 0, false⟩, ⟨0x47656e556e69744f705363686564756c65, .one2one, 0x47656e65726174696e67556e6974, 0, false⟩, ⟨0x47726f7373546f4e6574416374697665506f776572437572766573, .many2one, 0x47656e65726174696e67556e6974, 0, false⟩, ⟨0x47656e556e69744f70436f7374437572766573, .many2one, 0x47656e65726174696e67556e6974, 0, false⟩],
  [0x436f6e74726f6c4172656147656e65726174696e67556e6974, 0x53796e6368726f6e6f75734d616368696e6573, 0x47726f7373546f4e6574416374697665506f776572437572766573, 0x47656e556e69744f70436f7374437572766573]⟩
def m_GeneratingUnit : List RClass := d_GeneratingUnit :: m_Equipment

/-- CIM15/IEC61970/Generation/Production/HydroPumpOpSchedule.py:23 -/
def d_HydroPumpOpSchedule : RClass := ⟨0x487964726f50756d704f705363686564756c65, 0x43494d31352e49454336313937302e47656e65726174696f6e2e50726f64756374696f6e2e487964726f50756d704f705363686564756c65, 0x43494d31352e49454336313937302e436f72652e526567756c6172496e74657276616c5363686564756c65,
  [],
  [],
  [],
  [],
  [],
  [⟨0x487964726f50756d70, .one2one, 0x487964726f50756d704f705363686564756c65, 0, false⟩],
  []⟩
def m_HydroPumpOpSchedule : List RClass := d_HydroPumpOpSchedule :: m_RegularIntervalSchedule

/-- CIM15/IEC61970/Generation/Production/InflowForecast.py:23 -/
def d_InflowForecast : RClass := ⟨0x496e666c6f77466f726563617374, 0x43494d31352e49454336313937302e47656e65726174696f6e2e50726f64756374696f6e2e496e666c6f77466f726563617374, 0x43494d31352e49454336313937302e436f72652e526567756c6172496e74657276616c5363686564756c65,
  [],
  [],
  [],
  [],
  [],
  [⟨0x5265736572766f6972, .one2many, 0x496e666c6f77466f72656361737473, 0, false⟩],
  []⟩
def m_InflowForecast : List RClass := d_InflowForecast :: m_RegularIntervalSchedule

/-- CIM15/IEC61970/Generation/Production/SteamSendoutSchedule.py:23 -/
def d_SteamSendoutSchedule : RClass := ⟨0x537465616d53656e646f75745363686564756c65, 0x43494d31352e49454336313937302e47656e65726174696f6e2e50726f64756374696f6e2e537465616d53656e646f75745363686564756c65, 0x43494d31352e49454336313937302e436f72652e526567756c6172496e74657276616c5363686564756c65,
  [],
  [],
  [],
  [],
  [],
  [⟨0x436f67656e65726174696f6e506c616e74, .one2one, 0x537465616d53656e646f75745363686564756c65, 0, false⟩],
  []⟩
def m_SteamSendoutSchedule : List RClass := d_SteamSendoutSchedule :: m_RegularIntervalSchedule

/-- CIM15/IEC61970/Informative/InfAssetModels/TransformerAssetModel.py:23 -/
def d_TransformerAssetModel : RClass := ⟨0x5472616e73666f726d657241737365744d6f64656c, 0x43494d31352e49454336313937302e496e666f726d61746976652e496e6641737365744d6f64656c732e5472616e73666f726d657241737365744d6f64656c, 0x43494d31352e49454336313936382e4173736574732e50726f6475637441737365744d6f64656c,
  [(0x6e65757472616c42494c, .flt 0x0), (0x636f6e737472756374696f6e4b696e64, .str 0x64727954797065), (0x636f7265436f696c73576569676874, .flt 0x0), (0x77696e64696e67496e73756c6174696f6e4b696e64, .str 0x746865726d616c6c7955706772616465645061706572), (0x686f75724f7665724c6f6164526174696e67, .flt 0x0), (0x616c745072696d6172794e6f6d566f6c74616765, .flt 0x0), (0x616c745365636f6e646172794e6f6d566f6c74616765, .flt 0x0), (0x7265636f6e66696757696e64696e67, .bool false), (0x66756e6374696f6e, .str 0x6175746f7472616e73666f726d6572), (0x6f696c507265736572766174696f6e4b696e64, .str 0x6f74686572), (0x6461794f7665724c6f6164526174696e67, .flt 0x0), (0x636f72654b696e64, .str 0x7368656c6c), (0x6175746f5472616e73666f726d6572, .bool false), (0x736f6c6964496e73756c6174696f6e576569676874, .flt 0x0)],
  [0x6e65757472616c42494c, 0x636f6e737472756374696f6e4b696e64, 0x636f7265436f696c73576569676874, 0x77696e64696e67496e73756c6174696f6e4b696e64, 0x686f75724f7665724c6f6164526174696e67, 0x616c745072696d6172794e6f6d566f6c74616765, 0x616c745365636f6e646172794e6f6d566f6c74616765, 0x7265636f6e66696757696e64696e67, 0x66756e6374696f6e, 0x6f696c507265736572766174696f6e4b696e64, 0x6461794f7665724c6f6164526174696e67, 0x636f72654b696e64, 0x6175746f5472616e73666f726d6572, 0x736f6c6964496e73756c6174696f6e576569676874],
  [(0x6e65757472616c42494c, .flt 0x0), (0x636f6e737472756374696f6e4b696e64, .str 0x64727954797065), (0x636f7265436f696c73576569676874, .flt 0x0), (0x77696e64696e67496e73756c6174696f6e4b696e64, .str 0x746865726d616c6c7955706772616465645061706572), (0x686f75724f7665724c6f6164526174696e67, .flt 0x0), (0x616c745072696d6172794e6f6d566f6c74616765, .flt 0x0), (0x616c745365636f6e646172794e6f6d566f6c74616765, .flt 0x0), (0x7265636f6e66696757696e64696e67, .bool false), (0x66756e6374696f6e, .str 0x6175746f7472616e73666f726d6572), (0x6f696c507265736572766174696f6e4b696e64, .str 0x6f74686572), (0x6461794f7665724c6f6164526174696e67, .flt 0x0), (0x636f72654b696e64, .str 0x7368656c6c), (0x6175746f5472616e73666f726d6572, .bool false), (0x736f6c6964496e73756c6174696f6e576569676874, .flt 0x0)],
  [(0x6e65757472616c42494c, 0x666c6f6174), (0x636f6e737472756374696f6e4b696e64, 0x737472), (0x636f7265436f696c73576569676874, 0x666c6f6174), (0x77696e64696e67496e73756c6174696f6e4b696e64, 0x737472), (0x686f75724f7665724c6f6164526174696e67, 0x666c6f6174), (0x616c745072696d6172794e6f6d566f6c74616765, 0x666c6f6174), (0x616c745365636f6e646172794e6f6d566f6c74616765, 0x666c6f6174), (0x7265636f6e66696757696e64696e67, 0x626f6f6c), (0x66756e6374696f6e, 0x737472), (0x6f696c507265736572766174696f6e4b696e64, 0x737472), (0x6461794f7665724c6f6164526174696e67, 0x666c6f6174), (0x636f72654b696e64, 0x737472), (0x6175746f5472616e73666f726d6572, 0x626f6f6c), (0x736f6c6964496e73756c6174696f6e576569676874, 0x666c6f6174)],
  [(0x636f6e737472756374696f6e4b696e64, 0x5472616e73666f726d6572436f6e737472756374696f6e4b696e64), (0x77696e64696e67496e73756c6174696f6e4b696e64, 0x57696e64696e67496e73756c6174696f6e4b696e64), (0x66756e6374696f6e, 0x5472616e73666f726d657246756e6374696f6e4b696e64), (0x6f696c507265736572766174696f6e4b696e64, 0x4f696c507265736572766174696f6e4b696e64), (0x636f72654b696e64, 0x5472616e73666f726d6572436f72654b696e64)],
  [⟨0x5472616e73666f726d6572417373657473, .many2one, 0x5472616e73666f726d657241737365744d6f64656c, 0, false⟩, ⟨0x5472616e73666f726d6572496e666f, .one2many, 0x5472616e73666f726d657241737365744d6f64656c73, 0, false⟩],
  [0x5472616e73666f726d6572417373657473]⟩
def m_TransformerAssetModel : List RClass := d_TransformerAssetModel :: m_ProductAssetModel

/-- CIM15/IEC61970/Informative/InfAssets/BreakerInfo.py:23 -/
def d_BreakerInfo : RClass := ⟨0x427265616b6572496e666f, 0x43494d31352e49454336313937302e496e666f726d61746976652e496e664173736574732e427265616b6572496e666f, 0x43494d31352e49454336313937302e496e666f726d61746976652e496e664173736574732e537769746368496e666f,
  [(0x706861736554726970, .flt 0x0)],
  [0x706861736554726970],
  [(0x706861736554726970, .flt 0x0)],
  [(0x706861736554726970, 0x666c6f6174)],
  [],
  [],
  []⟩
def m_BreakerInfo : List RClass := d_BreakerInfo :: m_SwitchInfo

/-- CIM15/IEC61970/Informative/InfAssets/Cabinet.py:23 -/
def d_Cabinet : RClass := ⟨0x436162696e6574, 0x43494d31352e49454336313937302e496e666f726d61746976652e496e664173736574732e436162696e6574, 0x43494d31352e49454336313936382e4173736574732e4173736574436f6e7461696e6572,
  [],
  [],
  [],
  [],
  [],
  [],
  []⟩
def m_Cabinet : List RClass := d_Cabinet :: m_AssetContainer

/-- CIM15/IEC61970/Informative/InfAssets/Duct.py:23 -/
def d_Duct : RClass := ⟨0x44756374, 0x43494d31352e49454336313937302e496e666f726d61746976652e496e664173736574732e44756374, 0x43494d31352e49454336313936382e4173736574732e4173736574436f6e7461696e6572,
  [(0x78436f6f7264, .int 0), (0x79436f6f7264, .int 0)],
  [0x78436f6f7264, 0x79436f6f7264],
  [(0x78436f6f7264, .int 0), (0x79436f6f7264, .int 0)],
  [(0x78436f6f7264, 0x696e74), (0x79436f6f7264, 0x696e74)],
  [],
  [⟨0x4475637442616e6b496e666f, .one2many, 0x44756374496e666f73, 0, false⟩, ⟨0x4361626c65496e666f73, .many2one, 0x4475637442616e6b496e666f, 0, false⟩],
  [0x4361626c65496e666f73]⟩
def m_Duct : List RClass := d_Duct :: m_AssetContainer

/-- CIM15/IEC61970/Informative/InfAssets/DuctBank.py:23 -/
def d_DuctBank : RClass := ⟨0x4475637442616e6b, 0x43494d31352e49454336313937302e496e666f726d61746976652e496e664173736574732e4475637442616e6b, 0x43494d31352e49454336313936382e4173736574732e4173736574436f6e7461696e6572,
  [(0x63697263756974436f756e74, .int 0)],
  [0x63697263756974436f756e74],
  [(0x63697263756974436f756e74, .int 0)],
  [(0x63697263756974436f756e74, 0x696e74)],
  [],
  [⟨0x44756374496e666f73, .many2one, 0x4475637442616e6b496e666f, 0, false⟩],
  [0x44756374496e666f73]⟩
def m_DuctBank : List RClass := d_DuctBank :: m_AssetContainer

/-- CIM15/IEC61970/Informative/InfAssets/Facility.py:23 -/
def d_Facility : RClass := ⟨0x466163696c697479, 0x43494d31352e49454336313937302e496e666f726d61746976652e496e664173736574732e466163696c697479, 0x43494d31352e49454336313936382e4173736574732e4173736574436f6e7461696e6572,
  [(0x6b696e64, .str 0)],
  [0x6b696e64],
  [(0x6b696e64, .str 0)],
  [(0x6b696e64, 0x737472)],
  [],
  [],
  []⟩
def m_Facility : List RClass := d_Facility :: m_AssetContainer

/-- CIM15/IEC61970/Informative/InfAssets/RecloserInfo.py:23 -/
def d_RecloserInfo : RClass := ⟨0x5265636c6f736572496e666f, 0x43494d31352e49454336313937302e496e666f726d61746976652e496e664173736574732e5265636c6f736572496e666f, 0x43494d31352e49454336313937302e496e666f726d61746976652e496e664173736574732e537769746368496e666f,
  [(0x67726f756e64547269704e6f726d616c456e61626c6564, .bool false), (0x67726f756e645472697043617061626c65, .bool false), (0x7265636c6f73654c6f636b6f7574436f756e74, .int 0), (0x706861736554726970526174696e67, .flt 0x0), (0x67726f756e6454726970526174696e67, .flt 0x0)],
  [0x67726f756e64547269704e6f726d616c456e61626c6564, 0x67726f756e645472697043617061626c65, 0x7265636c6f73654c6f636b6f7574436f756e74, 0x706861736554726970526174696e67, 0x67726f756e6454726970526174696e67],
  [(0x67726f756e64547269704e6f726d616c456e61626c6564, .bool false), (0x67726f756e645472697043617061626c65, .bool false), (0x7265636c6f73654c6f636b6f7574436f756e74, .int 0), (0x706861736554726970526174696e67, .flt 0x0), (0x67726f756e6454726970526174696e67, .flt 0x0)],
  [(0x67726f756e64547269704e6f726d616c456e61626c6564, 0x626f6f6c), (0x67726f756e645472697043617061626c65, 0x626f6f6c), (0x7265636c6f73654c6f636b6f7574436f756e74, 0x696e74), (0x706861736554726970526174696e67, 0x666c6f6174), (0x67726f756e6454726970526174696e67, 0x666c6f6174)],
  [],
  [],
  []⟩
def m_RecloserInfo : List RClass := d_RecloserInfo :: m_SwitchInfo

/-- CIM15/IEC61970/Informative/InfAssets/SVC.py:23 -/
def d_SVC : RClass := ⟨0x535643, 0x43494d31352e49454336313937302e496e666f726d61746976652e496e664173736574732e535643, 0x43494d31352e49454336313937302e496e666f726d61746976652e496e664173736574732e4641435453446576696365,
  [(0x696e64756374697665526174696e67, .flt 0x0), (0x63617061636974697665526174696e67, .flt 0x0)],
  [0x696e64756374697665526174696e67, 0x63617061636974697665526174696e67],
  [(0x696e64756374697665526174696e67, .flt 0x0), (0x63617061636974697665526174696e67, .flt 0x0)],
  [(0x696e64756374697665526174696e67, 0x666c6f6174), (0x63617061636974697665526174696e67, 0x666c6f6174)],
  [],
  [],
  []⟩
def m_SVC : List RClass := d_SVC :: m_FACTSDevice

/-- CIM15/IEC61970/Informative/InfAssets/Structure.py:23 -/
def d_Structure : RClass := ⟨0x537472756374757265, 0x43494d31352e49454336313937302e496e666f726d61746976652e496e664173736574732e537472756374757265, 0x43494d31352e49454336313936382e4173736574732e4173736574436f6e7461696e6572,
  [(0x7261746564566f6c74616765, .flt 0x0), (0x66756d6967616e744170706c69656444617465, .str 0), (0x7765656452656d6f76656444617465, .str 0), (0x72656d6f766557656564, .bool false), (0x686569676874, .flt 0x0), (0x66756d6967616e744e616d65, .str 0), (0x6d6174657269616c4b696e64, .str 0x776f6f64)],
  [0x7261746564566f6c74616765, 0x66756d6967616e744170706c69656444617465, 0x7765656452656d6f76656444617465, 0x72656d6f766557656564, 0x686569676874, 0x66756d6967616e744e616d65, 0x6d6174657269616c4b696e64],
  [(0x7261746564566f6c74616765, .flt 0x0), (0x66756d6967616e744170706c69656444617465, .str 0), (0x7765656452656d6f76656444617465, .str 0), (0x72656d6f766557656564, .bool false), (0x686569676874, .flt 0x0), (0x66756d6967616e744e616d65, .str 0), (0x6d6174657269616c4b696e64, .str 0x776f6f64)],
  [(0x7261746564566f6c74616765, 0x666c6f6174), (0x66756d6967616e744170706c69656444617465, 0x737472), (0x7765656452656d6f76656444617465, 0x737472), (0x72656d6f766557656564, 0x626f6f6c), (0x686569676874, 0x666c6f6174), (0x66756d6967616e744e616d65, 0x737472), (0x6d6174657269616c4b696e64, 0x737472)],
  [(0x6d6174657269616c4b696e64, 0x5374727563747572654d6174657269616c4b696e64)],
  [⟨0x537472756374757265537570706f7274496e666f73, .many2one, 0x53656375726564537472756374757265, 0, false⟩, ⟨0x4d6f756e74696e67436f6e6e656374696f6e73, .many2many, 0x537472756374757265496e666f73, 0, false⟩],
  [0x537472756374757265537570706f7274496e666f73, 0x4d6f756e74696e67436f6e6e656374696f6e73]⟩
def m_Structure : List RClass := d_Structure :: m_AssetContainer

/-- CIM15/IEC61970/Informative/InfAssets/TestDataSet.py:23 -/
def d_TestDataSet : RClass := ⟨0x5465737444617461536574, 0x43494d31352e49454336313937302e496e666f726d61746976652e496e664173736574732e5465737444617461536574, 0x43494d31352e49454336313937302e496e666f726d61746976652e496e664173736574732e50726f63656475726544617461536574,
  [(0x73706563696d656e546f4c61624461746554696d65, .str 0), (0x636f6e636c7573696f6e, .str 0), (0x73706563696d656e4944, .str 0)],
  [0x73706563696d656e546f4c61624461746554696d65, 0x636f6e636c7573696f6e, 0x73706563696d656e4944],
  [(0x73706563696d656e546f4c61624461746554696d65, .str 0), (0x636f6e636c7573696f6e, .str 0), (0x73706563696d656e4944, .str 0)],
  [(0x73706563696d656e546f4c61624461746554696d65, 0x737472), (0x636f6e636c7573696f6e, 0x737472), (0x73706563696d656e4944, 0x737472)],
  [],
  [],
  []⟩
def m_TestDataSet : List RClass := d_TestDataSet :: m_ProcedureDataSet

/-- CIM15/IEC61970/Informative/InfCustomers/ExternalCustomerAgreement.py:23 -/
def d_ExternalCustomerAgreement : RClass := ⟨0x45787465726e616c437573746f6d657241677265656d656e74, 0x43494d31352e49454336313937302e496e666f726d61746976652e496e66437573746f6d6572732e45787465726e616c437573746f6d657241677265656d656e74, 0x43494d31352e49454336313936382e436f6d6d6f6e2e41677265656d656e74,
  [],
  [],
  [],
  [],
  [],
  [],
  []⟩
def m_ExternalCustomerAgreement : List RClass := d_ExternalCustomerAgreement :: m_Agreement

/-- CIM15/IEC61970/Informative/InfERPSupport/ErpBankAccount.py:23 -/
def d_ErpBankAccount : RClass := ⟨0x45727042616e6b4163636f756e74, 0x43494d31352e49454336313937302e496e666f726d61746976652e496e66455250537570706f72742e45727042616e6b4163636f756e74, 0x43494d31352e49454336313937302e496e666f726d61746976652e496e66436f6d6d6f6e2e42616e6b4163636f756e74,
  [(0x62616e6b414241, .str 0)],
  [0x62616e6b414241],
  [(0x62616e6b414241, .str 0)],
  [(0x62616e6b414241, 0x737472)],
  [],
  [],
  []⟩
def m_ErpBankAccount : List RClass := d_ErpBankAccount :: m_BankAccount

/-- CIM15/IEC61970/Informative/InfGMLSupport/Map.py:23 -/
def d_Map : RClass := ⟨0x4d6170, 0x43494d31352e49454336313937302e496e666f726d61746976652e496e66474d4c537570706f72742e4d6170, 0x43494d31352e49454336313937302e496e666f726d61746976652e496e66474d4c537570706f72742e4469616772616d,
  [(0x706167654e756d626572, .int 0), (0x6d61704c6f6347726964, .str 0)],
  [0x706167654e756d626572, 0x6d61704c6f6347726964],
  [(0x706167654e756d626572, .int 0), (0x6d61704c6f6347726964, .str 0)],
  [(0x706167654e756d626572, 0x696e74), (0x6d61704c6f6347726964, 0x737472)],
  [],
  [],
  []⟩
def m_Map : List RClass := d_Map :: m_Diagram

/-- CIM15/IEC61970/Informative/InfLoadControl/LoadMgmtFunction.py:23 -/
def d_LoadMgmtFunction : RClass := ⟨0x4c6f61644d676d7446756e6374696f6e, 0x43494d31352e49454336313937302e496e666f726d61746976652e496e664c6f6164436f6e74726f6c2e4c6f61644d676d7446756e6374696f6e, 0x43494d31352e49454336313936382e4d65746572696e672e456e6444657669636546756e6374696f6e,
  [(0x7363686564756c696e674261736973, .str 0x72656d6f7465436f6e74726f6c), (0x72656d6f74654f76657252696465, .bool false), (0x69734175746f4f70, .bool false), (0x6c6f6164537461747573, .str 0x6c696d697465644c6f6164), (0x6d616e75616c4f76657252696465, .bool false), (0x6f7665725269646554696d654f7574, .flt 0x0)],
  [0x7363686564756c696e674261736973, 0x72656d6f74654f76657252696465, 0x69734175746f4f70, 0x6c6f6164537461747573, 0x6d616e75616c4f76657252696465, 0x6f7665725269646554696d654f7574],
  [(0x7363686564756c696e674261736973, .str 0x72656d6f7465436f6e74726f6c), (0x72656d6f74654f76657252696465, .bool false), (0x69734175746f4f70, .bool false), (0x6c6f6164537461747573, .str 0x6c696d697465644c6f6164), (0x6d616e75616c4f76657252696465, .bool false), (0x6f7665725269646554696d654f7574, .flt 0x0)],
  [(0x7363686564756c696e674261736973, 0x737472), (0x72656d6f74654f76657252696465, 0x626f6f6c), (0x69734175746f4f70, 0x626f6f6c), (0x6c6f6164537461747573, 0x737472), (0x6d616e75616c4f76657252696465, 0x626f6f6c), (0x6f7665725269646554696d654f7574, 0x666c6f6174)],
  [(0x7363686564756c696e674261736973, 0x4c6f61644d676d744b696e64), (0x6c6f6164537461747573, 0x4c6f616453746174654b696e64)],
  [⟨0x5377697463686573, .many2many, 0x4c6f61644d676d7446756e6374696f6e73, 0, false⟩, ⟨0x4c6f61644d676d745265636f726473, .many2one, 0x4c6f61644d676d7446756e6374696f6e, 0, false⟩],
  [0x5377697463686573, 0x4c6f61644d676d745265636f726473]⟩
def m_LoadMgmtFunction : List RClass := d_LoadMgmtFunction :: m_EndDeviceFunction

/-- CIM15/IEC61970/Informative/InfLocations/LocationGrant.py:23 -/
def d_LocationGrant : RClass := ⟨0x4c6f636174696f6e4772616e74, 0x43494d31352e49454336313937302e496e666f726d61746976652e496e664c6f636174696f6e732e4c6f636174696f6e4772616e74, 0x43494d31352e49454336313936382e436f6d6d6f6e2e41677265656d656e74,
  [(0x70726f706572747944617461, .str 0)],
  [0x70726f706572747944617461],
  [(0x70726f706572747944617461, .str 0)],
  [(0x70726f706572747944617461, 0x737472)],
  [],
  [⟨0x4c616e6450726f7065727479, .one2many, 0x4c6f636174696f6e4772616e7473, 0, false⟩],
  []⟩
def m_LocationGrant : List RClass := d_LocationGrant :: m_Agreement

/-- CIM15/IEC61970/Informative/InfLocations/RightOfWay.py:23 -/
def d_RightOfWay : RClass := ⟨0x52696768744f66576179, 0x43494d31352e49454336313937302e496e666f726d61746976652e496e664c6f636174696f6e732e52696768744f66576179, 0x43494d31352e49454336313936382e436f6d6d6f6e2e41677265656d656e74,
  [(0x70726f706572747944617461, .str 0)],
  [0x70726f706572747944617461],
  [(0x70726f706572747944617461, .str 0)],
  [(0x70726f706572747944617461, 0x737472)],
  [],
  [⟨0x4c616e6450726f70657274696573, .many2many, 0x52696768744f6657617973, 0, false⟩],
  [0x4c616e6450726f70657274696573]⟩
def m_RightOfWay : List RClass := d_RightOfWay :: m_Agreement

/-- CIM15/IEC61970/Informative/InfMetering/GasMeteringFunction.py:23 -/
def d_GasMeteringFunction : RClass := ⟨0x4761734d65746572696e6746756e6374696f6e, 0x43494d31352e49454336313937302e496e666f726d61746976652e496e664d65746572696e672e4761734d65746572696e6746756e6374696f6e, 0x43494d31352e49454336313936382e4d65746572696e672e456e6444657669636546756e6374696f6e,
  [],
  [],
  [],
  [],
  [],
  [],
  []⟩
def m_GasMeteringFunction : List RClass := d_GasMeteringFunction :: m_EndDeviceFunction

/-- CIM15/IEC61970/Informative/InfMetering/WaterMeteringFunction.py:23 -/
def d_WaterMeteringFunction : RClass := ⟨0x57617465724d65746572696e6746756e6374696f6e, 0x43494d31352e49454336313937302e496e666f726d61746976652e496e664d65746572696e672e57617465724d65746572696e6746756e6374696f6e, 0x43494d31352e49454336313936382e4d65746572696e672e456e6444657669636546756e6374696f6e,
  [],
  [],
  [],
  [],
  [],
  [],
  []⟩
def m_WaterMeteringFunction : List RClass := d_WaterMeteringFunction :: m_EndDeviceFunction

/-- CIM15/IEC61970/Informative/InfTypeAsset/GeneratorTypeAsset.py:23 -/
def d_GeneratorTypeAsset : RClass := ⟨0x47656e657261746f72547970654173736574, 0x43494d31352e49454336313937302e496e666f726d61746976652e496e665479706541737365742e47656e657261746f72547970654173736574, 0x43494d31352e49454336313937302e496e666f726d61746976652e496e664173736574732e47656e6572696341737365744d6f64656c4f724d6174657269616c,
  [(0x7844697265637453796e63, .flt 0x0), (0x72517561645375627472616e73, .flt 0x0), (0x7244697265637453796e63, .flt 0x0), (0x724469726563745375627472616e73, .flt 0x0), (0x6d617851, .flt 0x0), (0x785175616453796e63, .flt 0x0), (0x6d696e51, .flt 0x0), (0x6d696e50, .flt 0x0), (0x6d617850, .flt 0x0), (0x725175616453796e63, .flt 0x0), (0x78517561645375627472616e73, .flt 0x0), (0x724469726563745472616e73, .flt 0x0), (0x72517561645472616e73, .flt 0x0), (0x784469726563745375627472616e73, .flt 0x0), (0x784469726563745472616e73, .flt 0x0), (0x78517561645472616e73, .flt 0x0)],
  [0x7844697265637453796e63, 0x72517561645375627472616e73, 0x7244697265637453796e63, 0x724469726563745375627472616e73, 0x6d617851, 0x785175616453796e63, 0x6d696e51, 0x6d696e50, 0x6d617850, 0x725175616453796e63, 0x78517561645375627472616e73, 0x724469726563745472616e73, 0x72517561645472616e73, 0x784469726563745375627472616e73, 0x784469726563745472616e73, 0x78517561645472616e73],
  [(0x7844697265637453796e63, .flt 0x0), (0x72517561645375627472616e73, .flt 0x0), (0x7244697265637453796e63, .flt 0x0), (0x724469726563745375627472616e73, .flt 0x0), (0x6d617851, .flt 0x0), (0x785175616453796e63, .flt 0x0), (0x6d696e51, .flt 0x0), (0x6d696e50, .flt 0x0), (0x6d617850, .flt 0x0), (0x725175616453796e63, .flt 0x0), (0x78517561645375627472616e73, .flt 0x0), (0x724469726563745472616e73, .flt 0x0), (0x72517561645472616e73, .flt 0x0), (0x784469726563745375627472616e73, .flt 0x0), (0x784469726563745472616e73, .flt 0x0), (0x78517561645472616e73, .flt 0x0)],
  [(0x7844697265637453796e63, 0x666c6f6174), (0x72517561645375627472616e73, 0x666c6f6174), (0x7244697265637453796e63, 0x666c6f6174), (0x724469726563745375627472616e73, 0x666c6f6174), (0x6d617851, 0x666c6f6174), (0x785175616453796e63, 0x666c6f6174), (0x6d696e51, 0x666c6f6174), (0x6d696e50, 0x666c6f6174), (0x6d617850, 0x666c6f6174), (0x725175616453796e63, 0x666c6f6174), (0x78517561645375627472616e73, 0x666c6f6174), (0x724469726563745472616e73, 0x666c6f6174), (0x72517561645472616e73, 0x666c6f6174), (0x784469726563745375627472616e73, 0x666c6f6174), (0x784469726563745472616e73, 0x666c6f6174), (0x78517561645472616e73, 0x666c6f6174)],
  [],
  [],
  []⟩
def m_GeneratorTypeAsset : List RClass := d_GeneratorTypeAsset :: m_GenericAssetModelOrMaterial

/-- CIM15/IEC61970/Informative/InfWork/DiagnosisDataSet.py:23 -/
def d_DiagnosisDataSet : RClass := ⟨0x446961676e6f73697344617461536574, 0x43494d31352e49454336313937302e496e666f726d61746976652e496e66576f726b2e446961676e6f73697344617461536574, 0x43494d31352e49454336313937302e496e666f726d61746976652e496e664173736574732e50726f63656475726544617461536574,
  [(0x66696e616c4361757365, .str 0), (0x66696e616c52656d61726b, .str 0), (0x7068617365436f6465, .str 0x7331324e), (0x7072656c696d696e6172794461746554696d65, .str 0), (0x7072656c696d696e617279436f6465, .str 0), (0x726f6f7452656d61726b, .str 0), (0x726f6f744361757365, .str 0), (0x7072656c696d696e61727952656d61726b, .str 0), (0x656666656374, .str 0), (0x66696e616c4f726967696e, .str 0), (0x66696e616c436f6465, .str 0), (0x726f6f744f726967696e, .str 0), (0x6661696c7572654d6f6465, .str 0)],
  [0x66696e616c4361757365, 0x66696e616c52656d61726b, 0x7068617365436f6465, 0x7072656c696d696e6172794461746554696d65, 0x7072656c696d696e617279436f6465, 0x726f6f7452656d61726b, 0x726f6f744361757365, 0x7072656c696d696e61727952656d61726b, 0x656666656374, 0x66696e616c4f726967696e, 0x66696e616c436f6465, 0x726f6f744f726967696e, 0x6661696c7572654d6f6465],
  [(0x66696e616c4361757365, .str 0), (0x66696e616c52656d61726b, .str 0), (0x7068617365436f6465, .str 0x7331324e), (0x7072656c696d696e6172794461746554696d65, .str 0), (0x7072656c696d696e617279436f6465, .str 0), (0x726f6f7452656d61726b, .str 0), (0x726f6f744361757365, .str 0), (0x7072656c696d696e61727952656d61726b, .str 0), (0x656666656374, .str 0), (0x66696e616c4f726967696e, .str 0), (0x66696e616c436f6465, .str 0), (0x726f6f744f726967696e, .str 0), (0x6661696c7572654d6f6465, .str 0)],
  [(0x66696e616c4361757365, 0x737472), (0x66696e616c52656d61726b, 0x737472), (0x7068617365436f6465, 0x737472), (0x7072656c696d696e6172794461746554696d65, 0x737472), (0x7072656c696d696e617279436f6465, 0x737472), (0x726f6f7452656d61726b, 0x737472), (0x726f6f744361757365, 0x737472), (0x7072656c696d696e61727952656d61726b, 0x737472), (0x656666656374, 0x737472), (0x66696e616c4f726967696e, 0x737472), (0x66696e616c436f6465, 0x737472), (0x726f6f744f726967696e, 0x737472), (0x6661696c7572654d6f6465, 0x737472)],
  [(0x7068617365436f6465, 0x5068617365436f6465)],
  [],
  []⟩
def m_DiagnosisDataSet : List RClass := d_DiagnosisDataSet :: m_ProcedureDataSet

/-- CIM15/IEC61970/Informative/InfWork/InspectionDataSet.py:23 -/
def d_InspectionDataSet : RClass := ⟨0x496e7370656374696f6e44617461536574, 0x43494d31352e49454336313937302e496e666f726d61746976652e496e66576f726b2e496e7370656374696f6e44617461536574, 0x43494d31352e49454336313937302e496e666f726d61746976652e496e664173736574732e50726f63656475726544617461536574,
  [(0x6c6f636174696f6e436f6e646974696f6e, .str 0)],
  [0x6c6f636174696f6e436f6e646974696f6e],
  [(0x6c6f636174696f6e436f6e646974696f6e, .str 0)],
  [(0x6c6f636174696f6e436f6e646974696f6e, 0x737472)],
  [],
  [⟨0x4163636f7264696e67546f5363686564756c6573, .many2one, 0x466f72496e7370656374696f6e44617461536574, 0, false⟩],
  [0x4163636f7264696e67546f5363686564756c6573]⟩
def m_InspectionDataSet : List RClass := d_InspectionDataSet :: m_ProcedureDataSet

/-- CIM15/IEC61970/Informative/InfWork/MaintenanceDataSet.py:23 -/
def d_MaintenanceDataSet : RClass := ⟨0x4d61696e74656e616e636544617461536574, 0x43494d31352e49454336313937302e496e666f726d61746976652e496e66576f726b2e4d61696e74656e616e636544617461536574, 0x43494d31352e49454336313937302e496e666f726d61746976652e496e664173736574732e50726f63656475726544617461536574,
  [(0x636f6e646974696f6e4166746572, .str 0), (0x636f6e646974696f6e4265666f7265, .str 0), (0x6d61696e74436f6465, .str 0)],
  [0x636f6e646974696f6e4166746572, 0x636f6e646974696f6e4265666f7265, 0x6d61696e74436f6465],
  [(0x636f6e646974696f6e4166746572, .str 0), (0x636f6e646974696f6e4265666f7265, .str 0), (0x6d61696e74436f6465, .str 0)],
  [(0x636f6e646974696f6e4166746572, 0x737472), (0x636f6e646974696f6e4265666f7265, 0x737472), (0x6d61696e74436f6465, 0x737472)],
  [],
  [],
  []⟩
def m_MaintenanceDataSet : List RClass := d_MaintenanceDataSet :: m_ProcedureDataSet

/-- CIM15/IEC61970/LoadModel/SeasonDayTypeSchedule.py:23 -/
def d_SeasonDayTypeSchedule : RClass := ⟨0x536561736f6e446179547970655363686564756c65, 0x43494d31352e49454336313937302e4c6f61644d6f64656c2e536561736f6e446179547970655363686564756c65, 0x43494d31352e49454336313937302e436f72652e526567756c6172496e74657276616c5363686564756c65,
  [],
  [],
  [],
  [],
  [],
  [⟨0x536561736f6e, .one2many, 0x536561736f6e446179547970655363686564756c6573, 0, false⟩, ⟨0x44617954797065, .one2many, 0x536561736f6e446179547970655363686564756c6573, 0, false⟩],
  []⟩
def m_SeasonDayTypeSchedule : List RClass := d_SeasonDayTypeSchedule :: m_RegularIntervalSchedule

/-- CIM15/IEC61970/Outage/OutageSchedule.py:23 -/
def d_OutageSchedule : RClass := ⟨0x4f75746167655363686564756c65, 0x43494d31352e49454336313937302e4f75746167652e4f75746167655363686564756c65, 0x43494d31352e49454336313937302e436f72652e4972726567756c6172496e74657276616c5363686564756c65,
  [],
  [],
  [],
  [],
  [],
  [⟨0x506c616e6e65644f7574616765, .one2many, 0x4f75746167655363686564756c6573, 0, false⟩, ⟨0x537769746368696e674f7065726174696f6e73, .many2one, 0x4f75746167655363686564756c65, 0, false⟩, ⟨0x506f77657253797374656d5265736f75726365, .one2one, 0x4f75746167655363686564756c65, 0, false⟩],
  [0x537769746368696e674f7065726174696f6e73]⟩
def m_OutageSchedule : List RClass := d_OutageSchedule :: m_IrregularIntervalSchedule

/-- CIM15/IEC61970/Protection/ProtectionEquipment.py:23 -/
def d_ProtectionEquipment : RClass := ⟨0x50726f74656374696f6e45717569706d656e74, 0x43494d31352e49454336313937302e50726f74656374696f6e2e50726f74656374696f6e45717569706d656e74, 0x43494d31352e49454336313937302e436f72652e45717569706d656e74,
  [(0x686967684c696d6974, .flt 0x0), (0x706f776572446972656374696f6e466c6167, .bool false), (0x6c6f774c696d6974, .flt 0x0), (0x756e697453796d626f6c, .str 0x4e), (0x72656c617944656c617954696d65, .flt 0x0), (0x756e69744d756c7469706c696572, .str 0x4d)],
  [0x686967684c696d6974, 0x706f776572446972656374696f6e466c6167, 0x6c6f774c696d6974, 0x756e697453796d626f6c, 0x72656c617944656c617954696d65, 0x756e69744d756c7469706c696572],
  [(0x686967684c696d6974, .flt 0x0), (0x706f776572446972656374696f6e466c6167, .bool false), (0x6c6f774c696d6974, .flt 0x0), (0x756e697453796d626f6c, .str 0x4e), (0x72656c617944656c617954696d65, .flt 0x0), (0x756e69744d756c7469706c696572, .str 0x4d)],
  [(0x686967684c696d6974, 0x666c6f6174), (0x706f776572446972656374696f6e466c6167, 0x626f6f6c), (0x6c6f774c696d6974, 0x666c6f6174), (0x756e697453796d626f6c, 0x737472), (0x72656c617944656c617954696d65, 0x666c6f6174), (0x756e69744d756c7469706c696572, 0x737472)],
  [(0x756e697453796d626f6c, 0x556e697453796d626f6c), (0x756e69744d756c7469706c696572, 0x556e69744d756c7469706c696572)],
  [⟨0x436f6e64756374696e6745717569706d656e7473, .many2many, 0x50726f74656374696f6e45717569706d656e7473, 0, false⟩, ⟨0x50726f7465637465645377697463686573, .many2many, 0x50726f74656374696f6e45717569706d656e7473, 0, false⟩],
  [0x436f6e64756374696e6745717569706d656e7473, 0x50726f7465637465645377697463686573]⟩
def m_ProtectionEquipment : List RClass := d_ProtectionEquipment :: m_Equipment

/-- CIM15/IEC61970/Wires/CompositeSwitch.py:23 -/
def d_CompositeSwitch : RClass := ⟨0x436f6d706f73697465537769746368, 0x43494d31352e49454336313937302e57697265732e436f6d706f73697465537769746368, 0x43494d31352e49454336313937302e436f72652e45717569706d656e74,
  [(0x636f6d706f7369746553776974636854797065, .str 0)],
  [0x636f6d706f7369746553776974636854797065],
  [(0x636f6d706f7369746553776974636854797065, .str 0)],
  [(0x636f6d706f7369746553776974636854797065, 0x737472)],
  [],
  [⟨0x5377697463686573, .many2one, 0x436f6d706f73697465537769746368, 0, false⟩],
  [0x5377697463686573]⟩
def m_CompositeSwitch : List RClass := d_CompositeSwitch :: m_Equipment

/-- CIM15/IEC61970/Wires/PhaseTapChanger.py:23 -/
def d_PhaseTapChanger : RClass := ⟨0x50686173655461704368616e676572, 0x43494d31352e49454336313937302e57697265732e50686173655461704368616e676572, 0x43494d31352e49454336313937302e57697265732e5461704368616e676572,
  [],
  [],
  [],
  [],
  [],
  [⟨0x50686173655461704368616e676572546162756c6172, .one2many, 0x50686173655461704368616e676572, 0, false⟩, ⟨0x5472616e73666f726d6572456e64, .one2one, 0x50686173655461704368616e676572, 0, false⟩],
  []⟩
def m_PhaseTapChanger : List RClass := d_PhaseTapChanger :: m_TapChanger

/-- CIM15/IEC61970/Wires/RatioTapChanger.py:23 -/
def d_RatioTapChanger : RClass := ⟨0x526174696f5461704368616e676572, 0x43494d31352e49454336313937302e57697265732e526174696f5461704368616e676572, 0x43494d31352e49454336313937302e57697265732e5461704368616e676572,
  [(0x73746570566f6c74616765496e6372656d656e74, .flt 0x0), (0x7463756c436f6e74726f6c4d6f6465, .str 0x7265616374697665)],
  [0x73746570566f6c74616765496e6372656d656e74, 0x7463756c436f6e74726f6c4d6f6465],
  [(0x73746570566f6c74616765496e6372656d656e74, .flt 0x0), (0x7463756c436f6e74726f6c4d6f6465, .str 0x7265616374697665)],
  [(0x73746570566f6c74616765496e6372656d656e74, 0x666c6f6174), (0x7463756c436f6e74726f6c4d6f6465, 0x737472)],
  [(0x7463756c436f6e74726f6c4d6f6465, 0x5472616e73666f726d6572436f6e74726f6c4d6f6465)],
  [⟨0x526174696f5461704368616e676572546162756c6172, .one2many, 0x526174696f5461704368616e676572, 0, false⟩, ⟨0x5472616e73666f726d6572456e64, .one2one, 0x526174696f5461704368616e676572, 0, false⟩],
  []⟩
def m_RatioTapChanger : List RClass := d_RatioTapChanger :: m_TapChanger

/-- CIM15/IEC61970/Wires/TapChangerControl.py:23 -/
def d_TapChangerControl : RClass := ⟨0x5461704368616e676572436f6e74726f6c, 0x43494d31352e49454336313937302e57697265732e5461704368616e676572436f6e74726f6c, 0x43494d31352e49454336313937302e57697265732e526567756c6174696e67436f6e74726f6c,
  [(0x6c696e6544726f7052, .flt 0x0), (0x6c696e6544726f7058, .flt 0x0), (0x726576657273654c696e6544726f7058, .flt 0x0), (0x726576657273654c696e6544726f7052, .flt 0x0), (0x6c696e6544726f70436f6d70656e736174696f6e, .bool false), (0x6c696d6974566f6c74616765, .flt 0x0)],
  [0x6c696e6544726f7052, 0x6c696e6544726f7058, 0x726576657273654c696e6544726f7058, 0x726576657273654c696e6544726f7052, 0x6c696e6544726f70436f6d70656e736174696f6e, 0x6c696d6974566f6c74616765],
  [(0x6c696e6544726f7052, .flt 0x0), (0x6c696e6544726f7058, .flt 0x0), (0x726576657273654c696e6544726f7058, .flt 0x0), (0x726576657273654c696e6544726f7052, .flt 0x0), (0x6c696e6544726f70436f6d70656e736174696f6e, .bool false), (0x6c696d6974566f6c74616765, .flt 0x0)],
  [(0x6c696e6544726f7052, 0x666c6f6174), (0x6c696e6544726f7058, 0x666c6f6174), (0x726576657273654c696e6544726f7058, 0x666c6f6174), (0x726576657273654c696e6544726f7052, 0x666c6f6174), (0x6c696e6544726f70436f6d70656e736174696f6e, 0x626f6f6c), (0x6c696d6974566f6c74616765, 0x666c6f6174)],
  [],
  [⟨0x5461704368616e676572, .many2one, 0x5461704368616e676572436f6e74726f6c, 0, false⟩],
  [0x5461704368616e676572]⟩
def m_TapChangerControl : List RClass := d_TapChangerControl :: m_RegulatingControl

/-- CIM15/IEC61970/Wires/TransformerTank.py:23 -/
def d_TransformerTank : RClass := ⟨0x5472616e73666f726d657254616e6b, 0x43494d31352e49454336313937302e57697265732e5472616e73666f726d657254616e6b, 0x43494d31352e49454336313937302e436f72652e45717569706d656e74,
  [],
  [],
  [],
  [],
  [],
  [⟨0x5365727669636544656c6976657279506f696e7473, .many2one, 0x5472616e73666f726d657254616e6b73, 0, false⟩, ⟨0x5472616e73666f726d657254616e6b456e6473, .many2one, 0x5472616e73666f726d657254616e6b, 0, false⟩, ⟨0x506f7765725472616e73666f726d6572, .one2many, 0x5472616e73666f726d657254616e6b73, 0, false⟩, ⟨0x5472616e73666f726d657254616e6b496e666f, .one2many, 0x5472616e73666f726d657254616e6b73, 0, false⟩, ⟨0x5472616e73666f726d65724f62736572766174696f6e73, .many2one, 0x5472616e73666f726d6572, 0, false⟩],
  [0x5365727669636544656c6976657279506f696e7473, 0x5472616e73666f726d657254616e6b456e6473, 0x5472616e73666f726d65724f62736572766174696f6e73]⟩
def m_TransformerTank : List RClass := d_TransformerTank :: m_Equipment

/-- CIM15/IEC61968/AssetModels/ConcentricNeutralCableInfo.py:23 -/
def d_ConcentricNeutralCableInfo : RClass := ⟨0x436f6e63656e747269634e65757472616c4361626c65496e666f, 0x43494d31352e49454336313936382e41737365744d6f64656c732e436f6e63656e747269634e65757472616c4361626c65496e666f, 0x43494d31352e49454336313936382e41737365744d6f64656c732e4361626c65496e666f,
  [(0x6e65757472616c537472616e64436f756e74, .int 0), (0x6469616d657465724f7665724e65757472616c, .flt 0x0)],
  [0x6e65757472616c537472616e64436f756e74, 0x6469616d657465724f7665724e65757472616c],
  [(0x6e65757472616c537472616e64436f756e74, .int 0), (0x6469616d657465724f7665724e65757472616c, .flt 0x0)],
  [(0x6e65757472616c537472616e64436f756e74, 0x696e74), (0x6469616d657465724f7665724e65757472616c, 0x666c6f6174)],
  [],
  [⟨0x5769726554797065, .one2many, 0x436f6e63656e747269634e65757472616c4361626c65496e666f73, 0, false⟩],
  []⟩
def m_ConcentricNeutralCableInfo : List RClass := d_ConcentricNeutralCableInfo :: m_CableInfo

/-- CIM15/IEC61968/AssetModels/TapeShieldCableInfo.py:23 -/
def d_TapeShieldCableInfo : RClass := ⟨0x54617065536869656c644361626c65496e666f, 0x43494d31352e49454336313936382e41737365744d6f64656c732e54617065536869656c644361626c65496e666f, 0x43494d31352e49454336313936382e41737365744d6f64656c732e4361626c65496e666f,
  [(0x746170654c6170, .flt 0x0), (0x74617065546869636b6e657373, .flt 0x0)],
  [0x746170654c6170, 0x74617065546869636b6e657373],
  [(0x746170654c6170, .flt 0x0), (0x74617065546869636b6e657373, .flt 0x0)],
  [(0x746170654c6170, 0x666c6f6174), (0x74617065546869636b6e657373, 0x666c6f6174)],
  [],
  [],
  []⟩
def m_TapeShieldCableInfo : List RClass := d_TapeShieldCableInfo :: m_CableInfo

/-- CIM15/IEC61968/Metering/Meter.py:23 -/
def d_Meter : RClass := ⟨0x4d65746572, 0x43494d31352e49454336313936382e4d65746572696e672e4d65746572, 0x43494d31352e49454336313936382e4d65746572696e672e456e64446576696365,
  [(0x6b52, .flt 0x0), (0x6b48, .flt 0x0), (0x666f726d4e756d626572, .str 0)],
  [0x6b52, 0x6b48, 0x666f726d4e756d626572],
  [(0x6b52, .flt 0x0), (0x6b48, .flt 0x0), (0x666f726d4e756d626572, .str 0)],
  [(0x6b52, 0x666c6f6174), (0x6b48, 0x666c6f6174), (0x666f726d4e756d626572, 0x737472)],
  [],
  [⟨0x4d657465725265706c6163656d656e74576f726b73, .many2one, 0x4f6c644d65746572, 0, false⟩, ⟨0x4d6574657252656164696e6773, .many2one, 0x4d65746572, 0, false⟩, ⟨0x4d6574657253657276696365576f726b73, .many2one, 0x4d65746572, 0, false⟩, ⟨0x56656e64696e675472616e73616374696f6e73, .many2one, 0x4d65746572, 0, false⟩],
  [0x4d657465725265706c6163656d656e74576f726b73, 0x4d6574657252656164696e6773, 0x4d6574657253657276696365576f726b73, 0x56656e64696e675472616e73616374696f6e73]⟩
def m_Meter : List RClass := d_Meter :: m_EndDevice

/-- CIM15/IEC61970/AuxiliaryEquipment/FaultIndicator.py:23 -/
def d_FaultIndicator : RClass := ⟨0x4661756c74496e64696361746f72, 0x43494d31352e49454336313937302e417578696c6961727945717569706d656e742e4661756c74496e64696361746f72, 0x43494d31352e49454336313937302e417578696c6961727945717569706d656e742e417578696c6961727945717569706d656e74,
  [],
  [],
  [],
  [],
  [],
  [⟨0x4661756c74496e64696361746f72496e666f, .one2many, 0x4661756c74496e64696361746f7273, 0, false⟩],
  []⟩
def m_FaultIndicator : List RClass := d_FaultIndicator :: m_AuxiliaryEquipment

/-- CIM15/IEC61970/AuxiliaryEquipment/Sensor.py:23 -/
def d_Sensor : RClass := ⟨0x53656e736f72, 0x43494d31352e49454336313937302e417578696c6961727945717569706d656e742e53656e736f72, 0x43494d31352e49454336313937302e417578696c6961727945717569706d656e742e417578696c6961727945717569706d656e74,
  [],
  [],
  [],
  [],
  [],
  [],
  []⟩
def m_Sensor : List RClass := d_Sensor :: m_AuxiliaryEquipment

/-- CIM15/IEC61970/AuxiliaryEquipment/SurgeProtector.py:23 -/
def d_SurgeProtector : RClass := ⟨0x537572676550726f746563746f72, 0x43494d31352e49454336313937302e417578696c6961727945717569706d656e742e537572676550726f746563746f72, 0x43494d31352e49454336313937302e417578696c6961727945717569706d656e742e417578696c6961727945717569706d656e74,
  [],
  [],
  [],
  [],
  [],
  [⟨0x537572676550726f746563746f72496e666f, .one2many, 0x537572676550726f746563746f7273, 0, false⟩],
  []⟩
def m_SurgeProtector : List RClass := d_SurgeProtector :: m_AuxiliaryEquipment

/-- CIM15/IEC61970/Core/Bay.py:23 -/
def d_Bay : RClass := ⟨0x426179, 0x43494d31352e49454336313937302e436f72652e426179, 0x43494d31352e49454336313937302e436f72652e45717569706d656e74436f6e7461696e6572,
  [(0x626179506f7765724d656173466c6167, .bool false), (0x626179456e657267794d656173466c6167, .bool false), (0x627573426172436f6e66696775726174696f6e, .str 0x646f75626c65427573), (0x627265616b6572436f6e66696775726174696f6e, .str 0x627265616b6572416e644148616c66)],
  [0x626179506f7765724d656173466c6167, 0x626179456e657267794d656173466c6167, 0x627573426172436f6e66696775726174696f6e, 0x627265616b6572436f6e66696775726174696f6e],
  [(0x626179506f7765724d656173466c6167, .bool false), (0x626179456e657267794d656173466c6167, .bool false), (0x627573426172436f6e66696775726174696f6e, .str 0x646f75626c65427573), (0x627265616b6572436f6e66696775726174696f6e, .str 0x627265616b6572416e644148616c66)],
  [(0x626179506f7765724d656173466c6167, 0x626f6f6c), (0x626179456e657267794d656173466c6167, 0x626f6f6c), (0x627573426172436f6e66696775726174696f6e, 0x737472), (0x627265616b6572436f6e66696775726174696f6e, 0x737472)],
  [(0x627573426172436f6e66696775726174696f6e, 0x427573626172436f6e66696775726174696f6e), (0x627265616b6572436f6e66696775726174696f6e, 0x427265616b6572436f6e66696775726174696f6e)],
  [⟨0x566f6c746167654c6576656c, .one2many, 0x42617973, 0, false⟩, ⟨0x53756273746174696f6e, .one2many, 0x42617973, 0, false⟩],
  []⟩
def m_Bay : List RClass := d_Bay :: m_EquipmentContainer

/-- CIM15/IEC61970/Core/Substation.py:23 -/
def d_Substation : RClass := ⟨0x53756273746174696f6e, 0x43494d31352e49454336313937302e436f72652e53756273746174696f6e, 0x43494d31352e49454336313937302e436f72652e45717569706d656e74436f6e7461696e6572,
  [],
  [],
  [],
  [],
  [],
  [⟨0x42617973, .many2one, 0x53756273746174696f6e, 0, false⟩, ⟨0x566f6c746167654c6576656c73, .many2one, 0x53756273746174696f6e, 0, false⟩, ⟨0x526567696f6e, .one2many, 0x53756273746174696f6e73, 0, false⟩],
  [0x42617973, 0x566f6c746167654c6576656c73]⟩
def m_Substation : List RClass := d_Substation :: m_EquipmentContainer

/-- CIM15/IEC61970/Core/VoltageLevel.py:23 -/
def d_VoltageLevel : RClass := ⟨0x566f6c746167654c6576656c, 0x43494d31352e49454336313937302e436f72652e566f6c746167654c6576656c, 0x43494d31352e49454336313937302e436f72652e45717569706d656e74436f6e7461696e6572,
  [(0x68696768566f6c746167654c696d6974, .flt 0x0), (0x6c6f77566f6c746167654c696d6974, .flt 0x0)],
  [0x68696768566f6c746167654c696d6974, 0x6c6f77566f6c746167654c696d6974],
  [(0x68696768566f6c746167654c696d6974, .flt 0x0), (0x6c6f77566f6c746167654c696d6974, .flt 0x0)],
  [(0x68696768566f6c746167654c696d6974, 0x666c6f6174), (0x6c6f77566f6c746167654c696d6974, 0x666c6f6174)],
  [],
  [⟨0x42617973, .many2one, 0x566f6c746167654c6576656c, 0, false⟩, ⟨0x53756273746174696f6e, .one2many, 0x566f6c746167654c6576656c73, 0, false⟩, ⟨0x42617365566f6c74616765, .one2many, 0x566f6c746167654c6576656c, 0, false⟩],
  [0x42617973]⟩
def m_VoltageLevel : List RClass := d_VoltageLevel :: m_EquipmentContainer

/-- CIM15/IEC61970/CutsJumpers/Clamp.py:23 -/
def d_Clamp : RClass := ⟨0x436c616d70, 0x43494d31352e49454336313937302e437574734a756d706572732e436c616d70, 0x43494d31352e49454336313937302e436f72652e436f6e64756374696e6745717569706d656e74,
  [(0x6c656e67746846726f6d5465726d696e616c31, .flt 0x0)],
  [0x6c656e67746846726f6d5465726d696e616c31],
  [(0x6c656e67746846726f6d5465726d696e616c31, .flt 0x0)],
  [(0x6c656e67746846726f6d5465726d696e616c31, 0x666c6f6174)],
  [],
  [⟨0x41434c696e655365676d656e74, .one2many, 0x436c616d70, 0, false⟩],
  []⟩
def m_Clamp : List RClass := d_Clamp :: m_ConductingEquipment

/-- CIM15/IEC61970/Equivalents/EquivalentEquipment.py:23 -/
def d_EquivalentEquipment : RClass := ⟨0x4571756976616c656e7445717569706d656e74, 0x43494d31352e49454336313937302e4571756976616c656e74732e4571756976616c656e7445717569706d656e74, 0x43494d31352e49454336313937302e436f72652e436f6e64756374696e6745717569706d656e74,
  [],
  [],
  [],
  [],
  [],
  [⟨0x4571756976616c656e744e6574776f726b, .one2many, 0x4571756976616c656e7445717569706d656e7473, 0, false⟩],
  []⟩
def m_EquivalentEquipment : List RClass := d_EquivalentEquipment :: m_ConductingEquipment

/-- CIM15/IEC61970/Generation/GenerationDynamics/DrumBoiler.py:23 -/
def d_DrumBoiler : RClass := ⟨0x4472756d426f696c6572, 0x43494d31352e49454336313937302e47656e65726174696f6e2e47656e65726174696f6e44796e616d6963732e4472756d426f696c6572, 0x43494d31352e49454336313937302e47656e65726174696f6e2e47656e65726174696f6e44796e616d6963732e466f7373696c537465616d537570706c79,
  [(0x6472756d426f696c6572526174696e67, .flt 0x0)],
  [0x6472756d426f696c6572526174696e67],
  [(0x6472756d426f696c6572526174696e67, .flt 0x0)],
  [(0x6472756d426f696c6572526174696e67, 0x666c6f6174)],
  [],
  [],
  []⟩
def m_DrumBoiler : List RClass := d_DrumBoiler :: m_FossilSteamSupply

/-- CIM15/IEC61970/Generation/GenerationDynamics/HeatRecoveryBoiler.py:23 -/
def d_HeatRecoveryBoiler : RClass := ⟨0x486561745265636f76657279426f696c6572, 0x43494d31352e49454336313937302e47656e65726174696f6e2e47656e65726174696f6e44796e616d6963732e486561745265636f76657279426f696c6572, 0x43494d31352e49454336313937302e47656e65726174696f6e2e47656e65726174696f6e44796e616d6963732e466f7373696c537465616d537570706c79,
  [(0x737465616d537570706c79526174696e6732, .flt 0x0)],
  [0x737465616d537570706c79526174696e6732],
  [(0x737465616d537570706c79526174696e6732, .flt 0x0)],
  [(0x737465616d537570706c79526174696e6732, 0x666c6f6174)],
  [],
  [⟨0x436f6d62757374696f6e54757262696e6573, .many2one, 0x486561745265636f76657279426f696c6572, 0, false⟩],
  [0x436f6d62757374696f6e54757262696e6573]⟩
def m_HeatRecoveryBoiler : List RClass := d_HeatRecoveryBoiler :: m_FossilSteamSupply

/-- CIM15/IEC61970/Generation/GenerationDynamics/Subcritical.py:23 -/
def d_Subcritical : RClass := ⟨0x537562637269746963616c, 0x43494d31352e49454336313937302e47656e65726174696f6e2e47656e65726174696f6e44796e616d6963732e537562637269746963616c, 0x43494d31352e49454336313937302e47656e65726174696f6e2e47656e65726174696f6e44796e616d6963732e466f7373696c537465616d537570706c79,
  [],
  [],
  [],
  [],
  [],
  [],
  []⟩
def m_Subcritical : List RClass := d_Subcritical :: m_FossilSteamSupply

/-- CIM15/IEC61970/Generation/GenerationDynamics/Supercritical.py:23 -/
def d_Supercritical : RClass := ⟨0x5375706572637269746963616c, 0x43494d31352e49454336313937302e47656e65726174696f6e2e47656e65726174696f6e44796e616d6963732e5375706572637269746963616c, 0x43494d31352e49454336313937302e47656e65726174696f6e2e47656e65726174696f6e44796e616d6963732e466f7373696c537465616d537570706c79,
  [],
  [],
  [],
  [],
  [],
  [],
  []⟩
def m_Supercritical : List RClass := d_Supercritical :: m_FossilSteamSupply

/-- CIM15/IEC61970/Generation/Production/HydroGeneratingUnit.py:23 -/
def d_HydroGeneratingUnit : RClass := ⟨0x487964726f47656e65726174696e67556e6974, 0x43494d31352e49454336313937302e47656e65726174696f6e2e50726f64756374696f6e2e487964726f47656e65726174696e67556e6974, 0x43494d31352e49454336313937302e47656e65726174696f6e2e50726f64756374696f6e2e47656e65726174696e67556e6974,
  [(0x656e65726779436f6e76657273696f6e4361706162696c697479, .str 0x67656e657261746f72), (0x687964726f556e69745761746572436f7374, .flt 0x0)],
  [0x656e65726779436f6e76657273696f6e4361706162696c697479, 0x687964726f556e69745761746572436f7374],
  [(0x656e65726779436f6e76657273696f6e4361706162696c697479, .str 0x67656e657261746f72), (0x687964726f556e69745761746572436f7374, .flt 0x0)],
  [(0x656e65726779436f6e76657273696f6e4361706162696c697479, 0x737472), (0x687964726f556e69745761746572436f7374, 0x666c6f6174)],
  [(0x656e65726779436f6e76657273696f6e4361706162696c697479, 0x487964726f456e65726779436f6e76657273696f6e4b696e64)],
  [⟨0x50656e73746f636b4c6f73734375727665, .one2one, 0x487964726f47656e65726174696e67556e6974, 0, false⟩, ⟨0x487964726f506f776572506c616e74, .one2many, 0x487964726f47656e65726174696e67556e697473, 0, false⟩, ⟨0x5461696c6261794c6f73734375727665, .many2one, 0x487964726f47656e65726174696e67556e6974, 0, false⟩, ⟨0x487964726f47656e65726174696e67456666696369656e6379437572766573, .many2one, 0x487964726f47656e65726174696e67556e6974, 0, false⟩],
  [0x5461696c6261794c6f73734375727665, 0x487964726f47656e65726174696e67456666696369656e6379437572766573]⟩
def m_HydroGeneratingUnit : List RClass := d_HydroGeneratingUnit :: m_GeneratingUnit

/-- CIM15/IEC61970/Generation/Production/NuclearGeneratingUnit.py:23 -/
def d_NuclearGeneratingUnit : RClass := ⟨0x4e75636c65617247656e65726174696e67556e6974, 0x43494d31352e49454336313937302e47656e65726174696f6e2e50726f64756374696f6e2e4e75636c65617247656e65726174696e67556e6974, 0x43494d31352e49454336313937302e47656e65726174696f6e2e50726f64756374696f6e2e47656e65726174696e67556e6974,
  [],
  [],
  [],
  [],
  [],
  [],
  []⟩
def m_NuclearGeneratingUnit : List RClass := d_NuclearGeneratingUnit :: m_GeneratingUnit

/-- CIM15/IEC61970/Generation/Production/ThermalGeneratingUnit.py:23 -/
def d_ThermalGeneratingUnit : RClass := ⟨0x546865726d616c47656e65726174696e67556e6974, 0x43494d31352e49454336313937302e47656e65726174696f6e2e50726f64756374696f6e2e546865726d616c47656e65726174696e67556e6974, 0x43494d31352e49454336313937302e47656e65726174696f6e2e50726f64756374696f6e2e47656e65726174696e67556e6974,
  [(0x6f4d436f7374, .flt 0x0)],
  [0x6f4d436f7374],
  [(0x6f4d436f7374, .flt 0x0)],
  [(0x6f4d436f7374, 0x666c6f6174)],
  [],
  [⟨0x43414553506c616e74, .one2one, 0x546865726d616c47656e65726174696e67556e6974, 0, false⟩, ⟨0x436f67656e65726174696f6e506c616e74, .one2many, 0x546865726d616c47656e65726174696e67556e697473, 0, false⟩, ⟨0x53687574646f776e4375727665, .one2one, 0x546865726d616c47656e65726174696e67556e6974, 0, false⟩, ⟨0x466f7373696c4675656c73, .many2one, 0x546865726d616c47656e65726174696e67556e6974, 0, false⟩, ⟨0x48656174526174654375727665, .one2one, 0x546865726d616c47656e65726174696e67556e6974, 0, false⟩, ⟨0x4675656c416c6c6f636174696f6e5363686564756c6573, .many2one, 0x546865726d616c47656e65726174696e67556e6974, 0, false⟩, ⟨0x456d697373696f6e437572766573, .many2one, 0x546865726d616c47656e65726174696e67556e6974, 0, false⟩, ⟨0x48656174496e7075744375727665, .one2one, 0x546865726d616c47656e65726174696e67556e6974, 0, false⟩, ⟨0x436f6d62696e65644379636c65506c616e74, .one2many, 0x546865726d616c47656e65726174696e67556e697473, 0, false⟩, ⟨0x496e6372656d656e74616c48656174526174654375727665, .one2one, 0x546865726d616c47656e65726174696e67556e6974, 0, false⟩, ⟨0x537461727475704d6f64656c, .one2one, 0x546865726d616c47656e65726174696e67556e6974, 0, false⟩, ⟨0x456d6d697373696f6e4163636f756e7473, .many2one, 0x546865726d616c47656e65726174696e67556e6974, 0, false⟩],
  [0x466f7373696c4675656c73, 0x4675656c416c6c6f636174696f6e5363686564756c6573, 0x456d697373696f6e437572766573, 0x456d6d697373696f6e4163636f756e7473]⟩
def m_ThermalGeneratingUnit : List RClass := d_ThermalGeneratingUnit :: m_GeneratingUnit

/-- CIM15/IEC61970/Generation/Production/WindGeneratingUnit.py:23 -/
def d_WindGeneratingUnit : RClass := ⟨0x57696e6447656e65726174696e67556e6974, 0x43494d31352e49454336313937302e47656e65726174696f6e2e50726f64756374696f6e2e57696e6447656e65726174696e67556e6974, 0x43494d31352e49454336313937302e47656e65726174696f6e2e50726f64756374696f6e2e47656e65726174696e67556e6974,
  [],
  [],
  [],
  [],
  [],
  [],
  []⟩
def m_WindGeneratingUnit : List RClass := d_WindGeneratingUnit :: m_GeneratingUnit

/-- CIM15/IEC61970/Informative/InfAssets/Pole.py:23 -/
def d_Pole : RClass := ⟨0x506f6c65, 0x43494d31352e49454336313937302e496e666f726d61746976652e496e664173736574732e506f6c65, 0x43494d31352e49454336313937302e496e666f726d61746976652e496e664173736574732e537472756374757265,
  [(0x627265617374426c6f636b, .bool false), (0x6469616d65746572, .flt 0x0), (0x626173654b696e64, .str 0x64697274), (0x6a70615265666572656e6365, .str 0), (0x74726561746d656e744b696e64, .str 0x756e6b6e6f776e), (0x7072657365727661746976654b696e64, .str 0x70656e7461), (0x6c656e677468, .flt 0x0), (0x636f6e737472756374696f6e, .str 0), (0x7370656369657354797065, .str 0), (0x636c617373696669636174696f6e, .str 0), (0x747265617465644461746554696d65, .str 0)],
  [0x627265617374426c6f636b, 0x6469616d65746572, 0x626173654b696e64, 0x6a70615265666572656e6365, 0x74726561746d656e744b696e64, 0x7072657365727661746976654b696e64, 0x6c656e677468, 0x636f6e737472756374696f6e, 0x7370656369657354797065, 0x636c617373696669636174696f6e, 0x747265617465644461746554696d65],
  [(0x627265617374426c6f636b, .bool false), (0x6469616d65746572, .flt 0x0), (0x626173654b696e64, .str 0x64697274), (0x6a70615265666572656e6365, .str 0), (0x74726561746d656e744b696e64, .str 0x756e6b6e6f776e), (0x7072657365727661746976654b696e64, .str 0x70656e7461), (0x6c656e677468, .flt 0x0), (0x636f6e737472756374696f6e, .str 0), (0x7370656369657354797065, .str 0), (0x636c617373696669636174696f6e, .str 0), (0x747265617465644461746554696d65, .str 0)],
  [(0x627265617374426c6f636b, 0x626f6f6c), (0x6469616d65746572, 0x666c6f6174), (0x626173654b696e64, 0x737472), (0x6a70615265666572656e6365, 0x737472), (0x74726561746d656e744b696e64, 0x737472), (0x7072657365727661746976654b696e64, 0x737472), (0x6c656e677468, 0x666c6f6174), (0x636f6e737472756374696f6e, 0x737472), (0x7370656369657354797065, 0x737472), (0x636c617373696669636174696f6e, 0x737472), (0x747265617465644461746554696d65, 0x737472)],
  [(0x626173654b696e64, 0x506f6c65426173654b696e64), (0x74726561746d656e744b696e64, 0x506f6c6554726561746d656e744b696e64), (0x7072657365727661746976654b696e64, 0x506f6c655072657365727661746976654b696e64)],
  [⟨0x5374726565746c6967687473, .many2one, 0x506f6c65, 0, false⟩],
  [0x5374726565746c6967687473]⟩
def m_Pole : List RClass := d_Pole :: m_Structure

/-- CIM15/IEC61970/Informative/InfAssets/Tower.py:23 -/
def d_Tower : RClass := ⟨0x546f776572, 0x43494d31352e49454336313937302e496e666f726d61746976652e496e664173736574732e546f776572, 0x43494d31352e49454336313937302e496e666f726d61746976652e496e664173736574732e537472756374757265,
  [(0x636f6e737472756374696f6e4b696e64, .str 0x73757370656e73696f6e)],
  [0x636f6e737472756374696f6e4b696e64],
  [(0x636f6e737472756374696f6e4b696e64, .str 0x73757370656e73696f6e)],
  [(0x636f6e737472756374696f6e4b696e64, 0x737472)],
  [(0x636f6e737472756374696f6e4b696e64, 0x546f776572436f6e737472756374696f6e4b696e64)],
  [],
  []⟩
def m_Tower : List RClass := d_Tower :: m_Structure

/-- CIM15/IEC61970/Informative/InfAssets/UndergroundStructure.py:23 -/
def d_UndergroundStructure : RClass := ⟨0x556e64657267726f756e64537472756374757265, 0x43494d31352e49454336313937302e496e666f726d61746976652e496e664173736574732e556e64657267726f756e64537472756374757265, 0x43494d31352e49454336313937302e496e666f726d61746976652e496e664173736574732e537472756374757265,
  [(0x68617356656e74696c6174696f6e, .bool false), (0x6b696e64, .str 0x7472656e6368), (0x6d6174657269616c, .str 0), (0x7365616c696e6757617272616e74794578706972657344617465, .str 0)],
  [0x68617356656e74696c6174696f6e, 0x6b696e64, 0x6d6174657269616c, 0x7365616c696e6757617272616e74794578706972657344617465],
  [(0x68617356656e74696c6174696f6e, .bool false), (0x6b696e64, .str 0x7472656e6368), (0x6d6174657269616c, .str 0), (0x7365616c696e6757617272616e74794578706972657344617465, .str 0)],
  [(0x68617356656e74696c6174696f6e, 0x626f6f6c), (0x6b696e64, 0x737472), (0x6d6174657269616c, 0x737472), (0x7365616c696e6757617272616e74794578706972657344617465, 0x737472)],
  [(0x6b696e64, 0x556e64657267726f756e645374727563747572654b696e64)],
  [],
  []⟩
def m_UndergroundStructure : List RClass := d_UndergroundStructure :: m_Structure

/-- CIM15/IEC61970/Informative/InfLoadControl/LoadLimitFunction.py:23 -/
def d_LoadLimitFunction : RClass := ⟨0x4c6f61644c696d697446756e6374696f6e, 0x43494d31352e49454336313937302e496e666f726d61746976652e496e664c6f6164436f6e74726f6c2e4c6f61644c696d697446756e6374696f6e, 0x43494d31352e49454336313937302e496e666f726d61746976652e496e664c6f6164436f6e74726f6c2e4c6f61644d676d7446756e6374696f6e,
  [(0x646973636f6e6e65637454696d6544656c6179, .flt 0x0), (0x69734175746f5265636f6e4f70, .bool false), (0x7265636f6e6e65637454696d6544656c6179, .flt 0x0), (0x6d6178696d756d4c6f6164, .flt 0x0)],
  [0x646973636f6e6e65637454696d6544656c6179, 0x69734175746f5265636f6e4f70, 0x7265636f6e6e65637454696d6544656c6179, 0x6d6178696d756d4c6f6164],
  [(0x646973636f6e6e65637454696d6544656c6179, .flt 0x0), (0x69734175746f5265636f6e4f70, .bool false), (0x7265636f6e6e65637454696d6544656c6179, .flt 0x0), (0x6d6178696d756d4c6f6164, .flt 0x0)],
  [(0x646973636f6e6e65637454696d6544656c6179, 0x666c6f6174), (0x69734175746f5265636f6e4f70, 0x626f6f6c), (0x7265636f6e6e65637454696d6544656c6179, 0x666c6f6174), (0x6d6178696d756d4c6f6164, 0x666c6f6174)],
  [],
  [],
  []⟩
def m_LoadLimitFunction : List RClass := d_LoadLimitFunction :: m_LoadMgmtFunction

/-- CIM15/IEC61970/Informative/InfLoadControl/LoadShedFunction.py:23 -/
def d_LoadShedFunction : RClass := ⟨0x4c6f61645368656446756e6374696f6e, 0x43494d31352e49454336313937302e496e666f726d61746976652e496e664c6f6164436f6e74726f6c2e4c6f61645368656446756e6374696f6e, 0x43494d31352e49454336313937302e496e666f726d61746976652e496e664c6f6164436f6e74726f6c2e4c6f61644d676d7446756e6374696f6e,
  [(0x73776974636865644c6f6164, .flt 0x0)],
  [0x73776974636865644c6f6164],
  [(0x73776974636865644c6f6164, .flt 0x0)],
  [(0x73776974636865644c6f6164, 0x666c6f6174)],
  [],
  [],
  []⟩
def m_LoadShedFunction : List RClass := d_LoadShedFunction :: m_LoadMgmtFunction

/-- CIM15/IEC61970/Informative/InfOperations/Circuit.py:23 -/
def d_Circuit : RClass := ⟨0x43697263756974, 0x43494d31352e49454336313937302e496e666f726d61746976652e496e664f7065726174696f6e732e43697263756974, 0x43494d31352e49454336313937302e436f72652e45717569706d656e74436f6e7461696e6572,
  [],
  [],
  [],
  [],
  [],
  [⟨0x4369726375697453656374696f6e73, .many2many, 0x4369726375697473, 0, false⟩],
  [0x4369726375697453656374696f6e73]⟩
def m_Circuit : List RClass := d_Circuit :: m_EquipmentContainer

/-- CIM15/IEC61970/LoadModel/ConformLoadSchedule.py:23 -/
def d_ConformLoadSchedule : RClass := ⟨0x436f6e666f726d4c6f61645363686564756c65, 0x43494d31352e49454336313937302e4c6f61644d6f64656c2e436f6e666f726d4c6f61645363686564756c65, 0x43494d31352e49454336313937302e4c6f61644d6f64656c2e536561736f6e446179547970655363686564756c65,
  [],
  [],
  [],
  [],
  [],
  [⟨0x436f6e666f726d4c6f616447726f7570, .one2many, 0x436f6e666f726d4c6f61645363686564756c6573, 0, false⟩],
  []⟩
def m_ConformLoadSchedule : List RClass := d_ConformLoadSchedule :: m_SeasonDayTypeSchedule

/-- CIM15/IEC61970/LoadModel/NonConformLoadSchedule.py:23 -/
def d_NonConformLoadSchedule : RClass := ⟨0x4e6f6e436f6e666f726d4c6f61645363686564756c65, 0x43494d31352e49454336313937302e4c6f61644d6f64656c2e4e6f6e436f6e666f726d4c6f61645363686564756c65, 0x43494d31352e49454336313937302e4c6f61644d6f64656c2e536561736f6e446179547970655363686564756c65,
  [],
  [],
  [],
  [],
  [],
  [⟨0x4e6f6e436f6e666f726d4c6f616447726f7570, .one2many, 0x4e6f6e436f6e666f726d4c6f61645363686564756c6573, 0, false⟩],
  []⟩
def m_NonConformLoadSchedule : List RClass := d_NonConformLoadSchedule :: m_SeasonDayTypeSchedule

/-- CIM15/IEC61970/Protection/CurrentRelay.py:23 -/
def d_CurrentRelay : RClass := ⟨0x43757272656e7452656c6179, 0x43494d31352e49454336313937302e50726f74656374696f6e2e43757272656e7452656c6179, 0x43494d31352e49454336313937302e50726f74656374696f6e2e50726f74656374696f6e45717569706d656e74,
  [(0x63757272656e744c696d697433, .flt 0x0), (0x63757272656e744c696d697432, .flt 0x0), (0x63757272656e744c696d697431, .flt 0x0), (0x696e766572736554696d65466c6167, .bool false), (0x74696d6544656c617933, .flt 0x0), (0x74696d6544656c617932, .flt 0x0), (0x74696d6544656c617931, .flt 0x0)],
  [0x63757272656e744c696d697433, 0x63757272656e744c696d697432, 0x63757272656e744c696d697431, 0x696e766572736554696d65466c6167, 0x74696d6544656c617933, 0x74696d6544656c617932, 0x74696d6544656c617931],
  [(0x63757272656e744c696d697433, .flt 0x0), (0x63757272656e744c696d697432, .flt 0x0), (0x63757272656e744c696d697431, .flt 0x0), (0x696e766572736554696d65466c6167, .bool false), (0x74696d6544656c617933, .flt 0x0), (0x74696d6544656c617932, .flt 0x0), (0x74696d6544656c617931, .flt 0x0)],
  [(0x63757272656e744c696d697433, 0x666c6f6174), (0x63757272656e744c696d697432, 0x666c6f6174), (0x63757272656e744c696d697431, 0x666c6f6174), (0x696e766572736554696d65466c6167, 0x626f6f6c), (0x74696d6544656c617933, 0x666c6f6174), (0x74696d6544656c617932, 0x666c6f6174), (0x74696d6544656c617931, 0x666c6f6174)],
  [],
  [],
  []⟩
def m_CurrentRelay : List RClass := d_CurrentRelay :: m_ProtectionEquipment

/-- CIM15/IEC61970/Protection/SynchrocheckRelay.py:23 -/
def d_SynchrocheckRelay : RClass := ⟨0x53796e6368726f636865636b52656c6179, 0x43494d31352e49454336313937302e50726f74656374696f6e2e53796e6368726f636865636b52656c6179, 0x43494d31352e49454336313937302e50726f74656374696f6e2e50726f74656374696f6e45717569706d656e74,
  [(0x6d61784672657144696666, .flt 0x0), (0x6d6178416e676c6544696666, .flt 0x0), (0x6d6178566f6c7444696666, .flt 0x0)],
  [0x6d61784672657144696666, 0x6d6178416e676c6544696666, 0x6d6178566f6c7444696666],
  [(0x6d61784672657144696666, .flt 0x0), (0x6d6178416e676c6544696666, .flt 0x0), (0x6d6178566f6c7444696666, .flt 0x0)],
  [(0x6d61784672657144696666, 0x666c6f6174), (0x6d6178416e676c6544696666, 0x666c6f6174), (0x6d6178566f6c7444696666, 0x666c6f6174)],
  [],
  [],
  []⟩
def m_SynchrocheckRelay : List RClass := d_SynchrocheckRelay :: m_ProtectionEquipment

/-- CIM15/IEC61970/Wires/Conductor.py:23 -/
def d_Conductor : RClass := ⟨0x436f6e647563746f72, 0x43494d31352e49454336313937302e57697265732e436f6e647563746f72, 0x43494d31352e49454336313937302e436f72652e436f6e64756374696e6745717569706d656e74,
  [(0x6c656e677468, .flt 0x0)],
  [0x6c656e677468],
  [(0x6c656e677468, .flt 0x0)],
  [(0x6c656e677468, 0x666c6f6174)],
  [],
  [],
  []⟩
def m_Conductor : List RClass := d_Conductor :: m_ConductingEquipment

/-- CIM15/IEC61970/Wires/Connector.py:23 -/
def d_Connector : RClass := ⟨0x436f6e6e6563746f72, 0x43494d31352e49454336313937302e57697265732e436f6e6e6563746f72, 0x43494d31352e49454336313937302e436f72652e436f6e64756374696e6745717569706d656e74,
  [],
  [],
  [],
  [],
  [],
  [],
  []⟩
def m_Connector : List RClass := d_Connector :: m_ConductingEquipment

/-- CIM15/IEC61970/Wires/EnergyConsumer.py:23 -/
def d_EnergyConsumer : RClass := ⟨0x456e65726779436f6e73756d6572, 0x43494d31352e49454336313937302e57697265732e456e65726779436f6e73756d6572, 0x43494d31352e49454336313937302e436f72652e436f6e64756374696e6745717569706d656e74,
  [(0x716669786564506374, .flt 0x0), (0x637573746f6d6572436f756e74, .int 0), (0x706669786564506374, .flt 0x0), (0x706669786564, .flt 0x0), (0x716669786564, .flt 0x0)],
  [0x716669786564506374, 0x637573746f6d6572436f756e74, 0x706669786564506374, 0x706669786564, 0x716669786564],
  [(0x716669786564506374, .flt 0x0), (0x637573746f6d6572436f756e74, .int 0), (0x706669786564506374, .flt 0x0), (0x706669786564, .flt 0x0), (0x716669786564, .flt 0x0)],
  [(0x716669786564506374, 0x666c6f6174), (0x637573746f6d6572436f756e74, 0x696e74), (0x706669786564506374, 0x666c6f6174), (0x706669786564, 0x666c6f6174), (0x716669786564, 0x666c6f6174)],
  [],
  [⟨0x5365727669636544656c6976657279506f696e7473, .many2one, 0x456e65726779436f6e73756d6572, 0, false⟩, ⟨0x4c6f6164526573706f6e7365, .one2many, 0x456e65726779436f6e73756d6572, 0, false⟩, ⟨0x506f7765724375745a6f6e65, .one2many, 0x456e65726779436f6e73756d657273, 0, false⟩, ⟨0x456e65726779436f6e73756d6572506861736573, .many2one, 0x456e65726779436f6e73756d6572, 0, false⟩],
  [0x5365727669636544656c6976657279506f696e7473, 0x456e65726779436f6e73756d6572506861736573]⟩
def m_EnergyConsumer : List RClass := d_EnergyConsumer :: m_ConductingEquipment

/-- CIM15/IEC61970/Wires/EnergySource.py:23 -/
def d_EnergySource : RClass := ⟨0x456e65726779536f75726365, 0x43494d31352e49454336313937302e57697265732e456e65726779536f75726365, 0x43494d31352e49454336313937302e436f72652e436f6e64756374696e6745717569706d656e74,
  [(0x7230, .flt 0x0), (0x766f6c746167654d61676e6974756465, .flt 0x0), (0x786e, .flt 0x0), (0x6e6f6d696e616c566f6c74616765, .flt 0x0), (0x78, .flt 0x0), (0x72, .flt 0x0), (0x766f6c74616765416e676c65, .flt 0x0), (0x726e, .flt 0x0), (0x7830, .flt 0x0), (0x616374697665506f776572, .flt 0x0)],
  [0x7230, 0x766f6c746167654d61676e6974756465, 0x786e, 0x6e6f6d696e616c566f6c74616765, 0x78, 0x72, 0x766f6c74616765416e676c65, 0x726e, 0x7830, 0x616374697665506f776572],
  [(0x7230, .flt 0x0), (0x766f6c746167654d61676e6974756465, .flt 0x0), (0x786e, .flt 0x0), (0x6e6f6d696e616c566f6c74616765, .flt 0x0), (0x78, .flt 0x0), (0x72, .flt 0x0), (0x766f6c74616765416e676c65, .flt 0x0), (0x726e, .flt 0x0), (0x7830, .flt 0x0), (0x616374697665506f776572, .flt 0x0)],
  [(0x7230, 0x666c6f6174), (0x766f6c746167654d61676e6974756465, 0x666c6f6174), (0x786e, 0x666c6f6174), (0x6e6f6d696e616c566f6c74616765, 0x666c6f6174), (0x78, 0x666c6f6174), (0x72, 0x666c6f6174), (0x766f6c74616765416e676c65, 0x666c6f6174), (0x726e, 0x666c6f6174), (0x7830, 0x666c6f6174), (0x616374697665506f776572, 0x666c6f6174)],
  [],
  [],
  []⟩
def m_EnergySource : List RClass := d_EnergySource :: m_ConductingEquipment

/-- CIM15/IEC61970/Wires/Ground.py:23 -/
def d_Ground : RClass := ⟨0x47726f756e64, 0x43494d31352e49454336313937302e57697265732e47726f756e64, 0x43494d31352e49454336313937302e436f72652e436f6e64756374696e6745717569706d656e74,
  [],
  [],
  [],
  [],
  [],
  [⟨0x57696e64696e67496e73756c6174696f6e73, .many2one, 0x47726f756e64, 0, false⟩],
  [0x57696e64696e67496e73756c6174696f6e73]⟩
def m_Ground : List RClass := d_Ground :: m_ConductingEquipment

/-- CIM15/IEC61970/Wires/Line.py:23 -/
def d_Line : RClass := ⟨0x4c696e65, 0x43494d31352e49454336313937302e57697265732e4c696e65, 0x43494d31352e49454336313937302e436f72652e45717569706d656e74436f6e7461696e6572,
  [],
  [],
  [],
  [],
  [],
  [⟨0x526567696f6e, .one2many, 0x4c696e6573, 0, false⟩],
  []⟩
def m_Line : List RClass := d_Line :: m_EquipmentContainer

/-- CIM15/IEC61970/Wires/PhaseTapChangerLinear.py:23 -/
def d_PhaseTapChangerLinear : RClass := ⟨0x50686173655461704368616e6765724c696e656172, 0x43494d31352e49454336313937302e57697265732e50686173655461704368616e6765724c696e656172, 0x43494d31352e49454336313937302e57697265732e50686173655461704368616e676572,
  [(0x7374657050686173655368696674496e6372656d656e74, .flt 0x0)],
  [0x7374657050686173655368696674496e6372656d656e74],
  [(0x7374657050686173655368696674496e6372656d656e74, .flt 0x0)],
  [(0x7374657050686173655368696674496e6372656d656e74, 0x666c6f6174)],
  [],
  [],
  []⟩
def m_PhaseTapChangerLinear : List RClass := d_PhaseTapChangerLinear :: m_PhaseTapChanger

/-- CIM15/IEC61970/Wires/PhaseTapChangerNonLinear.py:23 -/
def d_PhaseTapChangerNonLinear : RClass := ⟨0x50686173655461704368616e6765724e6f6e4c696e656172, 0x43494d31352e49454336313937302e57697265732e50686173655461704368616e6765724e6f6e4c696e656172, 0x43494d31352e49454336313937302e57697265732e50686173655461704368616e676572,
  [(0x784d656469616e, .flt 0x0), (0x766f6c7461676553746570496e6372656d656e74, .flt 0x0), (0x784d6178, .flt 0x0)],
  [0x784d656469616e, 0x766f6c7461676553746570496e6372656d656e74, 0x784d6178],
  [(0x784d656469616e, .flt 0x0), (0x766f6c7461676553746570496e6372656d656e74, .flt 0x0), (0x784d6178, .flt 0x0)],
  [(0x784d656469616e, 0x666c6f6174), (0x766f6c7461676553746570496e6372656d656e74, 0x666c6f6174), (0x784d6178, 0x666c6f6174)],
  [],
  [],
  []⟩
def m_PhaseTapChangerNonLinear : List RClass := d_PhaseTapChangerNonLinear :: m_PhaseTapChanger

/-- CIM15/IEC61970/Wires/Plant.py:23 -/
def d_Plant : RClass := ⟨0x506c616e74, 0x43494d31352e49454336313937302e57697265732e506c616e74, 0x43494d31352e49454336313937302e436f72652e45717569706d656e74436f6e7461696e6572,
  [],
  [],
  [],
  [],
  [],
  [],
  []⟩
def m_Plant : List RClass := d_Plant :: m_EquipmentContainer

/-- CIM15/IEC61970/Wires/PowerTransformer.py:23 -/
def d_PowerTransformer : RClass := ⟨0x506f7765725472616e73666f726d6572, 0x43494d31352e49454336313937302e57697265732e506f7765725472616e73666f726d6572, 0x43494d31352e49454336313937302e436f72652e436f6e64756374696e6745717569706d656e74,
  [(0x766563746f7247726f7570, .str 0)],
  [0x766563746f7247726f7570],
  [(0x766563746f7247726f7570, .str 0)],
  [(0x766563746f7247726f7570, 0x737472)],
  [],
  [⟨0x5472616e73666f726d657254616e6b73, .many2one, 0x506f7765725472616e73666f726d6572, 0, false⟩, ⟨0x506f7765725472616e73666f726d6572496e666f, .one2many, 0x506f7765725472616e73666f726d657273, 0, false⟩, ⟨0x506f7765725472616e73666f726d6572456e64, .many2one, 0x506f7765725472616e73666f726d6572, 0, false⟩],
  [0x5472616e73666f726d657254616e6b73, 0x506f7765725472616e73666f726d6572456e64]⟩
def m_PowerTransformer : List RClass := d_PowerTransformer :: m_ConductingEquipment

/-- CIM15/IEC61970/Wires/RectifierInverter.py:23 -/
def d_RectifierInverter : RClass := ⟨0x526563746966696572496e766572746572, 0x43494d31352e49454336313937302e57697265732e526563746966696572496e766572746572, 0x43494d31352e49454336313937302e436f72652e436f6e64756374696e6745717569706d656e74,
  [(0x726174656455, .flt 0x0), (0x6d617855, .flt 0x0), (0x62726964676573, .int 0), (0x636f6d706f756e64526573697374616e6365, .flt 0x0), (0x636f6d6d75746174696e67526573697374616e6365, .flt 0x0), (0x6d696e50, .flt 0x0), (0x6f7065726174696e674d6f6465, .str 0), (0x6d696e55, .flt 0x0), (0x636f6d6d75746174696e675265616374616e6365, .flt 0x0), (0x6d617850, .flt 0x0), (0x6672657175656e6379, .flt 0x0), (0x6d696e436f6d706f756e64566f6c74616765, .flt 0x0)],
  [0x726174656455, 0x6d617855, 0x62726964676573, 0x636f6d706f756e64526573697374616e6365, 0x636f6d6d75746174696e67526573697374616e6365, 0x6d696e50, 0x6f7065726174696e674d6f6465, 0x6d696e55, 0x636f6d6d75746174696e675265616374616e6365, 0x6d617850, 0x6672657175656e6379, 0x6d696e436f6d706f756e64566f6c74616765],
  [(0x726174656455, .flt 0x0), (0x6d617855, .flt 0x0), (0x62726964676573, .int 0), (0x636f6d706f756e64526573697374616e6365, .flt 0x0), (0x636f6d6d75746174696e67526573697374616e6365, .flt 0x0), (0x6d696e50, .flt 0x0), (0x6f7065726174696e674d6f6465, .str 0), (0x6d696e55, .flt 0x0), (0x636f6d6d75746174696e675265616374616e6365, .flt 0x0), (0x6d617850, .flt 0x0), (0x6672657175656e6379, .flt 0x0), (0x6d696e436f6d706f756e64566f6c74616765, .flt 0x0)],
  [(0x726174656455, 0x666c6f6174), (0x6d617855, 0x666c6f6174), (0x62726964676573, 0x696e74), (0x636f6d706f756e64526573697374616e6365, 0x666c6f6174), (0x636f6d6d75746174696e67526573697374616e6365, 0x666c6f6174), (0x6d696e50, 0x666c6f6174), (0x6f7065726174696e674d6f6465, 0x737472), (0x6d696e55, 0x666c6f6174), (0x636f6d6d75746174696e675265616374616e6365, 0x666c6f6174), (0x6d617850, 0x666c6f6174), (0x6672657175656e6379, 0x666c6f6174), (0x6d696e436f6d706f756e64566f6c74616765, 0x666c6f6174)],
  [],
  [],
  []⟩
def m_RectifierInverter : List RClass := d_RectifierInverter :: m_ConductingEquipment

/-- CIM15/IEC61970/Wires/RegulatingCondEq.py:23 -/
def d_RegulatingCondEq : RClass := ⟨0x526567756c6174696e67436f6e644571, 0x43494d31352e49454336313937302e57697265732e526567756c6174696e67436f6e644571, 0x43494d31352e49454336313937302e436f72652e436f6e64756374696e6745717569706d656e74,
  [],
  [],
  [],
  [],
  [],
  [⟨0x436f6e74726f6c73, .many2one, 0x526567756c6174696e67436f6e644571, 0, false⟩, ⟨0x526567756c6174696e67436f6e74726f6c, .one2many, 0x526567756c6174696e67436f6e644571, 0, false⟩],
  [0x436f6e74726f6c73]⟩
def m_RegulatingCondEq : List RClass := d_RegulatingCondEq :: m_ConductingEquipment

/-- CIM15/IEC61970/Wires/RegulationSchedule.py:23 -/
def d_RegulationSchedule : RClass := ⟨0x526567756c6174696f6e5363686564756c65, 0x43494d31352e49454336313937302e57697265732e526567756c6174696f6e5363686564756c65, 0x43494d31352e49454336313937302e4c6f61644d6f64656c2e536561736f6e446179547970655363686564756c65,
  [],
  [],
  [],
  [],
  [],
  [⟨0x526567756c6174696e67436f6e74726f6c, .one2many, 0x526567756c6174696f6e5363686564756c65, 0, false⟩, ⟨0x566f6c74616765436f6e74726f6c5a6f6e6573, .many2one, 0x526567756c6174696f6e5363686564756c65, 0, false⟩],
  [0x566f6c74616765436f6e74726f6c5a6f6e6573]⟩
def m_RegulationSchedule : List RClass := d_RegulationSchedule :: m_SeasonDayTypeSchedule

/-- CIM15/IEC61970/Wires/Resistor.py:23 -/
def d_Resistor : RClass := ⟨0x5265736973746f72, 0x43494d31352e49454336313937302e57697265732e5265736973746f72, 0x43494d31352e49454336313937302e436f72652e436f6e64756374696e6745717569706d656e74,
  [],
  [],
  [],
  [],
  [],
  [],
  []⟩
def m_Resistor : List RClass := d_Resistor :: m_ConductingEquipment

/-- CIM15/IEC61970/Wires/SeriesCompensator.py:23 -/
def d_SeriesCompensator : RClass := ⟨0x536572696573436f6d70656e7361746f72, 0x43494d31352e49454336313937302e57697265732e536572696573436f6d70656e7361746f72, 0x43494d31352e49454336313937302e436f72652e436f6e64756374696e6745717569706d656e74,
  [(0x78, .flt 0x0), (0x72, .flt 0x0)],
  [0x78, 0x72],
  [(0x78, .flt 0x0), (0x72, .flt 0x0)],
  [(0x78, 0x666c6f6174), (0x72, 0x666c6f6174)],
  [],
  [],
  []⟩
def m_SeriesCompensator : List RClass := d_SeriesCompensator :: m_ConductingEquipment

/-- CIM15/IEC61970/Wires/Switch.py:23 -/
def d_Switch : RClass := ⟨0x537769746368, 0x43494d31352e49454336313937302e57697265732e537769746368, 0x43494d31352e49454336313937302e436f72652e436f6e64756374696e6745717569706d656e74,
  [(0x7377697463684f6e44617465, .str 0), (0x6e6f726d616c4f70656e, .bool false), (0x726174656443757272656e74, .flt 0x0), (0x72657461696e6564, .bool false), (0x7377697463684f6e436f756e74, .int 0)],
  [0x7377697463684f6e44617465, 0x6e6f726d616c4f70656e, 0x726174656443757272656e74, 0x72657461696e6564, 0x7377697463684f6e436f756e74],
  [(0x7377697463684f6e44617465, .str 0), (0x6e6f726d616c4f70656e, .bool false), (0x726174656443757272656e74, .flt 0x0), (0x72657461696e6564, .bool false), (0x7377697463684f6e436f756e74, .int 0)],
  [(0x7377697463684f6e44617465, 0x737472), (0x6e6f726d616c4f70656e, 0x626f6f6c), (0x726174656443757272656e74, 0x666c6f6174), (0x72657461696e6564, 0x626f6f6c), (0x7377697463684f6e436f756e74, 0x696e74)],
  [],
  [⟨0x537769746368696e674f7065726174696f6e73, .many2many, 0x5377697463686573, 0, false⟩, ⟨0x4c6f61644d676d7446756e6374696f6e73, .many2many, 0x5377697463686573, 0, false⟩, ⟨0x436f6e6e656374446973636f6e6e65637446756e6374696f6e73, .many2many, 0x5377697463686573, 0, false⟩, ⟨0x5377697463685363686564756c6573, .many2one, 0x537769746368, 0, false⟩, ⟨0x537769746368506861736573, .many2one, 0x537769746368, 0, false⟩, ⟨0x436f6d706f73697465537769746368, .one2many, 0x5377697463686573, 0, false⟩],
  [0x537769746368696e674f7065726174696f6e73, 0x4c6f61644d676d7446756e6374696f6e73, 0x436f6e6e656374446973636f6e6e65637446756e6374696f6e73, 0x5377697463685363686564756c6573, 0x537769746368506861736573]⟩
def m_Switch : List RClass := d_Switch :: m_ConductingEquipment

/-- CIM15/IEC61970/Wires/SwitchSchedule.py:23 -/
def d_SwitchSchedule : RClass := ⟨0x5377697463685363686564756c65, 0x43494d31352e49454336313937302e57697265732e5377697463685363686564756c65, 0x43494d31352e49454336313937302e4c6f61644d6f64656c2e536561736f6e446179547970655363686564756c65,
  [],
  [],
  [],
  [],
  [],
  [⟨0x537769746368, .one2many, 0x5377697463685363686564756c6573, 0, false⟩],
  []⟩
def m_SwitchSchedule : List RClass := d_SwitchSchedule :: m_SeasonDayTypeSchedule

/-- CIM15/IEC61970/Wires/TapSchedule.py:23 -/
def d_TapSchedule : RClass := ⟨0x5461705363686564756c65, 0x43494d31352e49454336313937302e57697265732e5461705363686564756c65, 0x43494d31352e49454336313937302e4c6f61644d6f64656c2e536561736f6e446179547970655363686564756c65,
  [],
  [],
  [],
  [],
  [],
  [⟨0x5461704368616e676572, .one2many, 0x5461705363686564756c6573, 0, false⟩],
  []⟩
def m_TapSchedule : List RClass := d_TapSchedule :: m_SeasonDayTypeSchedule

/-- CIM15/IEC61970/AuxiliaryEquipment/CurrentTransformer.py:23 -/
def d_CurrentTransformer : RClass := ⟨0x43757272656e745472616e73666f726d6572, 0x43494d31352e49454336313937302e417578696c6961727945717569706d656e742e43757272656e745472616e73666f726d6572, 0x43494d31352e49454336313937302e417578696c6961727945717569706d656e742e53656e736f72,
  [(0x6374436c617373, .str 0), (0x61636375726163794c696d6974, .str 0), (0x7573616765, .str 0), (0x6163637572616379436c617373, .str 0), (0x636f7265436f756e74, .int 0), (0x6d6178526174696f, .flt 0x0)],
  [0x6374436c617373, 0x61636375726163794c696d6974, 0x7573616765, 0x6163637572616379436c617373, 0x636f7265436f756e74, 0x6d6178526174696f],
  [(0x6374436c617373, .str 0), (0x61636375726163794c696d6974, .str 0), (0x7573616765, .str 0), (0x6163637572616379436c617373, .str 0), (0x636f7265436f756e74, .int 0), (0x6d6178526174696f, .flt 0x0)],
  [(0x6374436c617373, 0x737472), (0x61636375726163794c696d6974, 0x737472), (0x7573616765, 0x737472), (0x6163637572616379436c617373, 0x737472), (0x636f7265436f756e74, 0x696e74), (0x6d6178526174696f, 0x666c6f6174)],
  [],
  [⟨0x4354496e666f, .one2many, 0x435473, 0, false⟩],
  []⟩
def m_CurrentTransformer : List RClass := d_CurrentTransformer :: m_Sensor

/-- CIM15/IEC61970/AuxiliaryEquipment/PotentialTransformer.py:23 -/
def d_PotentialTransformer : RClass := ⟨0x506f74656e7469616c5472616e73666f726d6572, 0x43494d31352e49454336313937302e417578696c6961727945717569706d656e742e506f74656e7469616c5472616e73666f726d6572, 0x43494d31352e49454336313937302e417578696c6961727945717569706d656e742e53656e736f72,
  [(0x6e6f6d696e616c526174696f, .flt 0x0), (0x6163637572616379436c617373, .str 0), (0x7074436c617373, .str 0)],
  [0x6e6f6d696e616c526174696f, 0x6163637572616379436c617373, 0x7074436c617373],
  [(0x6e6f6d696e616c526174696f, .flt 0x0), (0x6163637572616379436c617373, .str 0), (0x7074436c617373, .str 0)],
  [(0x6e6f6d696e616c526174696f, 0x666c6f6174), (0x6163637572616379436c617373, 0x737472), (0x7074436c617373, 0x737472)],
  [],
  [⟨0x5054496e666f, .one2many, 0x505473, 0, false⟩],
  []⟩
def m_PotentialTransformer : List RClass := d_PotentialTransformer :: m_Sensor

/-- CIM15/IEC61970/CutsJumpers/Cut.py:23 -/
def d_Cut : RClass := ⟨0x437574, 0x43494d31352e49454336313937302e437574734a756d706572732e437574, 0x43494d31352e49454336313937302e57697265732e537769746368,
  [(0x6c656e67746846726f6d5465726d696e616c31, .flt 0x0)],
  [0x6c656e67746846726f6d5465726d696e616c31],
  [(0x6c656e67746846726f6d5465726d696e616c31, .flt 0x0)],
  [(0x6c656e67746846726f6d5465726d696e616c31, 0x666c6f6174)],
  [],
  [⟨0x41434c696e655365676d656e74, .one2many, 0x437574, 0, false⟩],
  []⟩
def m_Cut : List RClass := d_Cut :: m_Switch

/-- CIM15/IEC61970/Equivalents/EquivalentBranch.py:23 -/
def d_EquivalentBranch : RClass := ⟨0x4571756976616c656e744272616e6368, 0x43494d31352e49454336313937302e4571756976616c656e74732e4571756976616c656e744272616e6368, 0x43494d31352e49454336313937302e4571756976616c656e74732e4571756976616c656e7445717569706d656e74,
  [(0x78, .flt 0x0), (0x72, .flt 0x0)],
  [0x78, 0x72],
  [(0x78, .flt 0x0), (0x72, .flt 0x0)],
  [(0x78, 0x666c6f6174), (0x72, 0x666c6f6174)],
  [],
  [],
  []⟩
def m_EquivalentBranch : List RClass := d_EquivalentBranch :: m_EquivalentEquipment

/-- CIM15/IEC61970/Equivalents/EquivalentInjection.py:23 -/
def d_EquivalentInjection : RClass := ⟨0x4571756976616c656e74496e6a656374696f6e, 0x43494d31352e49454336313937302e4571756976616c656e74732e4571756976616c656e74496e6a656374696f6e, 0x43494d31352e49454336313937302e4571756976616c656e74732e4571756976616c656e7445717569706d656e74,
  [(0x726567756c6174696f6e4361706162696c697479, .bool false), (0x6d617850, .flt 0x0), (0x726567756c6174696f6e537461747573, .bool false), (0x726567756c6174696f6e546172676574, .flt 0x0), (0x6d696e50, .flt 0x0)],
  [0x726567756c6174696f6e4361706162696c697479, 0x6d617850, 0x726567756c6174696f6e537461747573, 0x726567756c6174696f6e546172676574, 0x6d696e50],
  [(0x726567756c6174696f6e4361706162696c697479, .bool false), (0x6d617850, .flt 0x0), (0x726567756c6174696f6e537461747573, .bool false), (0x726567756c6174696f6e546172676574, .flt 0x0), (0x6d696e50, .flt 0x0)],
  [(0x726567756c6174696f6e4361706162696c697479, 0x626f6f6c), (0x6d617850, 0x666c6f6174), (0x726567756c6174696f6e537461747573, 0x626f6f6c), (0x726567756c6174696f6e546172676574, 0x666c6f6174), (0x6d696e50, 0x666c6f6174)],
  [],
  [],
  []⟩
def m_EquivalentInjection : List RClass := d_EquivalentInjection :: m_EquivalentEquipment

/-- CIM15/IEC61970/Equivalents/EquivalentShunt.py:23 -/
def d_EquivalentShunt : RClass := ⟨0x4571756976616c656e745368756e74, 0x43494d31352e49454336313937302e4571756976616c656e74732e4571756976616c656e745368756e74, 0x43494d31352e49454336313937302e4571756976616c656e74732e4571756976616c656e7445717569706d656e74,
  [(0x62, .flt 0x0), (0x67, .flt 0x0)],
  [0x62, 0x67],
  [(0x62, .flt 0x0), (0x67, .flt 0x0)],
  [(0x62, 0x666c6f6174), (0x67, 0x666c6f6174)],
  [],
  [],
  []⟩
def m_EquivalentShunt : List RClass := d_EquivalentShunt :: m_EquivalentEquipment

/-- CIM15/IEC61970/LoadModel/ConformLoad.py:23 -/
def d_ConformLoad : RClass := ⟨0x436f6e666f726d4c6f6164, 0x43494d31352e49454336313937302e4c6f61644d6f64656c2e436f6e666f726d4c6f6164, 0x43494d31352e49454336313937302e57697265732e456e65726779436f6e73756d6572,
  [],
  [],
  [],
  [],
  [],
  [⟨0x4c6f616447726f7570, .one2many, 0x456e65726779436f6e73756d657273, 0, false⟩],
  []⟩
def m_ConformLoad : List RClass := d_ConformLoad :: m_EnergyConsumer

/-- CIM15/IEC61970/LoadModel/NonConformLoad.py:23 -/
def d_NonConformLoad : RClass := ⟨0x4e6f6e436f6e666f726d4c6f6164, 0x43494d31352e49454336313937302e4c6f61644d6f64656c2e4e6f6e436f6e666f726d4c6f6164, 0x43494d31352e49454336313937302e57697265732e456e65726779436f6e73756d6572,
  [],
  [],
  [],
  [],
  [],
  [⟨0x4c6f616447726f7570, .one2many, 0x456e65726779436f6e73756d657273, 0, false⟩],
  []⟩
def m_NonConformLoad : List RClass := d_NonConformLoad :: m_EnergyConsumer

/-- CIM15/IEC61970/LoadModel/StationSupply.py:23 -/
def d_StationSupply : RClass := ⟨0x53746174696f6e537570706c79, 0x43494d31352e49454336313937302e4c6f61644d6f64656c2e53746174696f6e537570706c79, 0x43494d31352e49454336313937302e57697265732e456e65726779436f6e73756d6572,
  [],
  [],
  [],
  [],
  [],
  [],
  []⟩
def m_StationSupply : List RClass := d_StationSupply :: m_EnergyConsumer

/-- CIM15/IEC61970/Wires/ACLineSegment.py:25 -/
def d_ACLineSegment : RClass := ⟨0x41434c696e655365676d656e74, 0x43494d31352e49454336313937302e57697265732e41434c696e655365676d656e74, 0x43494d31352e49454336313937302e57697265732e436f6e647563746f72,
  [(0x67306368, .flt 0x0), (0x72, .flt 0x0), (0x78, .flt 0x0), (0x676368, .flt 0x0), (0x7230, .flt 0x0), (0x626368, .flt 0x0), (0x62306368, .flt 0x0), (0x7830, .flt 0x0)],
  [0x67306368, 0x72, 0x78, 0x676368, 0x7230, 0x626368, 0x62306368, 0x7830],
  [(0x67306368, .flt 0x0), (0x72, .flt 0x0), (0x78, .flt 0x0), (0x676368, .flt 0x0), (0x7230, .flt 0x0), (0x626368, .flt 0x0), (0x62306368, .flt 0x0), (0x7830, .flt 0x0)],
  [(0x67306368, 0x666c6f6174), (0x72, 0x666c6f6174), (0x78, 0x666c6f6174), (0x676368, 0x666c6f6174), (0x7230, 0x666c6f6174), (0x626368, 0x666c6f6174), (0x62306368, 0x666c6f6174), (0x7830, 0x666c6f6174)],
  [],
  [⟨0x53657175656e6365496d706564616e6365, .alias, 0x5065724c656e677468496d706564616e6365, 0x5065724c656e67746853657175656e6365496d706564616e6365, false⟩, ⟨0x436f6e647563746f72417373657473, .many2one, 0x436f6e647563746f725365676d656e74, 0, false⟩, ⟨0x436f6e647563746f72496e666f, .one2many, 0x4c696e655365676d656e7473, 0, false⟩, ⟨0x437574, .many2one, 0x41434c696e655365676d656e74, 0, false⟩, ⟨0x5068617365496d706564616e6365, .alias, 0x5065724c656e677468496d706564616e6365, 0x5065724c656e6774685068617365496d706564616e6365, false⟩, ⟨0x436c616d70, .many2one, 0x41434c696e655365676d656e74, 0, false⟩, ⟨0x41434c696e655365676d656e74506861736573, .many2one, 0x41434c696e655365676d656e74, 0, false⟩, ⟨0x5065724c656e677468496d706564616e6365, .one2many, 0x4c696e655365676d656e7473, 0, false⟩, ⟨0x43757272656e7454656d7065726174757265437572766573, .many2many, 0x41434c696e655365676d656e7473, 0, false⟩],
  [0x436f6e647563746f72417373657473, 0x437574, 0x436c616d70, 0x41434c696e655365676d656e74506861736573, 0x43757272656e7454656d7065726174757265437572766573]⟩
def m_ACLineSegment : List RClass := d_ACLineSegment :: m_Conductor

/-- CIM15/IEC61970/Wires/BusbarSection.py:23 -/
def d_BusbarSection : RClass := ⟨0x42757362617253656374696f6e, 0x43494d31352e49454336313937302e57697265732e42757362617253656374696f6e, 0x43494d31352e49454336313937302e57697265732e436f6e6e6563746f72,
  [],
  [],
  [],
  [],
  [],
  [⟨0x566f6c74616765436f6e74726f6c5a6f6e65, .one2one, 0x42757362617253656374696f6e, 0, false⟩],
  []⟩
def m_BusbarSection : List RClass := d_BusbarSection :: m_Connector

/-- CIM15/IEC61970/Wires/DCLineSegment.py:23 -/
def d_DCLineSegment : RClass := ⟨0x44434c696e655365676d656e74, 0x43494d31352e49454336313937302e57697265732e44434c696e655365676d656e74, 0x43494d31352e49454336313937302e57697265732e436f6e647563746f72,
  [(0x64635365676d656e74496e64756374616e6365, .flt 0x0), (0x64635365676d656e74526573697374616e6365, .flt 0x0)],
  [0x64635365676d656e74496e64756374616e6365, 0x64635365676d656e74526573697374616e6365],
  [(0x64635365676d656e74496e64756374616e6365, .flt 0x0), (0x64635365676d656e74526573697374616e6365, .flt 0x0)],
  [(0x64635365676d656e74496e64756374616e6365, 0x666c6f6174), (0x64635365676d656e74526573697374616e6365, 0x666c6f6174)],
  [],
  [],
  []⟩
def m_DCLineSegment : List RClass := d_DCLineSegment :: m_Conductor

/-- CIM15/IEC61970/Wires/Disconnector.py:23 -/
def d_Disconnector : RClass := ⟨0x446973636f6e6e6563746f72, 0x43494d31352e49454336313937302e57697265732e446973636f6e6e6563746f72, 0x43494d31352e49454336313937302e57697265732e537769746368,
  [],
  [],
  [],
  [],
  [],
  [],
  []⟩
def m_Disconnector : List RClass := d_Disconnector :: m_Switch

/-- CIM15/IEC61970/Wires/FrequencyConverter.py:23 -/
def d_FrequencyConverter : RClass := ⟨0x4672657175656e6379436f6e766572746572, 0x43494d31352e49454336313937302e57697265732e4672657175656e6379436f6e766572746572, 0x43494d31352e49454336313937302e57697265732e526567756c6174696e67436f6e644571,
  [(0x6d617855, .flt 0x0), (0x6d617850, .flt 0x0), (0x6672657175656e6379, .flt 0x0), (0x6d696e50, .flt 0x0), (0x6d696e55, .flt 0x0), (0x6f7065726174696e674d6f6465, .str 0)],
  [0x6d617855, 0x6d617850, 0x6672657175656e6379, 0x6d696e50, 0x6d696e55, 0x6f7065726174696e674d6f6465],
  [(0x6d617855, .flt 0x0), (0x6d617850, .flt 0x0), (0x6672657175656e6379, .flt 0x0), (0x6d696e50, .flt 0x0), (0x6d696e55, .flt 0x0), (0x6f7065726174696e674d6f6465, .str 0)],
  [(0x6d617855, 0x666c6f6174), (0x6d617850, 0x666c6f6174), (0x6672657175656e6379, 0x666c6f6174), (0x6d696e50, 0x666c6f6174), (0x6d696e55, 0x666c6f6174), (0x6f7065726174696e674d6f6465, 0x737472)],
  [],
  [],
  []⟩
def m_FrequencyConverter : List RClass := d_FrequencyConverter :: m_RegulatingCondEq

/-- CIM15/IEC61970/Wires/Fuse.py:23 -/
def d_Fuse : RClass := ⟨0x46757365, 0x43494d31352e49454336313937302e57697265732e46757365, 0x43494d31352e49454336313937302e57697265732e537769746368,
  [],
  [],
  [],
  [],
  [],
  [],
  []⟩
def m_Fuse : List RClass := d_Fuse :: m_Switch

/-- CIM15/IEC61970/Wires/GroundDisconnector.py:23 -/
def d_GroundDisconnector : RClass := ⟨0x47726f756e64446973636f6e6e6563746f72, 0x43494d31352e49454336313937302e57697265732e47726f756e64446973636f6e6e6563746f72, 0x43494d31352e49454336313937302e57697265732e537769746368,
  [],
  [],
  [],
  [],
  [],
  [],
  []⟩
def m_GroundDisconnector : List RClass := d_GroundDisconnector :: m_Switch

/-- CIM15/IEC61970/Wires/Jumper.py:23 -/
def d_Jumper : RClass := ⟨0x4a756d706572, 0x43494d31352e49454336313937302e57697265732e4a756d706572, 0x43494d31352e49454336313937302e57697265732e537769746368,
  [],
  [],
  [],
  [],
  [],
  [],
  []⟩
def m_Jumper : List RClass := d_Jumper :: m_Switch

/-- CIM15/IEC61970/Wires/Junction.py:23 -/
def d_Junction : RClass := ⟨0x4a756e6374696f6e, 0x43494d31352e49454336313937302e57697265732e4a756e6374696f6e, 0x43494d31352e49454336313937302e57697265732e436f6e6e6563746f72,
  [],
  [],
  [],
  [],
  [],
  [],
  []⟩
def m_Junction : List RClass := d_Junction :: m_Connector

/-- CIM15/IEC61970/Wires/PhaseTapChangerAsymetrical.py:23 -/
def d_PhaseTapChangerAsymetrical : RClass := ⟨0x50686173655461704368616e6765724173796d6574726963616c, 0x43494d31352e49454336313937302e57697265732e50686173655461704368616e6765724173796d6574726963616c, 0x43494d31352e49454336313937302e57697265732e50686173655461704368616e6765724e6f6e4c696e656172,
  [(0x77696e64696e67436f6e6e656374696f6e416e676c65, .flt 0x0)],
  [0x77696e64696e67436f6e6e656374696f6e416e676c65],
  [(0x77696e64696e67436f6e6e656374696f6e416e676c65, .flt 0x0)],
  [(0x77696e64696e67436f6e6e656374696f6e416e676c65, 0x666c6f6174)],
  [],
  [],
  []⟩
def m_PhaseTapChangerAsymetrical : List RClass := d_PhaseTapChangerAsymetrical :: m_PhaseTapChangerNonLinear

/-- CIM15/IEC61970/Wires/PhaseTapChangerSymetrical.py:23 -/
def d_PhaseTapChangerSymetrical : RClass := ⟨0x50686173655461704368616e67657253796d6574726963616c, 0x43494d31352e49454336313937302e57697265732e50686173655461704368616e67657253796d6574726963616c, 0x43494d31352e49454336313937302e57697265732e50686173655461704368616e6765724e6f6e4c696e656172,
  [],
  [],
  [],
  [],
  [],
  [],
  []⟩
def m_PhaseTapChangerSymetrical : List RClass := d_PhaseTapChangerSymetrical :: m_PhaseTapChangerNonLinear

/-- CIM15/IEC61970/Wires/ProtectedSwitch.py:23 -/
def d_ProtectedSwitch : RClass := ⟨0x50726f746563746564537769746368, 0x43494d31352e49454336313937302e57697265732e50726f746563746564537769746368, 0x43494d31352e49454336313937302e57697265732e537769746368,
  [(0x627265616b696e674361706163697479, .flt 0x0)],
  [0x627265616b696e674361706163697479],
  [(0x627265616b696e674361706163697479, .flt 0x0)],
  [(0x627265616b696e674361706163697479, 0x666c6f6174)],
  [],
  [⟨0x50726f74656374696f6e45717569706d656e7473, .many2many, 0x50726f7465637465645377697463686573, 0, false⟩, ⟨0x5265636c6f736553657175656e636573, .many2one, 0x50726f746563746564537769746368, 0, false⟩],
  [0x50726f74656374696f6e45717569706d656e7473, 0x5265636c6f736553657175656e636573]⟩
def m_ProtectedSwitch : List RClass := d_ProtectedSwitch :: m_Switch

/-- CIM15/IEC61970/Wires/Sectionaliser.py:23 -/
def d_Sectionaliser : RClass := ⟨0x53656374696f6e616c69736572, 0x43494d31352e49454336313937302e57697265732e53656374696f6e616c69736572, 0x43494d31352e49454336313937302e57697265732e537769746368,
  [],
  [],
  [],
  [],
  [],
  [],
  []⟩
def m_Sectionaliser : List RClass := d_Sectionaliser :: m_Switch

/-- CIM15/IEC61970/Wires/ShuntCompensator.py:23 -/
def d_ShuntCompensator : RClass := ⟨0x5368756e74436f6d70656e7361746f72, 0x43494d31352e49454336313937302e57697265732e5368756e74436f6d70656e7361746f72, 0x43494d31352e49454336313937302e57697265732e526567756c6174696e67436f6e644571,
  [(0x6e6f6d51, .flt 0x0), (0x6d617855, .flt 0x0), (0x6750657253656374696f6e, .flt 0x0), (0x766f6c7461676553656e7369746976697479, .flt 0x0), (0x6e6f6d55, .flt 0x0), (0x623050657253656374696f6e, .flt 0x0), (0x6d6178696d756d53656374696f6e73, .int 0), (0x6250657253656374696f6e, .flt 0x0), (0x61565244656c6179, .flt 0x0), (0x6d696e55, .flt 0x0), (0x6e6f726d616c53656374696f6e73, .int 0), (0x726561637469766550657253656374696f6e, .flt 0x0), (0x7377697463684f6e436f756e74, .int 0), (0x7377697463684f6e44617465, .str 0), (0x673050657253656374696f6e, .flt 0x0)],
  [0x6e6f6d51, 0x6d617855, 0x6750657253656374696f6e, 0x766f6c7461676553656e7369746976697479, 0x6e6f6d55, 0x623050657253656374696f6e, 0x6d6178696d756d53656374696f6e73, 0x6250657253656374696f6e, 0x61565244656c6179, 0x6d696e55, 0x6e6f726d616c53656374696f6e73, 0x726561637469766550657253656374696f6e, 0x7377697463684f6e436f756e74, 0x7377697463684f6e44617465, 0x673050657253656374696f6e],
  [(0x6e6f6d51, .flt 0x0), (0x6d617855, .flt 0x0), (0x6750657253656374696f6e, .flt 0x0), (0x766f6c7461676553656e7369746976697479, .flt 0x0), (0x6e6f6d55, .flt 0x0), (0x623050657253656374696f6e, .flt 0x0), (0x6d6178696d756d53656374696f6e73, .int 0), (0x6250657253656374696f6e, .flt 0x0), (0x61565244656c6179, .flt 0x0), (0x6d696e55, .flt 0x0), (0x6e6f726d616c53656374696f6e73, .int 0), (0x726561637469766550657253656374696f6e, .flt 0x0), (0x7377697463684f6e436f756e74, .int 0), (0x7377697463684f6e44617465, .str 0), (0x673050657253656374696f6e, .flt 0x0)],
  [(0x6e6f6d51, 0x666c6f6174), (0x6d617855, 0x666c6f6174), (0x6750657253656374696f6e, 0x666c6f6174), (0x766f6c7461676553656e7369746976697479, 0x666c6f6174), (0x6e6f6d55, 0x666c6f6174), (0x623050657253656374696f6e, 0x666c6f6174), (0x6d6178696d756d53656374696f6e73, 0x696e74), (0x6250657253656374696f6e, 0x666c6f6174), (0x61565244656c6179, 0x666c6f6174), (0x6d696e55, 0x666c6f6174), (0x6e6f726d616c53656374696f6e73, 0x696e74), (0x726561637469766550657253656374696f6e, 0x666c6f6174), (0x7377697463684f6e436f756e74, 0x696e74), (0x7377697463684f6e44617465, 0x737472), (0x673050657253656374696f6e, 0x666c6f6174)],
  [],
  [⟨0x53765368756e74436f6d70656e7361746f7253656374696f6e73, .one2one, 0x5368756e74436f6d70656e7361746f72, 0, false⟩, ⟨0x5368756e74436f6d70656e7361746f72506861736573, .many2one, 0x5368756e74436f6d70656e7361746f72, 0, false⟩],
  [0x5368756e74436f6d70656e7361746f72506861736573]⟩
def m_ShuntCompensator : List RClass := d_ShuntCompensator :: m_RegulatingCondEq

/-- CIM15/IEC61970/Wires/StaticVarCompensator.py:23 -/
def d_StaticVarCompensator : RClass := ⟨0x537461746963566172436f6d70656e7361746f72, 0x43494d31352e49454336313937302e57697265732e537461746963566172436f6d70656e7361746f72, 0x43494d31352e49454336313937302e57697265732e526567756c6174696e67436f6e644571,
  [(0x736c6f7065, .flt 0x0), (0x735643436f6e74726f6c4d6f6465, .str 0x6f6666), (0x63617061636974697665526174696e67, .flt 0x0), (0x766f6c74616765536574506f696e74, .flt 0x0), (0x696e64756374697665526174696e67, .flt 0x0)],
  [0x736c6f7065, 0x735643436f6e74726f6c4d6f6465, 0x63617061636974697665526174696e67, 0x766f6c74616765536574506f696e74, 0x696e64756374697665526174696e67],
  [(0x736c6f7065, .flt 0x0), (0x735643436f6e74726f6c4d6f6465, .str 0x6f6666), (0x63617061636974697665526174696e67, .flt 0x0), (0x766f6c74616765536574506f696e74, .flt 0x0), (0x696e64756374697665526174696e67, .flt 0x0)],
  [(0x736c6f7065, 0x666c6f6174), (0x735643436f6e74726f6c4d6f6465, 0x737472), (0x63617061636974697665526174696e67, 0x666c6f6174), (0x766f6c74616765536574506f696e74, 0x666c6f6174), (0x696e64756374697665526174696e67, 0x666c6f6174)],
  [(0x735643436f6e74726f6c4d6f6465, 0x535643436f6e74726f6c4d6f6465)],
  [],
  []⟩
def m_StaticVarCompensator : List RClass := d_StaticVarCompensator :: m_RegulatingCondEq

/-- CIM15/IEC61970/Wires/SynchronousMachine.py:23 -/
def d_SynchronousMachine : RClass := ⟨0x53796e6368726f6e6f75734d616368696e65, 0x43494d31352e49454336313937302e57697265732e53796e6368726f6e6f75734d616368696e65, 0x43494d31352e49454336313937302e57697265732e526567756c6174696e67436f6e644571,
  [(0x726174656453, .flt 0x0), (0x7232, .flt 0x0), (0x7230, .flt 0x0), (0x6d616e75616c546f415652, .flt 0x0), (0x7150657263656e74, .flt 0x0), (0x636f6f6c616e74436f6e646974696f6e, .flt 0x0), (0x636f6e64656e73657250, .flt 0x0), (0x78517561645472616e73, .flt 0x0), (0x78517561645375627472616e73, .flt 0x0), (0x785175616453796e63, .flt 0x0), (0x7844697265637453796e63, .flt 0x0), (0x6d696e51, .flt 0x0), (0x615652546f4d616e75616c4c6167, .flt 0x0), (0x64616d70696e67, .flt 0x0), (0x6f7065726174696e674d6f6465, .str 0x636f6e64656e736572), (0x784469726563745375627472616e73, .flt 0x0), (0x636f6f6c616e7454797065, .str 0x616972), (0x615652546f4d616e75616c4c656164, .flt 0x0), (0x6d696e55, .flt 0x0), (0x6d617851, .flt 0x0), (0x7265666572656e63655072696f72697479, .int 0), (0x6d617855, .flt 0x0), (0x784469726563745472616e73, .flt 0x0), (0x696e6572746961, .flt 0x0), (0x6261736551, .flt 0x0), (0x74797065, .str 0x636f6e64656e736572), (0x72, .flt 0x0), (0x7830, .flt 0x0), (0x7832, .flt 0x0), (0x78, .flt 0x0)],
  [0x726174656453, 0x7232, 0x7230, 0x6d616e75616c546f415652, 0x7150657263656e74, 0x636f6f6c616e74436f6e646974696f6e, 0x636f6e64656e73657250, 0x78517561645472616e73, 0x78517561645375627472616e73, 0x785175616453796e63, 0x7844697265637453796e63, 0x6d696e51, 0x615652546f4d616e75616c4c6167, 0x64616d70696e67, 0x6f7065726174696e674d6f6465, 0x784469726563745375627472616e73, 0x636f6f6c616e7454797065, 0x615652546f4d616e75616c4c656164, 0x6d696e55, 0x6d617851, 0x7265666572656e63655072696f72697479, 0x6d617855, 0x784469726563745472616e73, 0x696e6572746961, 0x6261736551, 0x74797065, 0x72, 0x7830, 0x7832, 0x78],
  [(0x726174656453, .flt 0x0), (0x7232, .flt 0x0), (0x7230, .flt 0x0), (0x6d616e75616c546f415652, .flt 0x0), (0x7150657263656e74, .flt 0x0), (0x636f6f6c616e74436f6e646974696f6e, .flt 0x0), (0x636f6e64656e73657250, .flt 0x0), (0x78517561645472616e73, .flt 0x0), (0x78517561645375627472616e73, .flt 0x0), (0x785175616453796e63, .flt 0x0), (0x7844697265637453796e63, .flt 0x0), (0x6d696e51, .flt 0x0), (0x615652546f4d616e75616c4c6167, .flt 0x0), (0x64616d70696e67, .flt 0x0), (0x6f7065726174696e674d6f6465, .str 0x636f6e64656e736572), (0x784469726563745375627472616e73, .flt 0x0), (0x636f6f6c616e7454797065, .str 0x616972), (0x615652546f4d616e75616c4c656164, .flt 0x0), (0x6d696e55, .flt 0x0), (0x6d617851, .flt 0x0), (0x7265666572656e63655072696f72697479, .int 0), (0x6d617855, .flt 0x0), (0x784469726563745472616e73, .flt 0x0), (0x696e6572746961, .flt 0x0), (0x6261736551, .flt 0x0), (0x74797065, .str 0x636f6e64656e736572), (0x72, .flt 0x0), (0x7830, .flt 0x0), (0x7832, .flt 0x0), (0x78, .flt 0x0)],
  [(0x726174656453, 0x666c6f6174), (0x7232, 0x666c6f6174), (0x7230, 0x666c6f6174), (0x6d616e75616c546f415652, 0x666c6f6174), (0x7150657263656e74, 0x666c6f6174), (0x636f6f6c616e74436f6e646974696f6e, 0x666c6f6174), (0x636f6e64656e73657250, 0x666c6f6174), (0x78517561645472616e73, 0x666c6f6174), (0x78517561645375627472616e73, 0x666c6f6174), (0x785175616453796e63, 0x666c6f6174), (0x7844697265637453796e63, 0x666c6f6174), (0x6d696e51, 0x666c6f6174), (0x615652546f4d616e75616c4c6167, 0x666c6f6174), (0x64616d70696e67, 0x666c6f6174), (0x6f7065726174696e674d6f6465, 0x737472), (0x784469726563745375627472616e73, 0x666c6f6174), (0x636f6f6c616e7454797065, 0x737472), (0x615652546f4d616e75616c4c656164, 0x666c6f6174), (0x6d696e55, 0x666c6f6174), (0x6d617851, 0x666c6f6174), (0x7265666572656e63655072696f72697479, 0x696e74), (0x6d617855, 0x666c6f6174), (0x784469726563745472616e73, 0x666c6f6174), (0x696e6572746961, 0x666c6f6174), (0x6261736551, 0x666c6f6174), (0x74797065, 0x737472), (0x72, 0x666c6f6174), (0x7830, 0x666c6f6174), (0x7832, 0x666c6f6174), (0x78, 0x666c6f6174)],
  [(0x6f7065726174696e674d6f6465, 0x53796e6368726f6e6f75734d616368696e654f7065726174696e674d6f6465), (0x636f6f6c616e7454797065, 0x436f6f6c616e7454797065), (0x74797065, 0x53796e6368726f6e6f75734d616368696e6554797065)],
  [⟨0x5072696d654d6f76657273, .many2many, 0x53796e6368726f6e6f75734d616368696e6573, 0, false⟩, ⟨0x47656e65726174696e67556e6974, .one2many, 0x53796e6368726f6e6f75734d616368696e6573, 0, false⟩, ⟨0x52656163746976654361706162696c697479437572766573, .many2many, 0x53796e6368726f6e6f75734d616368696e6573, 0, false⟩, ⟨0x487964726f50756d70, .one2one, 0x53796e6368726f6e6f75734d616368696e65, 0, false⟩, ⟨0x496e697469616c52656163746976654361706162696c6974794375727665, .one2many, 0x496e697469616c6c7955736564427953796e6368726f6e6f75734d616368696e6573, 0, false⟩],
  [0x5072696d654d6f76657273, 0x52656163746976654361706162696c697479437572766573]⟩
def m_SynchronousMachine : List RClass := d_SynchronousMachine :: m_RegulatingCondEq

/-- CIM15/IEC61970/Wires/Breaker.py:23 -/
def d_Breaker : RClass := ⟨0x427265616b6572, 0x43494d31352e49454336313937302e57697265732e427265616b6572, 0x43494d31352e49454336313937302e57697265732e50726f746563746564537769746368,
  [(0x696e5472616e73697454696d65, .flt 0x0)],
  [0x696e5472616e73697454696d65],
  [(0x696e5472616e73697454696d65, .flt 0x0)],
  [(0x696e5472616e73697454696d65, 0x666c6f6174)],
  [],
  [],
  []⟩
def m_Breaker : List RClass := d_Breaker :: m_ProtectedSwitch

/-- CIM15/IEC61970/Wires/LoadBreakSwitch.py:23 -/
def d_LoadBreakSwitch : RClass := ⟨0x4c6f6164427265616b537769746368, 0x43494d31352e49454336313937302e57697265732e4c6f6164427265616b537769746368, 0x43494d31352e49454336313937302e57697265732e50726f746563746564537769746368,
  [],
  [],
  [],
  [],
  [],
  [],
  []⟩
def m_LoadBreakSwitch : List RClass := d_LoadBreakSwitch :: m_ProtectedSwitch

/-- CIM15/IEC61970/Wires/Recloser.py:23 -/
def d_Recloser : RClass := ⟨0x5265636c6f736572, 0x43494d31352e49454336313937302e57697265732e5265636c6f736572, 0x43494d31352e49454336313937302e57697265732e50726f746563746564537769746368,
  [],
  [],
  [],
  [],
  [],
  [],
  []⟩
def m_Recloser : List RClass := d_Recloser :: m_ProtectedSwitch

def classes : List (List RClass) := [
  m_CombinedVersion,
  m_Element,
  m_CableInfo,
  m_ConcentricNeutralCableInfo,
  m_ConductorInfo,
  m_EndDeviceInfo,
  m_NoLoadTest,
  m_OpenCircuitTest,
  m_OverheadConductorInfo,
  m_PowerTransformerInfo,
  m_ShortCircuitTest,
  m_TapChangerInfo,
  m_TapeShieldCableInfo,
  m_TransformerEndInfo,
  m_TransformerTankInfo,
  m_TransformerTest,
  m_WireArrangement,
  m_WireType,
  m_AcceptanceTest,
  m_Asset,
  m_AssetContainer,
  m_AssetFunction,
  m_AssetInfo,
  m_AssetModel,
  m_ComMedia,
  m_ProductAssetModel,
  m_Seal,
  m_ActivityRecord,
  m_Agreement,
  m_CoordinateSystem,
  m_Document,
  m_ElectronicAddress,
  m_Location,
  m_Organisation,
  m_PositionPoint,
  m_PostalAddress,
  m_Status,
  m_StreetAddress,
  m_StreetDetail,
  m_TelephoneNumber,
  m_TimePoint,
  m_TimeSchedule,
  m_TownDetail,
  m_UserAttribute,
  m_Customer,
  m_CustomerAccount,
  m_CustomerAgreement,
  m_PricingStructure,
  m_ServiceCategory,
  m_ServiceLocation,
  m_Tariff,
  m_IEC61968CIMVersion,
  m_ConnectDisconnectFunction,
  m_RemoteConnectDisconnectInfo,
  m_ComFunction,
  m_DemandResponseProgram,
  m_DynamicDemand,
  m_ElectricMeteringFunction,
  m_EndDevice,
  m_EndDeviceControl,
  m_EndDeviceEvent,
  m_EndDeviceFunction,
  m_EndDeviceGroup,
  m_IntervalBlock,
  m_IntervalReading,
  m_Meter,
  m_MeterReading,
  m_MeterServiceWork,
  m_PendingCalculation,
  m_Reading,
  m_ReadingMultiplier,
  m_ReadingQuality,
  m_ReadingType,
  m_Register,
  m_SDPLocation,
  m_ServiceDeliveryPoint,
  m_SimpleEndDeviceFunction,
  m_AccountMovement,
  m_AccountingUnit,
  m_AuxiliaryAccount,
  m_AuxiliaryAgreement,
  m_BankAccountDetail,
  m_Card,
  m_Cashier,
  m_CashierShift,
  m_Charge,
  m_Cheque,
  m_ConsumptionTariffInterval,
  m_Due,
  m_LineDetail,
  m_MerchantAccount,
  m_MerchantAgreement,
  m_PointOfSale,
  m_Receipt,
  m_ServiceSupplier,
  m_Shift,
  m_TariffProfile,
  m_Tender,
  m_TimeTariffInterval,
  m_Transaction,
  m_Transactor,
  m_Vendor,
  m_VendorShift,
  m_Work,
  m_AuxiliaryEquipment,
  m_CurrentTransformer,
  m_FaultIndicator,
  m_PotentialTransformer,
  m_Sensor,
  m_SurgeProtector,
  m_Contingency,
  m_ContingencyElement,
  m_ContingencyEquipment,
  m_AltGeneratingUnitMeas,
  m_AltTieMeas,
  m_ControlArea,
  m_ControlAreaGeneratingUnit,
  m_TieFlow,
  m_BasePower,
  m_BaseVoltage,
  m_BasicIntervalSchedule,
  m_Bay,
  m_ConductingEquipment,
  m_ConnectivityNode,
  m_ConnectivityNodeContainer,
  m_Curve,
  m_CurveData,
  m_Equipment,
  m_EquipmentContainer,
  m_GeographicalRegion,
  m_IdentifiedObject,
  m_IrregularIntervalSchedule,
  m_IrregularTimePoint,
  m_Name,
  m_NameType,
  m_NameTypeAuthority,
  m_OperatingParticipant,
  m_OperatingShare,
  m_PSRType,
  m_PowerSystemResource,
  m_PsrList,
  m_RegularIntervalSchedule,
  m_RegularTimePoint,
  m_ReportingGroup,
  m_ReportingSuperGroup,
  m_SubGeographicalRegion,
  m_Substation,
  m_Terminal,
  m_VoltageLevel,
  m_Clamp,
  m_Cut,
  m_DateTimeInterval,
  m_EquivalentBranch,
  m_EquivalentEquipment,
  m_EquivalentInjection,
  m_EquivalentNetwork,
  m_EquivalentShunt,
  m_BWRSteamSupply,
  m_CTTempActivePowerCurve,
  m_CombustionTurbine,
  m_DrumBoiler,
  m_FossilSteamSupply,
  m_HeatRecoveryBoiler,
  m_HydroTurbine,
  m_PWRSteamSupply,
  m_PrimeMover,
  m_SteamSupply,
  m_SteamTurbine,
  m_Subcritical,
  m_Supercritical,
  m_AirCompressor,
  m_CAESPlant,
  m_CogenerationPlant,
  m_CombinedCyclePlant,
  m_EmissionAccount,
  m_EmissionCurve,
  m_FossilFuel,
  m_FuelAllocationSchedule,
  m_GenUnitOpCostCurve,
  m_GenUnitOpSchedule,
  m_GeneratingUnit,
  m_GrossToNetActivePowerCurve,
  m_HeatInputCurve,
  m_HeatRateCurve,
  m_HydroGeneratingEfficiencyCurve,
  m_HydroGeneratingUnit,
  m_HydroPowerPlant,
  m_HydroPump,
  m_HydroPumpOpSchedule,
  m_IncrementalHeatRateCurve,
  m_InflowForecast,
  m_LevelVsVolumeCurve,
  m_NuclearGeneratingUnit,
  m_PenstockLossCurve,
  m_Reservoir,
  m_ShutdownCurve,
  m_StartIgnFuelCurve,
  m_StartMainFuelCurve,
  m_StartRampCurve,
  m_StartupModel,
  m_SteamSendoutSchedule,
  m_TailbayLossCurve,
  m_TargetLevelSchedule,
  m_ThermalGeneratingUnit,
  m_WindGeneratingUnit,
  m_DiagramObject,
  m_DiagramObjectGluePoint,
  m_DiagramObjectPoint,
  m_DiagramObjectStyle,
  m_TextDiagramObject,
  m_VisibilityLayer,
  m_IEC61970CIMVersion,
  m_AssetModelCatalogue,
  m_AssetModelCatalogueItem,
  m_TransformerAssetModel,
  m_AssetAssetRole,
  m_AssetPropertyCurve,
  m_BreakerInfo,
  m_Bushing,
  m_BushingInsulationPF,
  m_Cabinet,
  m_ComEquipment,
  m_CompositeSwitchInfo,
  m_ConductorAsset,
  m_CurrentTransformerInfo,
  m_DimensionsInfo,
  m_DocAssetRole,
  m_Duct,
  m_DuctBank,
  m_ElectricalInfo,
  m_FACTSDevice,
  m_Facility,
  m_FailureEvent,
  m_FaultIndicatorInfo,
  m_FinancialInfo,
  m_GenericAssetModelOrMaterial,
  m_Joint,
  m_Medium,
  m_MountingConnection,
  m_MountingPoint,
  m_OrgAssetRole,
  m_Pole,
  m_PotentialTransformerInfo,
  m_PowerRating,
  m_Procedure,
  m_ProcedureDataSet,
  m_ProtectionEquipmentInfo,
  m_RecloserInfo,
  m_ReliabilityInfo,
  m_SVC,
  m_ShuntCompensatorInfo,
  m_ShuntImpedanceInfo,
  m_Specification,
  m_Streetlight,
  m_Structure,
  m_StructureSupport,
  m_SubstationAsset,
  m_SurgeProtectorInfo,
  m_SwitchInfo,
  m_TestDataSet,
  m_Tool,
  m_Tower,
  m_TransformerAsset,
  m_TransformerObservation,
  m_UndergroundStructure,
  m_Vehicle,
  m_WindingInsulation,
  m_WorkEquipment,
  m_Bank,
  m_BankAccount,
  m_BusinessPlan,
  m_BusinessRole,
  m_Craft,
  m_DocDocRole,
  m_DocPsrRole,
  m_Ratio,
  m_Role,
  m_ScheduleParameterInfo,
  m_ScheduledEvent,
  m_Skill,
  m_ModelingAuthority,
  m_ModelingAuthoritySet,
  m_ComplianceEvent,
  m_CustomerBillingInfo,
  m_ExternalCustomerAgreement,
  m_OutageHistory,
  m_PowerQualityPricing,
  m_ServiceGuarantee,
  m_StandardIndustryCode,
  m_SubscribePowerCurve,
  m_WorkBillingInfo,
  m_DocErpPersonRole,
  m_DocOrgRole,
  m_ErpBOM,
  m_ErpBankAccount,
  m_ErpBomItemData,
  m_ErpChartOfAccounts,
  m_ErpCompetency,
  m_ErpEngChangeOrder,
  m_ErpInventory,
  m_ErpInventoryCount,
  m_ErpInvoice,
  m_ErpInvoiceLineItem,
  m_ErpIssueInventory,
  m_ErpItemMaster,
  m_ErpJournal,
  m_ErpJournalEntry,
  m_ErpLedBudLineItem,
  m_ErpLedger,
  m_ErpLedgerBudget,
  m_ErpLedgerEntry,
  m_ErpOrganisation,
  m_ErpPOLineItem,
  m_ErpPayable,
  m_ErpPayableLineItem,
  m_ErpPayment,
  m_ErpPerson,
  m_ErpPersonnel,
  m_ErpProjectAccounting,
  m_ErpPurchaseOrder,
  m_ErpQuote,
  m_ErpQuoteLineItem,
  m_ErpRecDelvLineItem,
  m_ErpRecLineItem,
  m_ErpReceivable,
  m_ErpReceiveDelivery,
  m_ErpReqLineItem,
  m_ErpRequisition,
  m_ErpSalesOrder,
  m_ErpSiteLevelData,
  m_ErpTimeEntry,
  m_ErpTimeSheet,
  m_OrgErpPersonRole,
  m_OrgOrgRole,
  m_Diagram,
  m_GmlBaseSymbol,
  m_GmlColour,
  m_GmlDiagramObject,
  m_GmlFeatureStyle,
  m_GmlFeatureType,
  m_GmlFill,
  m_GmlFont,
  m_GmlGeometryStyle,
  m_GmlGraphic,
  m_GmlHalo,
  m_GmlLabelPlacement,
  m_GmlLabelStyle,
  m_GmlLineGeometry,
  m_GmlLineSymbol,
  m_GmlMark,
  m_GmlObservation,
  m_GmlPointGeometry,
  m_GmlPointSymbol,
  m_GmlPolygonGeometry,
  m_GmlPolygonSymbol,
  m_GmlPosition,
  m_GmlRasterSymbol,
  m_GmlSelector,
  m_GmlStroke,
  m_GmlSvgParameter,
  m_GmlSymbol,
  m_GmlTextSymbol,
  m_GmlTopologyStyle,
  m_GmlValue,
  m_Map,
  m_LoadLimitFunction,
  m_LoadMgmtFunction,
  m_LoadMgmtRecord,
  m_LoadShedFunction,
  m_Direction,
  m_Hazard,
  m_LandProperty,
  m_LocationGrant,
  m_OrgPropertyRole,
  m_PersonPropertyRole,
  m_RedLine,
  m_RightOfWay,
  m_Route,
  m_Zone,
  m_GasMeteringFunction,
  m_WaterMeteringFunction,
  m_CallBack,
  m_ChangeItem,
  m_ChangeSet,
  m_Circuit,
  m_CircuitSection,
  m_ErpPersonScheduleStepRole,
  m_IncidentCode,
  m_IncidentRecord,
  m_LandBase,
  m_NetworkDataSet,
  m_OperationalRestriction,
  m_OrgPsrRole,
  m_OutageCode,
  m_OutageNotification,
  m_OutageRecord,
  m_OutageReport,
  m_OutageStep,
  m_OutageStepPsrRole,
  m_PSREvent,
  m_PlannedOutage,
  m_SafetyDocument,
  m_SwitchingSchedule,
  m_SwitchingStep,
  m_TroubleTicket,
  m_GeneratorTypeAsset,
  m_TypeAssetCatalogue,
  m_AccessPermit,
  m_Appointment,
  m_Assignment,
  m_BusinessCase,
  m_CUAllowableAction,
  m_CUAsset,
  m_CUContractorItem,
  m_CUGroup,
  m_CULaborCode,
  m_CULaborItem,
  m_CUMaterialItem,
  m_CUWorkEquipmentItem,
  m_Capability,
  m_CompatibleUnit,
  m_ConditionFactor,
  m_ContractorItem,
  m_CostType,
  m_Crew,
  m_Design,
  m_DesignLocation,
  m_DesignLocationCU,
  m_DiagnosisDataSet,
  m_EquipmentItem,
  m_InfoQuestion,
  m_InspectionDataSet,
  m_LaborItem,
  m_MaintenanceDataSet,
  m_MaterialItem,
  m_MiscCostItem,
  m_NonStandardItem,
  m_OneCallRequest,
  m_OverheadCost,
  m_Project,
  m_PropertyUnit,
  m_QualificationRequirement,
  m_Regulation,
  m_Request,
  m_ShiftPattern,
  m_TypeMaterial,
  m_Usage,
  m_WorkCostDetail,
  m_WorkCostSummary,
  m_WorkFlowStep,
  m_WorkLocation,
  m_WorkStatusEntry,
  m_WorkTask,
  m_ConformLoad,
  m_ConformLoadGroup,
  m_ConformLoadSchedule,
  m_DayType,
  m_EnergyArea,
  m_LoadArea,
  m_LoadGroup,
  m_LoadResponseCharacteristic,
  m_NonConformLoad,
  m_NonConformLoadGroup,
  m_NonConformLoadSchedule,
  m_PowerCutZone,
  m_Season,
  m_SeasonDayTypeSchedule,
  m_StationSupply,
  m_SubLoadArea,
  m_Accumulator,
  m_AccumulatorLimit,
  m_AccumulatorLimitSet,
  m_AccumulatorValue,
  m_Analog,
  m_AnalogLimit,
  m_AnalogLimitSet,
  m_AnalogValue,
  m_Command,
  m_Control,
  m_ControlType,
  m_Discrete,
  m_DiscreteValue,
  m_Limit,
  m_LimitSet,
  m_Measurement,
  m_MeasurementValue,
  m_MeasurementValueQuality,
  m_MeasurementValueSource,
  m_Quality61850,
  m_SetPoint,
  m_StringMeasurement,
  m_StringMeasurementValue,
  m_ValueAliasSet,
  m_ValueToAlias,
  m_ActivePowerLimit,
  m_ActivePowerLimitSet,
  m_ApparentPowerLimit,
  m_ApparentPowerLimitSet,
  m_BranchGroup,
  m_BranchGroupTerminal,
  m_CheckPoint,
  m_CurrentLimit,
  m_CurrentLimitSet,
  m_OperationalLimit,
  m_OperationalLimitSet,
  m_OperationalLimitType,
  m_VoltageCheckPoint,
  m_VoltageLimit,
  m_VoltageLimitSet,
  m_VoltageTimeCurve,
  m_ClearanceTag,
  m_ClearanceTagType,
  m_OutageSchedule,
  m_SwitchingOperation,
  m_CurrentRelay,
  m_ProtectionEquipment,
  m_RecloseSequence,
  m_SynchrocheckRelay,
  m_CommunicationLink,
  m_RemoteControl,
  m_RemotePoint,
  m_RemoteSource,
  m_RemoteUnit,
  m_StateVariable,
  m_SvInjection,
  m_SvPowerFlow,
  m_SvShortCircuit,
  m_SvShuntCompensatorSections,
  m_SvStatus,
  m_SvTapStep,
  m_SvVoltage,
  m_TopologicalIsland,
  m_BusNameMarker,
  m_TopologicalNode,
  m_ACLineSegment,
  m_Breaker,
  m_BusbarSection,
  m_CompositeSwitch,
  m_Conductor,
  m_Connector,
  m_CurrentTemperatureCurve,
  m_DCLineSegment,
  m_Disconnector,
  m_EnergyConsumer,
  m_EnergySource,
  m_FrequencyConverter,
  m_Fuse,
  m_Ground,
  m_GroundDisconnector,
  m_Jumper,
  m_Junction,
  m_Line,
  m_LoadBreakSwitch,
  m_MutualCoupling,
  m_PerLengthPhaseImpedance,
  m_PerLengthSequenceImpedance,
  m_PhaseImpedanceData,
  m_PhaseTapChanger,
  m_PhaseTapChangerAsymetrical,
  m_PhaseTapChangerLinear,
  m_PhaseTapChangerNonLinear,
  m_PhaseTapChangerSymetrical,
  m_PhaseTapChangerTabular,
  m_PhaseTapChangerTabularPoint,
  m_Plant,
  m_PowerTransformer,
  m_PowerTransformerEnd,
  m_ProtectedSwitch,
  m_RatioTapChanger,
  m_RatioTapChangerTabular,
  m_RatioTapChangerTabularPoint,
  m_ReactiveCapabilityCurve,
  m_Recloser,
  m_RectifierInverter,
  m_RegulatingCondEq,
  m_RegulatingControl,
  m_RegulationSchedule,
  m_Resistor,
  m_Sectionaliser,
  m_SeriesCompensator,
  m_ShuntCompensator,
  m_StaticVarCompensator,
  m_Switch,
  m_SwitchSchedule,
  m_SynchronousMachine,
  m_TapChanger,
  m_TapChangerControl,
  m_TapSchedule,
  m_TransformerCoreAdmittance,
  m_TransformerEnd,
  m_TransformerMeshImpedance,
  m_TransformerStarImpedance,
  m_TransformerTank,
  m_TransformerTankEnd,
  m_VoltageControlZone,
  m_ACLineSegmentPhase,
  m_EnergyConsumerPhase,
  m_ShuntCompensatorPhase,
  m_SwitchPhase,
  m_IEC62325CIMVersion,
  m_MarketParticipant,
  m_MarketRole,
  m_Package,
  m_PackageDependenciesCIMVeresion,
  m_Stereotype]

/-- `packageMap` of CIM15/__init__.py -/
def pmap : List (Nat × Nat) := [
  (0x436f6d62696e656456657273696f6e, 0x43494d3135),
  (0x456c656d656e74, 0x43494d3135),
  (0x53746572656f74797065, 0x43494d3135),
  (0x5061636b616765, 0x43494d3135),
  (0x494543363139373043494d56657273696f6e, 0x43494d31352e4945433631393730),
  (0x52656d6f7465536f75726365, 0x43494d31352e49454336313937302e5343414441),
  (0x52656d6f7465506f696e74, 0x43494d31352e49454336313937302e5343414441),
  (0x52656d6f7465556e6974, 0x43494d31352e49454336313937302e5343414441),
  (0x52656d6f7465436f6e74726f6c, 0x43494d31352e49454336313937302e5343414441),
  (0x436f6d6d756e69636174696f6e4c696e6b, 0x43494d31352e49454336313937302e5343414441),
  (0x5265736572766f6972, 0x43494d31352e49454336313937302e47656e65726174696f6e2e50726f64756374696f6e),
  (0x436f67656e65726174696f6e506c616e74, 0x43494d31352e49454336313937302e47656e65726174696f6e2e50726f64756374696f6e),
  (0x47656e556e69744f705363686564756c65, 0x43494d31352e49454336313937302e47656e65726174696f6e2e50726f64756374696f6e),
  (0x4675656c416c6c6f636174696f6e5363686564756c65, 0x43494d31352e49454336313937302e47656e65726174696f6e2e50726f64756374696f6e),
  (0x47726f7373546f4e6574416374697665506f7765724375727665, 0x43494d31352e49454336313937302e47656e65726174696f6e2e50726f64756374696f6e),
  (0x4c6576656c5673566f6c756d654375727665, 0x43494d31352e49454336313937302e47656e65726174696f6e2e50726f64756374696f6e),
  (0x537461727452616d704375727665, 0x43494d31352e49454336313937302e47656e65726174696f6e2e50726f64756374696f6e),
  (0x4e75636c65617247656e65726174696e67556e6974, 0x43494d31352e49454336313937302e47656e65726174696f6e2e50726f64756374696f6e),
  (0x456d697373696f6e4375727665, 0x43494d31352e49454336313937302e47656e65726174696f6e2e50726f64756374696f6e),
  (0x487964726f50756d704f705363686564756c65, 0x43494d31352e49454336313937302e47656e65726174696f6e2e50726f64756374696f6e),
  (0x537465616d53656e646f75745363686564756c65, 0x43494d31352e49454336313937302e47656e65726174696f6e2e50726f64756374696f6e),
  (0x5461726765744c6576656c5363686564756c65, 0x43494d31352e49454336313937302e47656e65726174696f6e2e50726f64756374696f6e),
  (0x436f6d62696e65644379636c65506c616e74, 0x43494d31352e49454336313937302e47656e65726174696f6e2e50726f64756374696f6e),
  (0x48656174526174654375727665, 0x43494d31352e49454336313937302e47656e65726174696f6e2e50726f64756374696f6e),
  (0x546865726d616c47656e65726174696e67556e6974, 0x43494d31352e49454336313937302e47656e65726174696f6e2e50726f64756374696f6e),
  (0x456d697373696f6e4163636f756e74, 0x43494d31352e49454336313937302e47656e65726174696f6e2e50726f64756374696f6e),
  (0x50656e73746f636b4c6f73734375727665, 0x43494d31352e49454336313937302e47656e65726174696f6e2e50726f64756374696f6e),
  (0x537461727475704d6f64656c, 0x43494d31352e49454336313937302e47656e65726174696f6e2e50726f64756374696f6e),
  (0x487964726f47656e65726174696e67556e6974, 0x43494d31352e49454336313937302e47656e65726174696f6e2e50726f64756374696f6e),
  (0x47656e556e69744f70436f73744375727665, 0x43494d31352e49454336313937302e47656e65726174696f6e2e50726f64756374696f6e),
  (0x496e6372656d656e74616c48656174526174654375727665, 0x43494d31352e49454336313937302e47656e65726174696f6e2e50726f64756374696f6e),
  (0x466f7373696c4675656c, 0x43494d31352e49454336313937302e47656e65726174696f6e2e50726f64756374696f6e),
  (0x47656e65726174696e67556e6974, 0x43494d31352e49454336313937302e47656e65726174696f6e2e50726f64756374696f6e),
  (0x537461727449676e4675656c4375727665, 0x43494d31352e49454336313937302e47656e65726174696f6e2e50726f64756374696f6e),
  (0x53746172744d61696e4675656c4375727665, 0x43494d31352e49454336313937302e47656e65726174696f6e2e50726f64756374696f6e),
  (0x5461696c6261794c6f73734375727665, 0x43494d31352e49454336313937302e47656e65726174696f6e2e50726f64756374696f6e),
  (0x487964726f50756d70, 0x43494d31352e49454336313937302e47656e65726174696f6e2e50726f64756374696f6e),
  (0x496e666c6f77466f726563617374, 0x43494d31352e49454336313937302e47656e65726174696f6e2e50726f64756374696f6e),
  (0x487964726f47656e65726174696e67456666696369656e63794375727665, 0x43494d31352e49454336313937302e47656e65726174696f6e2e50726f64756374696f6e),
  (0x53687574646f776e4375727665, 0x43494d31352e49454336313937302e47656e65726174696f6e2e50726f64756374696f6e),
  (0x487964726f506f776572506c616e74, 0x43494d31352e49454336313937302e47656e65726174696f6e2e50726f64756374696f6e),
  (0x43414553506c616e74, 0x43494d31352e49454336313937302e47656e65726174696f6e2e50726f64756374696f6e),
  (0x416972436f6d70726573736f72, 0x43494d31352e49454336313937302e47656e65726174696f6e2e50726f64756374696f6e),
  (0x48656174496e7075744375727665, 0x43494d31352e49454336313937302e47656e65726174696f6e2e50726f64756374696f6e),
  (0x57696e6447656e65726174696e67556e6974, 0x43494d31352e49454336313937302e47656e65726174696f6e2e50726f64756374696f6e),
  (0x425752537465616d537570706c79, 0x43494d31352e49454336313937302e47656e65726174696f6e2e47656e65726174696f6e44796e616d696373),
  (0x487964726f54757262696e65, 0x43494d31352e49454336313937302e47656e65726174696f6e2e47656e65726174696f6e44796e616d696373),
  (0x537465616d54757262696e65, 0x43494d31352e49454336313937302e47656e65726174696f6e2e47656e65726174696f6e44796e616d696373),
  (0x537465616d537570706c79, 0x43494d31352e49454336313937302e47656e65726174696f6e2e47656e65726174696f6e44796e616d696373),
  (0x466f7373696c537465616d537570706c79, 0x43494d31352e49454336313937302e47656e65726174696f6e2e47656e65726174696f6e44796e616d696373),
  (0x537562637269746963616c, 0x43494d31352e49454336313937302e47656e65726174696f6e2e47656e65726174696f6e44796e616d696373),
  (0x505752537465616d537570706c79, 0x43494d31352e49454336313937302e47656e65726174696f6e2e47656e65726174696f6e44796e616d696373),
  (0x5072696d654d6f766572, 0x43494d31352e49454336313937302e47656e65726174696f6e2e47656e65726174696f6e44796e616d696373),
  (0x436f6d62757374696f6e54757262696e65, 0x43494d31352e49454336313937302e47656e65726174696f6e2e47656e65726174696f6e44796e616d696373),
  (0x486561745265636f76657279426f696c6572, 0x43494d31352e49454336313937302e47656e65726174696f6e2e47656e65726174696f6e44796e616d696373),
  (0x5375706572637269746963616c, 0x43494d31352e49454336313937302e47656e65726174696f6e2e47656e65726174696f6e44796e616d696373),
  (0x4472756d426f696c6572, 0x43494d31352e49454336313937302e47656e65726174696f6e2e47656e65726174696f6e44796e616d696373),
  (0x435454656d70416374697665506f7765724375727665, 0x43494d31352e49454336313937302e47656e65726174696f6e2e47656e65726174696f6e44796e616d696373),
  (0x45717569706d656e744974656d, 0x43494d31352e49454336313937302e496e666f726d61746976652e496e66576f726b),
  (0x4170706f696e746d656e74, 0x43494d31352e49454336313937302e496e666f726d61746976652e496e66576f726b),
  (0x576f726b537461747573456e747279, 0x43494d31352e49454336313937302e496e666f726d61746976652e496e66576f726b),
  (0x427573696e65737343617365, 0x43494d31352e49454336313937302e496e666f726d61746976652e496e66576f726b),
  (0x547970654d6174657269616c, 0x43494d31352e49454336313937302e496e666f726d61746976652e496e66576f726b),
  (0x44657369676e4c6f636174696f6e, 0x43494d31352e49454336313937302e496e666f726d61746976652e496e66576f726b),
  (0x4f76657268656164436f7374, 0x43494d31352e49454336313937302e496e666f726d61746976652e496e66576f726b),
  (0x43726577, 0x43494d31352e49454336313937302e496e666f726d61746976652e496e66576f726b),
  (0x446961676e6f73697344617461536574, 0x43494d31352e49454336313937302e496e666f726d61746976652e496e66576f726b),
  (0x43554173736574, 0x43494d31352e49454336313937302e496e666f726d61746976652e496e66576f726b),
  (0x52657175657374, 0x43494d31352e49454336313937302e496e666f726d61746976652e496e66576f726b),
  (0x44657369676e, 0x43494d31352e49454336313937302e496e666f726d61746976652e496e66576f726b),
  (0x576f726b5461736b, 0x43494d31352e49454336313937302e496e666f726d61746976652e496e66576f726b),
  (0x436f6e646974696f6e466163746f72, 0x43494d31352e49454336313937302e496e666f726d61746976652e496e66576f726b),
  (0x5175616c696669636174696f6e526571756972656d656e74, 0x43494d31352e49454336313937302e496e666f726d61746976652e496e66576f726b),
  (0x576f726b4c6f636174696f6e, 0x43494d31352e49454336313937302e496e666f726d61746976652e496e66576f726b),
  (0x436f737454797065, 0x43494d31352e49454336313937302e496e666f726d61746976652e496e66576f726b),
  (0x43554d6174657269616c4974656d, 0x43494d31352e49454336313937302e496e666f726d61746976652e496e66576f726b),
  (0x50726f7065727479556e6974, 0x43494d31352e49454336313937302e496e666f726d61746976652e496e66576f726b),
  (0x50726f6a656374, 0x43494d31352e49454336313937302e496e666f726d61746976652e496e66576f726b),
  (0x43554c61626f724974656d, 0x43494d31352e49454336313937302e496e666f726d61746976652e496e66576f726b),
  (0x4c61626f724974656d, 0x43494d31352e49454336313937302e496e666f726d61746976652e496e66576f726b),
  (0x576f726b466c6f7753746570, 0x43494d31352e49454336313937302e496e666f726d61746976652e496e66576f726b),
  (0x496e7370656374696f6e44617461536574, 0x43494d31352e49454336313937302e496e666f726d61746976652e496e66576f726b),
  (0x576f726b436f737444657461696c, 0x43494d31352e49454336313937302e496e666f726d61746976652e496e66576f726b),
  (0x436f6d70617469626c65556e6974, 0x43494d31352e49454336313937302e496e666f726d61746976652e496e66576f726b),
  (0x576f726b436f737453756d6d617279, 0x43494d31352e49454336313937302e496e666f726d61746976652e496e66576f726b),
  (0x4e6f6e5374616e646172644974656d, 0x43494d31352e49454336313937302e496e666f726d61746976652e496e66576f726b),
  (0x496e666f5175657374696f6e, 0x43494d31352e49454336313937302e496e666f726d61746976652e496e66576f726b),
  (0x526567756c6174696f6e, 0x43494d31352e49454336313937302e496e666f726d61746976652e496e66576f726b),
  (0x436f6e74726163746f724974656d, 0x43494d31352e49454336313937302e496e666f726d61746976652e496e66576f726b),
  (0x4355416c6c6f7761626c65416374696f6e, 0x43494d31352e49454336313937302e496e666f726d61746976652e496e66576f726b),
  (0x43554c61626f72436f6465, 0x43494d31352e49454336313937302e496e666f726d61746976652e496e66576f726b),
  (0x4163636573735065726d6974, 0x43494d31352e49454336313937302e496e666f726d61746976652e496e66576f726b),
  (0x4355576f726b45717569706d656e744974656d, 0x43494d31352e49454336313937302e496e666f726d61746976652e496e66576f726b),
  (0x44657369676e4c6f636174696f6e4355, 0x43494d31352e49454336313937302e496e666f726d61746976652e496e66576f726b),
  (0x4d61696e74656e616e636544617461536574, 0x43494d31352e49454336313937302e496e666f726d61746976652e496e66576f726b),
  (0x4d697363436f73744974656d, 0x43494d31352e49454336313937302e496e666f726d61746976652e496e66576f726b),
  (0x4d6174657269616c4974656d, 0x43494d31352e49454336313937302e496e666f726d61746976652e496e66576f726b),
  (0x53686966745061747465726e, 0x43494d31352e49454336313937302e496e666f726d61746976652e496e66576f726b),
  (0x4361706162696c697479, 0x43494d31352e49454336313937302e496e666f726d61746976652e496e66576f726b),
  (0x5573616765, 0x43494d31352e49454336313937302e496e666f726d61746976652e496e66576f726b),
  (0x4f6e6543616c6c52657175657374, 0x43494d31352e49454336313937302e496e666f726d61746976652e496e66576f726b),
  (0x41737369676e6d656e74, 0x43494d31352e49454336313937302e496e666f726d61746976652e496e66576f726b),
  (0x4355436f6e74726163746f724974656d, 0x43494d31352e49454336313937302e496e666f726d61746976652e496e66576f726b),
  (0x435547726f7570, 0x43494d31352e49454336313937302e496e666f726d61746976652e496e66576f726b),
  (0x45727052656344656c764c696e654974656d, 0x43494d31352e49454336313937302e496e666f726d61746976652e496e66455250537570706f7274),
  (0x4572704c6564676572427564676574, 0x43494d31352e49454336313937302e496e666f726d61746976652e496e66455250537570706f7274),
  (0x45727054696d65456e747279, 0x43494d31352e49454336313937302e496e666f726d61746976652e496e66455250537570706f7274),
  (0x457270436f6d706574656e6379, 0x43494d31352e49454336313937302e496e666f726d61746976652e496e66455250537570706f7274),
  (0x45727050757263686173654f72646572, 0x43494d31352e49454336313937302e496e666f726d61746976652e496e66455250537570706f7274),
  (0x457270456e674368616e67654f72646572, 0x43494d31352e49454336313937302e496e666f726d61746976652e496e66455250537570706f7274),
  (0x45727050726f6a6563744163636f756e74696e67, 0x43494d31352e49454336313937302e496e666f726d61746976652e496e66455250537570706f7274),
  (0x4572705265634c696e654974656d, 0x43494d31352e49454336313937302e496e666f726d61746976652e496e66455250537570706f7274),
  (0x45727050617961626c654c696e654974656d, 0x43494d31352e49454336313937302e496e666f726d61746976652e496e66455250537570706f7274),
  (0x4572704c65644275644c696e654974656d, 0x43494d31352e49454336313937302e496e666f726d61746976652e496e66455250537570706f7274),
  (0x4572705265717569736974696f6e, 0x43494d31352e49454336313937302e496e666f726d61746976652e496e66455250537570706f7274),
  (0x4572704f7267616e69736174696f6e, 0x43494d31352e49454336313937302e496e666f726d61746976652e496e66455250537570706f7274),
  (0x457270496e766f696365, 0x43494d31352e49454336313937302e496e666f726d61746976652e496e66455250537570706f7274),
  (0x446f63457270506572736f6e526f6c65, 0x43494d31352e49454336313937302e496e666f726d61746976652e496e66455250537570706f7274),
  (0x45727042616e6b4163636f756e74, 0x43494d31352e49454336313937302e496e666f726d61746976652e496e66455250537570706f7274),
  (0x45727051756f7465, 0x43494d31352e49454336313937302e496e666f726d61746976652e496e66455250537570706f7274),
  (0x457270506572736f6e, 0x43494d31352e49454336313937302e496e666f726d61746976652e496e66455250537570706f7274),
  (0x4572704974656d4d6173746572, 0x43494d31352e49454336313937302e496e666f726d61746976652e496e66455250537570706f7274),
  (0x457270424f4d, 0x43494d31352e49454336313937302e496e666f726d61746976652e496e66455250537570706f7274),
  (0x457270496e76656e746f7279436f756e74, 0x43494d31352e49454336313937302e496e666f726d61746976652e496e66455250537570706f7274),
  (0x4572704973737565496e76656e746f7279, 0x43494d31352e49454336313937302e496e666f726d61746976652e496e66455250537570706f7274),
  (0x45727050617961626c65, 0x43494d31352e49454336313937302e496e666f726d61746976652e496e66455250537570706f7274),
  (0x4572704c6564676572, 0x43494d31352e49454336313937302e496e666f726d61746976652e496e66455250537570706f7274),
  (0x457270504f4c696e654974656d, 0x43494d31352e49454336313937302e496e666f726d61746976652e496e66455250537570706f7274),
  (0x4572704c6564676572456e747279, 0x43494d31352e49454336313937302e496e666f726d61746976652e496e66455250537570706f7274),
  (0x4572705061796d656e74, 0x43494d31352e49454336313937302e496e666f726d61746976652e496e66455250537570706f7274),
  (0x45727052656365697661626c65, 0x43494d31352e49454336313937302e496e666f726d61746976652e496e66455250537570706f7274),
  (0x446f634f7267526f6c65, 0x43494d31352e49454336313937302e496e666f726d61746976652e496e66455250537570706f7274),
  (0x4572705265714c696e654974656d, 0x43494d31352e49454336313937302e496e666f726d61746976652e496e66455250537570706f7274),
  (0x45727054696d655368656574, 0x43494d31352e49454336313937302e496e666f726d61746976652e496e66455250537570706f7274),
  (0x457270496e76656e746f7279, 0x43494d31352e49454336313937302e496e666f726d61746976652e496e66455250537570706f7274),
  (0x45727043686172744f664163636f756e7473, 0x43494d31352e49454336313937302e496e666f726d61746976652e496e66455250537570706f7274),
  (0x457270536974654c6576656c44617461, 0x43494d31352e49454336313937302e496e666f726d61746976652e496e66455250537570706f7274),
  (0x4f7267457270506572736f6e526f6c65, 0x43494d31352e49454336313937302e496e666f726d61746976652e496e66455250537570706f7274),
  (0x4572705265636569766544656c6976657279, 0x43494d31352e49454336313937302e496e666f726d61746976652e496e66455250537570706f7274),
  (0x45727053616c65734f72646572, 0x43494d31352e49454336313937302e496e666f726d61746976652e496e66455250537570706f7274),
  (0x4572704a6f75726e616c456e747279, 0x43494d31352e49454336313937302e496e666f726d61746976652e496e66455250537570706f7274),
  (0x457270496e766f6963654c696e654974656d, 0x43494d31352e49454336313937302e496e666f726d61746976652e496e66455250537570706f7274),
  (0x4f72674f7267526f6c65, 0x43494d31352e49454336313937302e496e666f726d61746976652e496e66455250537570706f7274),
  (0x4572704a6f75726e616c, 0x43494d31352e49454336313937302e496e666f726d61746976652e496e66455250537570706f7274),
  (0x457270506572736f6e6e656c, 0x43494d31352e49454336313937302e496e666f726d61746976652e496e66455250537570706f7274),
  (0x45727051756f74654c696e654974656d, 0x43494d31352e49454336313937302e496e666f726d61746976652e496e66455250537570706f7274),
  (0x457270426f6d4974656d44617461, 0x43494d31352e49454336313937302e496e666f726d61746976652e496e66455250537570706f7274),
  (0x526f6c65, 0x43494d31352e49454336313937302e496e666f726d61746976652e496e66436f6d6d6f6e),
  (0x42616e6b, 0x43494d31352e49454336313937302e496e666f726d61746976652e496e66436f6d6d6f6e),
  (0x536b696c6c, 0x43494d31352e49454336313937302e496e666f726d61746976652e496e66436f6d6d6f6e),
  (0x427573696e657373526f6c65, 0x43494d31352e49454336313937302e496e666f726d61746976652e496e66436f6d6d6f6e),
  (0x5363686564756c65644576656e74, 0x43494d31352e49454336313937302e496e666f726d61746976652e496e66436f6d6d6f6e),
  (0x5363686564756c65506172616d65746572496e666f, 0x43494d31352e49454336313937302e496e666f726d61746976652e496e66436f6d6d6f6e),
  (0x446f63507372526f6c65, 0x43494d31352e49454336313937302e496e666f726d61746976652e496e66436f6d6d6f6e),
  (0x526174696f, 0x43494d31352e49454336313937302e496e666f726d61746976652e496e66436f6d6d6f6e),
  (0x42616e6b4163636f756e74, 0x43494d31352e49454336313937302e496e666f726d61746976652e496e66436f6d6d6f6e),
  (0x4372616674, 0x43494d31352e49454336313937302e496e666f726d61746976652e496e66436f6d6d6f6e),
  (0x446f63446f63526f6c65, 0x43494d31352e49454336313937302e496e666f726d61746976652e496e66436f6d6d6f6e),
  (0x427573696e657373506c616e, 0x43494d31352e49454336313937302e496e666f726d61746976652e496e66436f6d6d6f6e),
  (0x4641435453446576696365, 0x43494d31352e49454336313937302e496e666f726d61746976652e496e66417373657473),
  (0x446f634173736574526f6c65, 0x43494d31352e49454336313937302e496e666f726d61746976652e496e66417373657473),
  (0x4475637442616e6b, 0x43494d31352e49454336313937302e496e666f726d61746976652e496e66417373657473),
  (0x436f6e647563746f724173736574, 0x43494d31352e49454336313937302e496e666f726d61746976652e496e66417373657473),
  (0x46696e616e6369616c496e666f, 0x43494d31352e49454336313937302e496e666f726d61746976652e496e66417373657473),
  (0x50726f74656374696f6e45717569706d656e74496e666f, 0x43494d31352e49454336313937302e496e666f726d61746976652e496e66417373657473),
  (0x50726f63656475726544617461536574, 0x43494d31352e49454336313937302e496e666f726d61746976652e496e66417373657473),
  (0x57696e64696e67496e73756c6174696f6e, 0x43494d31352e49454336313937302e496e666f726d61746976652e496e66417373657473),
  (0x53706563696669636174696f6e, 0x43494d31352e49454336313937302e496e666f726d61746976652e496e66417373657473),
  (0x556e64657267726f756e64537472756374757265, 0x43494d31352e49454336313937302e496e666f726d61746976652e496e66417373657473),
  (0x506f74656e7469616c5472616e73666f726d6572496e666f, 0x43494d31352e49454336313937302e496e666f726d61746976652e496e66417373657473),
  (0x537472756374757265, 0x43494d31352e49454336313937302e496e666f726d61746976652e496e66417373657473),
  (0x43757272656e745472616e73666f726d6572496e666f, 0x43494d31352e49454336313937302e496e666f726d61746976652e496e66417373657473),
  (0x42757368696e67496e73756c6174696f6e5046, 0x43494d31352e49454336313937302e496e666f726d61746976652e496e66417373657473),
  (0x4a6f696e74, 0x43494d31352e49454336313937302e496e666f726d61746976652e496e66417373657473),
  (0x456c656374726963616c496e666f, 0x43494d31352e49454336313937302e496e666f726d61746976652e496e66417373657473),
  (0x576f726b45717569706d656e74, 0x43494d31352e49454336313937302e496e666f726d61746976652e496e66417373657473),
  (0x4661756c74496e64696361746f72496e666f, 0x43494d31352e49454336313937302e496e666f726d61746976652e496e66417373657473),
  (0x44756374, 0x43494d31352e49454336313937302e496e666f726d61746976652e496e66417373657473),
  (0x506f776572526174696e67, 0x43494d31352e49454336313937302e496e666f726d61746976652e496e66417373657473),
  (0x41737365744173736574526f6c65, 0x43494d31352e49454336313937302e496e666f726d61746976652e496e66417373657473),
  (0x5472616e73666f726d65724173736574, 0x43494d31352e49454336313937302e496e666f726d61746976652e496e66417373657473),
  (0x50726f636564757265, 0x43494d31352e49454336313937302e496e666f726d61746976652e496e66417373657473),
  (0x427265616b6572496e666f, 0x43494d31352e49454336313937302e496e666f726d61746976652e496e66417373657473),
  (0x436f6d706f73697465537769746368496e666f, 0x43494d31352e49454336313937302e496e666f726d61746976652e496e66417373657473),
  (0x436162696e6574, 0x43494d31352e49454336313937302e496e666f726d61746976652e496e66417373657473),
  (0x42757368696e67, 0x43494d31352e49454336313937302e496e666f726d61746976652e496e66417373657473),
  (0x56656869636c65, 0x43494d31352e49454336313937302e496e666f726d61746976652e496e66417373657473),
  (0x537572676550726f746563746f72496e666f, 0x43494d31352e49454336313937302e496e666f726d61746976652e496e66417373657473),
  (0x537472756374757265537570706f7274, 0x43494d31352e49454336313937302e496e666f726d61746976652e496e66417373657473),
  (0x436f6d45717569706d656e74, 0x43494d31352e49454336313937302e496e666f726d61746976652e496e66417373657473),
  (0x417373657450726f70657274794375727665, 0x43494d31352e49454336313937302e496e666f726d61746976652e496e66417373657473),
  (0x4661696c7572654576656e74, 0x43494d31352e49454336313937302e496e666f726d61746976652e496e66417373657473),
  (0x44696d656e73696f6e73496e666f, 0x43494d31352e49454336313937302e496e666f726d61746976652e496e66417373657473),
  (0x546f776572, 0x43494d31352e49454336313937302e496e666f726d61746976652e496e66417373657473),
  (0x4d6f756e74696e67436f6e6e656374696f6e, 0x43494d31352e49454336313937302e496e666f726d61746976652e496e66417373657473),
  (0x4d656469756d, 0x43494d31352e49454336313937302e496e666f726d61746976652e496e66417373657473),
  (0x5265636c6f736572496e666f, 0x43494d31352e49454336313937302e496e666f726d61746976652e496e66417373657473),
  (0x466163696c697479, 0x43494d31352e49454336313937302e496e666f726d61746976652e496e66417373657473),
  (0x5368756e74496d706564616e6365496e666f, 0x43494d31352e49454336313937302e496e666f726d61746976652e496e66417373657473),
  (0x5368756e74436f6d70656e7361746f72496e666f, 0x43494d31352e49454336313937302e496e666f726d61746976652e496e66417373657473),
  (0x4d6f756e74696e67506f696e74, 0x43494d31352e49454336313937302e496e666f726d61746976652e496e66417373657473),
  (0x53756273746174696f6e4173736574, 0x43494d31352e49454336313937302e496e666f726d61746976652e496e66417373657473),
  (0x5374726565746c69676874, 0x43494d31352e49454336313937302e496e666f726d61746976652e496e66417373657473),
  (0x546f6f6c, 0x43494d31352e49454336313937302e496e666f726d61746976652e496e66417373657473),
  (0x535643, 0x43494d31352e49454336313937302e496e666f726d61746976652e496e66417373657473),
  (0x4f72674173736574526f6c65, 0x43494d31352e49454336313937302e496e666f726d61746976652e496e66417373657473),
  (0x5465737444617461536574, 0x43494d31352e49454336313937302e496e666f726d61746976652e496e66417373657473),
  (0x47656e6572696341737365744d6f64656c4f724d6174657269616c, 0x43494d31352e49454336313937302e496e666f726d61746976652e496e66417373657473),
  (0x52656c696162696c697479496e666f, 0x43494d31352e49454336313937302e496e666f726d61746976652e496e66417373657473),
  (0x5472616e73666f726d65724f62736572766174696f6e, 0x43494d31352e49454336313937302e496e666f726d61746976652e496e66417373657473),
  (0x506f6c65, 0x43494d31352e49454336313937302e496e666f726d61746976652e496e66417373657473),
  (0x537769746368496e666f, 0x43494d31352e49454336313937302e496e666f726d61746976652e496e66417373657473),
  (0x5374616e64617264496e647573747279436f6465, 0x43494d31352e49454336313937302e496e666f726d61746976652e496e66437573746f6d657273),
  (0x4f7574616765486973746f7279, 0x43494d31352e49454336313937302e496e666f726d61746976652e496e66437573746f6d657273),
  (0x436f6d706c69616e63654576656e74, 0x43494d31352e49454336313937302e496e666f726d61746976652e496e66437573746f6d657273),
  (0x437573746f6d657242696c6c696e67496e666f, 0x43494d31352e49454336313937302e496e666f726d61746976652e496e66437573746f6d657273),
  (0x5365727669636547756172616e746565, 0x43494d31352e49454336313937302e496e666f726d61746976652e496e66437573746f6d657273),
  (0x537562736372696265506f7765724375727665, 0x43494d31352e49454336313937302e496e666f726d61746976652e496e66437573746f6d657273),
  (0x45787465726e616c437573746f6d657241677265656d656e74, 0x43494d31352e49454336313937302e496e666f726d61746976652e496e66437573746f6d657273),
  (0x506f7765725175616c69747950726963696e67, 0x43494d31352e49454336313937302e496e666f726d61746976652e496e66437573746f6d657273),
  (0x576f726b42696c6c696e67496e666f, 0x43494d31352e49454336313937302e496e666f726d61746976652e496e66437573746f6d657273),
  (0x4f75746167655265636f7264, 0x43494d31352e49454336313937302e496e666f726d61746976652e496e664f7065726174696f6e73),
  (0x4f75746167655265706f7274, 0x43494d31352e49454336313937302e496e666f726d61746976652e496e664f7065726174696f6e73),
  (0x4368616e67654974656d, 0x43494d31352e49454336313937302e496e666f726d61746976652e496e664f7065726174696f6e73),
  (0x5053524576656e74, 0x43494d31352e49454336313937302e496e666f726d61746976652e496e664f7065726174696f6e73),
  (0x506c616e6e65644f7574616765, 0x43494d31352e49454336313937302e496e666f726d61746976652e496e664f7065726174696f6e73),
  (0x4369726375697453656374696f6e, 0x43494d31352e49454336313937302e496e666f726d61746976652e496e664f7065726174696f6e73),
  (0x536166657479446f63756d656e74, 0x43494d31352e49454336313937302e496e666f726d61746976652e496e664f7065726174696f6e73),
  (0x4f7065726174696f6e616c5265737472696374696f6e, 0x43494d31352e49454336313937302e496e666f726d61746976652e496e664f7065726174696f6e73),
  (0x4368616e6765536574, 0x43494d31352e49454336313937302e496e666f726d61746976652e496e664f7065726174696f6e73),
  (0x537769746368696e675363686564756c65, 0x43494d31352e49454336313937302e496e666f726d61746976652e496e664f7065726174696f6e73),
  (0x43697263756974, 0x43494d31352e49454336313937302e496e666f726d61746976652e496e664f7065726174696f6e73),
  (0x4e6574776f726b44617461536574, 0x43494d31352e49454336313937302e496e666f726d61746976652e496e664f7065726174696f6e73),
  (0x4f757461676553746570, 0x43494d31352e49454336313937302e496e666f726d61746976652e496e664f7065726174696f6e73),
  (0x4f7267507372526f6c65, 0x43494d31352e49454336313937302e496e666f726d61746976652e496e664f7065726174696f6e73),
  (0x4f7574616765436f6465, 0x43494d31352e49454336313937302e496e666f726d61746976652e496e664f7065726174696f6e73),
  (0x496e636964656e74436f6465, 0x43494d31352e49454336313937302e496e666f726d61746976652e496e664f7065726174696f6e73),
  (0x4c616e6442617365, 0x43494d31352e49454336313937302e496e666f726d61746976652e496e664f7065726174696f6e73),
  (0x457270506572736f6e5363686564756c6553746570526f6c65, 0x43494d31352e49454336313937302e496e666f726d61746976652e496e664f7065726174696f6e73),
  (0x537769746368696e6753746570, 0x43494d31352e49454336313937302e496e666f726d61746976652e496e664f7065726174696f6e73),
  (0x43616c6c4261636b, 0x43494d31352e49454336313937302e496e666f726d61746976652e496e664f7065726174696f6e73),
  (0x54726f75626c655469636b6574, 0x43494d31352e49454336313937302e496e666f726d61746976652e496e664f7065726174696f6e73),
  (0x496e636964656e745265636f7264, 0x43494d31352e49454336313937302e496e666f726d61746976652e496e664f7065726174696f6e73),
  (0x4f75746167654e6f74696669636174696f6e, 0x43494d31352e49454336313937302e496e666f726d61746976652e496e664f7065726174696f6e73),
  (0x4f757461676553746570507372526f6c65, 0x43494d31352e49454336313937302e496e666f726d61746976652e496e664f7065726174696f6e73),
  (0x4c6f636174696f6e4772616e74, 0x43494d31352e49454336313937302e496e666f726d61746976652e496e664c6f636174696f6e73),
  (0x52696768744f66576179, 0x43494d31352e49454336313937302e496e666f726d61746976652e496e664c6f636174696f6e73),
  (0x506572736f6e50726f7065727479526f6c65, 0x43494d31352e49454336313937302e496e666f726d61746976652e496e664c6f636174696f6e73),
  (0x5a6f6e65, 0x43494d31352e49454336313937302e496e666f726d61746976652e496e664c6f636174696f6e73),
  (0x5265644c696e65, 0x43494d31352e49454336313937302e496e666f726d61746976652e496e664c6f636174696f6e73),
  (0x526f757465, 0x43494d31352e49454336313937302e496e666f726d61746976652e496e664c6f636174696f6e73),
  (0x4f726750726f7065727479526f6c65, 0x43494d31352e49454336313937302e496e666f726d61746976652e496e664c6f636174696f6e73),
  (0x446972656374696f6e, 0x43494d31352e49454336313937302e496e666f726d61746976652e496e664c6f636174696f6e73),
  (0x4c616e6450726f7065727479, 0x43494d31352e49454336313937302e496e666f726d61746976652e496e664c6f636174696f6e73),
  (0x48617a617264, 0x43494d31352e49454336313937302e496e666f726d61746976652e496e664c6f636174696f6e73),
  (0x476d6c4665617475726554797065, 0x43494d31352e49454336313937302e496e666f726d61746976652e496e66474d4c537570706f7274),
  (0x4d6170, 0x43494d31352e49454336313937302e496e666f726d61746976652e496e66474d4c537570706f7274),
  (0x476d6c506f696e7447656f6d65747279, 0x43494d31352e49454336313937302e496e666f726d61746976652e496e66474d4c537570706f7274),
  (0x476d6c48616c6f, 0x43494d31352e49454336313937302e496e666f726d61746976652e496e66474d4c537570706f7274),
  (0x476d6c436f6c6f7572, 0x43494d31352e49454336313937302e496e666f726d61746976652e496e66474d4c537570706f7274),
  (0x476d6c466f6e74, 0x43494d31352e49454336313937302e496e666f726d61746976652e496e66474d4c537570706f7274),
  (0x476d6c506f6c79676f6e53796d626f6c, 0x43494d31352e49454336313937302e496e666f726d61746976652e496e66474d4c537570706f7274),
  (0x476d6c5374726f6b65, 0x43494d31352e49454336313937302e496e666f726d61746976652e496e66474d4c537570706f7274),
  (0x476d6c4261736553796d626f6c, 0x43494d31352e49454336313937302e496e666f726d61746976652e496e66474d4c537570706f7274),
  (0x476d6c506f736974696f6e, 0x43494d31352e49454336313937302e496e666f726d61746976652e496e66474d4c537570706f7274),
  (0x476d6c5465787453796d626f6c, 0x43494d31352e49454336313937302e496e666f726d61746976652e496e66474d4c537570706f7274),
  (0x476d6c506f6c79676f6e47656f6d65747279, 0x43494d31352e49454336313937302e496e666f726d61746976652e496e66474d4c537570706f7274),
  (0x476d6c4f62736572766174696f6e, 0x43494d31352e49454336313937302e496e666f726d61746976652e496e66474d4c537570706f7274),
  (0x476d6c4d61726b, 0x43494d31352e49454336313937302e496e666f726d61746976652e496e66474d4c537570706f7274),
  (0x476d6c47726170686963, 0x43494d31352e49454336313937302e496e666f726d61746976652e496e66474d4c537570706f7274),
  (0x476d6c4c6162656c506c6163656d656e74, 0x43494d31352e49454336313937302e496e666f726d61746976652e496e66474d4c537570706f7274),
  (0x476d6c47656f6d657472795374796c65, 0x43494d31352e49454336313937302e496e666f726d61746976652e496e66474d4c537570706f7274),
  (0x476d6c4c696e6547656f6d65747279, 0x43494d31352e49454336313937302e496e666f726d61746976652e496e66474d4c537570706f7274),
  (0x476d6c56616c7565, 0x43494d31352e49454336313937302e496e666f726d61746976652e496e66474d4c537570706f7274),
  (0x476d6c4c696e6553796d626f6c, 0x43494d31352e49454336313937302e496e666f726d61746976652e496e66474d4c537570706f7274),
  (0x476d6c4469616772616d4f626a656374, 0x43494d31352e49454336313937302e496e666f726d61746976652e496e66474d4c537570706f7274),
  (0x476d6c506f696e7453796d626f6c, 0x43494d31352e49454336313937302e496e666f726d61746976652e496e66474d4c537570706f7274),
  (0x476d6c546f706f6c6f67795374796c65, 0x43494d31352e49454336313937302e496e666f726d61746976652e496e66474d4c537570706f7274),
  (0x476d6c53656c6563746f72, 0x43494d31352e49454336313937302e496e666f726d61746976652e496e66474d4c537570706f7274),
  (0x476d6c537667506172616d65746572, 0x43494d31352e49454336313937302e496e666f726d61746976652e496e66474d4c537570706f7274),
  (0x476d6c4c6162656c5374796c65, 0x43494d31352e49454336313937302e496e666f726d61746976652e496e66474d4c537570706f7274),
  (0x476d6c46696c6c, 0x43494d31352e49454336313937302e496e666f726d61746976652e496e66474d4c537570706f7274),
  (0x4469616772616d, 0x43494d31352e49454336313937302e496e666f726d61746976652e496e66474d4c537570706f7274),
  (0x476d6c53796d626f6c, 0x43494d31352e49454336313937302e496e666f726d61746976652e496e66474d4c537570706f7274),
  (0x476d6c466561747572655374796c65, 0x43494d31352e49454336313937302e496e666f726d61746976652e496e66474d4c537570706f7274),
  (0x476d6c52617374657253796d626f6c, 0x43494d31352e49454336313937302e496e666f726d61746976652e496e66474d4c537570706f7274),
  (0x4d6f64656c696e67417574686f72697479, 0x43494d31352e49454336313937302e496e666f726d61746976652e496e66436f7265),
  (0x4d6f64656c696e67417574686f72697479536574, 0x43494d31352e49454336313937302e496e666f726d61746976652e496e66436f7265),
  (0x4c6f61644d676d745265636f7264, 0x43494d31352e49454336313937302e496e666f726d61746976652e496e664c6f6164436f6e74726f6c),
  (0x4c6f61645368656446756e6374696f6e, 0x43494d31352e49454336313937302e496e666f726d61746976652e496e664c6f6164436f6e74726f6c),
  (0x4c6f61644d676d7446756e6374696f6e, 0x43494d31352e49454336313937302e496e666f726d61746976652e496e664c6f6164436f6e74726f6c),
  (0x4c6f61644c696d697446756e6374696f6e, 0x43494d31352e49454336313937302e496e666f726d61746976652e496e664c6f6164436f6e74726f6c),
  (0x4761734d65746572696e6746756e6374696f6e, 0x43494d31352e49454336313937302e496e666f726d61746976652e496e664d65746572696e67),
  (0x57617465724d65746572696e6746756e6374696f6e, 0x43494d31352e49454336313937302e496e666f726d61746976652e496e664d65746572696e67),
  (0x41737365744d6f64656c436174616c6f677565, 0x43494d31352e49454336313937302e496e666f726d61746976652e496e6641737365744d6f64656c73),
  (0x5472616e73666f726d657241737365744d6f64656c, 0x43494d31352e49454336313937302e496e666f726d61746976652e496e6641737365744d6f64656c73),
  (0x41737365744d6f64656c436174616c6f6775654974656d, 0x43494d31352e49454336313937302e496e666f726d61746976652e496e6641737365744d6f64656c73),
  (0x547970654173736574436174616c6f677565, 0x43494d31352e49454336313937302e496e666f726d61746976652e496e66547970654173736574),
  (0x47656e657261746f72547970654173736574, 0x43494d31352e49454336313937302e496e666f726d61746976652e496e66547970654173736574),
  (0x5376566f6c74616765, 0x43494d31352e49454336313937302e53746174655661726961626c6573),
  (0x537653686f727443697263756974, 0x43494d31352e49454336313937302e53746174655661726961626c6573),
  (0x53765368756e74436f6d70656e7361746f7253656374696f6e73, 0x43494d31352e49454336313937302e53746174655661726961626c6573),
  (0x53746174655661726961626c65, 0x43494d31352e49454336313937302e53746174655661726961626c6573),
  (0x537654617053746570, 0x43494d31352e49454336313937302e53746174655661726961626c6573),
  (0x5376537461747573, 0x43494d31352e49454336313937302e53746174655661726961626c6573),
  (0x5376496e6a656374696f6e, 0x43494d31352e49454336313937302e53746174655661726961626c6573),
  (0x5376506f776572466c6f77, 0x43494d31352e49454336313937302e53746174655661726961626c6573),
  (0x546f706f6c6f676963616c49736c616e64, 0x43494d31352e49454336313937302e53746174655661726961626c6573),
  (0x5068617365496d706564616e636544617461, 0x43494d31352e49454336313937302e5769726573),
  (0x5461705363686564756c65, 0x43494d31352e49454336313937302e5769726573),
  (0x5472616e73666f726d657253746172496d706564616e6365, 0x43494d31352e49454336313937302e5769726573),
  (0x5265636c6f736572, 0x43494d31352e49454336313937302e5769726573),
  (0x526174696f5461704368616e676572546162756c6172506f696e74, 0x43494d31352e49454336313937302e5769726573),
  (0x50686173655461704368616e676572546162756c6172, 0x43494d31352e49454336313937302e5769726573),
  (0x526174696f5461704368616e676572, 0x43494d31352e49454336313937302e5769726573),
  (0x50686173655461704368616e6765724c696e656172, 0x43494d31352e49454336313937302e5769726573),
  (0x41434c696e655365676d656e74, 0x43494d31352e49454336313937302e5769726573),
  (0x41434c696e655365676d656e745068617365, 0x43494d31352e49454336313937302e576972657350686173654d6f64656c),
  (0x506f7765725472616e73666f726d6572456e64, 0x43494d31352e49454336313937302e5769726573),
  (0x4a756e6374696f6e, 0x43494d31352e49454336313937302e5769726573),
  (0x526567756c6174696e67436f6e644571, 0x43494d31352e49454336313937302e5769726573),
  (0x53656374696f6e616c69736572, 0x43494d31352e49454336313937302e5769726573),
  (0x526174696f5461704368616e676572546162756c6172, 0x43494d31352e49454336313937302e5769726573),
  (0x506f7765725472616e73666f726d6572, 0x43494d31352e49454336313937302e5769726573),
  (0x46757365, 0x43494d31352e49454336313937302e5769726573),
  (0x456e65726779436f6e73756d6572, 0x43494d31352e49454336313937302e5769726573),
  (0x446973636f6e6e6563746f72, 0x43494d31352e49454336313937302e5769726573),
  (0x436f6e6e6563746f72, 0x43494d31352e49454336313937302e5769726573),
  (0x52656163746976654361706162696c6974794375727665, 0x43494d31352e49454336313937302e5769726573),
  (0x506c616e74, 0x43494d31352e49454336313937302e5769726573),
  (0x47726f756e64446973636f6e6e6563746f72, 0x43494d31352e49454336313937302e5769726573),
  (0x5265736973746f72, 0x43494d31352e49454336313937302e5769726573),
  (0x53796e6368726f6e6f75734d616368696e65, 0x43494d31352e49454336313937302e5769726573),
  (0x50686173655461704368616e6765724173796d6574726963616c, 0x43494d31352e49454336313937302e5769726573),
  (0x526563746966696572496e766572746572, 0x43494d31352e49454336313937302e5769726573),
  (0x536572696573436f6d70656e7361746f72, 0x43494d31352e49454336313937302e5769726573),
  (0x5461704368616e676572436f6e74726f6c, 0x43494d31352e49454336313937302e5769726573),
  (0x526567756c6174696e67436f6e74726f6c, 0x43494d31352e49454336313937302e5769726573),
  (0x50726f746563746564537769746368, 0x43494d31352e49454336313937302e5769726573),
  (0x50686173655461704368616e676572, 0x43494d31352e49454336313937302e5769726573),
  (0x47726f756e64, 0x43494d31352e49454336313937302e5769726573),
  (0x436f6d706f73697465537769746368, 0x43494d31352e49454336313937302e5769726573),
  (0x526567756c6174696f6e5363686564756c65, 0x43494d31352e49454336313937302e5769726573),
  (0x5472616e73666f726d657254616e6b456e64, 0x43494d31352e49454336313937302e5769726573),
  (0x427265616b6572, 0x43494d31352e49454336313937302e5769726573),
  (0x4d757475616c436f75706c696e67, 0x43494d31352e49454336313937302e5769726573),
  (0x4c696e65, 0x43494d31352e49454336313937302e5769726573),
  (0x5065724c656e6774685068617365496d706564616e6365, 0x43494d31352e49454336313937302e5769726573),
  (0x4672657175656e6379436f6e766572746572, 0x43494d31352e49454336313937302e5769726573),
  (0x5368756e74436f6d70656e7361746f72, 0x43494d31352e49454336313937302e5769726573),
  (0x566f6c74616765436f6e74726f6c5a6f6e65, 0x43494d31352e49454336313937302e5769726573),
  (0x4c6f6164427265616b537769746368, 0x43494d31352e49454336313937302e5769726573),
  (0x42757362617253656374696f6e, 0x43494d31352e49454336313937302e5769726573),
  (0x5472616e73666f726d6572456e64, 0x43494d31352e49454336313937302e5769726573),
  (0x5472616e73666f726d6572436f726541646d697474616e6365, 0x43494d31352e49454336313937302e5769726573),
  (0x537461746963566172436f6d70656e7361746f72, 0x43494d31352e49454336313937302e5769726573),
  (0x537769746368, 0x43494d31352e49454336313937302e5769726573),
  (0x5065724c656e67746853657175656e6365496d706564616e6365, 0x43494d31352e49454336313937302e5769726573),
  (0x5472616e73666f726d65724d657368496d706564616e6365, 0x43494d31352e49454336313937302e5769726573),
  (0x5377697463685363686564756c65, 0x43494d31352e49454336313937302e5769726573),
  (0x456e65726779536f75726365, 0x43494d31352e49454336313937302e5769726573),
  (0x5472616e73666f726d657254616e6b, 0x43494d31352e49454336313937302e5769726573),
  (0x50686173655461704368616e676572546162756c6172506f696e74, 0x43494d31352e49454336313937302e5769726573),
  (0x44434c696e655365676d656e74, 0x43494d31352e49454336313937302e5769726573),
  (0x5461704368616e676572, 0x43494d31352e49454336313937302e5769726573),
  (0x436f6e647563746f72, 0x43494d31352e49454336313937302e5769726573),
  (0x50686173655461704368616e6765724e6f6e4c696e656172, 0x43494d31352e49454336313937302e5769726573),
  (0x50686173655461704368616e67657253796d6574726963616c, 0x43494d31352e49454336313937302e5769726573),
  (0x4a756d706572, 0x43494d31352e49454336313937302e5769726573),
  (0x416363756d756c61746f724c696d6974, 0x43494d31352e49454336313937302e4d656173),
  (0x56616c7565546f416c696173, 0x43494d31352e49454336313937302e4d656173),
  (0x4d6561737572656d656e7456616c7565536f75726365, 0x43494d31352e49454336313937302e4d656173),
  (0x416e616c6f67, 0x43494d31352e49454336313937302e4d656173),
  (0x416e616c6f6756616c7565, 0x43494d31352e49454336313937302e4d656173),
  (0x4d6561737572656d656e74, 0x43494d31352e49454336313937302e4d656173),
  (0x436f6e74726f6c54797065, 0x43494d31352e49454336313937302e4d656173),
  (0x537472696e674d6561737572656d656e7456616c7565, 0x43494d31352e49454336313937302e4d656173),
  (0x537472696e674d6561737572656d656e74, 0x43494d31352e49454336313937302e4d656173),
  (0x416e616c6f674c696d6974, 0x43494d31352e49454336313937302e4d656173),
  (0x536574506f696e74, 0x43494d31352e49454336313937302e4d656173),
  (0x4c696d6974, 0x43494d31352e49454336313937302e4d656173),
  (0x4469736372657465, 0x43494d31352e49454336313937302e4d656173),
  (0x56616c7565416c696173536574, 0x43494d31352e49454336313937302e4d656173),
  (0x5175616c6974793631383530, 0x43494d31352e49454336313937302e4d656173),
  (0x416363756d756c61746f7256616c7565, 0x43494d31352e49454336313937302e4d656173),
  (0x436f6d6d616e64, 0x43494d31352e49454336313937302e4d656173),
  (0x416363756d756c61746f72, 0x43494d31352e49454336313937302e4d656173),
  (0x4d6561737572656d656e7456616c75655175616c697479, 0x43494d31352e49454336313937302e4d656173),
  (0x4d6561737572656d656e7456616c7565, 0x43494d31352e49454336313937302e4d656173),
  (0x446973637265746556616c7565, 0x43494d31352e49454336313937302e4d656173),
  (0x416e616c6f674c696d6974536574, 0x43494d31352e49454336313937302e4d656173),
  (0x4c696d6974536574, 0x43494d31352e49454336313937302e4d656173),
  (0x416363756d756c61746f724c696d6974536574, 0x43494d31352e49454336313937302e4d656173),
  (0x436f6e74726f6c, 0x43494d31352e49454336313937302e4d656173),
  (0x436f6e666f726d4c6f6164, 0x43494d31352e49454336313937302e4c6f61644d6f64656c),
  (0x436f6e666f726d4c6f616447726f7570, 0x43494d31352e49454336313937302e4c6f61644d6f64656c),
  (0x536561736f6e446179547970655363686564756c65, 0x43494d31352e49454336313937302e4c6f61644d6f64656c),
  (0x4c6f616447726f7570, 0x43494d31352e49454336313937302e4c6f61644d6f64656c),
  (0x436f6e666f726d4c6f61645363686564756c65, 0x43494d31352e49454336313937302e4c6f61644d6f64656c),
  (0x4c6f616441726561, 0x43494d31352e49454336313937302e4c6f61644d6f64656c),
  (0x506f7765724375745a6f6e65, 0x43494d31352e49454336313937302e4c6f61644d6f64656c),
  (0x4c6f6164526573706f6e73654368617261637465726973746963, 0x43494d31352e49454336313937302e4c6f61644d6f64656c),
  (0x4e6f6e436f6e666f726d4c6f6164, 0x43494d31352e49454336313937302e4c6f61644d6f64656c),
  (0x53746174696f6e537570706c79, 0x43494d31352e49454336313937302e4c6f61644d6f64656c),
  (0x456e6572677941726561, 0x43494d31352e49454336313937302e4c6f61644d6f64656c),
  (0x4e6f6e436f6e666f726d4c6f61645363686564756c65, 0x43494d31352e49454336313937302e4c6f61644d6f64656c),
  (0x4e6f6e436f6e666f726d4c6f616447726f7570, 0x43494d31352e49454336313937302e4c6f61644d6f64656c),
  (0x44617954797065, 0x43494d31352e49454336313937302e4c6f61644d6f64656c),
  (0x5375624c6f616441726561, 0x43494d31352e49454336313937302e4c6f61644d6f64656c),
  (0x536561736f6e, 0x43494d31352e49454336313937302e4c6f61644d6f64656c),
  (0x5377697463685068617365, 0x43494d31352e49454336313937302e576972657350686173654d6f64656c),
  (0x5368756e74436f6d70656e7361746f725068617365, 0x43494d31352e49454336313937302e576972657350686173654d6f64656c),
  (0x456e65726779436f6e73756d65725068617365, 0x43494d31352e49454336313937302e576972657350686173654d6f64656c),
  (0x416c745469654d656173, 0x43494d31352e49454336313937302e436f6e74726f6c41726561),
  (0x416c7447656e65726174696e67556e69744d656173, 0x43494d31352e49454336313937302e436f6e74726f6c41726561),
  (0x546965466c6f77, 0x43494d31352e49454336313937302e436f6e74726f6c41726561),
  (0x436f6e74726f6c41726561, 0x43494d31352e49454336313937302e436f6e74726f6c41726561),
  (0x436f6e74726f6c4172656147656e65726174696e67556e6974, 0x43494d31352e49454336313937302e436f6e74726f6c41726561),
  (0x506f74656e7469616c5472616e73666f726d6572, 0x43494d31352e49454336313937302e417578696c6961727945717569706d656e74),
  (0x53656e736f72, 0x43494d31352e49454336313937302e417578696c6961727945717569706d656e74),
  (0x417578696c6961727945717569706d656e74, 0x43494d31352e49454336313937302e417578696c6961727945717569706d656e74),
  (0x43757272656e745472616e73666f726d6572, 0x43494d31352e49454336313937302e417578696c6961727945717569706d656e74),
  (0x537572676550726f746563746f72, 0x43494d31352e49454336313937302e417578696c6961727945717569706d656e74),
  (0x4661756c74496e64696361746f72, 0x43494d31352e49454336313937302e417578696c6961727945717569706d656e74),
  (0x4461746554696d65496e74657276616c, 0x43494d31352e49454336313937302e446f6d61696e),
  (0x506f77657253797374656d5265736f75726365, 0x43494d31352e49454336313937302e436f7265),
  (0x4e616d6554797065417574686f72697479, 0x43494d31352e49454336313937302e436f7265),
  (0x45717569706d656e74, 0x43494d31352e49454336313937302e436f7265),
  (0x436f6e64756374696e6745717569706d656e74, 0x43494d31352e49454336313937302e436f7265),
  (0x526567756c617254696d65506f696e74, 0x43494d31352e49454336313937302e436f7265),
  (0x436f6e6e65637469766974794e6f6465, 0x43494d31352e49454336313937302e436f7265),
  (0x50535254797065, 0x43494d31352e49454336313937302e436f7265),
  (0x436f6e6e65637469766974794e6f6465436f6e7461696e6572, 0x43494d31352e49454336313937302e436f7265),
  (0x426179, 0x43494d31352e49454336313937302e436f7265),
  (0x45717569706d656e74436f6e7461696e6572, 0x43494d31352e49454336313937302e436f7265),
  (0x5265706f7274696e6747726f7570, 0x43494d31352e49454336313937302e436f7265),
  (0x42617365506f776572, 0x43494d31352e49454336313937302e436f7265),
  (0x5073724c697374, 0x43494d31352e49454336313937302e436f7265),
  (0x4964656e7469666965644f626a656374, 0x43494d31352e49454336313937302e436f7265),
  (0x4261736963496e74657276616c5363686564756c65, 0x43494d31352e49454336313937302e436f7265),
  (0x4375727665, 0x43494d31352e49454336313937302e436f7265),
  (0x47656f67726170686963616c526567696f6e, 0x43494d31352e49454336313937302e436f7265),
  (0x437572766544617461, 0x43494d31352e49454336313937302e436f7265),
  (0x53756247656f67726170686963616c526567696f6e, 0x43494d31352e49454336313937302e436f7265),
  (0x4e616d6554797065, 0x43494d31352e49454336313937302e436f7265),
  (0x53756273746174696f6e, 0x43494d31352e49454336313937302e436f7265),
  (0x4e616d65, 0x43494d31352e49454336313937302e436f7265),
  (0x42617365566f6c74616765, 0x43494d31352e49454336313937302e436f7265),
  (0x5465726d696e616c, 0x43494d31352e49454336313937302e436f7265),
  (0x4972726567756c6172496e74657276616c5363686564756c65, 0x43494d31352e49454336313937302e436f7265),
  (0x526567756c6172496e74657276616c5363686564756c65, 0x43494d31352e49454336313937302e436f7265),
  (0x4f7065726174696e675061727469636970616e74, 0x43494d31352e49454336313937302e436f7265),
  (0x4f7065726174696e675368617265, 0x43494d31352e49454336313937302e436f7265),
  (0x566f6c746167654c6576656c, 0x43494d31352e49454336313937302e436f7265),
  (0x5265706f7274696e67537570657247726f7570, 0x43494d31352e49454336313937302e436f7265),
  (0x4972726567756c617254696d65506f696e74, 0x43494d31352e49454336313937302e436f7265),
  (0x546578744469616772616d4f626a656374, 0x43494d31352e49454336313937302e4772617068696373),
  (0x4469616772616d4f626a656374476c7565506f696e74, 0x43494d31352e49454336313937302e4772617068696373),
  (0x4469616772616d4f626a656374, 0x43494d31352e49454336313937302e4772617068696373),
  (0x4469616772616d4f626a6563745374796c65, 0x43494d31352e49454336313937302e4772617068696373),
  (0x4469616772616d4f626a656374506f696e74, 0x43494d31352e49454336313937302e4772617068696373),
  (0x5669736962696c6974794c61796572, 0x43494d31352e49454336313937302e4772617068696373),
  (0x4170706172656e74506f7765724c696d6974, 0x43494d31352e49454336313937302e4f7065726174696f6e616c4c696d697473),
  (0x416374697665506f7765724c696d6974, 0x43494d31352e49454336313937302e4f7065726174696f6e616c4c696d697473),
  (0x4f7065726174696f6e616c4c696d697454797065, 0x43494d31352e49454336313937302e4f7065726174696f6e616c4c696d697473),
  (0x4272616e636847726f7570, 0x43494d31352e49454336313937302e4f7065726174696f6e616c4c696d697473),
  (0x4f7065726174696f6e616c4c696d6974536574, 0x43494d31352e49454336313937302e4f7065726174696f6e616c4c696d697473),
  (0x416374697665506f7765724c696d6974536574, 0x43494d31352e49454336313937302e4f7065726174696f6e616c4c696d697473),
  (0x43757272656e744c696d6974, 0x43494d31352e49454336313937302e4f7065726174696f6e616c4c696d697473),
  (0x43757272656e744c696d6974536574, 0x43494d31352e49454336313937302e4f7065726174696f6e616c4c696d697473),
  (0x4170706172656e74506f7765724c696d6974536574, 0x43494d31352e49454336313937302e4f7065726174696f6e616c4c696d697473),
  (0x4272616e636847726f75705465726d696e616c, 0x43494d31352e49454336313937302e4f7065726174696f6e616c4c696d697473),
  (0x566f6c746167654c696d6974536574, 0x43494d31352e49454336313937302e4f7065726174696f6e616c4c696d697473),
  (0x566f6c746167654c696d6974, 0x43494d31352e49454336313937302e4f7065726174696f6e616c4c696d697473),
  (0x4f7065726174696f6e616c4c696d6974, 0x43494d31352e49454336313937302e4f7065726174696f6e616c4c696d697473),
  (0x537769746368696e674f7065726174696f6e, 0x43494d31352e49454336313937302e4f7574616765),
  (0x4f75746167655363686564756c65, 0x43494d31352e49454336313937302e4f7574616765),
  (0x436c656172616e636554616754797065, 0x43494d31352e49454336313937302e4f7574616765),
  (0x436c656172616e6365546167, 0x43494d31352e49454336313937302e4f7574616765),
  (0x437574, 0x43494d31352e49454336313937302e437574734a756d70657273),
  (0x436c616d70, 0x43494d31352e49454336313937302e437574734a756d70657273),
  (0x5265636c6f736553657175656e6365, 0x43494d31352e49454336313937302e50726f74656374696f6e),
  (0x53796e6368726f636865636b52656c6179, 0x43494d31352e49454336313937302e50726f74656374696f6e),
  (0x43757272656e7452656c6179, 0x43494d31352e49454336313937302e50726f74656374696f6e),
  (0x50726f74656374696f6e45717569706d656e74, 0x43494d31352e49454336313937302e50726f74656374696f6e),
  (0x4571756976616c656e745368756e74, 0x43494d31352e49454336313937302e4571756976616c656e7473),
  (0x4571756976616c656e7445717569706d656e74, 0x43494d31352e49454336313937302e4571756976616c656e7473),
  (0x4571756976616c656e744e6574776f726b, 0x43494d31352e49454336313937302e4571756976616c656e7473),
  (0x4571756976616c656e74496e6a656374696f6e, 0x43494d31352e49454336313937302e4571756976616c656e7473),
  (0x4571756976616c656e744272616e6368, 0x43494d31352e49454336313937302e4571756976616c656e7473),
  (0x436f6e74696e67656e637945717569706d656e74, 0x43494d31352e49454336313937302e436f6e74696e67656e6379),
  (0x436f6e74696e67656e6379, 0x43494d31352e49454336313937302e436f6e74696e67656e6379),
  (0x436f6e74696e67656e6379456c656d656e74, 0x43494d31352e49454336313937302e436f6e74696e67656e6379),
  (0x4275734e616d654d61726b6572, 0x43494d31352e49454336313937302e546f706f6c6f6779),
  (0x546f706f6c6f676963616c4e6f6465, 0x43494d31352e49454336313937302e546f706f6c6f6779),
  (0x494543363139363843494d56657273696f6e, 0x43494d31352e4945433631393638),
  (0x506f7374616c41646472657373, 0x43494d31352e49454336313936382e436f6d6d6f6e),
  (0x537461747573, 0x43494d31352e49454336313936382e436f6d6d6f6e),
  (0x456c656374726f6e696341646472657373, 0x43494d31352e49454336313936382e436f6d6d6f6e),
  (0x4c6f636174696f6e, 0x43494d31352e49454336313936382e436f6d6d6f6e),
  (0x546f776e44657461696c, 0x43494d31352e49454336313936382e436f6d6d6f6e),
  (0x436f6f7264696e61746553797374656d, 0x43494d31352e49454336313936382e436f6d6d6f6e),
  (0x446f63756d656e74, 0x43494d31352e49454336313936382e436f6d6d6f6e),
  (0x506f736974696f6e506f696e74, 0x43494d31352e49454336313936382e436f6d6d6f6e),
  (0x55736572417474726962757465, 0x43494d31352e49454336313936382e436f6d6d6f6e),
  (0x53747265657441646472657373, 0x43494d31352e49454336313936382e436f6d6d6f6e),
  (0x53747265657444657461696c, 0x43494d31352e49454336313936382e436f6d6d6f6e),
  (0x54696d655363686564756c65, 0x43494d31352e49454336313936382e436f6d6d6f6e),
  (0x41637469766974795265636f7264, 0x43494d31352e49454336313936382e436f6d6d6f6e),
  (0x54696d65506f696e74, 0x43494d31352e49454336313936382e436f6d6d6f6e),
  (0x4f7267616e69736174696f6e, 0x43494d31352e49454336313936382e436f6d6d6f6e),
  (0x54656c6570686f6e654e756d626572, 0x43494d31352e49454336313936382e436f6d6d6f6e),
  (0x41677265656d656e74, 0x43494d31352e49454336313936382e436f6d6d6f6e),
  (0x53686f72744369726375697454657374, 0x43494d31352e49454336313936382e41737365744d6f64656c73),
  (0x456e64446576696365496e666f, 0x43494d31352e49454336313936382e41737365744d6f64656c73),
  (0x5769726554797065, 0x43494d31352e49454336313936382e41737365744d6f64656c73),
  (0x54617065536869656c644361626c65496e666f, 0x43494d31352e49454336313936382e41737365744d6f64656c73),
  (0x436f6e647563746f72496e666f, 0x43494d31352e49454336313936382e41737365744d6f64656c73),
  (0x5461704368616e676572496e666f, 0x43494d31352e49454336313936382e41737365744d6f64656c73),
  (0x5472616e73666f726d657254616e6b496e666f, 0x43494d31352e49454336313936382e41737365744d6f64656c73),
  (0x506f7765725472616e73666f726d6572496e666f, 0x43494d31352e49454336313936382e41737365744d6f64656c73),
  (0x4f70656e4369726375697454657374, 0x43494d31352e49454336313936382e41737365744d6f64656c73),
  (0x4361626c65496e666f, 0x43494d31352e49454336313936382e41737365744d6f64656c73),
  (0x5472616e73666f726d6572456e64496e666f, 0x43494d31352e49454336313936382e41737365744d6f64656c73),
  (0x4e6f4c6f616454657374, 0x43494d31352e49454336313936382e41737365744d6f64656c73),
  (0x4f76657268656164436f6e647563746f72496e666f, 0x43494d31352e49454336313936382e41737365744d6f64656c73),
  (0x436f6e63656e747269634e65757472616c4361626c65496e666f, 0x43494d31352e49454336313936382e41737365744d6f64656c73),
  (0x57697265417272616e67656d656e74, 0x43494d31352e49454336313936382e41737365744d6f64656c73),
  (0x5472616e73666f726d657254657374, 0x43494d31352e49454336313936382e41737365744d6f64656c73),
  (0x5344504c6f636174696f6e, 0x43494d31352e49454336313936382e4d65746572696e67),
  (0x52656164696e67, 0x43494d31352e49454336313936382e4d65746572696e67),
  (0x5365727669636544656c6976657279506f696e74, 0x43494d31352e49454336313936382e4d65746572696e67),
  (0x456c6563747269634d65746572696e6746756e6374696f6e, 0x43494d31352e49454336313936382e4d65746572696e67),
  (0x44656d616e64526573706f6e736550726f6772616d, 0x43494d31352e49454336313936382e4d65746572696e67),
  (0x52656164696e674d756c7469706c696572, 0x43494d31352e49454336313936382e4d65746572696e67),
  (0x4d6574657252656164696e67, 0x43494d31352e49454336313936382e4d65746572696e67),
  (0x52656164696e675175616c697479, 0x43494d31352e49454336313936382e4d65746572696e67),
  (0x456e644465766963654576656e74, 0x43494d31352e49454336313936382e4d65746572696e67),
  (0x496e74657276616c52656164696e67, 0x43494d31352e49454336313936382e4d65746572696e67),
  (0x4d65746572, 0x43494d31352e49454336313936382e4d65746572696e67),
  (0x4d6574657253657276696365576f726b, 0x43494d31352e49454336313936382e4d65746572696e67),
  (0x50656e64696e6743616c63756c6174696f6e, 0x43494d31352e49454336313936382e4d65746572696e67),
  (0x496e74657276616c426c6f636b, 0x43494d31352e49454336313936382e4d65746572696e67),
  (0x456e6444657669636546756e6374696f6e, 0x43494d31352e49454336313936382e4d65746572696e67),
  (0x436f6d46756e6374696f6e, 0x43494d31352e49454336313936382e4d65746572696e67),
  (0x456e64446576696365, 0x43494d31352e49454336313936382e4d65746572696e67),
  (0x53696d706c65456e6444657669636546756e6374696f6e, 0x43494d31352e49454336313936382e4d65746572696e67),
  (0x456e6444657669636547726f7570, 0x43494d31352e49454336313936382e4d65746572696e67),
  (0x5265676973746572, 0x43494d31352e49454336313936382e4d65746572696e67),
  (0x456e64446576696365436f6e74726f6c, 0x43494d31352e49454336313936382e4d65746572696e67),
  (0x44796e616d696344656d616e64, 0x43494d31352e49454336313936382e4d65746572696e67),
  (0x52656164696e6754797065, 0x43494d31352e49454336313936382e4d65746572696e67),
  (0x56656e646f725368696674, 0x43494d31352e49454336313936382e5061796d656e744d65746572696e67),
  (0x5472616e736163746f72, 0x43494d31352e49454336313936382e5061796d656e744d65746572696e67),
  (0x436173686965725368696674, 0x43494d31352e49454336313936382e5061796d656e744d65746572696e67),
  (0x54617269666650726f66696c65, 0x43494d31352e49454336313936382e5061796d656e744d65746572696e67),
  (0x4163636f756e74696e67556e6974, 0x43494d31352e49454336313936382e5061796d656e744d65746572696e67),
  (0x5472616e73616374696f6e, 0x43494d31352e49454336313936382e5061796d656e744d65746572696e67),
  (0x54696d65546172696666496e74657276616c, 0x43494d31352e49454336313936382e5061796d656e744d65746572696e67),
  (0x436861726765, 0x43494d31352e49454336313936382e5061796d656e744d65746572696e67),
  (0x417578696c6961727941677265656d656e74, 0x43494d31352e49454336313936382e5061796d656e744d65746572696e67),
  (0x54656e646572, 0x43494d31352e49454336313936382e5061796d656e744d65746572696e67),
  (0x53657276696365537570706c696572, 0x43494d31352e49454336313936382e5061796d656e744d65746572696e67),
  (0x4d65726368616e7441677265656d656e74, 0x43494d31352e49454336313936382e5061796d656e744d65746572696e67),
  (0x4c696e6544657461696c, 0x43494d31352e49454336313936382e5061796d656e744d65746572696e67),
  (0x436f6e73756d7074696f6e546172696666496e74657276616c, 0x43494d31352e49454336313936382e5061796d656e744d65746572696e67),
  (0x56656e646f72, 0x43494d31352e49454336313936382e5061796d656e744d65746572696e67),
  (0x436865717565, 0x43494d31352e49454336313936382e5061796d656e744d65746572696e67),
  (0x4163636f756e744d6f76656d656e74, 0x43494d31352e49454336313936382e5061796d656e744d65746572696e67),
  (0x5368696674, 0x43494d31352e49454336313936382e5061796d656e744d65746572696e67),
  (0x52656365697074, 0x43494d31352e49454336313936382e5061796d656e744d65746572696e67),
  (0x447565, 0x43494d31352e49454336313936382e5061796d656e744d65746572696e67),
  (0x42616e6b4163636f756e7444657461696c, 0x43494d31352e49454336313936382e5061796d656e744d65746572696e67),
  (0x417578696c696172794163636f756e74, 0x43494d31352e49454336313936382e5061796d656e744d65746572696e67),
  (0x43617368696572, 0x43494d31352e49454336313936382e5061796d656e744d65746572696e67),
  (0x43617264, 0x43494d31352e49454336313936382e5061796d656e744d65746572696e67),
  (0x4d65726368616e744163636f756e74, 0x43494d31352e49454336313936382e5061796d656e744d65746572696e67),
  (0x506f696e744f6653616c65, 0x43494d31352e49454336313936382e5061796d656e744d65746572696e67),
  (0x50726f6475637441737365744d6f64656c, 0x43494d31352e49454336313936382e417373657473),
  (0x41737365744d6f64656c, 0x43494d31352e49454336313936382e417373657473),
  (0x4173736574, 0x43494d31352e49454336313936382e417373657473),
  (0x436f6d4d65646961, 0x43494d31352e49454336313936382e417373657473),
  (0x4173736574436f6e7461696e6572, 0x43494d31352e49454336313936382e417373657473),
  (0x417373657446756e6374696f6e, 0x43494d31352e49454336313936382e417373657473),
  (0x5365616c, 0x43494d31352e49454336313936382e417373657473),
  (0x4173736574496e666f, 0x43494d31352e49454336313936382e417373657473),
  (0x416363657074616e636554657374, 0x43494d31352e49454336313936382e417373657473),
  (0x576f726b, 0x43494d31352e49454336313936382e576f726b),
  (0x546172696666, 0x43494d31352e49454336313936382e437573746f6d657273),
  (0x437573746f6d65724163636f756e74, 0x43494d31352e49454336313936382e437573746f6d657273),
  (0x536572766963654c6f636174696f6e, 0x43494d31352e49454336313936382e437573746f6d657273),
  (0x437573746f6d657241677265656d656e74, 0x43494d31352e49454336313936382e437573746f6d657273),
  (0x5365727669636543617465676f7279, 0x43494d31352e49454336313936382e437573746f6d657273),
  (0x50726963696e67537472756374757265, 0x43494d31352e49454336313936382e437573746f6d657273),
  (0x437573746f6d6572, 0x43494d31352e49454336313936382e437573746f6d657273),
  (0x436f6e6e656374446973636f6e6e65637446756e6374696f6e, 0x43494d31352e49454336313936382e4c6f6164436f6e74726f6c),
  (0x52656d6f7465436f6e6e656374446973636f6e6e656374496e666f, 0x43494d31352e49454336313936382e4c6f6164436f6e74726f6c),
  (0x4d61726b65745061727469636970616e74, 0x43494d31352e4945433632333235),
  (0x494543363233323543494d56657273696f6e, 0x43494d31352e4945433632333235),
  (0x4d61726b6574526f6c65, 0x43494d31352e4945433632333235),
  (0x5061636b616765446570656e64656e6369657343494d5665726573696f6e, 0x43494d31352e5061636b616765446570656e64656e63696573),
  (0x43757272656e7454656d70657261747572654375727665, 0x43494d31352e49454336313937302e5769726573),
  (0x436865636b506f696e74, 0x43494d31352e49454336313937302e4f7065726174696f6e616c4c696d697473),
  (0x566f6c74616765436865636b506f696e74, 0x43494d31352e49454336313937302e4f7065726174696f6e616c4c696d697473),
  (0x566f6c7461676554696d654375727665, 0x43494d31352e49454336313937302e4f7065726174696f6e616c4c696d697473)]

/-- Names bound by `from m import C` in the `__init__.py` files of the packages occurring in `pmap`: (package, C, m). -/
def exports : List (Nat × Nat × Nat) := [
  (0x43494d3135, 0x436f6d62696e656456657273696f6e, 0x43494d31352e436f6d62696e656456657273696f6e),
  (0x43494d3135, 0x456c656d656e74, 0x43494d31352e456c656d656e74),
  (0x43494d3135, 0x53746572656f74797065, 0x43494d31352e53746572656f74797065),
  (0x43494d3135, 0x5061636b616765, 0x43494d31352e5061636b616765),
  (0x43494d31352e4945433631393638, 0x494543363139363843494d56657273696f6e, 0x43494d31352e49454336313936382e494543363139363843494d56657273696f6e),
  (0x43494d31352e49454336313936382e41737365744d6f64656c73, 0x53686f72744369726375697454657374, 0x43494d31352e49454336313936382e41737365744d6f64656c732e53686f72744369726375697454657374),
  (0x43494d31352e49454336313936382e41737365744d6f64656c73, 0x456e64446576696365496e666f, 0x43494d31352e49454336313936382e41737365744d6f64656c732e456e64446576696365496e666f),
  (0x43494d31352e49454336313936382e41737365744d6f64656c73, 0x5769726554797065, 0x43494d31352e49454336313936382e41737365744d6f64656c732e5769726554797065),
  (0x43494d31352e49454336313936382e41737365744d6f64656c73, 0x54617065536869656c644361626c65496e666f, 0x43494d31352e49454336313936382e41737365744d6f64656c732e54617065536869656c644361626c65496e666f),
  (0x43494d31352e49454336313936382e41737365744d6f64656c73, 0x436f6e647563746f72496e666f, 0x43494d31352e49454336313936382e41737365744d6f64656c732e436f6e647563746f72496e666f),
  (0x43494d31352e49454336313936382e41737365744d6f64656c73, 0x5461704368616e676572496e666f, 0x43494d31352e49454336313936382e41737365744d6f64656c732e5461704368616e676572496e666f),
  (0x43494d31352e49454336313936382e41737365744d6f64656c73, 0x5472616e73666f726d657254616e6b496e666f, 0x43494d31352e49454336313936382e41737365744d6f64656c732e5472616e73666f726d657254616e6b496e666f),
  (0x43494d31352e49454336313936382e41737365744d6f64656c73, 0x506f7765725472616e73666f726d6572496e666f, 0x43494d31352e49454336313936382e41737365744d6f64656c732e506f7765725472616e73666f726d6572496e666f),
  (0x43494d31352e49454336313936382e41737365744d6f64656c73, 0x4f70656e4369726375697454657374, 0x43494d31352e49454336313936382e41737365744d6f64656c732e4f70656e4369726375697454657374),
  (0x43494d31352e49454336313936382e41737365744d6f64656c73, 0x4361626c65496e666f, 0x43494d31352e49454336313936382e41737365744d6f64656c732e4361626c65496e666f),
  (0x43494d31352e49454336313936382e41737365744d6f64656c73, 0x5472616e73666f726d6572456e64496e666f, 0x43494d31352e49454336313936382e41737365744d6f64656c732e5472616e73666f726d6572456e64496e666f),
  (0x43494d31352e49454336313936382e41737365744d6f64656c73, 0x4e6f4c6f616454657374, 0x43494d31352e49454336313936382e41737365744d6f64656c732e4e6f4c6f616454657374),
  (0x43494d31352e49454336313936382e41737365744d6f64656c73, 0x4f76657268656164436f6e647563746f72496e666f, 0x43494d31352e49454336313936382e41737365744d6f64656c732e4f76657268656164436f6e647563746f72496e666f),
  (0x43494d31352e49454336313936382e41737365744d6f64656c73, 0x436f6e63656e747269634e65757472616c4361626c65496e666f, 0x43494d31352e49454336313936382e41737365744d6f64656c732e436f6e63656e747269634e65757472616c4361626c65496e666f),
  (0x43494d31352e49454336313936382e41737365744d6f64656c73, 0x57697265417272616e67656d656e74, 0x43494d31352e49454336313936382e41737365744d6f64656c732e57697265417272616e67656d656e74),
  (0x43494d31352e49454336313936382e41737365744d6f64656c73, 0x5472616e73666f726d657254657374, 0x43494d31352e49454336313936382e41737365744d6f64656c732e5472616e73666f726d657254657374),
  (0x43494d31352e49454336313936382e417373657473, 0x50726f6475637441737365744d6f64656c, 0x43494d31352e49454336313936382e4173736574732e50726f6475637441737365744d6f64656c),
  (0x43494d31352e49454336313936382e417373657473, 0x41737365744d6f64656c, 0x43494d31352e49454336313936382e4173736574732e41737365744d6f64656c),
  (0x43494d31352e49454336313936382e417373657473, 0x4173736574, 0x43494d31352e49454336313936382e4173736574732e4173736574),
  (0x43494d31352e49454336313936382e417373657473, 0x436f6d4d65646961, 0x43494d31352e49454336313936382e4173736574732e436f6d4d65646961),
  (0x43494d31352e49454336313936382e417373657473, 0x4173736574436f6e7461696e6572, 0x43494d31352e49454336313936382e4173736574732e4173736574436f6e7461696e6572),
  (0x43494d31352e49454336313936382e417373657473, 0x417373657446756e6374696f6e, 0x43494d31352e49454336313936382e4173736574732e417373657446756e6374696f6e),
  (0x43494d31352e49454336313936382e417373657473, 0x5365616c, 0x43494d31352e49454336313936382e4173736574732e5365616c),
  (0x43494d31352e49454336313936382e417373657473, 0x4173736574496e666f, 0x43494d31352e49454336313936382e4173736574732e4173736574496e666f),
  (0x43494d31352e49454336313936382e417373657473, 0x416363657074616e636554657374, 0x43494d31352e49454336313936382e4173736574732e416363657074616e636554657374),
  (0x43494d31352e49454336313936382e436f6d6d6f6e, 0x506f7374616c41646472657373, 0x43494d31352e49454336313936382e436f6d6d6f6e2e506f7374616c41646472657373),
  (0x43494d31352e49454336313936382e436f6d6d6f6e, 0x537461747573, 0x43494d31352e49454336313936382e436f6d6d6f6e2e537461747573),
  (0x43494d31352e49454336313936382e436f6d6d6f6e, 0x456c656374726f6e696341646472657373, 0x43494d31352e49454336313936382e436f6d6d6f6e2e456c656374726f6e696341646472657373),
  (0x43494d31352e49454336313936382e436f6d6d6f6e, 0x4c6f636174696f6e, 0x43494d31352e49454336313936382e436f6d6d6f6e2e4c6f636174696f6e),
  (0x43494d31352e49454336313936382e436f6d6d6f6e, 0x546f776e44657461696c, 0x43494d31352e49454336313936382e436f6d6d6f6e2e546f776e44657461696c),
  (0x43494d31352e49454336313936382e436f6d6d6f6e, 0x436f6f7264696e61746553797374656d, 0x43494d31352e49454336313936382e436f6d6d6f6e2e436f6f7264696e61746553797374656d),
  (0x43494d31352e49454336313936382e436f6d6d6f6e, 0x446f63756d656e74, 0x43494d31352e49454336313936382e436f6d6d6f6e2e446f63756d656e74),
  (0x43494d31352e49454336313936382e436f6d6d6f6e, 0x506f736974696f6e506f696e74, 0x43494d31352e49454336313936382e436f6d6d6f6e2e506f736974696f6e506f696e74),
  (0x43494d31352e49454336313936382e436f6d6d6f6e, 0x55736572417474726962757465, 0x43494d31352e49454336313936382e436f6d6d6f6e2e55736572417474726962757465),
  (0x43494d31352e49454336313936382e436f6d6d6f6e, 0x53747265657441646472657373, 0x43494d31352e49454336313936382e436f6d6d6f6e2e53747265657441646472657373),
  (0x43494d31352e49454336313936382e436f6d6d6f6e, 0x53747265657444657461696c, 0x43494d31352e49454336313936382e436f6d6d6f6e2e53747265657444657461696c),
  (0x43494d31352e49454336313936382e436f6d6d6f6e, 0x54696d655363686564756c65, 0x43494d31352e49454336313936382e436f6d6d6f6e2e54696d655363686564756c65),
  (0x43494d31352e49454336313936382e436f6d6d6f6e, 0x41637469766974795265636f7264, 0x43494d31352e49454336313936382e436f6d6d6f6e2e41637469766974795265636f7264),
  (0x43494d31352e49454336313936382e436f6d6d6f6e, 0x54696d65506f696e74, 0x43494d31352e49454336313936382e436f6d6d6f6e2e54696d65506f696e74),
  (0x43494d31352e49454336313936382e436f6d6d6f6e, 0x4f7267616e69736174696f6e, 0x43494d31352e49454336313936382e436f6d6d6f6e2e4f7267616e69736174696f6e),
  (0x43494d31352e49454336313936382e436f6d6d6f6e, 0x54656c6570686f6e654e756d626572, 0x43494d31352e49454336313936382e436f6d6d6f6e2e54656c6570686f6e654e756d626572),
  (0x43494d31352e49454336313936382e436f6d6d6f6e, 0x41677265656d656e74, 0x43494d31352e49454336313936382e436f6d6d6f6e2e41677265656d656e74),
  (0x43494d31352e49454336313936382e437573746f6d657273, 0x546172696666, 0x43494d31352e49454336313936382e437573746f6d6572732e546172696666),
  (0x43494d31352e49454336313936382e437573746f6d657273, 0x437573746f6d65724163636f756e74, 0x43494d31352e49454336313936382e437573746f6d6572732e437573746f6d65724163636f756e74),
  (0x43494d31352e49454336313936382e437573746f6d657273, 0x536572766963654c6f636174696f6e, 0x43494d31352e49454336313936382e437573746f6d6572732e536572766963654c6f636174696f6e),
  (0x43494d31352e49454336313936382e437573746f6d657273, 0x437573746f6d657241677265656d656e74, 0x43494d31352e49454336313936382e437573746f6d6572732e437573746f6d657241677265656d656e74),
  (0x43494d31352e49454336313936382e437573746f6d657273, 0x5365727669636543617465676f7279, 0x43494d31352e49454336313936382e437573746f6d6572732e5365727669636543617465676f7279),
  (0x43494d31352e49454336313936382e437573746f6d657273, 0x50726963696e67537472756374757265, 0x43494d31352e49454336313936382e437573746f6d6572732e50726963696e67537472756374757265),
  (0x43494d31352e49454336313936382e437573746f6d657273, 0x437573746f6d6572, 0x43494d31352e49454336313936382e437573746f6d6572732e437573746f6d6572),
  (0x43494d31352e49454336313936382e4c6f6164436f6e74726f6c, 0x436f6e6e656374446973636f6e6e65637446756e6374696f6e, 0x43494d31352e49454336313936382e4c6f6164436f6e74726f6c2e436f6e6e656374446973636f6e6e65637446756e6374696f6e),
  (0x43494d31352e49454336313936382e4c6f6164436f6e74726f6c, 0x52656d6f7465436f6e6e656374446973636f6e6e656374496e666f, 0x43494d31352e49454336313936382e4c6f6164436f6e74726f6c2e52656d6f7465436f6e6e656374446973636f6e6e656374496e666f),
  (0x43494d31352e49454336313936382e4d65746572696e67, 0x5344504c6f636174696f6e, 0x43494d31352e49454336313936382e4d65746572696e672e5344504c6f636174696f6e),
  (0x43494d31352e49454336313936382e4d65746572696e67, 0x52656164696e67, 0x43494d31352e49454336313936382e4d65746572696e672e52656164696e67),
  (0x43494d31352e49454336313936382e4d65746572696e67, 0x5365727669636544656c6976657279506f696e74, 0x43494d31352e49454336313936382e4d65746572696e672e5365727669636544656c6976657279506f696e74),
  (0x43494d31352e49454336313936382e4d65746572696e67, 0x456c6563747269634d65746572696e6746756e6374696f6e, 0x43494d31352e49454336313936382e4d65746572696e672e456c6563747269634d65746572696e6746756e6374696f6e),
  (0x43494d31352e49454336313936382e4d65746572696e67, 0x44656d616e64526573706f6e736550726f6772616d, 0x43494d31352e49454336313936382e4d65746572696e672e44656d616e64526573706f6e736550726f6772616d),
  (0x43494d31352e49454336313936382e4d65746572696e67, 0x52656164696e674d756c7469706c696572, 0x43494d31352e49454336313936382e4d65746572696e672e52656164696e674d756c7469706c696572),
  (0x43494d31352e49454336313936382e4d65746572696e67, 0x4d6574657252656164696e67, 0x43494d31352e49454336313936382e4d65746572696e672e4d6574657252656164696e67),
  (0x43494d31352e49454336313936382e4d65746572696e67, 0x52656164696e675175616c697479, 0x43494d31352e49454336313936382e4d65746572696e672e52656164696e675175616c697479),
  (0x43494d31352e49454336313936382e4d65746572696e67, 0x456e644465766963654576656e74, 0x43494d31352e49454336313936382e4d65746572696e672e456e644465766963654576656e74),
  (0x43494d31352e49454336313936382e4d65746572696e67, 0x496e74657276616c52656164696e67, 0x43494d31352e49454336313936382e4d65746572696e672e496e74657276616c52656164696e67),
  (0x43494d31352e49454336313936382e4d65746572696e67, 0x4d65746572, 0x43494d31352e49454336313936382e4d65746572696e672e4d65746572),
  (0x43494d31352e49454336313936382e4d65746572696e67, 0x4d6574657253657276696365576f726b, 0x43494d31352e49454336313936382e4d65746572696e672e4d6574657253657276696365576f726b),
  (0x43494d31352e49454336313936382e4d65746572696e67, 0x50656e64696e6743616c63756c6174696f6e, 0x43494d31352e49454336313936382e4d65746572696e672e50656e64696e6743616c63756c6174696f6e),
  (0x43494d31352e49454336313936382e4d65746572696e67, 0x496e74657276616c426c6f636b, 0x43494d31352e49454336313936382e4d65746572696e672e496e74657276616c426c6f636b),
  (0x43494d31352e49454336313936382e4d65746572696e67, 0x456e6444657669636546756e6374696f6e, 0x43494d31352e49454336313936382e4d65746572696e672e456e6444657669636546756e6374696f6e),
  (0x43494d31352e49454336313936382e4d65746572696e67, 0x436f6d46756e6374696f6e, 0x43494d31352e49454336313936382e4d65746572696e672e436f6d46756e6374696f6e),
  (0x43494d31352e49454336313936382e4d65746572696e67, 0x456e64446576696365, 0x43494d31352e49454336313936382e4d65746572696e672e456e64446576696365),
  (0x43494d31352e49454336313936382e4d65746572696e67, 0x53696d706c65456e6444657669636546756e6374696f6e, 0x43494d31352e49454336313936382e4d65746572696e672e53696d706c65456e6444657669636546756e6374696f6e),
  (0x43494d31352e49454336313936382e4d65746572696e67, 0x456e6444657669636547726f7570, 0x43494d31352e49454336313936382e4d65746572696e672e456e6444657669636547726f7570),
  (0x43494d31352e49454336313936382e4d65746572696e67, 0x5265676973746572, 0x43494d31352e49454336313936382e4d65746572696e672e5265676973746572),
  (0x43494d31352e49454336313936382e4d65746572696e67, 0x456e64446576696365436f6e74726f6c, 0x43494d31352e49454336313936382e4d65746572696e672e456e64446576696365436f6e74726f6c),
  (0x43494d31352e49454336313936382e4d65746572696e67, 0x44796e616d696344656d616e64, 0x43494d31352e49454336313936382e4d65746572696e672e44796e616d696344656d616e64),
  (0x43494d31352e49454336313936382e4d65746572696e67, 0x52656164696e6754797065, 0x43494d31352e49454336313936382e4d65746572696e672e52656164696e6754797065),
  (0x43494d31352e49454336313936382e5061796d656e744d65746572696e67, 0x56656e646f725368696674, 0x43494d31352e49454336313936382e5061796d656e744d65746572696e672e56656e646f725368696674),
  (0x43494d31352e49454336313936382e5061796d656e744d65746572696e67, 0x5472616e736163746f72, 0x43494d31352e49454336313936382e5061796d656e744d65746572696e672e5472616e736163746f72),
  (0x43494d31352e49454336313936382e5061796d656e744d65746572696e67, 0x436173686965725368696674, 0x43494d31352e49454336313936382e5061796d656e744d65746572696e672e436173686965725368696674),
  (0x43494d31352e49454336313936382e5061796d656e744d65746572696e67, 0x54617269666650726f66696c65, 0x43494d31352e49454336313936382e5061796d656e744d65746572696e672e54617269666650726f66696c65),
  (0x43494d31352e49454336313936382e5061796d656e744d65746572696e67, 0x4163636f756e74696e67556e6974, 0x43494d31352e49454336313936382e5061796d656e744d65746572696e672e4163636f756e74696e67556e6974),
  (0x43494d31352e49454336313936382e5061796d656e744d65746572696e67, 0x5472616e73616374696f6e, 0x43494d31352e49454336313936382e5061796d656e744d65746572696e672e5472616e73616374696f6e),
  (0x43494d31352e49454336313936382e5061796d656e744d65746572696e67, 0x54696d65546172696666496e74657276616c, 0x43494d31352e49454336313936382e5061796d656e744d65746572696e672e54696d65546172696666496e74657276616c),
  (0x43494d31352e49454336313936382e5061796d656e744d65746572696e67, 0x436861726765, 0x43494d31352e49454336313936382e5061796d656e744d65746572696e672e436861726765),
  (0x43494d31352e49454336313936382e5061796d656e744d65746572696e67, 0x417578696c6961727941677265656d656e74, 0x43494d31352e49454336313936382e5061796d656e744d65746572696e672e417578696c6961727941677265656d656e74),
  (0x43494d31352e49454336313936382e5061796d656e744d65746572696e67, 0x54656e646572, 0x43494d31352e49454336313936382e5061796d656e744d65746572696e672e54656e646572),
  (0x43494d31352e49454336313936382e5061796d656e744d65746572696e67, 0x53657276696365537570706c696572, 0x43494d31352e49454336313936382e5061796d656e744d65746572696e672e53657276696365537570706c696572),
  (0x43494d31352e49454336313936382e5061796d656e744d65746572696e67, 0x4d65726368616e7441677265656d656e74, 0x43494d31352e49454336313936382e5061796d656e744d65746572696e672e4d65726368616e7441677265656d656e74),
  (0x43494d31352e49454336313936382e5061796d656e744d65746572696e67, 0x4c696e6544657461696c, 0x43494d31352e49454336313936382e5061796d656e744d65746572696e672e4c696e6544657461696c),
  (0x43494d31352e49454336313936382e5061796d656e744d65746572696e67, 0x436f6e73756d7074696f6e546172696666496e74657276616c, 0x43494d31352e49454336313936382e5061796d656e744d65746572696e672e436f6e73756d7074696f6e546172696666496e74657276616c),
  (0x43494d31352e49454336313936382e5061796d656e744d65746572696e67, 0x56656e646f72, 0x43494d31352e49454336313936382e5061796d656e744d65746572696e672e56656e646f72),
  (0x43494d31352e49454336313936382e5061796d656e744d65746572696e67, 0x436865717565, 0x43494d31352e49454336313936382e5061796d656e744d65746572696e672e436865717565),
  (0x43494d31352e49454336313936382e5061796d656e744d65746572696e67, 0x4163636f756e744d6f76656d656e74, 0x43494d31352e49454336313936382e5061796d656e744d65746572696e672e4163636f756e744d6f76656d656e74),
  (0x43494d31352e49454336313936382e5061796d656e744d65746572696e67, 0x5368696674, 0x43494d31352e49454336313936382e5061796d656e744d65746572696e672e5368696674),
  (0x43494d31352e49454336313936382e5061796d656e744d65746572696e67, 0x52656365697074, 0x43494d31352e49454336313936382e5061796d656e744d65746572696e672e52656365697074),
  (0x43494d31352e49454336313936382e5061796d656e744d65746572696e67, 0x447565, 0x43494d31352e49454336313936382e5061796d656e744d65746572696e672e447565),
  (0x43494d31352e49454336313936382e5061796d656e744d65746572696e67, 0x42616e6b4163636f756e7444657461696c, 0x43494d31352e49454336313936382e5061796d656e744d65746572696e672e42616e6b4163636f756e7444657461696c),
  (0x43494d31352e49454336313936382e5061796d656e744d65746572696e67, 0x417578696c696172794163636f756e74, 0x43494d31352e49454336313936382e5061796d656e744d65746572696e672e417578696c696172794163636f756e74),
  (0x43494d31352e49454336313936382e5061796d656e744d65746572696e67, 0x43617368696572, 0x43494d31352e49454336313936382e5061796d656e744d65746572696e672e43617368696572),
  (0x43494d31352e49454336313936382e5061796d656e744d65746572696e67, 0x43617264, 0x43494d31352e49454336313936382e5061796d656e744d65746572696e672e43617264),
  (0x43494d31352e49454336313936382e5061796d656e744d65746572696e67, 0x4d65726368616e744163636f756e74, 0x43494d31352e49454336313936382e5061796d656e744d65746572696e672e4d65726368616e744163636f756e74),
  (0x43494d31352e49454336313936382e5061796d656e744d65746572696e67, 0x506f696e744f6653616c65, 0x43494d31352e49454336313936382e5061796d656e744d65746572696e672e506f696e744f6653616c65),
  (0x43494d31352e49454336313936382e576f726b, 0x576f726b, 0x43494d31352e49454336313936382e576f726b2e576f726b),
  (0x43494d31352e4945433631393730, 0x494543363139373043494d56657273696f6e, 0x43494d31352e49454336313937302e494543363139373043494d56657273696f6e),
  (0x43494d31352e49454336313937302e417578696c6961727945717569706d656e74, 0x506f74656e7469616c5472616e73666f726d6572, 0x43494d31352e49454336313937302e417578696c6961727945717569706d656e742e506f74656e7469616c5472616e73666f726d6572),
  (0x43494d31352e49454336313937302e417578696c6961727945717569706d656e74, 0x53656e736f72, 0x43494d31352e49454336313937302e417578696c6961727945717569706d656e742e53656e736f72),
  (0x43494d31352e49454336313937302e417578696c6961727945717569706d656e74, 0x417578696c6961727945717569706d656e74, 0x43494d31352e49454336313937302e417578696c6961727945717569706d656e742e417578696c6961727945717569706d656e74),
  (0x43494d31352e49454336313937302e417578696c6961727945717569706d656e74, 0x43757272656e745472616e73666f726d6572, 0x43494d31352e49454336313937302e417578696c6961727945717569706d656e742e43757272656e745472616e73666f726d6572),
  (0x43494d31352e49454336313937302e417578696c6961727945717569706d656e74, 0x537572676550726f746563746f72, 0x43494d31352e49454336313937302e417578696c6961727945717569706d656e742e537572676550726f746563746f72),
  (0x43494d31352e49454336313937302e417578696c6961727945717569706d656e74, 0x4661756c74496e64696361746f72, 0x43494d31352e49454336313937302e417578696c6961727945717569706d656e742e4661756c74496e64696361746f72),
  (0x43494d31352e49454336313937302e436f6e74696e67656e6379, 0x436f6e74696e67656e637945717569706d656e74, 0x43494d31352e49454336313937302e436f6e74696e67656e63792e436f6e74696e67656e637945717569706d656e74),
  (0x43494d31352e49454336313937302e436f6e74696e67656e6379, 0x436f6e74696e67656e6379, 0x43494d31352e49454336313937302e436f6e74696e67656e63792e436f6e74696e67656e6379),
  (0x43494d31352e49454336313937302e436f6e74696e67656e6379, 0x436f6e74696e67656e6379456c656d656e74, 0x43494d31352e49454336313937302e436f6e74696e67656e63792e436f6e74696e67656e6379456c656d656e74),
  (0x43494d31352e49454336313937302e436f6e74726f6c41726561, 0x416c745469654d656173, 0x43494d31352e49454336313937302e436f6e74726f6c417265612e416c745469654d656173),
  (0x43494d31352e49454336313937302e436f6e74726f6c41726561, 0x416c7447656e65726174696e67556e69744d656173, 0x43494d31352e49454336313937302e436f6e74726f6c417265612e416c7447656e65726174696e67556e69744d656173),
  (0x43494d31352e49454336313937302e436f6e74726f6c41726561, 0x546965466c6f77, 0x43494d31352e49454336313937302e436f6e74726f6c417265612e546965466c6f77),
  (0x43494d31352e49454336313937302e436f6e74726f6c41726561, 0x436f6e74726f6c41726561, 0x43494d31352e49454336313937302e436f6e74726f6c417265612e436f6e74726f6c41726561),
  (0x43494d31352e49454336313937302e436f6e74726f6c41726561, 0x436f6e74726f6c4172656147656e65726174696e67556e6974, 0x43494d31352e49454336313937302e436f6e74726f6c417265612e436f6e74726f6c4172656147656e65726174696e67556e6974),
  (0x43494d31352e49454336313937302e436f7265, 0x506f77657253797374656d5265736f75726365, 0x43494d31352e49454336313937302e436f72652e506f77657253797374656d5265736f75726365),
  (0x43494d31352e49454336313937302e436f7265, 0x4e616d6554797065417574686f72697479, 0x43494d31352e49454336313937302e436f72652e4e616d6554797065417574686f72697479),
  (0x43494d31352e49454336313937302e436f7265, 0x45717569706d656e74, 0x43494d31352e49454336313937302e436f72652e45717569706d656e74),
  (0x43494d31352e49454336313937302e436f7265, 0x436f6e64756374696e6745717569706d656e74, 0x43494d31352e49454336313937302e436f72652e436f6e64756374696e6745717569706d656e74),
  (0x43494d31352e49454336313937302e436f7265, 0x526567756c617254696d65506f696e74, 0x43494d31352e49454336313937302e436f72652e526567756c617254696d65506f696e74),
  (0x43494d31352e49454336313937302e436f7265, 0x436f6e6e65637469766974794e6f6465, 0x43494d31352e49454336313937302e436f72652e436f6e6e65637469766974794e6f6465),
  (0x43494d31352e49454336313937302e436f7265, 0x50535254797065, 0x43494d31352e49454336313937302e436f72652e50535254797065),
  (0x43494d31352e49454336313937302e436f7265, 0x436f6e6e65637469766974794e6f6465436f6e7461696e6572, 0x43494d31352e49454336313937302e436f72652e436f6e6e65637469766974794e6f6465436f6e7461696e6572),
  (0x43494d31352e49454336313937302e436f7265, 0x426179, 0x43494d31352e49454336313937302e436f72652e426179),
  (0x43494d31352e49454336313937302e436f7265, 0x45717569706d656e74436f6e7461696e6572, 0x43494d31352e49454336313937302e436f72652e45717569706d656e74436f6e7461696e6572),
  (0x43494d31352e49454336313937302e436f7265, 0x5265706f7274696e6747726f7570, 0x43494d31352e49454336313937302e436f72652e5265706f7274696e6747726f7570),
  (0x43494d31352e49454336313937302e436f7265, 0x42617365506f776572, 0x43494d31352e49454336313937302e436f72652e42617365506f776572),
  (0x43494d31352e49454336313937302e436f7265, 0x5073724c697374, 0x43494d31352e49454336313937302e436f72652e5073724c697374),
  (0x43494d31352e49454336313937302e436f7265, 0x4964656e7469666965644f626a656374, 0x43494d31352e49454336313937302e436f72652e4964656e7469666965644f626a656374),
  (0x43494d31352e49454336313937302e436f7265, 0x4261736963496e74657276616c5363686564756c65, 0x43494d31352e49454336313937302e436f72652e4261736963496e74657276616c5363686564756c65),
  (0x43494d31352e49454336313937302e436f7265, 0x4375727665, 0x43494d31352e49454336313937302e436f72652e4375727665),
  (0x43494d31352e49454336313937302e436f7265, 0x47656f67726170686963616c526567696f6e, 0x43494d31352e49454336313937302e436f72652e47656f67726170686963616c526567696f6e),
  (0x43494d31352e49454336313937302e436f7265, 0x437572766544617461, 0x43494d31352e49454336313937302e436f72652e437572766544617461),
  (0x43494d31352e49454336313937302e436f7265, 0x53756247656f67726170686963616c526567696f6e, 0x43494d31352e49454336313937302e436f72652e53756247656f67726170686963616c526567696f6e),
  (0x43494d31352e49454336313937302e436f7265, 0x4e616d6554797065, 0x43494d31352e49454336313937302e436f72652e4e616d6554797065),
  (0x43494d31352e49454336313937302e436f7265, 0x53756273746174696f6e, 0x43494d31352e49454336313937302e436f72652e53756273746174696f6e),
  (0x43494d31352e49454336313937302e436f7265, 0x4e616d65, 0x43494d31352e49454336313937302e436f72652e4e616d65),
  (0x43494d31352e49454336313937302e436f7265, 0x42617365566f6c74616765, 0x43494d31352e49454336313937302e436f72652e42617365566f6c74616765),
  (0x43494d31352e49454336313937302e436f7265, 0x5465726d696e616c, 0x43494d31352e49454336313937302e436f72652e5465726d696e616c),
  (0x43494d31352e49454336313937302e436f7265, 0x4972726567756c6172496e74657276616c5363686564756c65, 0x43494d31352e49454336313937302e436f72652e4972726567756c6172496e74657276616c5363686564756c65),
  (0x43494d31352e49454336313937302e436f7265, 0x526567756c6172496e74657276616c5363686564756c65, 0x43494d31352e49454336313937302e436f72652e526567756c6172496e74657276616c5363686564756c65),
  (0x43494d31352e49454336313937302e436f7265, 0x4f7065726174696e675061727469636970616e74, 0x43494d31352e49454336313937302e436f72652e4f7065726174696e675061727469636970616e74),
  (0x43494d31352e49454336313937302e436f7265, 0x4f7065726174696e675368617265, 0x43494d31352e49454336313937302e436f72652e4f7065726174696e675368617265),
  (0x43494d31352e49454336313937302e436f7265, 0x566f6c746167654c6576656c, 0x43494d31352e49454336313937302e436f72652e566f6c746167654c6576656c),
  (0x43494d31352e49454336313937302e436f7265, 0x5265706f7274696e67537570657247726f7570, 0x43494d31352e49454336313937302e436f72652e5265706f7274696e67537570657247726f7570),
  (0x43494d31352e49454336313937302e436f7265, 0x4972726567756c617254696d65506f696e74, 0x43494d31352e49454336313937302e436f72652e4972726567756c617254696d65506f696e74),
  (0x43494d31352e49454336313937302e437574734a756d70657273, 0x437574, 0x43494d31352e49454336313937302e437574734a756d706572732e437574),
  (0x43494d31352e49454336313937302e437574734a756d70657273, 0x436c616d70, 0x43494d31352e49454336313937302e437574734a756d706572732e436c616d70),
  (0x43494d31352e49454336313937302e446f6d61696e, 0x4461746554696d65496e74657276616c, 0x43494d31352e49454336313937302e446f6d61696e2e4461746554696d65496e74657276616c),
  (0x43494d31352e49454336313937302e4571756976616c656e7473, 0x4571756976616c656e745368756e74, 0x43494d31352e49454336313937302e4571756976616c656e74732e4571756976616c656e745368756e74),
  (0x43494d31352e49454336313937302e4571756976616c656e7473, 0x4571756976616c656e7445717569706d656e74, 0x43494d31352e49454336313937302e4571756976616c656e74732e4571756976616c656e7445717569706d656e74),
  (0x43494d31352e49454336313937302e4571756976616c656e7473, 0x4571756976616c656e744e6574776f726b, 0x43494d31352e49454336313937302e4571756976616c656e74732e4571756976616c656e744e6574776f726b),
  (0x43494d31352e49454336313937302e4571756976616c656e7473, 0x4571756976616c656e74496e6a656374696f6e, 0x43494d31352e49454336313937302e4571756976616c656e74732e4571756976616c656e74496e6a656374696f6e),
  (0x43494d31352e49454336313937302e4571756976616c656e7473, 0x4571756976616c656e744272616e6368, 0x43494d31352e49454336313937302e4571756976616c656e74732e4571756976616c656e744272616e6368),
  (0x43494d31352e49454336313937302e47656e65726174696f6e2e47656e65726174696f6e44796e616d696373, 0x425752537465616d537570706c79, 0x43494d31352e49454336313937302e47656e65726174696f6e2e47656e65726174696f6e44796e616d6963732e425752537465616d537570706c79),
  (0x43494d31352e49454336313937302e47656e65726174696f6e2e47656e65726174696f6e44796e616d696373, 0x487964726f54757262696e65, 0x43494d31352e49454336313937302e47656e65726174696f6e2e47656e65726174696f6e44796e616d6963732e487964726f54757262696e65),
  (0x43494d31352e49454336313937302e47656e65726174696f6e2e47656e65726174696f6e44796e616d696373, 0x537465616d54757262696e65, 0x43494d31352e49454336313937302e47656e65726174696f6e2e47656e65726174696f6e44796e616d6963732e537465616d54757262696e65),
  (0x43494d31352e49454336313937302e47656e65726174696f6e2e47656e65726174696f6e44796e616d696373, 0x537465616d537570706c79, 0x43494d31352e49454336313937302e47656e65726174696f6e2e47656e65726174696f6e44796e616d6963732e537465616d537570706c79),
  (0x43494d31352e49454336313937302e47656e65726174696f6e2e47656e65726174696f6e44796e616d696373, 0x466f7373696c537465616d537570706c79, 0x43494d31352e49454336313937302e47656e65726174696f6e2e47656e65726174696f6e44796e616d6963732e466f7373696c537465616d537570706c79),
  (0x43494d31352e49454336313937302e47656e65726174696f6e2e47656e65726174696f6e44796e616d696373, 0x537562637269746963616c, 0x43494d31352e49454336313937302e47656e65726174696f6e2e47656e65726174696f6e44796e616d6963732e537562637269746963616c),
  (0x43494d31352e49454336313937302e47656e65726174696f6e2e47656e65726174696f6e44796e616d696373, 0x505752537465616d537570706c79, 0x43494d31352e49454336313937302e47656e65726174696f6e2e47656e65726174696f6e44796e616d6963732e505752537465616d537570706c79),
  (0x43494d31352e49454336313937302e47656e65726174696f6e2e47656e65726174696f6e44796e616d696373, 0x5072696d654d6f766572, 0x43494d31352e49454336313937302e47656e65726174696f6e2e47656e65726174696f6e44796e616d6963732e5072696d654d6f766572),
  (0x43494d31352e49454336313937302e47656e65726174696f6e2e47656e65726174696f6e44796e616d696373, 0x436f6d62757374696f6e54757262696e65, 0x43494d31352e49454336313937302e47656e65726174696f6e2e47656e65726174696f6e44796e616d6963732e436f6d62757374696f6e54757262696e65),
  (0x43494d31352e49454336313937302e47656e65726174696f6e2e47656e65726174696f6e44796e616d696373, 0x486561745265636f76657279426f696c6572, 0x43494d31352e49454336313937302e47656e65726174696f6e2e47656e65726174696f6e44796e616d6963732e486561745265636f76657279426f696c6572),
  (0x43494d31352e49454336313937302e47656e65726174696f6e2e47656e65726174696f6e44796e616d696373, 0x5375706572637269746963616c, 0x43494d31352e49454336313937302e47656e65726174696f6e2e47656e65726174696f6e44796e616d6963732e5375706572637269746963616c),
  (0x43494d31352e49454336313937302e47656e65726174696f6e2e47656e65726174696f6e44796e616d696373, 0x4472756d426f696c6572, 0x43494d31352e49454336313937302e47656e65726174696f6e2e47656e65726174696f6e44796e616d6963732e4472756d426f696c6572),
  (0x43494d31352e49454336313937302e47656e65726174696f6e2e47656e65726174696f6e44796e616d696373, 0x435454656d70416374697665506f7765724375727665, 0x43494d31352e49454336313937302e47656e65726174696f6e2e47656e65726174696f6e44796e616d6963732e435454656d70416374697665506f7765724375727665),
  (0x43494d31352e49454336313937302e47656e65726174696f6e2e50726f64756374696f6e, 0x5265736572766f6972, 0x43494d31352e49454336313937302e47656e65726174696f6e2e50726f64756374696f6e2e5265736572766f6972),
  (0x43494d31352e49454336313937302e47656e65726174696f6e2e50726f64756374696f6e, 0x436f67656e65726174696f6e506c616e74, 0x43494d31352e49454336313937302e47656e65726174696f6e2e50726f64756374696f6e2e436f67656e65726174696f6e506c616e74),
  (0x43494d31352e49454336313937302e47656e65726174696f6e2e50726f64756374696f6e, 0x47656e556e69744f705363686564756c65, 0x43494d31352e49454336313937302e47656e65726174696f6e2e50726f64756374696f6e2e47656e556e69744f705363686564756c65),
  (0x43494d31352e49454336313937302e47656e65726174696f6e2e50726f64756374696f6e, 0x4675656c416c6c6f636174696f6e5363686564756c65, 0x43494d31352e49454336313937302e47656e65726174696f6e2e50726f64756374696f6e2e4675656c416c6c6f636174696f6e5363686564756c65),
  (0x43494d31352e49454336313937302e47656e65726174696f6e2e50726f64756374696f6e, 0x47726f7373546f4e6574416374697665506f7765724375727665, 0x43494d31352e49454336313937302e47656e65726174696f6e2e50726f64756374696f6e2e47726f7373546f4e6574416374697665506f7765724375727665),
  (0x43494d31352e49454336313937302e47656e65726174696f6e2e50726f64756374696f6e, 0x4c6576656c5673566f6c756d654375727665, 0x43494d31352e49454336313937302e47656e65726174696f6e2e50726f64756374696f6e2e4c6576656c5673566f6c756d654375727665),
  (0x43494d31352e49454336313937302e47656e65726174696f6e2e50726f64756374696f6e, 0x537461727452616d704375727665, 0x43494d31352e49454336313937302e47656e65726174696f6e2e50726f64756374696f6e2e537461727452616d704375727665),
  (0x43494d31352e49454336313937302e47656e65726174696f6e2e50726f64756374696f6e, 0x4e75636c65617247656e65726174696e67556e6974, 0x43494d31352e49454336313937302e47656e65726174696f6e2e50726f64756374696f6e2e4e75636c65617247656e65726174696e67556e6974),
  (0x43494d31352e49454336313937302e47656e65726174696f6e2e50726f64756374696f6e, 0x456d697373696f6e4375727665, 0x43494d31352e49454336313937302e47656e65726174696f6e2e50726f64756374696f6e2e456d697373696f6e4375727665),
  (0x43494d31352e49454336313937302e47656e65726174696f6e2e50726f64756374696f6e, 0x487964726f50756d704f705363686564756c65, 0x43494d31352e49454336313937302e47656e65726174696f6e2e50726f64756374696f6e2e487964726f50756d704f705363686564756c65),
  (0x43494d31352e49454336313937302e47656e65726174696f6e2e50726f64756374696f6e, 0x537465616d53656e646f75745363686564756c65, 0x43494d31352e49454336313937302e47656e65726174696f6e2e50726f64756374696f6e2e537465616d53656e646f75745363686564756c65),
  (0x43494d31352e49454336313937302e47656e65726174696f6e2e50726f64756374696f6e, 0x5461726765744c6576656c5363686564756c65, 0x43494d31352e49454336313937302e47656e65726174696f6e2e50726f64756374696f6e2e5461726765744c6576656c5363686564756c65),
  (0x43494d31352e49454336313937302e47656e65726174696f6e2e50726f64756374696f6e, 0x436f6d62696e65644379636c65506c616e74, 0x43494d31352e49454336313937302e47656e65726174696f6e2e50726f64756374696f6e2e436f6d62696e65644379636c65506c616e74),
  (0x43494d31352e49454336313937302e47656e65726174696f6e2e50726f64756374696f6e, 0x48656174526174654375727665, 0x43494d31352e49454336313937302e47656e65726174696f6e2e50726f64756374696f6e2e48656174526174654375727665),
  (0x43494d31352e49454336313937302e47656e65726174696f6e2e50726f64756374696f6e, 0x546865726d616c47656e65726174696e67556e6974, 0x43494d31352e49454336313937302e47656e65726174696f6e2e50726f64756374696f6e2e546865726d616c47656e65726174696e67556e6974),
  (0x43494d31352e49454336313937302e47656e65726174696f6e2e50726f64756374696f6e, 0x456d697373696f6e4163636f756e74, 0x43494d31352e49454336313937302e47656e65726174696f6e2e50726f64756374696f6e2e456d697373696f6e4163636f756e74),
  (0x43494d31352e49454336313937302e47656e65726174696f6e2e50726f64756374696f6e, 0x50656e73746f636b4c6f73734375727665, 0x43494d31352e49454336313937302e47656e65726174696f6e2e50726f64756374696f6e2e50656e73746f636b4c6f73734375727665),
  (0x43494d31352e49454336313937302e47656e65726174696f6e2e50726f64756374696f6e, 0x537461727475704d6f64656c, 0x43494d31352e49454336313937302e47656e65726174696f6e2e50726f64756374696f6e2e537461727475704d6f64656c),
  (0x43494d31352e49454336313937302e47656e65726174696f6e2e50726f64756374696f6e, 0x487964726f47656e65726174696e67556e6974, 0x43494d31352e49454336313937302e47656e65726174696f6e2e50726f64756374696f6e2e487964726f47656e65726174696e67556e6974),
  (0x43494d31352e49454336313937302e47656e65726174696f6e2e50726f64756374696f6e, 0x47656e556e69744f70436f73744375727665, 0x43494d31352e49454336313937302e47656e65726174696f6e2e50726f64756374696f6e2e47656e556e69744f70436f73744375727665),
  (0x43494d31352e49454336313937302e47656e65726174696f6e2e50726f64756374696f6e, 0x496e6372656d656e74616c48656174526174654375727665, 0x43494d31352e49454336313937302e47656e65726174696f6e2e50726f64756374696f6e2e496e6372656d656e74616c48656174526174654375727665),
  (0x43494d31352e49454336313937302e47656e65726174696f6e2e50726f64756374696f6e, 0x466f7373696c4675656c, 0x43494d31352e49454336313937302e47656e65726174696f6e2e50726f64756374696f6e2e466f7373696c4675656c),
  (0x43494d31352e49454336313937302e47656e65726174696f6e2e50726f64756374696f6e, 0x47656e65726174696e67556e6974, 0x43494d31352e49454336313937302e47656e65726174696f6e2e50726f64756374696f6e2e47656e65726174696e67556e6974),
  (0x43494d31352e49454336313937302e47656e65726174696f6e2e50726f64756374696f6e, 0x537461727449676e4675656c4375727665, 0x43494d31352e49454336313937302e47656e65726174696f6e2e50726f64756374696f6e2e537461727449676e4675656c4375727665),
  (0x43494d31352e49454336313937302e47656e65726174696f6e2e50726f64756374696f6e, 0x53746172744d61696e4675656c4375727665, 0x43494d31352e49454336313937302e47656e65726174696f6e2e50726f64756374696f6e2e53746172744d61696e4675656c4375727665),
  (0x43494d31352e49454336313937302e47656e65726174696f6e2e50726f64756374696f6e, 0x5461696c6261794c6f73734375727665, 0x43494d31352e49454336313937302e47656e65726174696f6e2e50726f64756374696f6e2e5461696c6261794c6f73734375727665),
  (0x43494d31352e49454336313937302e47656e65726174696f6e2e50726f64756374696f6e, 0x487964726f50756d70, 0x43494d31352e49454336313937302e47656e65726174696f6e2e50726f64756374696f6e2e487964726f50756d70),
  (0x43494d31352e49454336313937302e47656e65726174696f6e2e50726f64756374696f6e, 0x496e666c6f77466f726563617374, 0x43494d31352e49454336313937302e47656e65726174696f6e2e50726f64756374696f6e2e496e666c6f77466f726563617374),
  (0x43494d31352e49454336313937302e47656e65726174696f6e2e50726f64756374696f6e, 0x487964726f47656e65726174696e67456666696369656e63794375727665, 0x43494d31352e49454336313937302e47656e65726174696f6e2e50726f64756374696f6e2e487964726f47656e65726174696e67456666696369656e63794375727665),
  (0x43494d31352e49454336313937302e47656e65726174696f6e2e50726f64756374696f6e, 0x53687574646f776e4375727665, 0x43494d31352e49454336313937302e47656e65726174696f6e2e50726f64756374696f6e2e53687574646f776e4375727665),
  (0x43494d31352e49454336313937302e47656e65726174696f6e2e50726f64756374696f6e, 0x487964726f506f776572506c616e74, 0x43494d31352e49454336313937302e47656e65726174696f6e2e50726f64756374696f6e2e487964726f506f776572506c616e74),
  (0x43494d31352e49454336313937302e47656e65726174696f6e2e50726f64756374696f6e, 0x43414553506c616e74, 0x43494d31352e49454336313937302e47656e65726174696f6e2e50726f64756374696f6e2e43414553506c616e74),
  (0x43494d31352e49454336313937302e47656e65726174696f6e2e50726f64756374696f6e, 0x416972436f6d70726573736f72, 0x43494d31352e49454336313937302e47656e65726174696f6e2e50726f64756374696f6e2e416972436f6d70726573736f72),
  (0x43494d31352e49454336313937302e47656e65726174696f6e2e50726f64756374696f6e, 0x48656174496e7075744375727665, 0x43494d31352e49454336313937302e47656e65726174696f6e2e50726f64756374696f6e2e48656174496e7075744375727665),
  (0x43494d31352e49454336313937302e47656e65726174696f6e2e50726f64756374696f6e, 0x57696e6447656e65726174696e67556e6974, 0x43494d31352e49454336313937302e47656e65726174696f6e2e50726f64756374696f6e2e57696e6447656e65726174696e67556e6974),
  (0x43494d31352e49454336313937302e4772617068696373, 0x546578744469616772616d4f626a656374, 0x43494d31352e49454336313937302e47726170686963732e546578744469616772616d4f626a656374),
  (0x43494d31352e49454336313937302e4772617068696373, 0x4469616772616d4f626a656374476c7565506f696e74, 0x43494d31352e49454336313937302e47726170686963732e4469616772616d4f626a656374476c7565506f696e74),
  (0x43494d31352e49454336313937302e4772617068696373, 0x4469616772616d4f626a656374, 0x43494d31352e49454336313937302e47726170686963732e4469616772616d4f626a656374),
  (0x43494d31352e49454336313937302e4772617068696373, 0x4469616772616d4f626a6563745374796c65, 0x43494d31352e49454336313937302e47726170686963732e4469616772616d4f626a6563745374796c65),
  (0x43494d31352e49454336313937302e4772617068696373, 0x4469616772616d4f626a656374506f696e74, 0x43494d31352e49454336313937302e47726170686963732e4469616772616d4f626a656374506f696e74),
  (0x43494d31352e49454336313937302e4772617068696373, 0x5669736962696c6974794c61796572, 0x43494d31352e49454336313937302e47726170686963732e5669736962696c6974794c61796572),
  (0x43494d31352e49454336313937302e496e666f726d61746976652e496e6641737365744d6f64656c73, 0x41737365744d6f64656c436174616c6f677565, 0x43494d31352e49454336313937302e496e666f726d61746976652e496e6641737365744d6f64656c732e41737365744d6f64656c436174616c6f677565),
  (0x43494d31352e49454336313937302e496e666f726d61746976652e496e6641737365744d6f64656c73, 0x5472616e73666f726d657241737365744d6f64656c, 0x43494d31352e49454336313937302e496e666f726d61746976652e496e6641737365744d6f64656c732e5472616e73666f726d657241737365744d6f64656c),
  (0x43494d31352e49454336313937302e496e666f726d61746976652e496e6641737365744d6f64656c73, 0x41737365744d6f64656c436174616c6f6775654974656d, 0x43494d31352e49454336313937302e496e666f726d61746976652e496e6641737365744d6f64656c732e41737365744d6f64656c436174616c6f6775654974656d),
  (0x43494d31352e49454336313937302e496e666f726d61746976652e496e66417373657473, 0x4641435453446576696365, 0x43494d31352e49454336313937302e496e666f726d61746976652e496e664173736574732e4641435453446576696365),
  (0x43494d31352e49454336313937302e496e666f726d61746976652e496e66417373657473, 0x446f634173736574526f6c65, 0x43494d31352e49454336313937302e496e666f726d61746976652e496e664173736574732e446f634173736574526f6c65),
  (0x43494d31352e49454336313937302e496e666f726d61746976652e496e66417373657473, 0x4475637442616e6b, 0x43494d31352e49454336313937302e496e666f726d61746976652e496e664173736574732e4475637442616e6b),
  (0x43494d31352e49454336313937302e496e666f726d61746976652e496e66417373657473, 0x436f6e647563746f724173736574, 0x43494d31352e49454336313937302e496e666f726d61746976652e496e664173736574732e436f6e647563746f724173736574),
  (0x43494d31352e49454336313937302e496e666f726d61746976652e496e66417373657473, 0x46696e616e6369616c496e666f, 0x43494d31352e49454336313937302e496e666f726d61746976652e496e664173736574732e46696e616e6369616c496e666f),
  (0x43494d31352e49454336313937302e496e666f726d61746976652e496e66417373657473, 0x50726f74656374696f6e45717569706d656e74496e666f, 0x43494d31352e49454336313937302e496e666f726d61746976652e496e664173736574732e50726f74656374696f6e45717569706d656e74496e666f),
  (0x43494d31352e49454336313937302e496e666f726d61746976652e496e66417373657473, 0x50726f63656475726544617461536574, 0x43494d31352e49454336313937302e496e666f726d61746976652e496e664173736574732e50726f63656475726544617461536574),
  (0x43494d31352e49454336313937302e496e666f726d61746976652e496e66417373657473, 0x57696e64696e67496e73756c6174696f6e, 0x43494d31352e49454336313937302e496e666f726d61746976652e496e664173736574732e57696e64696e67496e73756c6174696f6e),
  (0x43494d31352e49454336313937302e496e666f726d61746976652e496e66417373657473, 0x53706563696669636174696f6e, 0x43494d31352e49454336313937302e496e666f726d61746976652e496e664173736574732e53706563696669636174696f6e),
  (0x43494d31352e49454336313937302e496e666f726d61746976652e496e66417373657473, 0x556e64657267726f756e64537472756374757265, 0x43494d31352e49454336313937302e496e666f726d61746976652e496e664173736574732e556e64657267726f756e64537472756374757265),
  (0x43494d31352e49454336313937302e496e666f726d61746976652e496e66417373657473, 0x506f74656e7469616c5472616e73666f726d6572496e666f, 0x43494d31352e49454336313937302e496e666f726d61746976652e496e664173736574732e506f74656e7469616c5472616e73666f726d6572496e666f),
  (0x43494d31352e49454336313937302e496e666f726d61746976652e496e66417373657473, 0x537472756374757265, 0x43494d31352e49454336313937302e496e666f726d61746976652e496e664173736574732e537472756374757265),
  (0x43494d31352e49454336313937302e496e666f726d61746976652e496e66417373657473, 0x43757272656e745472616e73666f726d6572496e666f, 0x43494d31352e49454336313937302e496e666f726d61746976652e496e664173736574732e43757272656e745472616e73666f726d6572496e666f),
  (0x43494d31352e49454336313937302e496e666f726d61746976652e496e66417373657473, 0x42757368696e67496e73756c6174696f6e5046, 0x43494d31352e49454336313937302e496e666f726d61746976652e496e664173736574732e42757368696e67496e73756c6174696f6e5046),
  (0x43494d31352e49454336313937302e496e666f726d61746976652e496e66417373657473, 0x4a6f696e74, 0x43494d31352e49454336313937302e496e666f726d61746976652e496e664173736574732e4a6f696e74),
  (0x43494d31352e49454336313937302e496e666f726d61746976652e496e66417373657473, 0x456c656374726963616c496e666f, 0x43494d31352e49454336313937302e496e666f726d61746976652e496e664173736574732e456c656374726963616c496e666f),
  (0x43494d31352e49454336313937302e496e666f726d61746976652e496e66417373657473, 0x576f726b45717569706d656e74, 0x43494d31352e49454336313937302e496e666f726d61746976652e496e664173736574732e576f726b45717569706d656e74),
  (0x43494d31352e49454336313937302e496e666f726d61746976652e496e66417373657473, 0x4661756c74496e64696361746f72496e666f, 0x43494d31352e49454336313937302e496e666f726d61746976652e496e664173736574732e4661756c74496e64696361746f72496e666f),
  (0x43494d31352e49454336313937302e496e666f726d61746976652e496e66417373657473, 0x44756374, 0x43494d31352e49454336313937302e496e666f726d61746976652e496e664173736574732e44756374),
  (0x43494d31352e49454336313937302e496e666f726d61746976652e496e66417373657473, 0x506f776572526174696e67, 0x43494d31352e49454336313937302e496e666f726d61746976652e496e664173736574732e506f776572526174696e67),
  (0x43494d31352e49454336313937302e496e666f726d61746976652e496e66417373657473, 0x41737365744173736574526f6c65, 0x43494d31352e49454336313937302e496e666f726d61746976652e496e664173736574732e41737365744173736574526f6c65),
  (0x43494d31352e49454336313937302e496e666f726d61746976652e496e66417373657473, 0x5472616e73666f726d65724173736574, 0x43494d31352e49454336313937302e496e666f726d61746976652e496e664173736574732e5472616e73666f726d65724173736574),
  (0x43494d31352e49454336313937302e496e666f726d61746976652e496e66417373657473, 0x50726f636564757265, 0x43494d31352e49454336313937302e496e666f726d61746976652e496e664173736574732e50726f636564757265),
  (0x43494d31352e49454336313937302e496e666f726d61746976652e496e66417373657473, 0x427265616b6572496e666f, 0x43494d31352e49454336313937302e496e666f726d61746976652e496e664173736574732e427265616b6572496e666f),
  (0x43494d31352e49454336313937302e496e666f726d61746976652e496e66417373657473, 0x436f6d706f73697465537769746368496e666f, 0x43494d31352e49454336313937302e496e666f726d61746976652e496e664173736574732e436f6d706f73697465537769746368496e666f),
  (0x43494d31352e49454336313937302e496e666f726d61746976652e496e66417373657473, 0x436162696e6574, 0x43494d31352e49454336313937302e496e666f726d61746976652e496e664173736574732e436162696e6574),
  (0x43494d31352e49454336313937302e496e666f726d61746976652e496e66417373657473, 0x42757368696e67, 0x43494d31352e49454336313937302e496e666f726d61746976652e496e664173736574732e42757368696e67),
  (0x43494d31352e49454336313937302e496e666f726d61746976652e496e66417373657473, 0x56656869636c65, 0x43494d31352e49454336313937302e496e666f726d61746976652e496e664173736574732e56656869636c65),
  (0x43494d31352e49454336313937302e496e666f726d61746976652e496e66417373657473, 0x537572676550726f746563746f72496e666f, 0x43494d31352e49454336313937302e496e666f726d61746976652e496e664173736574732e537572676550726f746563746f72496e666f),
  (0x43494d31352e49454336313937302e496e666f726d61746976652e496e66417373657473, 0x537472756374757265537570706f7274, 0x43494d31352e49454336313937302e496e666f726d61746976652e496e664173736574732e537472756374757265537570706f7274),
  (0x43494d31352e49454336313937302e496e666f726d61746976652e496e66417373657473, 0x436f6d45717569706d656e74, 0x43494d31352e49454336313937302e496e666f726d61746976652e496e664173736574732e436f6d45717569706d656e74),
  (0x43494d31352e49454336313937302e496e666f726d61746976652e496e66417373657473, 0x417373657450726f70657274794375727665, 0x43494d31352e49454336313937302e496e666f726d61746976652e496e664173736574732e417373657450726f70657274794375727665),
  (0x43494d31352e49454336313937302e496e666f726d61746976652e496e66417373657473, 0x4661696c7572654576656e74, 0x43494d31352e49454336313937302e496e666f726d61746976652e496e664173736574732e4661696c7572654576656e74),
  (0x43494d31352e49454336313937302e496e666f726d61746976652e496e66417373657473, 0x44696d656e73696f6e73496e666f, 0x43494d31352e49454336313937302e496e666f726d61746976652e496e664173736574732e44696d656e73696f6e73496e666f),
  (0x43494d31352e49454336313937302e496e666f726d61746976652e496e66417373657473, 0x546f776572, 0x43494d31352e49454336313937302e496e666f726d61746976652e496e664173736574732e546f776572),
  (0x43494d31352e49454336313937302e496e666f726d61746976652e496e66417373657473, 0x4d6f756e74696e67436f6e6e656374696f6e, 0x43494d31352e49454336313937302e496e666f726d61746976652e496e664173736574732e4d6f756e74696e67436f6e6e656374696f6e),
  (0x43494d31352e49454336313937302e496e666f726d61746976652e496e66417373657473, 0x4d656469756d, 0x43494d31352e49454336313937302e496e666f726d61746976652e496e664173736574732e4d656469756d),
  (0x43494d31352e49454336313937302e496e666f726d61746976652e496e66417373657473, 0x5265636c6f736572496e666f, 0x43494d31352e49454336313937302e496e666f726d61746976652e496e664173736574732e5265636c6f736572496e666f),
  (0x43494d31352e49454336313937302e496e666f726d61746976652e496e66417373657473, 0x466163696c697479, 0x43494d31352e49454336313937302e496e666f726d61746976652e496e664173736574732e466163696c697479),
  (0x43494d31352e49454336313937302e496e666f726d61746976652e496e66417373657473, 0x5368756e74496d706564616e6365496e666f, 0x43494d31352e49454336313937302e496e666f726d61746976652e496e664173736574732e5368756e74496d706564616e6365496e666f),
  (0x43494d31352e49454336313937302e496e666f726d61746976652e496e66417373657473, 0x5368756e74436f6d70656e7361746f72496e666f, 0x43494d31352e49454336313937302e496e666f726d61746976652e496e664173736574732e5368756e74436f6d70656e7361746f72496e666f),
  (0x43494d31352e49454336313937302e496e666f726d61746976652e496e66417373657473, 0x4d6f756e74696e67506f696e74, 0x43494d31352e49454336313937302e496e666f726d61746976652e496e664173736574732e4d6f756e74696e67506f696e74),
  (0x43494d31352e49454336313937302e496e666f726d61746976652e496e66417373657473, 0x53756273746174696f6e4173736574, 0x43494d31352e49454336313937302e496e666f726d61746976652e496e664173736574732e53756273746174696f6e4173736574),
  (0x43494d31352e49454336313937302e496e666f726d61746976652e496e66417373657473, 0x5374726565746c69676874, 0x43494d31352e49454336313937302e496e666f726d61746976652e496e664173736574732e5374726565746c69676874),
  (0x43494d31352e49454336313937302e496e666f726d61746976652e496e66417373657473, 0x546f6f6c, 0x43494d31352e49454336313937302e496e666f726d61746976652e496e664173736574732e546f6f6c),
  (0x43494d31352e49454336313937302e496e666f726d61746976652e496e66417373657473, 0x535643, 0x43494d31352e49454336313937302e496e666f726d61746976652e496e664173736574732e535643),
  (0x43494d31352e49454336313937302e496e666f726d61746976652e496e66417373657473, 0x4f72674173736574526f6c65, 0x43494d31352e49454336313937302e496e666f726d61746976652e496e664173736574732e4f72674173736574526f6c65),
  (0x43494d31352e49454336313937302e496e666f726d61746976652e496e66417373657473, 0x5465737444617461536574, 0x43494d31352e49454336313937302e496e666f726d61746976652e496e664173736574732e5465737444617461536574),
  (0x43494d31352e49454336313937302e496e666f726d61746976652e496e66417373657473, 0x47656e6572696341737365744d6f64656c4f724d6174657269616c, 0x43494d31352e49454336313937302e496e666f726d61746976652e496e664173736574732e47656e6572696341737365744d6f64656c4f724d6174657269616c),
  (0x43494d31352e49454336313937302e496e666f726d61746976652e496e66417373657473, 0x52656c696162696c697479496e666f, 0x43494d31352e49454336313937302e496e666f726d61746976652e496e664173736574732e52656c696162696c697479496e666f),
  (0x43494d31352e49454336313937302e496e666f726d61746976652e496e66417373657473, 0x5472616e73666f726d65724f62736572766174696f6e, 0x43494d31352e49454336313937302e496e666f726d61746976652e496e664173736574732e5472616e73666f726d65724f62736572766174696f6e),
  (0x43494d31352e49454336313937302e496e666f726d61746976652e496e66417373657473, 0x506f6c65, 0x43494d31352e49454336313937302e496e666f726d61746976652e496e664173736574732e506f6c65),
  (0x43494d31352e49454336313937302e496e666f726d61746976652e496e66417373657473, 0x537769746368496e666f, 0x43494d31352e49454336313937302e496e666f726d61746976652e496e664173736574732e537769746368496e666f),
  (0x43494d31352e49454336313937302e496e666f726d61746976652e496e66436f6d6d6f6e, 0x526f6c65, 0x43494d31352e49454336313937302e496e666f726d61746976652e496e66436f6d6d6f6e2e526f6c65),
  (0x43494d31352e49454336313937302e496e666f726d61746976652e496e66436f6d6d6f6e, 0x42616e6b, 0x43494d31352e49454336313937302e496e666f726d61746976652e496e66436f6d6d6f6e2e42616e6b),
  (0x43494d31352e49454336313937302e496e666f726d61746976652e496e66436f6d6d6f6e, 0x536b696c6c, 0x43494d31352e49454336313937302e496e666f726d61746976652e496e66436f6d6d6f6e2e536b696c6c),
  (0x43494d31352e49454336313937302e496e666f726d61746976652e496e66436f6d6d6f6e, 0x427573696e657373526f6c65, 0x43494d31352e49454336313937302e496e666f726d61746976652e496e66436f6d6d6f6e2e427573696e657373526f6c65),
  (0x43494d31352e49454336313937302e496e666f726d61746976652e496e66436f6d6d6f6e, 0x5363686564756c65644576656e74, 0x43494d31352e49454336313937302e496e666f726d61746976652e496e66436f6d6d6f6e2e5363686564756c65644576656e74),
  (0x43494d31352e49454336313937302e496e666f726d61746976652e496e66436f6d6d6f6e, 0x5363686564756c65506172616d65746572496e666f, 0x43494d31352e49454336313937302e496e666f726d61746976652e496e66436f6d6d6f6e2e5363686564756c65506172616d65746572496e666f),
  (0x43494d31352e49454336313937302e496e666f726d61746976652e496e66436f6d6d6f6e, 0x446f63507372526f6c65, 0x43494d31352e49454336313937302e496e666f726d61746976652e496e66436f6d6d6f6e2e446f63507372526f6c65),
  (0x43494d31352e49454336313937302e496e666f726d61746976652e496e66436f6d6d6f6e, 0x526174696f, 0x43494d31352e49454336313937302e496e666f726d61746976652e496e66436f6d6d6f6e2e526174696f),
  (0x43494d31352e49454336313937302e496e666f726d61746976652e496e66436f6d6d6f6e, 0x42616e6b4163636f756e74, 0x43494d31352e49454336313937302e496e666f726d61746976652e496e66436f6d6d6f6e2e42616e6b4163636f756e74),
  (0x43494d31352e49454336313937302e496e666f726d61746976652e496e66436f6d6d6f6e, 0x4372616674, 0x43494d31352e49454336313937302e496e666f726d61746976652e496e66436f6d6d6f6e2e4372616674),
  (0x43494d31352e49454336313937302e496e666f726d61746976652e496e66436f6d6d6f6e, 0x446f63446f63526f6c65, 0x43494d31352e49454336313937302e496e666f726d61746976652e496e66436f6d6d6f6e2e446f63446f63526f6c65),
  (0x43494d31352e49454336313937302e496e666f726d61746976652e496e66436f6d6d6f6e, 0x427573696e657373506c616e, 0x43494d31352e49454336313937302e496e666f726d61746976652e496e66436f6d6d6f6e2e427573696e657373506c616e),
  (0x43494d31352e49454336313937302e496e666f726d61746976652e496e66436f7265, 0x4d6f64656c696e67417574686f72697479, 0x43494d31352e49454336313937302e496e666f726d61746976652e496e66436f72652e4d6f64656c696e67417574686f72697479),
  (0x43494d31352e49454336313937302e496e666f726d61746976652e496e66436f7265, 0x4d6f64656c696e67417574686f72697479536574, 0x43494d31352e49454336313937302e496e666f726d61746976652e496e66436f72652e4d6f64656c696e67417574686f72697479536574),
  (0x43494d31352e49454336313937302e496e666f726d61746976652e496e66437573746f6d657273, 0x5374616e64617264496e647573747279436f6465, 0x43494d31352e49454336313937302e496e666f726d61746976652e496e66437573746f6d6572732e5374616e64617264496e647573747279436f6465),
  (0x43494d31352e49454336313937302e496e666f726d61746976652e496e66437573746f6d657273, 0x4f7574616765486973746f7279, 0x43494d31352e49454336313937302e496e666f726d61746976652e496e66437573746f6d6572732e4f7574616765486973746f7279),
  (0x43494d31352e49454336313937302e496e666f726d61746976652e496e66437573746f6d657273, 0x436f6d706c69616e63654576656e74, 0x43494d31352e49454336313937302e496e666f726d61746976652e496e66437573746f6d6572732e436f6d706c69616e63654576656e74),
  (0x43494d31352e49454336313937302e496e666f726d61746976652e496e66437573746f6d657273, 0x437573746f6d657242696c6c696e67496e666f, 0x43494d31352e49454336313937302e496e666f726d61746976652e496e66437573746f6d6572732e437573746f6d657242696c6c696e67496e666f),
  (0x43494d31352e49454336313937302e496e666f726d61746976652e496e66437573746f6d657273, 0x5365727669636547756172616e746565, 0x43494d31352e49454336313937302e496e666f726d61746976652e496e66437573746f6d6572732e5365727669636547756172616e746565),
  (0x43494d31352e49454336313937302e496e666f726d61746976652e496e66437573746f6d657273, 0x537562736372696265506f7765724375727665, 0x43494d31352e49454336313937302e496e666f726d61746976652e496e66437573746f6d6572732e537562736372696265506f7765724375727665),
  (0x43494d31352e49454336313937302e496e666f726d61746976652e496e66437573746f6d657273, 0x45787465726e616c437573746f6d657241677265656d656e74, 0x43494d31352e49454336313937302e496e666f726d61746976652e496e66437573746f6d6572732e45787465726e616c437573746f6d657241677265656d656e74),
  (0x43494d31352e49454336313937302e496e666f726d61746976652e496e66437573746f6d657273, 0x506f7765725175616c69747950726963696e67, 0x43494d31352e49454336313937302e496e666f726d61746976652e496e66437573746f6d6572732e506f7765725175616c69747950726963696e67),
  (0x43494d31352e49454336313937302e496e666f726d61746976652e496e66437573746f6d657273, 0x576f726b42696c6c696e67496e666f, 0x43494d31352e49454336313937302e496e666f726d61746976652e496e66437573746f6d6572732e576f726b42696c6c696e67496e666f),
  (0x43494d31352e49454336313937302e496e666f726d61746976652e496e66455250537570706f7274, 0x45727052656344656c764c696e654974656d, 0x43494d31352e49454336313937302e496e666f726d61746976652e496e66455250537570706f72742e45727052656344656c764c696e654974656d),
  (0x43494d31352e49454336313937302e496e666f726d61746976652e496e66455250537570706f7274, 0x4572704c6564676572427564676574, 0x43494d31352e49454336313937302e496e666f726d61746976652e496e66455250537570706f72742e4572704c6564676572427564676574),
  (0x43494d31352e49454336313937302e496e666f726d61746976652e496e66455250537570706f7274, 0x45727054696d65456e747279, 0x43494d31352e49454336313937302e496e666f726d61746976652e496e66455250537570706f72742e45727054696d65456e747279),
  (0x43494d31352e49454336313937302e496e666f726d61746976652e496e66455250537570706f7274, 0x457270436f6d706574656e6379, 0x43494d31352e49454336313937302e496e666f726d61746976652e496e66455250537570706f72742e457270436f6d706574656e6379),
  (0x43494d31352e49454336313937302e496e666f726d61746976652e496e66455250537570706f7274, 0x45727050757263686173654f72646572, 0x43494d31352e49454336313937302e496e666f726d61746976652e496e66455250537570706f72742e45727050757263686173654f72646572),
  (0x43494d31352e49454336313937302e496e666f726d61746976652e496e66455250537570706f7274, 0x457270456e674368616e67654f72646572, 0x43494d31352e49454336313937302e496e666f726d61746976652e496e66455250537570706f72742e457270456e674368616e67654f72646572),
  (0x43494d31352e49454336313937302e496e666f726d61746976652e496e66455250537570706f7274, 0x45727050726f6a6563744163636f756e74696e67, 0x43494d31352e49454336313937302e496e666f726d61746976652e496e66455250537570706f72742e45727050726f6a6563744163636f756e74696e67),
  (0x43494d31352e49454336313937302e496e666f726d61746976652e496e66455250537570706f7274, 0x4572705265634c696e654974656d, 0x43494d31352e49454336313937302e496e666f726d61746976652e496e66455250537570706f72742e4572705265634c696e654974656d),
  (0x43494d31352e49454336313937302e496e666f726d61746976652e496e66455250537570706f7274, 0x45727050617961626c654c696e654974656d, 0x43494d31352e49454336313937302e496e666f726d61746976652e496e66455250537570706f72742e45727050617961626c654c696e654974656d),
  (0x43494d31352e49454336313937302e496e666f726d61746976652e496e66455250537570706f7274, 0x4572704c65644275644c696e654974656d, 0x43494d31352e49454336313937302e496e666f726d61746976652e496e66455250537570706f72742e4572704c65644275644c696e654974656d),
  (0x43494d31352e49454336313937302e496e666f726d61746976652e496e66455250537570706f7274, 0x4572705265717569736974696f6e, 0x43494d31352e49454336313937302e496e666f726d61746976652e496e66455250537570706f72742e4572705265717569736974696f6e),
  (0x43494d31352e49454336313937302e496e666f726d61746976652e496e66455250537570706f7274, 0x4572704f7267616e69736174696f6e, 0x43494d31352e49454336313937302e496e666f726d61746976652e496e66455250537570706f72742e4572704f7267616e69736174696f6e),
  (0x43494d31352e49454336313937302e496e666f726d61746976652e496e66455250537570706f7274, 0x457270496e766f696365, 0x43494d31352e49454336313937302e496e666f726d61746976652e496e66455250537570706f72742e457270496e766f696365),
  (0x43494d31352e49454336313937302e496e666f726d61746976652e496e66455250537570706f7274, 0x446f63457270506572736f6e526f6c65, 0x43494d31352e49454336313937302e496e666f726d61746976652e496e66455250537570706f72742e446f63457270506572736f6e526f6c65),
  (0x43494d31352e49454336313937302e496e666f726d61746976652e496e66455250537570706f7274, 0x45727042616e6b4163636f756e74, 0x43494d31352e49454336313937302e496e666f726d61746976652e496e66455250537570706f72742e45727042616e6b4163636f756e74),
  (0x43494d31352e49454336313937302e496e666f726d61746976652e496e66455250537570706f7274, 0x45727051756f7465, 0x43494d31352e49454336313937302e496e666f726d61746976652e496e66455250537570706f72742e45727051756f7465),
  (0x43494d31352e49454336313937302e496e666f726d61746976652e496e66455250537570706f7274, 0x457270506572736f6e, 0x43494d31352e49454336313937302e496e666f726d61746976652e496e66455250537570706f72742e457270506572736f6e),
  (0x43494d31352e49454336313937302e496e666f726d61746976652e496e66455250537570706f7274, 0x4572704974656d4d6173746572, 0x43494d31352e49454336313937302e496e666f726d61746976652e496e66455250537570706f72742e4572704974656d4d6173746572),
  (0x43494d31352e49454336313937302e496e666f726d61746976652e496e66455250537570706f7274, 0x457270424f4d, 0x43494d31352e49454336313937302e496e666f726d61746976652e496e66455250537570706f72742e457270424f4d),
  (0x43494d31352e49454336313937302e496e666f726d61746976652e496e66455250537570706f7274, 0x457270496e76656e746f7279436f756e74, 0x43494d31352e49454336313937302e496e666f726d61746976652e496e66455250537570706f72742e457270496e76656e746f7279436f756e74),
  (0x43494d31352e49454336313937302e496e666f726d61746976652e496e66455250537570706f7274, 0x4572704973737565496e76656e746f7279, 0x43494d31352e49454336313937302e496e666f726d61746976652e496e66455250537570706f72742e4572704973737565496e76656e746f7279),
  (0x43494d31352e49454336313937302e496e666f726d61746976652e496e66455250537570706f7274, 0x45727050617961626c65, 0x43494d31352e49454336313937302e496e666f726d61746976652e496e66455250537570706f72742e45727050617961626c65),
  (0x43494d31352e49454336313937302e496e666f726d61746976652e496e66455250537570706f7274, 0x4572704c6564676572, 0x43494d31352e49454336313937302e496e666f726d61746976652e496e66455250537570706f72742e4572704c6564676572),
  (0x43494d31352e49454336313937302e496e666f726d61746976652e496e66455250537570706f7274, 0x457270504f4c696e654974656d, 0x43494d31352e49454336313937302e496e666f726d61746976652e496e66455250537570706f72742e457270504f4c696e654974656d),
  (0x43494d31352e49454336313937302e496e666f726d61746976652e496e66455250537570706f7274, 0x4572704c6564676572456e747279, 0x43494d31352e49454336313937302e496e666f726d61746976652e496e66455250537570706f72742e4572704c6564676572456e747279),
  (0x43494d31352e49454336313937302e496e666f726d61746976652e496e66455250537570706f7274, 0x4572705061796d656e74, 0x43494d31352e49454336313937302e496e666f726d61746976652e496e66455250537570706f72742e4572705061796d656e74),
  (0x43494d31352e49454336313937302e496e666f726d61746976652e496e66455250537570706f7274, 0x45727052656365697661626c65, 0x43494d31352e49454336313937302e496e666f726d61746976652e496e66455250537570706f72742e45727052656365697661626c65),
  (0x43494d31352e49454336313937302e496e666f726d61746976652e496e66455250537570706f7274, 0x446f634f7267526f6c65, 0x43494d31352e49454336313937302e496e666f726d61746976652e496e66455250537570706f72742e446f634f7267526f6c65),
  (0x43494d31352e49454336313937302e496e666f726d61746976652e496e66455250537570706f7274, 0x4572705265714c696e654974656d, 0x43494d31352e49454336313937302e496e666f726d61746976652e496e66455250537570706f72742e4572705265714c696e654974656d),
  (0x43494d31352e49454336313937302e496e666f726d61746976652e496e66455250537570706f7274, 0x45727054696d655368656574, 0x43494d31352e49454336313937302e496e666f726d61746976652e496e66455250537570706f72742e45727054696d655368656574),
  (0x43494d31352e49454336313937302e496e666f726d61746976652e496e66455250537570706f7274, 0x457270496e76656e746f7279, 0x43494d31352e49454336313937302e496e666f726d61746976652e496e66455250537570706f72742e457270496e76656e746f7279),
  (0x43494d31352e49454336313937302e496e666f726d61746976652e496e66455250537570706f7274, 0x45727043686172744f664163636f756e7473, 0x43494d31352e49454336313937302e496e666f726d61746976652e496e66455250537570706f72742e45727043686172744f664163636f756e7473),
  (0x43494d31352e49454336313937302e496e666f726d61746976652e496e66455250537570706f7274, 0x457270536974654c6576656c44617461, 0x43494d31352e49454336313937302e496e666f726d61746976652e496e66455250537570706f72742e457270536974654c6576656c44617461),
  (0x43494d31352e49454336313937302e496e666f726d61746976652e496e66455250537570706f7274, 0x4f7267457270506572736f6e526f6c65, 0x43494d31352e49454336313937302e496e666f726d61746976652e496e66455250537570706f72742e4f7267457270506572736f6e526f6c65),
  (0x43494d31352e49454336313937302e496e666f726d61746976652e496e66455250537570706f7274, 0x4572705265636569766544656c6976657279, 0x43494d31352e49454336313937302e496e666f726d61746976652e496e66455250537570706f72742e4572705265636569766544656c6976657279),
  (0x43494d31352e49454336313937302e496e666f726d61746976652e496e66455250537570706f7274, 0x45727053616c65734f72646572, 0x43494d31352e49454336313937302e496e666f726d61746976652e496e66455250537570706f72742e45727053616c65734f72646572),
  (0x43494d31352e49454336313937302e496e666f726d61746976652e496e66455250537570706f7274, 0x4572704a6f75726e616c456e747279, 0x43494d31352e49454336313937302e496e666f726d61746976652e496e66455250537570706f72742e4572704a6f75726e616c456e747279),
  (0x43494d31352e49454336313937302e496e666f726d61746976652e496e66455250537570706f7274, 0x457270496e766f6963654c696e654974656d, 0x43494d31352e49454336313937302e496e666f726d61746976652e496e66455250537570706f72742e457270496e766f6963654c696e654974656d),
  (0x43494d31352e49454336313937302e496e666f726d61746976652e496e66455250537570706f7274, 0x4f72674f7267526f6c65, 0x43494d31352e49454336313937302e496e666f726d61746976652e496e66455250537570706f72742e4f72674f7267526f6c65),
  (0x43494d31352e49454336313937302e496e666f726d61746976652e496e66455250537570706f7274, 0x4572704a6f75726e616c, 0x43494d31352e49454336313937302e496e666f726d61746976652e496e66455250537570706f72742e4572704a6f75726e616c),
  (0x43494d31352e49454336313937302e496e666f726d61746976652e496e66455250537570706f7274, 0x457270506572736f6e6e656c, 0x43494d31352e49454336313937302e496e666f726d61746976652e496e66455250537570706f72742e457270506572736f6e6e656c),
  (0x43494d31352e49454336313937302e496e666f726d61746976652e496e66455250537570706f7274, 0x45727051756f74654c696e654974656d, 0x43494d31352e49454336313937302e496e666f726d61746976652e496e66455250537570706f72742e45727051756f74654c696e654974656d),
  (0x43494d31352e49454336313937302e496e666f726d61746976652e496e66455250537570706f7274, 0x457270426f6d4974656d44617461, 0x43494d31352e49454336313937302e496e666f726d61746976652e496e66455250537570706f72742e457270426f6d4974656d44617461),
  (0x43494d31352e49454336313937302e496e666f726d61746976652e496e66474d4c537570706f7274, 0x476d6c4665617475726554797065, 0x43494d31352e49454336313937302e496e666f726d61746976652e496e66474d4c537570706f72742e476d6c4665617475726554797065),
  (0x43494d31352e49454336313937302e496e666f726d61746976652e496e66474d4c537570706f7274, 0x4d6170, 0x43494d31352e49454336313937302e496e666f726d61746976652e496e66474d4c537570706f72742e4d6170),
  (0x43494d31352e49454336313937302e496e666f726d61746976652e496e66474d4c537570706f7274, 0x476d6c506f696e7447656f6d65747279, 0x43494d31352e49454336313937302e496e666f726d61746976652e496e66474d4c537570706f72742e476d6c506f696e7447656f6d65747279),
  (0x43494d31352e49454336313937302e496e666f726d61746976652e496e66474d4c537570706f7274, 0x476d6c48616c6f, 0x43494d31352e49454336313937302e496e666f726d61746976652e496e66474d4c537570706f72742e476d6c48616c6f),
  (0x43494d31352e49454336313937302e496e666f726d61746976652e496e66474d4c537570706f7274, 0x476d6c436f6c6f7572, 0x43494d31352e49454336313937302e496e666f726d61746976652e496e66474d4c537570706f72742e476d6c436f6c6f7572),
  (0x43494d31352e49454336313937302e496e666f726d61746976652e496e66474d4c537570706f7274, 0x476d6c466f6e74, 0x43494d31352e49454336313937302e496e666f726d61746976652e496e66474d4c537570706f72742e476d6c466f6e74),
  (0x43494d31352e49454336313937302e496e666f726d61746976652e496e66474d4c537570706f7274, 0x476d6c506f6c79676f6e53796d626f6c, 0x43494d31352e49454336313937302e496e666f726d61746976652e496e66474d4c537570706f72742e476d6c506f6c79676f6e53796d626f6c),
  (0x43494d31352e49454336313937302e496e666f726d61746976652e496e66474d4c537570706f7274, 0x476d6c5374726f6b65, 0x43494d31352e49454336313937302e496e666f726d61746976652e496e66474d4c537570706f72742e476d6c5374726f6b65),
  (0x43494d31352e49454336313937302e496e666f726d61746976652e496e66474d4c537570706f7274, 0x476d6c4261736553796d626f6c, 0x43494d31352e49454336313937302e496e666f726d61746976652e496e66474d4c537570706f72742e476d6c4261736553796d626f6c),
  (0x43494d31352e49454336313937302e496e666f726d61746976652e496e66474d4c537570706f7274, 0x476d6c506f736974696f6e, 0x43494d31352e49454336313937302e496e666f726d61746976652e496e66474d4c537570706f72742e476d6c506f736974696f6e),
  (0x43494d31352e49454336313937302e496e666f726d61746976652e496e66474d4c537570706f7274, 0x476d6c5465787453796d626f6c, 0x43494d31352e49454336313937302e496e666f726d61746976652e496e66474d4c537570706f72742e476d6c5465787453796d626f6c),
  (0x43494d31352e49454336313937302e496e666f726d61746976652e496e66474d4c537570706f7274, 0x476d6c506f6c79676f6e47656f6d65747279, 0x43494d31352e49454336313937302e496e666f726d61746976652e496e66474d4c537570706f72742e476d6c506f6c79676f6e47656f6d65747279),
  (0x43494d31352e49454336313937302e496e666f726d61746976652e496e66474d4c537570706f7274, 0x476d6c4f62736572766174696f6e, 0x43494d31352e49454336313937302e496e666f726d61746976652e496e66474d4c537570706f72742e476d6c4f62736572766174696f6e),
  (0x43494d31352e49454336313937302e496e666f726d61746976652e496e66474d4c537570706f7274, 0x476d6c4d61726b, 0x43494d31352e49454336313937302e496e666f726d61746976652e496e66474d4c537570706f72742e476d6c4d61726b),
  (0x43494d31352e49454336313937302e496e666f726d61746976652e496e66474d4c537570706f7274, 0x476d6c47726170686963, 0x43494d31352e49454336313937302e496e666f726d61746976652e496e66474d4c537570706f72742e476d6c47726170686963),
  (0x43494d31352e49454336313937302e496e666f726d61746976652e496e66474d4c537570706f7274, 0x476d6c4c6162656c506c6163656d656e74, 0x43494d31352e49454336313937302e496e666f726d61746976652e496e66474d4c537570706f72742e476d6c4c6162656c506c6163656d656e74),
  (0x43494d31352e49454336313937302e496e666f726d61746976652e496e66474d4c537570706f7274, 0x476d6c47656f6d657472795374796c65, 0x43494d31352e49454336313937302e496e666f726d61746976652e496e66474d4c537570706f72742e476d6c47656f6d657472795374796c65),
  (0x43494d31352e49454336313937302e496e666f726d61746976652e496e66474d4c537570706f7274, 0x476d6c4c696e6547656f6d65747279, 0x43494d31352e49454336313937302e496e666f726d61746976652e496e66474d4c537570706f72742e476d6c4c696e6547656f6d65747279),
  (0x43494d31352e49454336313937302e496e666f726d61746976652e496e66474d4c537570706f7274, 0x476d6c56616c7565, 0x43494d31352e49454336313937302e496e666f726d61746976652e496e66474d4c537570706f72742e476d6c56616c7565),
  (0x43494d31352e49454336313937302e496e666f726d61746976652e496e66474d4c537570706f7274, 0x476d6c4c696e6553796d626f6c, 0x43494d31352e49454336313937302e496e666f726d61746976652e496e66474d4c537570706f72742e476d6c4c696e6553796d626f6c),
  (0x43494d31352e49454336313937302e496e666f726d61746976652e496e66474d4c537570706f7274, 0x476d6c4469616772616d4f626a656374, 0x43494d31352e49454336313937302e496e666f726d61746976652e496e66474d4c537570706f72742e476d6c4469616772616d4f626a656374),
  (0x43494d31352e49454336313937302e496e666f726d61746976652e496e66474d4c537570706f7274, 0x476d6c506f696e7453796d626f6c, 0x43494d31352e49454336313937302e496e666f726d61746976652e496e66474d4c537570706f72742e476d6c506f696e7453796d626f6c),
  (0x43494d31352e49454336313937302e496e666f726d61746976652e496e66474d4c537570706f7274, 0x476d6c546f706f6c6f67795374796c65, 0x43494d31352e49454336313937302e496e666f726d61746976652e496e66474d4c537570706f72742e476d6c546f706f6c6f67795374796c65),
  (0x43494d31352e49454336313937302e496e666f726d61746976652e496e66474d4c537570706f7274, 0x476d6c53656c6563746f72, 0x43494d31352e49454336313937302e496e666f726d61746976652e496e66474d4c537570706f72742e476d6c53656c6563746f72),
  (0x43494d31352e49454336313937302e496e666f726d61746976652e496e66474d4c537570706f7274, 0x476d6c537667506172616d65746572, 0x43494d31352e49454336313937302e496e666f726d61746976652e496e66474d4c537570706f72742e476d6c537667506172616d65746572),
  (0x43494d31352e49454336313937302e496e666f726d61746976652e496e66474d4c537570706f7274, 0x476d6c4c6162656c5374796c65, 0x43494d31352e49454336313937302e496e666f726d61746976652e496e66474d4c537570706f72742e476d6c4c6162656c5374796c65),
  (0x43494d31352e49454336313937302e496e666f726d61746976652e496e66474d4c537570706f7274, 0x476d6c46696c6c, 0x43494d31352e49454336313937302e496e666f726d61746976652e496e66474d4c537570706f72742e476d6c46696c6c),
  (0x43494d31352e49454336313937302e496e666f726d61746976652e496e66474d4c537570706f7274, 0x4469616772616d, 0x43494d31352e49454336313937302e496e666f726d61746976652e496e66474d4c537570706f72742e4469616772616d),
  (0x43494d31352e49454336313937302e496e666f726d61746976652e496e66474d4c537570706f7274, 0x476d6c53796d626f6c, 0x43494d31352e49454336313937302e496e666f726d61746976652e496e66474d4c537570706f72742e476d6c53796d626f6c),
  (0x43494d31352e49454336313937302e496e666f726d61746976652e496e66474d4c537570706f7274, 0x476d6c466561747572655374796c65, 0x43494d31352e49454336313937302e496e666f726d61746976652e496e66474d4c537570706f72742e476d6c466561747572655374796c65),
  (0x43494d31352e49454336313937302e496e666f726d61746976652e496e66474d4c537570706f7274, 0x476d6c52617374657253796d626f6c, 0x43494d31352e49454336313937302e496e666f726d61746976652e496e66474d4c537570706f72742e476d6c52617374657253796d626f6c),
  (0x43494d31352e49454336313937302e496e666f726d61746976652e496e664c6f6164436f6e74726f6c, 0x4c6f61644d676d745265636f7264, 0x43494d31352e49454336313937302e496e666f726d61746976652e496e664c6f6164436f6e74726f6c2e4c6f61644d676d745265636f7264),
  (0x43494d31352e49454336313937302e496e666f726d61746976652e496e664c6f6164436f6e74726f6c, 0x4c6f61645368656446756e6374696f6e, 0x43494d31352e49454336313937302e496e666f726d61746976652e496e664c6f6164436f6e74726f6c2e4c6f61645368656446756e6374696f6e),
  (0x43494d31352e49454336313937302e496e666f726d61746976652e496e664c6f6164436f6e74726f6c, 0x4c6f61644d676d7446756e6374696f6e, 0x43494d31352e49454336313937302e496e666f726d61746976652e496e664c6f6164436f6e74726f6c2e4c6f61644d676d7446756e6374696f6e),
  (0x43494d31352e49454336313937302e496e666f726d61746976652e496e664c6f6164436f6e74726f6c, 0x4c6f61644c696d697446756e6374696f6e, 0x43494d31352e49454336313937302e496e666f726d61746976652e496e664c6f6164436f6e74726f6c2e4c6f61644c696d697446756e6374696f6e),
  (0x43494d31352e49454336313937302e496e666f726d61746976652e496e664c6f636174696f6e73, 0x4c6f636174696f6e4772616e74, 0x43494d31352e49454336313937302e496e666f726d61746976652e496e664c6f636174696f6e732e4c6f636174696f6e4772616e74),
  (0x43494d31352e49454336313937302e496e666f726d61746976652e496e664c6f636174696f6e73, 0x52696768744f66576179, 0x43494d31352e49454336313937302e496e666f726d61746976652e496e664c6f636174696f6e732e52696768744f66576179),
  (0x43494d31352e49454336313937302e496e666f726d61746976652e496e664c6f636174696f6e73, 0x506572736f6e50726f7065727479526f6c65, 0x43494d31352e49454336313937302e496e666f726d61746976652e496e664c6f636174696f6e732e506572736f6e50726f7065727479526f6c65),
  (0x43494d31352e49454336313937302e496e666f726d61746976652e496e664c6f636174696f6e73, 0x5a6f6e65, 0x43494d31352e49454336313937302e496e666f726d61746976652e496e664c6f636174696f6e732e5a6f6e65),
  (0x43494d31352e49454336313937302e496e666f726d61746976652e496e664c6f636174696f6e73, 0x5265644c696e65, 0x43494d31352e49454336313937302e496e666f726d61746976652e496e664c6f636174696f6e732e5265644c696e65),
  (0x43494d31352e49454336313937302e496e666f726d61746976652e496e664c6f636174696f6e73, 0x526f757465, 0x43494d31352e49454336313937302e496e666f726d61746976652e496e664c6f636174696f6e732e526f757465),
  (0x43494d31352e49454336313937302e496e666f726d61746976652e496e664c6f636174696f6e73, 0x4f726750726f7065727479526f6c65, 0x43494d31352e49454336313937302e496e666f726d61746976652e496e664c6f636174696f6e732e4f726750726f7065727479526f6c65),
  (0x43494d31352e49454336313937302e496e666f726d61746976652e496e664c6f636174696f6e73, 0x446972656374696f6e, 0x43494d31352e49454336313937302e496e666f726d61746976652e496e664c6f636174696f6e732e446972656374696f6e),
  (0x43494d31352e49454336313937302e496e666f726d61746976652e496e664c6f636174696f6e73, 0x4c616e6450726f7065727479, 0x43494d31352e49454336313937302e496e666f726d61746976652e496e664c6f636174696f6e732e4c616e6450726f7065727479),
  (0x43494d31352e49454336313937302e496e666f726d61746976652e496e664c6f636174696f6e73, 0x48617a617264, 0x43494d31352e49454336313937302e496e666f726d61746976652e496e664c6f636174696f6e732e48617a617264),
  (0x43494d31352e49454336313937302e496e666f726d61746976652e496e664d65746572696e67, 0x4761734d65746572696e6746756e6374696f6e, 0x43494d31352e49454336313937302e496e666f726d61746976652e496e664d65746572696e672e4761734d65746572696e6746756e6374696f6e),
  (0x43494d31352e49454336313937302e496e666f726d61746976652e496e664d65746572696e67, 0x57617465724d65746572696e6746756e6374696f6e, 0x43494d31352e49454336313937302e496e666f726d61746976652e496e664d65746572696e672e57617465724d65746572696e6746756e6374696f6e),
  (0x43494d31352e49454336313937302e496e666f726d61746976652e496e664f7065726174696f6e73, 0x4f75746167655265636f7264, 0x43494d31352e49454336313937302e496e666f726d61746976652e496e664f7065726174696f6e732e4f75746167655265636f7264),
  (0x43494d31352e49454336313937302e496e666f726d61746976652e496e664f7065726174696f6e73, 0x4f75746167655265706f7274, 0x43494d31352e49454336313937302e496e666f726d61746976652e496e664f7065726174696f6e732e4f75746167655265706f7274),
  (0x43494d31352e49454336313937302e496e666f726d61746976652e496e664f7065726174696f6e73, 0x4368616e67654974656d, 0x43494d31352e49454336313937302e496e666f726d61746976652e496e664f7065726174696f6e732e4368616e67654974656d),
  (0x43494d31352e49454336313937302e496e666f726d61746976652e496e664f7065726174696f6e73, 0x5053524576656e74, 0x43494d31352e49454336313937302e496e666f726d61746976652e496e664f7065726174696f6e732e5053524576656e74),
  (0x43494d31352e49454336313937302e496e666f726d61746976652e496e664f7065726174696f6e73, 0x506c616e6e65644f7574616765, 0x43494d31352e49454336313937302e496e666f726d61746976652e496e664f7065726174696f6e732e506c616e6e65644f7574616765),
  (0x43494d31352e49454336313937302e496e666f726d61746976652e496e664f7065726174696f6e73, 0x4369726375697453656374696f6e, 0x43494d31352e49454336313937302e496e666f726d61746976652e496e664f7065726174696f6e732e4369726375697453656374696f6e),
  (0x43494d31352e49454336313937302e496e666f726d61746976652e496e664f7065726174696f6e73, 0x536166657479446f63756d656e74, 0x43494d31352e49454336313937302e496e666f726d61746976652e496e664f7065726174696f6e732e536166657479446f63756d656e74),
  (0x43494d31352e49454336313937302e496e666f726d61746976652e496e664f7065726174696f6e73, 0x4f7065726174696f6e616c5265737472696374696f6e, 0x43494d31352e49454336313937302e496e666f726d61746976652e496e664f7065726174696f6e732e4f7065726174696f6e616c5265737472696374696f6e),
  (0x43494d31352e49454336313937302e496e666f726d61746976652e496e664f7065726174696f6e73, 0x4368616e6765536574, 0x43494d31352e49454336313937302e496e666f726d61746976652e496e664f7065726174696f6e732e4368616e6765536574),
  (0x43494d31352e49454336313937302e496e666f726d61746976652e496e664f7065726174696f6e73, 0x537769746368696e675363686564756c65, 0x43494d31352e49454336313937302e496e666f726d61746976652e496e664f7065726174696f6e732e537769746368696e675363686564756c65),
  (0x43494d31352e49454336313937302e496e666f726d61746976652e496e664f7065726174696f6e73, 0x43697263756974, 0x43494d31352e49454336313937302e496e666f726d61746976652e496e664f7065726174696f6e732e43697263756974),
  (0x43494d31352e49454336313937302e496e666f726d61746976652e496e664f7065726174696f6e73, 0x4e6574776f726b44617461536574, 0x43494d31352e49454336313937302e496e666f726d61746976652e496e664f7065726174696f6e732e4e6574776f726b44617461536574),
  (0x43494d31352e49454336313937302e496e666f726d61746976652e496e664f7065726174696f6e73, 0x4f757461676553746570, 0x43494d31352e49454336313937302e496e666f726d61746976652e496e664f7065726174696f6e732e4f757461676553746570),
  (0x43494d31352e49454336313937302e496e666f726d61746976652e496e664f7065726174696f6e73, 0x4f7267507372526f6c65, 0x43494d31352e49454336313937302e496e666f726d61746976652e496e664f7065726174696f6e732e4f7267507372526f6c65),
  (0x43494d31352e49454336313937302e496e666f726d61746976652e496e664f7065726174696f6e73, 0x4f7574616765436f6465, 0x43494d31352e49454336313937302e496e666f726d61746976652e496e664f7065726174696f6e732e4f7574616765436f6465),
  (0x43494d31352e49454336313937302e496e666f726d61746976652e496e664f7065726174696f6e73, 0x496e636964656e74436f6465, 0x43494d31352e49454336313937302e496e666f726d61746976652e496e664f7065726174696f6e732e496e636964656e74436f6465),
  (0x43494d31352e49454336313937302e496e666f726d61746976652e496e664f7065726174696f6e73, 0x4c616e6442617365, 0x43494d31352e49454336313937302e496e666f726d61746976652e496e664f7065726174696f6e732e4c616e6442617365),
  (0x43494d31352e49454336313937302e496e666f726d61746976652e496e664f7065726174696f6e73, 0x457270506572736f6e5363686564756c6553746570526f6c65, 0x43494d31352e49454336313937302e496e666f726d61746976652e496e664f7065726174696f6e732e457270506572736f6e5363686564756c6553746570526f6c65),
  (0x43494d31352e49454336313937302e496e666f726d61746976652e496e664f7065726174696f6e73, 0x537769746368696e6753746570, 0x43494d31352e49454336313937302e496e666f726d61746976652e496e664f7065726174696f6e732e537769746368696e6753746570),
  (0x43494d31352e49454336313937302e496e666f726d61746976652e496e664f7065726174696f6e73, 0x43616c6c4261636b, 0x43494d31352e49454336313937302e496e666f726d61746976652e496e664f7065726174696f6e732e43616c6c4261636b),
  (0x43494d31352e49454336313937302e496e666f726d61746976652e496e664f7065726174696f6e73, 0x54726f75626c655469636b6574, 0x43494d31352e49454336313937302e496e666f726d61746976652e496e664f7065726174696f6e732e54726f75626c655469636b6574),
  (0x43494d31352e49454336313937302e496e666f726d61746976652e496e664f7065726174696f6e73, 0x496e636964656e745265636f7264, 0x43494d31352e49454336313937302e496e666f726d61746976652e496e664f7065726174696f6e732e496e636964656e745265636f7264),
  (0x43494d31352e49454336313937302e496e666f726d61746976652e496e664f7065726174696f6e73, 0x4f75746167654e6f74696669636174696f6e, 0x43494d31352e49454336313937302e496e666f726d61746976652e496e664f7065726174696f6e732e4f75746167654e6f74696669636174696f6e),
  (0x43494d31352e49454336313937302e496e666f726d61746976652e496e664f7065726174696f6e73, 0x4f757461676553746570507372526f6c65, 0x43494d31352e49454336313937302e496e666f726d61746976652e496e664f7065726174696f6e732e4f757461676553746570507372526f6c65),
  (0x43494d31352e49454336313937302e496e666f726d61746976652e496e66547970654173736574, 0x547970654173736574436174616c6f677565, 0x43494d31352e49454336313937302e496e666f726d61746976652e496e665479706541737365742e547970654173736574436174616c6f677565),
  (0x43494d31352e49454336313937302e496e666f726d61746976652e496e66547970654173736574, 0x47656e657261746f72547970654173736574, 0x43494d31352e49454336313937302e496e666f726d61746976652e496e665479706541737365742e47656e657261746f72547970654173736574),
  (0x43494d31352e49454336313937302e496e666f726d61746976652e496e66576f726b, 0x45717569706d656e744974656d, 0x43494d31352e49454336313937302e496e666f726d61746976652e496e66576f726b2e45717569706d656e744974656d),
  (0x43494d31352e49454336313937302e496e666f726d61746976652e496e66576f726b, 0x4170706f696e746d656e74, 0x43494d31352e49454336313937302e496e666f726d61746976652e496e66576f726b2e4170706f696e746d656e74),
  (0x43494d31352e49454336313937302e496e666f726d61746976652e496e66576f726b, 0x576f726b537461747573456e747279, 0x43494d31352e49454336313937302e496e666f726d61746976652e496e66576f726b2e576f726b537461747573456e747279),
  (0x43494d31352e49454336313937302e496e666f726d61746976652e496e66576f726b, 0x427573696e65737343617365, 0x43494d31352e49454336313937302e496e666f726d61746976652e496e66576f726b2e427573696e65737343617365),
  (0x43494d31352e49454336313937302e496e666f726d61746976652e496e66576f726b, 0x547970654d6174657269616c, 0x43494d31352e49454336313937302e496e666f726d61746976652e496e66576f726b2e547970654d6174657269616c),
  (0x43494d31352e49454336313937302e496e666f726d61746976652e496e66576f726b, 0x44657369676e4c6f636174696f6e, 0x43494d31352e49454336313937302e496e666f726d61746976652e496e66576f726b2e44657369676e4c6f636174696f6e),
  (0x43494d31352e49454336313937302e496e666f726d61746976652e496e66576f726b, 0x4f76657268656164436f7374, 0x43494d31352e49454336313937302e496e666f726d61746976652e496e66576f726b2e4f76657268656164436f7374),
  (0x43494d31352e49454336313937302e496e666f726d61746976652e496e66576f726b, 0x43726577, 0x43494d31352e49454336313937302e496e666f726d61746976652e496e66576f726b2e43726577),
  (0x43494d31352e49454336313937302e496e666f726d61746976652e496e66576f726b, 0x446961676e6f73697344617461536574, 0x43494d31352e49454336313937302e496e666f726d61746976652e496e66576f726b2e446961676e6f73697344617461536574),
  (0x43494d31352e49454336313937302e496e666f726d61746976652e496e66576f726b, 0x43554173736574, 0x43494d31352e49454336313937302e496e666f726d61746976652e496e66576f726b2e43554173736574),
  (0x43494d31352e49454336313937302e496e666f726d61746976652e496e66576f726b, 0x52657175657374, 0x43494d31352e49454336313937302e496e666f726d61746976652e496e66576f726b2e52657175657374),
  (0x43494d31352e49454336313937302e496e666f726d61746976652e496e66576f726b, 0x44657369676e, 0x43494d31352e49454336313937302e496e666f726d61746976652e496e66576f726b2e44657369676e),
  (0x43494d31352e49454336313937302e496e666f726d61746976652e496e66576f726b, 0x576f726b5461736b, 0x43494d31352e49454336313937302e496e666f726d61746976652e496e66576f726b2e576f726b5461736b),
  (0x43494d31352e49454336313937302e496e666f726d61746976652e496e66576f726b, 0x436f6e646974696f6e466163746f72, 0x43494d31352e49454336313937302e496e666f726d61746976652e496e66576f726b2e436f6e646974696f6e466163746f72),
  (0x43494d31352e49454336313937302e496e666f726d61746976652e496e66576f726b, 0x5175616c696669636174696f6e526571756972656d656e74, 0x43494d31352e49454336313937302e496e666f726d61746976652e496e66576f726b2e5175616c696669636174696f6e526571756972656d656e74),
  (0x43494d31352e49454336313937302e496e666f726d61746976652e496e66576f726b, 0x576f726b4c6f636174696f6e, 0x43494d31352e49454336313937302e496e666f726d61746976652e496e66576f726b2e576f726b4c6f636174696f6e),
  (0x43494d31352e49454336313937302e496e666f726d61746976652e496e66576f726b, 0x436f737454797065, 0x43494d31352e49454336313937302e496e666f726d61746976652e496e66576f726b2e436f737454797065),
  (0x43494d31352e49454336313937302e496e666f726d61746976652e496e66576f726b, 0x43554d6174657269616c4974656d, 0x43494d31352e49454336313937302e496e666f726d61746976652e496e66576f726b2e43554d6174657269616c4974656d),
  (0x43494d31352e49454336313937302e496e666f726d61746976652e496e66576f726b, 0x50726f7065727479556e6974, 0x43494d31352e49454336313937302e496e666f726d61746976652e496e66576f726b2e50726f7065727479556e6974),
  (0x43494d31352e49454336313937302e496e666f726d61746976652e496e66576f726b, 0x50726f6a656374, 0x43494d31352e49454336313937302e496e666f726d61746976652e496e66576f726b2e50726f6a656374),
  (0x43494d31352e49454336313937302e496e666f726d61746976652e496e66576f726b, 0x43554c61626f724974656d, 0x43494d31352e49454336313937302e496e666f726d61746976652e496e66576f726b2e43554c61626f724974656d),
  (0x43494d31352e49454336313937302e496e666f726d61746976652e496e66576f726b, 0x4c61626f724974656d, 0x43494d31352e49454336313937302e496e666f726d61746976652e496e66576f726b2e4c61626f724974656d),
  (0x43494d31352e49454336313937302e496e666f726d61746976652e496e66576f726b, 0x576f726b466c6f7753746570, 0x43494d31352e49454336313937302e496e666f726d61746976652e496e66576f726b2e576f726b466c6f7753746570),
  (0x43494d31352e49454336313937302e496e666f726d61746976652e496e66576f726b, 0x496e7370656374696f6e44617461536574, 0x43494d31352e49454336313937302e496e666f726d61746976652e496e66576f726b2e496e7370656374696f6e44617461536574),
  (0x43494d31352e49454336313937302e496e666f726d61746976652e496e66576f726b, 0x576f726b436f737444657461696c, 0x43494d31352e49454336313937302e496e666f726d61746976652e496e66576f726b2e576f726b436f737444657461696c),
  (0x43494d31352e49454336313937302e496e666f726d61746976652e496e66576f726b, 0x436f6d70617469626c65556e6974, 0x43494d31352e49454336313937302e496e666f726d61746976652e496e66576f726b2e436f6d70617469626c65556e6974),
  (0x43494d31352e49454336313937302e496e666f726d61746976652e496e66576f726b, 0x576f726b436f737453756d6d617279, 0x43494d31352e49454336313937302e496e666f726d61746976652e496e66576f726b2e576f726b436f737453756d6d617279),
  (0x43494d31352e49454336313937302e496e666f726d61746976652e496e66576f726b, 0x4e6f6e5374616e646172644974656d, 0x43494d31352e49454336313937302e496e666f726d61746976652e496e66576f726b2e4e6f6e5374616e646172644974656d),
  (0x43494d31352e49454336313937302e496e666f726d61746976652e496e66576f726b, 0x496e666f5175657374696f6e, 0x43494d31352e49454336313937302e496e666f726d61746976652e496e66576f726b2e496e666f5175657374696f6e),
  (0x43494d31352e49454336313937302e496e666f726d61746976652e496e66576f726b, 0x526567756c6174696f6e, 0x43494d31352e49454336313937302e496e666f726d61746976652e496e66576f726b2e526567756c6174696f6e),
  (0x43494d31352e49454336313937302e496e666f726d61746976652e496e66576f726b, 0x436f6e74726163746f724974656d, 0x43494d31352e49454336313937302e496e666f726d61746976652e496e66576f726b2e436f6e74726163746f724974656d),
  (0x43494d31352e49454336313937302e496e666f726d61746976652e496e66576f726b, 0x4355416c6c6f7761626c65416374696f6e, 0x43494d31352e49454336313937302e496e666f726d61746976652e496e66576f726b2e4355416c6c6f7761626c65416374696f6e),
  (0x43494d31352e49454336313937302e496e666f726d61746976652e496e66576f726b, 0x43554c61626f72436f6465, 0x43494d31352e49454336313937302e496e666f726d61746976652e496e66576f726b2e43554c61626f72436f6465),
  (0x43494d31352e49454336313937302e496e666f726d61746976652e496e66576f726b, 0x4163636573735065726d6974, 0x43494d31352e49454336313937302e496e666f726d61746976652e496e66576f726b2e4163636573735065726d6974),
  (0x43494d31352e49454336313937302e496e666f726d61746976652e496e66576f726b, 0x4355576f726b45717569706d656e744974656d, 0x43494d31352e49454336313937302e496e666f726d61746976652e496e66576f726b2e4355576f726b45717569706d656e744974656d),
  (0x43494d31352e49454336313937302e496e666f726d61746976652e496e66576f726b, 0x44657369676e4c6f636174696f6e4355, 0x43494d31352e49454336313937302e496e666f726d61746976652e496e66576f726b2e44657369676e4c6f636174696f6e4355),
  (0x43494d31352e49454336313937302e496e666f726d61746976652e496e66576f726b, 0x4d61696e74656e616e636544617461536574, 0x43494d31352e49454336313937302e496e666f726d61746976652e496e66576f726b2e4d61696e74656e616e636544617461536574),
  (0x43494d31352e49454336313937302e496e666f726d61746976652e496e66576f726b, 0x4d697363436f73744974656d, 0x43494d31352e49454336313937302e496e666f726d61746976652e496e66576f726b2e4d697363436f73744974656d),
  (0x43494d31352e49454336313937302e496e666f726d61746976652e496e66576f726b, 0x4d6174657269616c4974656d, 0x43494d31352e49454336313937302e496e666f726d61746976652e496e66576f726b2e4d6174657269616c4974656d),
  (0x43494d31352e49454336313937302e496e666f726d61746976652e496e66576f726b, 0x53686966745061747465726e, 0x43494d31352e49454336313937302e496e666f726d61746976652e496e66576f726b2e53686966745061747465726e),
  (0x43494d31352e49454336313937302e496e666f726d61746976652e496e66576f726b, 0x4361706162696c697479, 0x43494d31352e49454336313937302e496e666f726d61746976652e496e66576f726b2e4361706162696c697479),
  (0x43494d31352e49454336313937302e496e666f726d61746976652e496e66576f726b, 0x5573616765, 0x43494d31352e49454336313937302e496e666f726d61746976652e496e66576f726b2e5573616765),
  (0x43494d31352e49454336313937302e496e666f726d61746976652e496e66576f726b, 0x4f6e6543616c6c52657175657374, 0x43494d31352e49454336313937302e496e666f726d61746976652e496e66576f726b2e4f6e6543616c6c52657175657374),
  (0x43494d31352e49454336313937302e496e666f726d61746976652e496e66576f726b, 0x41737369676e6d656e74, 0x43494d31352e49454336313937302e496e666f726d61746976652e496e66576f726b2e41737369676e6d656e74),
  (0x43494d31352e49454336313937302e496e666f726d61746976652e496e66576f726b, 0x4355436f6e74726163746f724974656d, 0x43494d31352e49454336313937302e496e666f726d61746976652e496e66576f726b2e4355436f6e74726163746f724974656d),
  (0x43494d31352e49454336313937302e496e666f726d61746976652e496e66576f726b, 0x435547726f7570, 0x43494d31352e49454336313937302e496e666f726d61746976652e496e66576f726b2e435547726f7570),
  (0x43494d31352e49454336313937302e4c6f61644d6f64656c, 0x436f6e666f726d4c6f6164, 0x43494d31352e49454336313937302e4c6f61644d6f64656c2e436f6e666f726d4c6f6164),
  (0x43494d31352e49454336313937302e4c6f61644d6f64656c, 0x436f6e666f726d4c6f616447726f7570, 0x43494d31352e49454336313937302e4c6f61644d6f64656c2e436f6e666f726d4c6f616447726f7570),
  (0x43494d31352e49454336313937302e4c6f61644d6f64656c, 0x536561736f6e446179547970655363686564756c65, 0x43494d31352e49454336313937302e4c6f61644d6f64656c2e536561736f6e446179547970655363686564756c65),
  (0x43494d31352e49454336313937302e4c6f61644d6f64656c, 0x4c6f616447726f7570, 0x43494d31352e49454336313937302e4c6f61644d6f64656c2e4c6f616447726f7570),
  (0x43494d31352e49454336313937302e4c6f61644d6f64656c, 0x436f6e666f726d4c6f61645363686564756c65, 0x43494d31352e49454336313937302e4c6f61644d6f64656c2e436f6e666f726d4c6f61645363686564756c65),
  (0x43494d31352e49454336313937302e4c6f61644d6f64656c, 0x4c6f616441726561, 0x43494d31352e49454336313937302e4c6f61644d6f64656c2e4c6f616441726561),
  (0x43494d31352e49454336313937302e4c6f61644d6f64656c, 0x506f7765724375745a6f6e65, 0x43494d31352e49454336313937302e4c6f61644d6f64656c2e506f7765724375745a6f6e65),
  (0x43494d31352e49454336313937302e4c6f61644d6f64656c, 0x4c6f6164526573706f6e73654368617261637465726973746963, 0x43494d31352e49454336313937302e4c6f61644d6f64656c2e4c6f6164526573706f6e73654368617261637465726973746963),
  (0x43494d31352e49454336313937302e4c6f61644d6f64656c, 0x4e6f6e436f6e666f726d4c6f6164, 0x43494d31352e49454336313937302e4c6f61644d6f64656c2e4e6f6e436f6e666f726d4c6f6164),
  (0x43494d31352e49454336313937302e4c6f61644d6f64656c, 0x53746174696f6e537570706c79, 0x43494d31352e49454336313937302e4c6f61644d6f64656c2e53746174696f6e537570706c79),
  (0x43494d31352e49454336313937302e4c6f61644d6f64656c, 0x456e6572677941726561, 0x43494d31352e49454336313937302e4c6f61644d6f64656c2e456e6572677941726561),
  (0x43494d31352e49454336313937302e4c6f61644d6f64656c, 0x4e6f6e436f6e666f726d4c6f61645363686564756c65, 0x43494d31352e49454336313937302e4c6f61644d6f64656c2e4e6f6e436f6e666f726d4c6f61645363686564756c65),
  (0x43494d31352e49454336313937302e4c6f61644d6f64656c, 0x4e6f6e436f6e666f726d4c6f616447726f7570, 0x43494d31352e49454336313937302e4c6f61644d6f64656c2e4e6f6e436f6e666f726d4c6f616447726f7570),
  (0x43494d31352e49454336313937302e4c6f61644d6f64656c, 0x44617954797065, 0x43494d31352e49454336313937302e4c6f61644d6f64656c2e44617954797065),
  (0x43494d31352e49454336313937302e4c6f61644d6f64656c, 0x5375624c6f616441726561, 0x43494d31352e49454336313937302e4c6f61644d6f64656c2e5375624c6f616441726561),
  (0x43494d31352e49454336313937302e4c6f61644d6f64656c, 0x536561736f6e, 0x43494d31352e49454336313937302e4c6f61644d6f64656c2e536561736f6e),
  (0x43494d31352e49454336313937302e4d656173, 0x416363756d756c61746f724c696d6974, 0x43494d31352e49454336313937302e4d6561732e416363756d756c61746f724c696d6974),
  (0x43494d31352e49454336313937302e4d656173, 0x56616c7565546f416c696173, 0x43494d31352e49454336313937302e4d6561732e56616c7565546f416c696173),
  (0x43494d31352e49454336313937302e4d656173, 0x4d6561737572656d656e7456616c7565536f75726365, 0x43494d31352e49454336313937302e4d6561732e4d6561737572656d656e7456616c7565536f75726365),
  (0x43494d31352e49454336313937302e4d656173, 0x416e616c6f67, 0x43494d31352e49454336313937302e4d6561732e416e616c6f67),
  (0x43494d31352e49454336313937302e4d656173, 0x416e616c6f6756616c7565, 0x43494d31352e49454336313937302e4d6561732e416e616c6f6756616c7565),
  (0x43494d31352e49454336313937302e4d656173, 0x4d6561737572656d656e74, 0x43494d31352e49454336313937302e4d6561732e4d6561737572656d656e74),
  (0x43494d31352e49454336313937302e4d656173, 0x436f6e74726f6c54797065, 0x43494d31352e49454336313937302e4d6561732e436f6e74726f6c54797065),
  (0x43494d31352e49454336313937302e4d656173, 0x537472696e674d6561737572656d656e7456616c7565, 0x43494d31352e49454336313937302e4d6561732e537472696e674d6561737572656d656e7456616c7565),
  (0x43494d31352e49454336313937302e4d656173, 0x537472696e674d6561737572656d656e74, 0x43494d31352e49454336313937302e4d6561732e537472696e674d6561737572656d656e74),
  (0x43494d31352e49454336313937302e4d656173, 0x416e616c6f674c696d6974, 0x43494d31352e49454336313937302e4d6561732e416e616c6f674c696d6974),
  (0x43494d31352e49454336313937302e4d656173, 0x536574506f696e74, 0x43494d31352e49454336313937302e4d6561732e536574506f696e74),
  (0x43494d31352e49454336313937302e4d656173, 0x4c696d6974, 0x43494d31352e49454336313937302e4d6561732e4c696d6974),
  (0x43494d31352e49454336313937302e4d656173, 0x4469736372657465, 0x43494d31352e49454336313937302e4d6561732e4469736372657465),
  (0x43494d31352e49454336313937302e4d656173, 0x56616c7565416c696173536574, 0x43494d31352e49454336313937302e4d6561732e56616c7565416c696173536574),
  (0x43494d31352e49454336313937302e4d656173, 0x5175616c6974793631383530, 0x43494d31352e49454336313937302e4d6561732e5175616c6974793631383530),
  (0x43494d31352e49454336313937302e4d656173, 0x416363756d756c61746f7256616c7565, 0x43494d31352e49454336313937302e4d6561732e416363756d756c61746f7256616c7565),
  (0x43494d31352e49454336313937302e4d656173, 0x436f6d6d616e64, 0x43494d31352e49454336313937302e4d6561732e436f6d6d616e64),
  (0x43494d31352e49454336313937302e4d656173, 0x416363756d756c61746f72, 0x43494d31352e49454336313937302e4d6561732e416363756d756c61746f72),
  (0x43494d31352e49454336313937302e4d656173, 0x4d6561737572656d656e7456616c75655175616c697479, 0x43494d31352e49454336313937302e4d6561732e4d6561737572656d656e7456616c75655175616c697479),
  (0x43494d31352e49454336313937302e4d656173, 0x4d6561737572656d656e7456616c7565, 0x43494d31352e49454336313937302e4d6561732e4d6561737572656d656e7456616c7565),
  (0x43494d31352e49454336313937302e4d656173, 0x446973637265746556616c7565, 0x43494d31352e49454336313937302e4d6561732e446973637265746556616c7565),
  (0x43494d31352e49454336313937302e4d656173, 0x416e616c6f674c696d6974536574, 0x43494d31352e49454336313937302e4d6561732e416e616c6f674c696d6974536574),
  (0x43494d31352e49454336313937302e4d656173, 0x4c696d6974536574, 0x43494d31352e49454336313937302e4d6561732e4c696d6974536574),
  (0x43494d31352e49454336313937302e4d656173, 0x416363756d756c61746f724c696d6974536574, 0x43494d31352e49454336313937302e4d6561732e416363756d756c61746f724c696d6974536574),
  (0x43494d31352e49454336313937302e4d656173, 0x436f6e74726f6c, 0x43494d31352e49454336313937302e4d6561732e436f6e74726f6c),
  (0x43494d31352e49454336313937302e4f7065726174696f6e616c4c696d697473, 0x4170706172656e74506f7765724c696d6974, 0x43494d31352e49454336313937302e4f7065726174696f6e616c4c696d6974732e4170706172656e74506f7765724c696d6974),
  (0x43494d31352e49454336313937302e4f7065726174696f6e616c4c696d697473, 0x416374697665506f7765724c696d6974, 0x43494d31352e49454336313937302e4f7065726174696f6e616c4c696d6974732e416374697665506f7765724c696d6974),
  (0x43494d31352e49454336313937302e4f7065726174696f6e616c4c696d697473, 0x4f7065726174696f6e616c4c696d697454797065, 0x43494d31352e49454336313937302e4f7065726174696f6e616c4c696d6974732e4f7065726174696f6e616c4c696d697454797065),
  (0x43494d31352e49454336313937302e4f7065726174696f6e616c4c696d697473, 0x4272616e636847726f7570, 0x43494d31352e49454336313937302e4f7065726174696f6e616c4c696d6974732e4272616e636847726f7570),
  (0x43494d31352e49454336313937302e4f7065726174696f6e616c4c696d697473, 0x4f7065726174696f6e616c4c696d6974536574, 0x43494d31352e49454336313937302e4f7065726174696f6e616c4c696d6974732e4f7065726174696f6e616c4c696d6974536574),
  (0x43494d31352e49454336313937302e4f7065726174696f6e616c4c696d697473, 0x416374697665506f7765724c696d6974536574, 0x43494d31352e49454336313937302e4f7065726174696f6e616c4c696d6974732e416374697665506f7765724c696d6974536574),
  (0x43494d31352e49454336313937302e4f7065726174696f6e616c4c696d697473, 0x43757272656e744c696d6974, 0x43494d31352e49454336313937302e4f7065726174696f6e616c4c696d6974732e43757272656e744c696d6974),
  (0x43494d31352e49454336313937302e4f7065726174696f6e616c4c696d697473, 0x43757272656e744c696d6974536574, 0x43494d31352e49454336313937302e4f7065726174696f6e616c4c696d6974732e43757272656e744c696d6974536574),
  (0x43494d31352e49454336313937302e4f7065726174696f6e616c4c696d697473, 0x4170706172656e74506f7765724c696d6974536574, 0x43494d31352e49454336313937302e4f7065726174696f6e616c4c696d6974732e4170706172656e74506f7765724c696d6974536574),
  (0x43494d31352e49454336313937302e4f7065726174696f6e616c4c696d697473, 0x4272616e636847726f75705465726d696e616c, 0x43494d31352e49454336313937302e4f7065726174696f6e616c4c696d6974732e4272616e636847726f75705465726d696e616c),
  (0x43494d31352e49454336313937302e4f7065726174696f6e616c4c696d697473, 0x566f6c746167654c696d6974536574, 0x43494d31352e49454336313937302e4f7065726174696f6e616c4c696d6974732e566f6c746167654c696d6974536574),
  (0x43494d31352e49454336313937302e4f7065726174696f6e616c4c696d697473, 0x566f6c746167654c696d6974, 0x43494d31352e49454336313937302e4f7065726174696f6e616c4c696d6974732e566f6c746167654c696d6974),
  (0x43494d31352e49454336313937302e4f7065726174696f6e616c4c696d697473, 0x4f7065726174696f6e616c4c696d6974, 0x43494d31352e49454336313937302e4f7065726174696f6e616c4c696d6974732e4f7065726174696f6e616c4c696d6974),
  (0x43494d31352e49454336313937302e4f7065726174696f6e616c4c696d697473, 0x436865636b506f696e74, 0x43494d31352e49454336313937302e4f7065726174696f6e616c4c696d6974732e436865636b506f696e74),
  (0x43494d31352e49454336313937302e4f7065726174696f6e616c4c696d697473, 0x566f6c74616765436865636b506f696e74, 0x43494d31352e49454336313937302e4f7065726174696f6e616c4c696d6974732e566f6c74616765436865636b506f696e74),
  (0x43494d31352e49454336313937302e4f7065726174696f6e616c4c696d697473, 0x566f6c7461676554696d654375727665, 0x43494d31352e49454336313937302e4f7065726174696f6e616c4c696d6974732e566f6c7461676554696d654375727665),
  (0x43494d31352e49454336313937302e4f7574616765, 0x537769746368696e674f7065726174696f6e, 0x43494d31352e49454336313937302e4f75746167652e537769746368696e674f7065726174696f6e),
  (0x43494d31352e49454336313937302e4f7574616765, 0x4f75746167655363686564756c65, 0x43494d31352e49454336313937302e4f75746167652e4f75746167655363686564756c65),
  (0x43494d31352e49454336313937302e4f7574616765, 0x436c656172616e636554616754797065, 0x43494d31352e49454336313937302e4f75746167652e436c656172616e636554616754797065),
  (0x43494d31352e49454336313937302e4f7574616765, 0x436c656172616e6365546167, 0x43494d31352e49454336313937302e4f75746167652e436c656172616e6365546167),
  (0x43494d31352e49454336313937302e50726f74656374696f6e, 0x5265636c6f736553657175656e6365, 0x43494d31352e49454336313937302e50726f74656374696f6e2e5265636c6f736553657175656e6365),
  (0x43494d31352e49454336313937302e50726f74656374696f6e, 0x53796e6368726f636865636b52656c6179, 0x43494d31352e49454336313937302e50726f74656374696f6e2e53796e6368726f636865636b52656c6179),
  (0x43494d31352e49454336313937302e50726f74656374696f6e, 0x43757272656e7452656c6179, 0x43494d31352e49454336313937302e50726f74656374696f6e2e43757272656e7452656c6179),
  (0x43494d31352e49454336313937302e50726f74656374696f6e, 0x50726f74656374696f6e45717569706d656e74, 0x43494d31352e49454336313937302e50726f74656374696f6e2e50726f74656374696f6e45717569706d656e74),
  (0x43494d31352e49454336313937302e5343414441, 0x52656d6f7465536f75726365, 0x43494d31352e49454336313937302e53434144412e52656d6f7465536f75726365),
  (0x43494d31352e49454336313937302e5343414441, 0x52656d6f7465506f696e74, 0x43494d31352e49454336313937302e53434144412e52656d6f7465506f696e74),
  (0x43494d31352e49454336313937302e5343414441, 0x52656d6f7465556e6974, 0x43494d31352e49454336313937302e53434144412e52656d6f7465556e6974),
  (0x43494d31352e49454336313937302e5343414441, 0x52656d6f7465436f6e74726f6c, 0x43494d31352e49454336313937302e53434144412e52656d6f7465436f6e74726f6c),
  (0x43494d31352e49454336313937302e5343414441, 0x436f6d6d756e69636174696f6e4c696e6b, 0x43494d31352e49454336313937302e53434144412e436f6d6d756e69636174696f6e4c696e6b),
  (0x43494d31352e49454336313937302e53746174655661726961626c6573, 0x5376566f6c74616765, 0x43494d31352e49454336313937302e53746174655661726961626c65732e5376566f6c74616765),
  (0x43494d31352e49454336313937302e53746174655661726961626c6573, 0x537653686f727443697263756974, 0x43494d31352e49454336313937302e53746174655661726961626c65732e537653686f727443697263756974),
  (0x43494d31352e49454336313937302e53746174655661726961626c6573, 0x53765368756e74436f6d70656e7361746f7253656374696f6e73, 0x43494d31352e49454336313937302e53746174655661726961626c65732e53765368756e74436f6d70656e7361746f7253656374696f6e73),
  (0x43494d31352e49454336313937302e53746174655661726961626c6573, 0x53746174655661726961626c65, 0x43494d31352e49454336313937302e53746174655661726961626c65732e53746174655661726961626c65),
  (0x43494d31352e49454336313937302e53746174655661726961626c6573, 0x537654617053746570, 0x43494d31352e49454336313937302e53746174655661726961626c65732e537654617053746570),
  (0x43494d31352e49454336313937302e53746174655661726961626c6573, 0x5376537461747573, 0x43494d31352e49454336313937302e53746174655661726961626c65732e5376537461747573),
  (0x43494d31352e49454336313937302e53746174655661726961626c6573, 0x5376496e6a656374696f6e, 0x43494d31352e49454336313937302e53746174655661726961626c65732e5376496e6a656374696f6e),
  (0x43494d31352e49454336313937302e53746174655661726961626c6573, 0x5376506f776572466c6f77, 0x43494d31352e49454336313937302e53746174655661726961626c65732e5376506f776572466c6f77),
  (0x43494d31352e49454336313937302e53746174655661726961626c6573, 0x546f706f6c6f676963616c49736c616e64, 0x43494d31352e49454336313937302e53746174655661726961626c65732e546f706f6c6f676963616c49736c616e64),
  (0x43494d31352e49454336313937302e546f706f6c6f6779, 0x4275734e616d654d61726b6572, 0x43494d31352e49454336313937302e546f706f6c6f67792e4275734e616d654d61726b6572),
  (0x43494d31352e49454336313937302e546f706f6c6f6779, 0x546f706f6c6f676963616c4e6f6465, 0x43494d31352e49454336313937302e546f706f6c6f67792e546f706f6c6f676963616c4e6f6465),
  (0x43494d31352e49454336313937302e5769726573, 0x5068617365496d706564616e636544617461, 0x43494d31352e49454336313937302e57697265732e5068617365496d706564616e636544617461),
  (0x43494d31352e49454336313937302e5769726573, 0x5461705363686564756c65, 0x43494d31352e49454336313937302e57697265732e5461705363686564756c65),
  (0x43494d31352e49454336313937302e5769726573, 0x5472616e73666f726d657253746172496d706564616e6365, 0x43494d31352e49454336313937302e57697265732e5472616e73666f726d657253746172496d706564616e6365),
  (0x43494d31352e49454336313937302e5769726573, 0x5265636c6f736572, 0x43494d31352e49454336313937302e57697265732e5265636c6f736572),
  (0x43494d31352e49454336313937302e5769726573, 0x526174696f5461704368616e676572546162756c6172506f696e74, 0x43494d31352e49454336313937302e57697265732e526174696f5461704368616e676572546162756c6172506f696e74),
  (0x43494d31352e49454336313937302e5769726573, 0x50686173655461704368616e676572546162756c6172, 0x43494d31352e49454336313937302e57697265732e50686173655461704368616e676572546162756c6172),
  (0x43494d31352e49454336313937302e5769726573, 0x526174696f5461704368616e676572, 0x43494d31352e49454336313937302e57697265732e526174696f5461704368616e676572),
  (0x43494d31352e49454336313937302e5769726573, 0x50686173655461704368616e6765724c696e656172, 0x43494d31352e49454336313937302e57697265732e50686173655461704368616e6765724c696e656172),
  (0x43494d31352e49454336313937302e5769726573, 0x41434c696e655365676d656e74, 0x43494d31352e49454336313937302e57697265732e41434c696e655365676d656e74),
  (0x43494d31352e49454336313937302e5769726573, 0x506f7765725472616e73666f726d6572456e64, 0x43494d31352e49454336313937302e57697265732e506f7765725472616e73666f726d6572456e64),
  (0x43494d31352e49454336313937302e5769726573, 0x4a756e6374696f6e, 0x43494d31352e49454336313937302e57697265732e4a756e6374696f6e),
  (0x43494d31352e49454336313937302e5769726573, 0x526567756c6174696e67436f6e644571, 0x43494d31352e49454336313937302e57697265732e526567756c6174696e67436f6e644571),
  (0x43494d31352e49454336313937302e5769726573, 0x53656374696f6e616c69736572, 0x43494d31352e49454336313937302e57697265732e53656374696f6e616c69736572),
  (0x43494d31352e49454336313937302e5769726573, 0x526174696f5461704368616e676572546162756c6172, 0x43494d31352e49454336313937302e57697265732e526174696f5461704368616e676572546162756c6172),
  (0x43494d31352e49454336313937302e5769726573, 0x506f7765725472616e73666f726d6572, 0x43494d31352e49454336313937302e57697265732e506f7765725472616e73666f726d6572),
  (0x43494d31352e49454336313937302e5769726573, 0x46757365, 0x43494d31352e49454336313937302e57697265732e46757365),
  (0x43494d31352e49454336313937302e5769726573, 0x456e65726779436f6e73756d6572, 0x43494d31352e49454336313937302e57697265732e456e65726779436f6e73756d6572),
  (0x43494d31352e49454336313937302e5769726573, 0x446973636f6e6e6563746f72, 0x43494d31352e49454336313937302e57697265732e446973636f6e6e6563746f72),
  (0x43494d31352e49454336313937302e5769726573, 0x436f6e6e6563746f72, 0x43494d31352e49454336313937302e57697265732e436f6e6e6563746f72),
  (0x43494d31352e49454336313937302e5769726573, 0x52656163746976654361706162696c6974794375727665, 0x43494d31352e49454336313937302e57697265732e52656163746976654361706162696c6974794375727665),
  (0x43494d31352e49454336313937302e5769726573, 0x43757272656e7454656d70657261747572654375727665, 0x43494d31352e49454336313937302e57697265732e43757272656e7454656d70657261747572654375727665),
  (0x43494d31352e49454336313937302e5769726573, 0x506c616e74, 0x43494d31352e49454336313937302e57697265732e506c616e74),
  (0x43494d31352e49454336313937302e5769726573, 0x47726f756e64446973636f6e6e6563746f72, 0x43494d31352e49454336313937302e57697265732e47726f756e64446973636f6e6e6563746f72),
  (0x43494d31352e49454336313937302e5769726573, 0x5265736973746f72, 0x43494d31352e49454336313937302e57697265732e5265736973746f72),
  (0x43494d31352e49454336313937302e5769726573, 0x53796e6368726f6e6f75734d616368696e65, 0x43494d31352e49454336313937302e57697265732e53796e6368726f6e6f75734d616368696e65),
  (0x43494d31352e49454336313937302e5769726573, 0x50686173655461704368616e6765724173796d6574726963616c, 0x43494d31352e49454336313937302e57697265732e50686173655461704368616e6765724173796d6574726963616c),
  (0x43494d31352e49454336313937302e5769726573, 0x526563746966696572496e766572746572, 0x43494d31352e49454336313937302e57697265732e526563746966696572496e766572746572),
  (0x43494d31352e49454336313937302e5769726573, 0x536572696573436f6d70656e7361746f72, 0x43494d31352e49454336313937302e57697265732e536572696573436f6d70656e7361746f72),
  (0x43494d31352e49454336313937302e5769726573, 0x5461704368616e676572436f6e74726f6c, 0x43494d31352e49454336313937302e57697265732e5461704368616e676572436f6e74726f6c),
  (0x43494d31352e49454336313937302e5769726573, 0x526567756c6174696e67436f6e74726f6c, 0x43494d31352e49454336313937302e57697265732e526567756c6174696e67436f6e74726f6c),
  (0x43494d31352e49454336313937302e5769726573, 0x50726f746563746564537769746368, 0x43494d31352e49454336313937302e57697265732e50726f746563746564537769746368),
  (0x43494d31352e49454336313937302e5769726573, 0x50686173655461704368616e676572, 0x43494d31352e49454336313937302e57697265732e50686173655461704368616e676572),
  (0x43494d31352e49454336313937302e5769726573, 0x47726f756e64, 0x43494d31352e49454336313937302e57697265732e47726f756e64),
  (0x43494d31352e49454336313937302e5769726573, 0x436f6d706f73697465537769746368, 0x43494d31352e49454336313937302e57697265732e436f6d706f73697465537769746368),
  (0x43494d31352e49454336313937302e5769726573, 0x526567756c6174696f6e5363686564756c65, 0x43494d31352e49454336313937302e57697265732e526567756c6174696f6e5363686564756c65),
  (0x43494d31352e49454336313937302e5769726573, 0x5472616e73666f726d657254616e6b456e64, 0x43494d31352e49454336313937302e57697265732e5472616e73666f726d657254616e6b456e64),
  (0x43494d31352e49454336313937302e5769726573, 0x427265616b6572, 0x43494d31352e49454336313937302e57697265732e427265616b6572),
  (0x43494d31352e49454336313937302e5769726573, 0x4d757475616c436f75706c696e67, 0x43494d31352e49454336313937302e57697265732e4d757475616c436f75706c696e67),
  (0x43494d31352e49454336313937302e5769726573, 0x4c696e65, 0x43494d31352e49454336313937302e57697265732e4c696e65),
  (0x43494d31352e49454336313937302e5769726573, 0x5065724c656e6774685068617365496d706564616e6365, 0x43494d31352e49454336313937302e57697265732e5065724c656e6774685068617365496d706564616e6365),
  (0x43494d31352e49454336313937302e5769726573, 0x4672657175656e6379436f6e766572746572, 0x43494d31352e49454336313937302e57697265732e4672657175656e6379436f6e766572746572),
  (0x43494d31352e49454336313937302e5769726573, 0x5368756e74436f6d70656e7361746f72, 0x43494d31352e49454336313937302e57697265732e5368756e74436f6d70656e7361746f72),
  (0x43494d31352e49454336313937302e5769726573, 0x566f6c74616765436f6e74726f6c5a6f6e65, 0x43494d31352e49454336313937302e57697265732e566f6c74616765436f6e74726f6c5a6f6e65),
  (0x43494d31352e49454336313937302e5769726573, 0x4c6f6164427265616b537769746368, 0x43494d31352e49454336313937302e57697265732e4c6f6164427265616b537769746368),
  (0x43494d31352e49454336313937302e5769726573, 0x42757362617253656374696f6e, 0x43494d31352e49454336313937302e57697265732e42757362617253656374696f6e),
  (0x43494d31352e49454336313937302e5769726573, 0x5472616e73666f726d6572456e64, 0x43494d31352e49454336313937302e57697265732e5472616e73666f726d6572456e64),
  (0x43494d31352e49454336313937302e5769726573, 0x5472616e73666f726d6572436f726541646d697474616e6365, 0x43494d31352e49454336313937302e57697265732e5472616e73666f726d6572436f726541646d697474616e6365),
  (0x43494d31352e49454336313937302e5769726573, 0x537461746963566172436f6d70656e7361746f72, 0x43494d31352e49454336313937302e57697265732e537461746963566172436f6d70656e7361746f72),
  (0x43494d31352e49454336313937302e5769726573, 0x537769746368, 0x43494d31352e49454336313937302e57697265732e537769746368),
  (0x43494d31352e49454336313937302e5769726573, 0x5065724c656e67746853657175656e6365496d706564616e6365, 0x43494d31352e49454336313937302e57697265732e5065724c656e67746853657175656e6365496d706564616e6365),
  (0x43494d31352e49454336313937302e5769726573, 0x5472616e73666f726d65724d657368496d706564616e6365, 0x43494d31352e49454336313937302e57697265732e5472616e73666f726d65724d657368496d706564616e6365),
  (0x43494d31352e49454336313937302e5769726573, 0x5377697463685363686564756c65, 0x43494d31352e49454336313937302e57697265732e5377697463685363686564756c65),
  (0x43494d31352e49454336313937302e5769726573, 0x456e65726779536f75726365, 0x43494d31352e49454336313937302e57697265732e456e65726779536f75726365),
  (0x43494d31352e49454336313937302e5769726573, 0x5472616e73666f726d657254616e6b, 0x43494d31352e49454336313937302e57697265732e5472616e73666f726d657254616e6b),
  (0x43494d31352e49454336313937302e5769726573, 0x50686173655461704368616e676572546162756c6172506f696e74, 0x43494d31352e49454336313937302e57697265732e50686173655461704368616e676572546162756c6172506f696e74),
  (0x43494d31352e49454336313937302e5769726573, 0x44434c696e655365676d656e74, 0x43494d31352e49454336313937302e57697265732e44434c696e655365676d656e74),
  (0x43494d31352e49454336313937302e5769726573, 0x5461704368616e676572, 0x43494d31352e49454336313937302e57697265732e5461704368616e676572),
  (0x43494d31352e49454336313937302e5769726573, 0x436f6e647563746f72, 0x43494d31352e49454336313937302e57697265732e436f6e647563746f72),
  (0x43494d31352e49454336313937302e5769726573, 0x50686173655461704368616e6765724e6f6e4c696e656172, 0x43494d31352e49454336313937302e57697265732e50686173655461704368616e6765724e6f6e4c696e656172),
  (0x43494d31352e49454336313937302e5769726573, 0x50686173655461704368616e67657253796d6574726963616c, 0x43494d31352e49454336313937302e57697265732e50686173655461704368616e67657253796d6574726963616c),
  (0x43494d31352e49454336313937302e5769726573, 0x4a756d706572, 0x43494d31352e49454336313937302e57697265732e4a756d706572),
  (0x43494d31352e49454336313937302e576972657350686173654d6f64656c, 0x5377697463685068617365, 0x43494d31352e49454336313937302e576972657350686173654d6f64656c2e5377697463685068617365),
  (0x43494d31352e49454336313937302e576972657350686173654d6f64656c, 0x5368756e74436f6d70656e7361746f725068617365, 0x43494d31352e49454336313937302e576972657350686173654d6f64656c2e5368756e74436f6d70656e7361746f725068617365),
  (0x43494d31352e49454336313937302e576972657350686173654d6f64656c, 0x456e65726779436f6e73756d65725068617365, 0x43494d31352e49454336313937302e576972657350686173654d6f64656c2e456e65726779436f6e73756d65725068617365),
  (0x43494d31352e49454336313937302e576972657350686173654d6f64656c, 0x41434c696e655365676d656e745068617365, 0x43494d31352e49454336313937302e576972657350686173654d6f64656c2e41434c696e655365676d656e745068617365),
  (0x43494d31352e4945433632333235, 0x4d61726b65745061727469636970616e74, 0x43494d31352e49454336323332352e4d61726b65745061727469636970616e74),
  (0x43494d31352e4945433632333235, 0x494543363233323543494d56657273696f6e, 0x43494d31352e49454336323332352e494543363233323543494d56657273696f6e),
  (0x43494d31352e4945433632333235, 0x4d61726b6574526f6c65, 0x43494d31352e49454336323332352e4d61726b6574526f6c65),
  (0x43494d31352e5061636b616765446570656e64656e63696573, 0x5061636b616765446570656e64656e6369657343494d5665726573696f6e, 0x43494d31352e5061636b616765446570656e64656e636965732e5061636b616765446570656e64656e6369657343494d5665726573696f6e)]

def pkg : RPkg := ⟨0x43494d3135, classes, pmap, exports⟩

end Verif.Gen.CIM15
