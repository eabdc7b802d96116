import Verif.Spec.Schema
/-! Generated by tools/ecore.py from /repo/Model/CIM14/CIM14.ecore: do not edit. -/
namespace Verif.Gen.Model_CIM14
open Spec
set_option maxRecDepth 10000

/-- Enumeration CIM14.IEC61968.AssetModels.AssetModelUsageKind -/
def e_AssetModelUsageKind : SType := .enum 0x41737365744d6f64656c55736167654b696e64 [0x7374726565746c69676874, 0x6f74686572, 0x756e6b6e6f776e, 0x73756273746174696f6e, 0x646973747269627574696f6e4f76657268656164, 0x637573746f6d657253756273746174696f6e, 0x7472616e736d697373696f6e, 0x646973747269627574696f6e556e64657267726f756e64]
/-- Enumeration CIM14.IEC61968.AssetModels.CableConstructionKind -/
def e_CableConstructionKind : SType := .enum 0x4361626c65436f6e737472756374696f6e4b696e64 [0x736563746f72, 0x636f6d70726573736564, 0x7365676d656e74616c, 0x736f6c6964, 0x737472616e646564, 0x636f6d706163746564, 0x6f74686572]
/-- Enumeration CIM14.IEC61968.AssetModels.CableOuterJacketKind -/
def e_CableOuterJacketKind : SType := .enum 0x4361626c654f757465724a61636b65744b696e64 [0x706f6c79657468796c656e65, 0x707663, 0x6e6f6e65, 0x6c696e6561724c6f7744656e73697479506f6c79657468796c656e65, 0x6f74686572, 0x696e73756c6174696e67, 0x73656d69636f6e64756374696e67]
/-- Enumeration CIM14.IEC61968.AssetModels.CableShieldMaterialKind -/
def e_CableShieldMaterialKind : SType := .enum 0x4361626c65536869656c644d6174657269616c4b696e64 [0x737465656c, 0x6c656164, 0x616c756d696e756d, 0x6f74686572, 0x636f70706572]
/-- Enumeration CIM14.IEC61968.AssetModels.ConductorInsulationKind -/
def e_ConductorInsulationKind : SType := .enum 0x436f6e647563746f72496e73756c6174696f6e4b696e64 [0x63726f73736c696e6b6564506f6c79657468796c656e65, 0x6f7a6f6e65526573697374616e74527562626572, 0x686967684d6f6c6563756c6172576569676874506f6c79657468796c656e65, 0x756e62656c74656450696c63, 0x74726565526574617264616e7443726f73736c696e6b6564506f6c79657468796c656e65, 0x627574796c, 0x727562626572, 0x6173626573746f73416e645661726e697368656443616d62726963, 0x62656c74656450696c63, 0x7661726e6973686564446163726f6e476c617373, 0x6f74686572, 0x74726565526573697374616e74486967684d6f6c6563756c6172576569676874506f6c79657468796c656e65, 0x6c6f7743617061636974616e6365527562626572, 0x7661726e697368656443616d62726963436c6f7468, 0x686967685072657373757265466c75696446696c6c6564, 0x657468796c656e6550726f70796c656e65527562626572, 0x73696c69636f6e527562626572, 0x6f696c5061706572]
/-- Enumeration CIM14.IEC61968.AssetModels.ConductorMaterialKind -/
def e_ConductorMaterialKind : SType := .enum 0x436f6e647563746f724d6174657269616c4b696e64 [0x61637372, 0x737465656c, 0x616c756d696e756d, 0x636f70706572, 0x6f74686572]
/-- Enumeration CIM14.IEC61968.AssetModels.ConductorUsageKind -/
def e_ConductorUsageKind : SType := .enum 0x436f6e647563746f7255736167654b696e64 [0x646973747269627574696f6e, 0x7365636f6e64617279, 0x7472616e736d697373696f6e, 0x6f74686572]
/-- Enumeration CIM14.IEC61968.AssetModels.CorporateStandardKind -/
def e_CorporateStandardKind : SType := .enum 0x436f72706f726174655374616e646172644b696e64 [0x6f74686572, 0x7374616e64617264, 0x6578706572696d656e74616c, 0x756e6465724576616c756174696f6e]
/-- Enumeration CIM14.IEC61968.Assets.SealConditionKind -/
def e_SealConditionKind : SType := .enum 0x5365616c436f6e646974696f6e4b696e64 [0x6f70656e, 0x62726f6b656e, 0x6d697373696e67, 0x6f74686572, 0x6c6f636b6564]
/-- Enumeration CIM14.IEC61968.Assets.SealKind -/
def e_SealKind : SType := .enum 0x5365616c4b696e64 [0x6f74686572, 0x6c656164, 0x737465656c, 0x6c6f636b]
/-- Enumeration CIM14.IEC61968.Customers.CustomerKind -/
def e_CustomerKind : SType := .enum 0x437573746f6d65724b696e64 [0x7265736964656e7469616c416e64436f6d6d65726369616c, 0x7265736964656e7469616c5374726565746c696768744f7468657273, 0x7265736964656e7469616c416e645374726565746c69676874, 0x70756d70696e674c6f6164, 0x656e6572677953657276696365537570706c696572, 0x77696e644d616368696e65, 0x7265736964656e7469616c, 0x696e7465726e616c557365, 0x7265736964656e7469616c4661726d53657276696365, 0x6f74686572, 0x656e65726779536572766963655363686564756c6572, 0x636f6d6d65726369616c496e647573747269616c]
/-- Enumeration CIM14.IEC61968.Customers.RevenueKind -/
def e_RevenueKind : SType := .enum 0x526576656e75654b696e64 [0x696e647573747269616c, 0x7374726565744c69676874, 0x6f74686572, 0x6e6f6e5265736964656e7469616c, 0x69727269676174696f6e, 0x7265736964656e7469616c, 0x636f6d6d65726369616c]
/-- Enumeration CIM14.IEC61968.Customers.ServiceKind -/
def e_ServiceKind : SType := .enum 0x536572766963654b696e64 [0x7761746572, 0x74696d65, 0x656c656374726963697479, 0x68656174, 0x7261746573, 0x676173, 0x696e7465726e6574, 0x726566757365, 0x6f74686572, 0x74764c6963656e6365, 0x7365776572616765]
/-- Enumeration CIM14.IEC61968.Metering.DemandKind -/
def e_DemandKind : SType := .enum 0x44656d616e644b696e64 [0x6c6f6761726974686d6963, 0x6669786564426c6f636b, 0x726f6c6c696e67426c6f636b]
/-- Enumeration CIM14.IEC61968.Metering.ReadingKind -/
def e_ReadingKind : SType := .enum 0x52656164696e674b696e64 [0x766f6c74616765416e676c65, 0x63757272656e74, 0x74696d65, 0x706f776572466163746f72, 0x766f6c74616765, 0x6672657175656e6379, 0x706f776572, 0x6f74686572, 0x656e65726779, 0x64656d616e64, 0x766f6c756d65, 0x64617465, 0x7068617365416e676c65, 0x7072657373757265, 0x63757272656e74416e676c65]
/-- Enumeration CIM14.IEC61968.PaymentMetering.ChargeKind -/
def e_ChargeKind : SType := .enum 0x4368617267654b696e64 [0x64656d616e64436861726765, 0x6f74686572, 0x617578696c69617279436861726765, 0x746178436861726765, 0x636f6e73756d7074696f6e436861726765]
/-- Enumeration CIM14.IEC61968.PaymentMetering.ChequeKind -/
def e_ChequeKind : SType := .enum 0x4368657175654b696e64 [0x6f74686572, 0x706f7374616c4f72646572, 0x62616e6b4f72646572]
/-- Enumeration CIM14.IEC61968.PaymentMetering.CreditKind -/
def e_CreditKind : SType := .enum 0x4372656469744b696e64 [0x6772616e74437265646974, 0x746f6b656e437265646974, 0x72657365727665437265646974, 0x6f74686572, 0x616476616e6365437265646974, 0x6c6966656c696e65437265646974]
/-- Enumeration CIM14.IEC61968.PaymentMetering.SupplierKind -/
def e_SupplierKind : SType := .enum 0x537570706c6965724b696e64 [0x72657461696c6572, 0x7574696c697479, 0x6f74686572]
/-- Enumeration CIM14.IEC61968.PaymentMetering.TenderKind -/
def e_TenderKind : SType := .enum 0x54656e6465724b696e64 [0x63617368, 0x756e737065636966696564, 0x63617264, 0x6f74686572, 0x636865717565]
/-- Enumeration CIM14.IEC61968.PaymentMetering.TransactionKind -/
def e_TransactionKind : SType := .enum 0x5472616e73616374696f6e4b696e64 [0x646976657273655061796d656e74, 0x746f6b656e53616c655061796d656e74, 0x736572766963654368617267655061796d656e74, 0x6f74686572, 0x7472616e73616374696f6e526576657273616c, 0x7461784368617267655061796d656e74, 0x6d65746572436f6e66696775726174696f6e546f6b656e, 0x6163636f756e745061796d656e74, 0x746f6b656e467265654973737565, 0x746f6b656e45786368616e6765, 0x746f6b656e43616e63656c6c6174696f6e, 0x746f6b656e4772616e74, 0x617578696c696172794368617267655061796d656e74]
/-- Enumeration CIM14.IEC61968.Work.WorkKind -/
def e_WorkKind : SType := .enum 0x576f726b4b696e64 [0x636f6e737472756374696f6e, 0x6d61696e74656e616e6365, 0x7265636f6e6e656374, 0x6d65746572, 0x73657276696365, 0x646973636f6e6e656374, 0x696e7370656374696f6e, 0x6f74686572]
/-- Enumeration CIM14.IEC61970.Contingency.ContingencyEquipmentStatusKind -/
def e_ContingencyEquipmentStatusKind : SType := .enum 0x436f6e74696e67656e637945717569706d656e745374617475734b696e64 [0x6f75744f6653657276696365, 0x696e53657276696365]
/-- Enumeration CIM14.IEC61970.ControlArea.ControlAreaTypeKind -/
def e_ControlAreaTypeKind : SType := .enum 0x436f6e74726f6c41726561547970654b696e64 [0x496e7465726368616e6765, 0x466f726563617374, 0x414743]
/-- Enumeration CIM14.IEC61970.Core.BreakerConfiguration -/
def e_BreakerConfiguration : SType := .enum 0x427265616b6572436f6e66696775726174696f6e [0x627265616b6572416e644148616c66, 0x73696e676c65427265616b6572, 0x6e6f427265616b6572, 0x646f75626c65427265616b6572]
/-- Enumeration CIM14.IEC61970.Core.BusbarConfiguration -/
def e_BusbarConfiguration : SType := .enum 0x427573626172436f6e66696775726174696f6e [0x6d61696e576974685472616e73666572, 0x72696e67427573, 0x73696e676c65427573, 0x646f75626c65427573]
/-- Enumeration CIM14.IEC61970.Core.CompanyType -/
def e_CompanyType : SType := .enum 0x436f6d70616e7954797065 [0x6d756e69636970616c, 0x706f6f6c, 0x697350726976617465]
/-- Enumeration CIM14.IEC61970.Core.CurveStyle -/
def e_CurveStyle : SType := .enum 0x43757276655374796c65 [0x72616d705956616c7565, 0x73747261696768744c696e655956616c756573, 0x666f726d756c61, 0x636f6e7374616e745956616c7565]
/-- Enumeration CIM14.IEC61970.Core.PhaseCode -/
def e_PhaseCode : SType := .enum 0x5068617365436f6465 [0x41, 0x4143, 0x414e, 0x4142434e, 0x42, 0x43, 0x424e, 0x434e, 0x73706c69745365636f6e6461727931324e, 0x414243, 0x73706c69745365636f6e64617279324e, 0x4e, 0x41424e, 0x4243, 0x42434e, 0x4142, 0x73706c69745365636f6e64617279314e, 0x41434e]
/-- Enumeration CIM14.IEC61970.Domain.Currency -/
def e_Currency : SType := .enum 0x43757272656e6379 [0x434e59, 0x455552, 0x494e52, 0x415544, 0x434846, 0x444b4b, 0x6f74686572, 0x525552, 0x53454b, 0x474250, 0x4a5059, 0x4e4f4b, 0x434144, 0x555344]
/-- Enumeration CIM14.IEC61970.Domain.MonetaryAmountPerEnergyUnit -/
def e_MonetaryAmountPerEnergyUnit : SType := .enum 0x4d6f6e6574617279416d6f756e74506572456e65726779556e6974 [0x5553445f7065725f5768, 0x4555525f7065725f5768]
/-- Enumeration CIM14.IEC61970.Domain.MonetaryAmountPerHeatUnit -/
def e_MonetaryAmountPerHeatUnit : SType := .enum 0x4d6f6e6574617279416d6f756e7450657248656174556e6974 [0x5553445f7065725f4a, 0x4555525f7065725f4a]
/-- Enumeration CIM14.IEC61970.Domain.MonetaryAmountRate -/
def e_MonetaryAmountRate : SType := .enum 0x4d6f6e6574617279416d6f756e7452617465 [0x5553445f7065725f73, 0x4555525f7065725f73]
/-- Enumeration CIM14.IEC61970.Domain.UnitMultiplier -/
def e_UnitMultiplier : SType := .enum 0x556e69744d756c7469706c696572 [0x6b, 0x64, 0x6e, 0x4d30, 0x6e6f6e65, 0x47, 0x6d6963726f, 0x54, 0x63, 0x6d, 0x70]
/-- Enumeration CIM14.IEC61970.Domain.UnitSymbol -/
def e_UnitSymbol : SType := .enum 0x556e697453796d626f6c [0x4e, 0x56417268, 0x5641, 0x6e6f6e65, 0x6d33, 0x6b675f4a, 0x646567, 0x575f487a, 0x67, 0x5768, 0x575f73, 0x5061, 0x565f564172, 0x6f686d, 0x6830, 0x46, 0x48, 0x6d32, 0x564172, 0x41, 0x726164, 0x7330, 0x53, 0x564168, 0x487a, 0x5f43, 0x735f31, 0x6d696e, 0x4a, 0x487a5f31, 0x4a5f73, 0x6d, 0x57, 0x56]
/-- Enumeration CIM14.IEC61970.Dynamics.BlockKind -/
def e_BlockKind : SType := .enum 0x426c6f636b4b696e64 [0x706f77657253797374656d53746162696c697a6572, 0x6175746f6d61746963566f6c74616765436f6e74726f6c, 0x74757262696e65, 0x676f76656e6f72, 0x646f74446f74446f74, 0x656e65726779536f75726365, 0x65786369746572]
/-- Enumeration CIM14.IEC61970.Dynamics.Generators.IfdBaseType -/
def e_IfdBaseType : SType := .enum 0x4966644261736554797065 [0x6f74686572, 0x6966666c, 0x69666167, 0x69666e6c]
/-- Enumeration CIM14.IEC61970.Dynamics.Generators.ParametersFormType -/
def e_ParametersFormType : SType := .enum 0x506172616d6574657273466f726d54797065 [0x74696d65436f6e7374616e745265616374616e6365, 0x6571756976616c656e7443697263756974]
/-- Enumeration CIM14.IEC61970.Dynamics.Generators.SynchronousGeneratorType -/
def e_SynchronousGeneratorType : SType := .enum 0x53796e6368726f6e6f757347656e657261746f7254797065 [0x726f756e64526f746f72, 0x7472616e7369656e74, 0x7479706546, 0x747970654a, 0x73616c69656e74506f6c65]
/-- Enumeration CIM14.IEC61970.Dynamics.Loads.StaticLoadType -/
def e_StaticLoadType : SType := .enum 0x5374617469634c6f616454797065 [0x5a495031, 0x6578706f6e656e7469616c, 0x5a495032]
/-- Enumeration CIM14.IEC61970.Dynamics.Motors.SynchronousMotorType -/
def e_SynchronousMotorType : SType := .enum 0x53796e6368726f6e6f75734d6f746f7254797065 [0x73616c69656e74506f6c65, 0x726f756e64526f746f72]
/-- Enumeration CIM14.IEC61970.Dynamics.PowerSystemStabilizers.InputSignalCodeJ -/
def e_InputSignalCodeJ : SType := .enum 0x496e7075745369676e616c436f64654a [0x5f32, 0x5f34, 0x5f33, 0x5f35, 0x5f31, 0x5f36]
/-- Enumeration CIM14.IEC61970.Generation.GenerationDynamics.BoilerControlMode -/
def e_BoilerControlMode : SType := .enum 0x426f696c6572436f6e74726f6c4d6f6465 [0x666f6c6c6f77696e67, 0x636f6f7264696e61746564]
/-- Enumeration CIM14.IEC61970.Generation.GenerationDynamics.TurbineType -/
def e_TurbineType : SType := .enum 0x54757262696e6554797065 [0x6672616e636973, 0x70656c746f6e, 0x6b61706c616e]
/-- Enumeration CIM14.IEC61970.Generation.Production.EmissionType -/
def e_EmissionType : SType := .enum 0x456d697373696f6e54797065 [0x63686c6f72696e65, 0x636172626f6e44696f78696465, 0x687964726f67656e53756c66696465, 0x6e6974726f67656e4f78696465, 0x73756c66757244696f78696465, 0x636172626f6e446973756c66696465]
/-- Enumeration CIM14.IEC61970.Generation.Production.EmissionValueSource -/
def e_EmissionValueSource : SType := .enum 0x456d697373696f6e56616c7565536f75726365 [0x6d65617375726564, 0x63616c63756c61746564]
/-- Enumeration CIM14.IEC61970.Generation.Production.FuelType -/
def e_FuelType : SType := .enum 0x4675656c54797065 [0x6c69676e697465, 0x636f616c, 0x6f696c, 0x676173]
/-- Enumeration CIM14.IEC61970.Generation.Production.GeneratorControlMode -/
def e_GeneratorControlMode : SType := .enum 0x47656e657261746f72436f6e74726f6c4d6f6465 [0x736574706f696e74, 0x70756c7365]
/-- Enumeration CIM14.IEC61970.Generation.Production.GeneratorControlSource -/
def e_GeneratorControlSource : SType := .enum 0x47656e657261746f72436f6e74726f6c536f75726365 [0x756e617661696c61626c65, 0x6f6e414743, 0x706c616e74436f6e74726f6c, 0x6f6666414743]
/-- Enumeration CIM14.IEC61970.Generation.Production.GeneratorOperatingMode -/
def e_GeneratorOperatingMode : SType := .enum 0x47656e657261746f724f7065726174696e674d6f6465 [0x6669786564, 0x454443, 0x6d616e75616c, 0x6f6666, 0x4d524e, 0x4c4643, 0x414743, 0x524547]
/-- Enumeration CIM14.IEC61970.Generation.Production.HydroEnergyConversionKind -/
def e_HydroEnergyConversionKind : SType := .enum 0x487964726f456e65726779436f6e76657273696f6e4b696e64 [0x67656e657261746f72, 0x70756d70416e6447656e657261746f72]
/-- Enumeration CIM14.IEC61970.Generation.Production.HydroPlantType -/
def e_HydroPlantType : SType := .enum 0x487964726f506c616e7454797065 [0x72756e4f665269766572, 0x6d696e6f7253746f72616765, 0x6d616a6f7253746f72616765, 0x70756d70656453746f72616765]
/-- Enumeration CIM14.IEC61970.Generation.Production.PenstockType -/
def e_PenstockType : SType := .enum 0x50656e73746f636b54797065 []
/-- Enumeration CIM14.IEC61970.Generation.Production.SpillwayGateType -/
def e_SpillwayGateType : SType := .enum 0x5370696c6c7761794761746554797065 []
/-- Enumeration CIM14.IEC61970.Generation.Production.SurgeTankCode -/
def e_SurgeTankCode : SType := .enum 0x537572676554616e6b436f6465 []
/-- Enumeration CIM14.IEC61970.LoadModel.SeasonName -/
def e_SeasonName : SType := .enum 0x536561736f6e4e616d65 [0x66616c6c, 0x77696e746572, 0x73756d6d6572, 0x737072696e67]
/-- Enumeration CIM14.IEC61970.Meas.Validity -/
def e_Validity : SType := .enum 0x56616c6964697479 [0x5155455354494f4e41424c45, 0x494e56414c4944, 0x474f4f44]
/-- Enumeration CIM14.IEC61970.OperationalLimits.OperationalLimitDirectionKind -/
def e_OperationalLimitDirectionKind : SType := .enum 0x4f7065726174696f6e616c4c696d6974446972656374696f6e4b696e64 [0x6c6f77, 0x6162736f6c75746556616c7565, 0x68696768]
/-- Enumeration CIM14.IEC61970.Outage.SwitchState -/
def e_SwitchState : SType := .enum 0x5377697463685374617465 [0x6f70656e, 0x636c6f7365]
/-- Enumeration CIM14.IEC61970.SCADA.RemoteUnitType -/
def e_RemoteUnitType : SType := .enum 0x52656d6f7465556e697454797065 [0x494544, 0x436f6e74726f6c43656e746572, 0x525455, 0x53756273746174696f6e436f6e74726f6c53797374656d]
/-- Enumeration CIM14.IEC61970.SCADA.Source -/
def e_Source : SType := .enum 0x536f75726365 [0x5355425354495455544544, 0x44454641554c544544, 0x50524f43455353]
/-- Enumeration CIM14.IEC61970.Wires.CoolantType -/
def e_CoolantType : SType := .enum 0x436f6f6c616e7454797065 [0x616972, 0x687964726f67656e476173, 0x7761746572]
/-- Enumeration CIM14.IEC61970.Wires.PhaseTapChangerKind -/
def e_PhaseTapChangerKind : SType := .enum 0x50686173655461704368616e6765724b696e64 [0x6173796d6d6574726963616c, 0x756e6b6e6f776e, 0x73796d6d6574726963616c]
/-- Enumeration CIM14.IEC61970.Wires.RegulatingControlModeKind -/
def e_RegulatingControlModeKind : SType := .enum 0x526567756c6174696e67436f6e74726f6c4d6f64654b696e64 [0x6669786564, 0x766f6c74616765, 0x74696d655363686564756c6564, 0x63757272656e74466c6f77, 0x61646d697474616e6365, 0x706f776572466163746f72, 0x616374697665506f776572, 0x7265616374697665506f776572, 0x74656d7065726174757265]
/-- Enumeration CIM14.IEC61970.Wires.SVCControlMode -/
def e_SVCControlMode : SType := .enum 0x535643436f6e74726f6c4d6f6465 [0x7265616374697665506f776572, 0x6f6666, 0x766f6c74616765]
/-- Enumeration CIM14.IEC61970.Wires.SynchronousMachineOperatingMode -/
def e_SynchronousMachineOperatingMode : SType := .enum 0x53796e6368726f6e6f75734d616368696e654f7065726174696e674d6f6465 [0x636f6e64656e736572, 0x67656e657261746f72]
/-- Enumeration CIM14.IEC61970.Wires.SynchronousMachineType -/
def e_SynchronousMachineType : SType := .enum 0x53796e6368726f6e6f75734d616368696e6554797065 [0x67656e657261746f725f6f725f636f6e64656e736572, 0x67656e657261746f72, 0x636f6e64656e736572]
/-- Enumeration CIM14.IEC61970.Wires.TapChangerKind -/
def e_TapChangerKind : SType := .enum 0x5461704368616e6765724b696e64 [0x766f6c74616765436f6e74726f6c, 0x7068617365436f6e74726f6c, 0x6669786564, 0x766f6c74616765416e645068617365436f6e74726f6c]
/-- Enumeration CIM14.IEC61970.Wires.TransformerControlMode -/
def e_TransformerControlMode : SType := .enum 0x5472616e73666f726d6572436f6e74726f6c4d6f6465 [0x766f6c74, 0x7265616374697665]
/-- Enumeration CIM14.IEC61970.Wires.WindingConnection -/
def e_WindingConnection : SType := .enum 0x57696e64696e67436f6e6e656374696f6e [0x596e, 0x59, 0x44, 0x49, 0x5a, 0x41, 0x5a6e]
/-- Enumeration CIM14.IEC61970.Wires.WindingType -/
def e_WindingType : SType := .enum 0x57696e64696e6754797065 [0x7072696d617279, 0x7175617465726e617279, 0x7365636f6e64617279, 0x7465727469617279]
/-- Data type with values of EBoolean -/
def t_EBoolean : SType := .prim 0x45426f6f6c65616e
/-- Data type with values of EDate -/
def t_EDate : SType := .prim 0x4544617465
/-- Data type with values of EFloat -/
def t_EFloat : SType := .prim 0x45466c6f6174
/-- Data type with values of EInt -/
def t_EInt : SType := .prim 0x45496e74
/-- Data type with values of EString -/
def t_EString : SType := .prim 0x45537472696e67
/-- Data type with values of float -/
def t_float : SType := .prim 0x666c6f6174
/-- Data type with values of int -/
def t_int : SType := .prim 0x696e74
/-- Data type with values of java.lang.String -/
def t_java_lang_String : SType := .prim 0x6a6176612e6c616e672e537472696e67

/-- Class CIM14.CombinedVersion -/
def s_CombinedVersion : SClass := ⟨0x436f6d62696e656456657273696f6e, 0x43494d31342e436f6d62696e656456657273696f6e, 0x43494d31342e456c656d656e74,
  [(0x76657273696f6e, t_EString), (0x64617465, t_EDate)],
  []⟩
/-- Class CIM14.Element -/
def s_Element : SClass := ⟨0x456c656d656e74, 0x43494d31342e456c656d656e74, 0,
  [(0x55554944, t_EString)],
  []⟩
/-- Class CIM14.IEC61968.AssetModels.AssetModel -/
def s_AssetModel : SClass := ⟨0x41737365744d6f64656c, 0x43494d31342e49454336313936382e41737365744d6f64656c732e41737365744d6f64656c, 0x43494d31342e49454336313937302e436f72652e4964656e7469666965644f626a656374,
  [(0x75736167654b696e64, e_AssetModelUsageKind), (0x636f72706f726174655374616e646172644b696e64, e_CorporateStandardKind), (0x6d6f64656c4e756d626572, t_EString), (0x776569676874546f74616c, t_float), (0x6d6f64656c56657273696f6e, t_EString)],
  []⟩
/-- Class CIM14.IEC61968.AssetModels.CableInfo -/
def s_CableInfo : SClass := ⟨0x4361626c65496e666f, 0x43494d31342e49454336313936382e41737365744d6f64656c732e4361626c65496e666f, 0x43494d31342e49454336313936382e41737365744d6f64656c732e436f6e647563746f72496e666f,
  [(0x636f6e737472756374696f6e4b696e64, e_CableConstructionKind), (0x736869656c644d6174657269616c, e_CableShieldMaterialKind), (0x6f757465724a61636b65744b696e64, e_CableOuterJacketKind), (0x6973537472616e6446696c6c, t_EBoolean), (0x6469616d657465724f76657253637265656e, t_float), (0x6469616d657465724f766572496e73756c6174696f6e, t_float), (0x6469616d657465724f7665724a61636b6574, t_float), (0x6e6f6d696e616c54656d7065726174757265, t_float), (0x6469616d657465724f766572436f7265, t_float), (0x73686561746841734e65757472616c, t_EBoolean)],
  []⟩
/-- Class CIM14.IEC61968.AssetModels.ConcentricNeutralCableInfo -/
def s_ConcentricNeutralCableInfo : SClass := ⟨0x436f6e63656e747269634e65757472616c4361626c65496e666f, 0x43494d31342e49454336313936382e41737365744d6f64656c732e436f6e63656e747269634e65757472616c4361626c65496e666f, 0x43494d31342e49454336313936382e41737365744d6f64656c732e4361626c65496e666f,
  [(0x6469616d657465724f7665724e65757472616c, t_float), (0x6e65757472616c537472616e64436f756e74, t_EInt)],
  [⟨0x5769726554797065, 0x43494d31342e49454336313936382e41737365744d6f64656c732e5769726554797065, false, 0x436f6e63656e747269634e65757472616c4361626c65496e666f73⟩]⟩
/-- Class CIM14.IEC61968.AssetModels.ConductorInfo -/
def s_ConductorInfo : SClass := ⟨0x436f6e647563746f72496e666f, 0x43494d31342e49454336313936382e41737365744d6f64656c732e436f6e647563746f72496e666f, 0x43494d31342e49454336313937302e436f72652e4964656e7469666965644f626a656374,
  [(0x7573616765, e_ConductorUsageKind), (0x696e73756c6174696f6e4d6174657269616c, e_ConductorInsulationKind), (0x696e73756c61746564, t_EBoolean), (0x696e73756c6174696f6e546869636b6e657373, t_float), (0x7068617365436f756e74, t_EInt)],
  [⟨0x436f6e647563746f725365676d656e7473, 0x43494d31342e49454336313936382e57697265734578742e446973747269627574696f6e4c696e655365676d656e74, true, 0x436f6e647563746f72496e666f⟩, ⟨0x57697265417272616e67656d656e7473, 0x43494d31342e49454336313936382e41737365744d6f64656c732e57697265417272616e67656d656e74, true, 0x436f6e647563746f72496e666f⟩]⟩
/-- Class CIM14.IEC61968.AssetModels.DistributionWindingTest -/
def s_DistributionWindingTest : SClass := ⟨0x446973747269627574696f6e57696e64696e6754657374, 0x43494d31342e49454336313936382e41737365744d6f64656c732e446973747269627574696f6e57696e64696e6754657374, 0x43494d31342e49454336313937302e436f72652e4964656e7469666965644f626a656374,
  [(0x66726f6d54617053746570, t_EInt)],
  [⟨0x46726f6d57696e64696e67, 0x43494d31342e49454336313936382e41737365744d6f64656c732e57696e64696e67496e666f, false, 0x57696e64696e675465737473⟩]⟩
/-- Class CIM14.IEC61968.AssetModels.EndDeviceModel -/
def s_EndDeviceModel : SClass := ⟨0x456e644465766963654d6f64656c, 0x43494d31342e49454336313936382e41737365744d6f64656c732e456e644465766963654d6f64656c, 0x43494d31342e49454336313936382e41737365744d6f64656c732e41737365744d6f64656c,
  [],
  [⟨0x456e64446576696365417373657473, 0x43494d31342e49454336313936382e4d65746572696e672e456e644465766963654173736574, true, 0x456e644465766963654d6f64656c⟩]⟩
/-- Class CIM14.IEC61968.AssetModels.OpenCircuitTest -/
def s_OpenCircuitTest : SClass := ⟨0x4f70656e4369726375697454657374, 0x43494d31342e49454336313936382e41737365744d6f64656c732e4f70656e4369726375697454657374, 0x43494d31342e49454336313936382e41737365744d6f64656c732e446973747269627574696f6e57696e64696e6754657374,
  [(0x6578636974696e6743757272656e745a65726f, t_float), (0x6e6f4c6f61644c6f73735a65726f, t_float), (0x6e6f4c6f61644c6f7373, t_float), (0x6578636974696e6743757272656e74, t_float)],
  [⟨0x4d6561737572656457696e64696e675370656373, 0x43494d31342e49454336313936382e41737365744d6f64656c732e546f57696e64696e6753706563, true, 0x4f70656e436972637569745465737473⟩]⟩
/-- Class CIM14.IEC61968.AssetModels.OverheadConductorInfo -/
def s_OverheadConductorInfo : SClass := ⟨0x4f76657268656164436f6e647563746f72496e666f, 0x43494d31342e49454336313936382e41737365744d6f64656c732e4f76657268656164436f6e647563746f72496e666f, 0x43494d31342e49454336313936382e41737365744d6f64656c732e436f6e647563746f72496e666f,
  [(0x6e65757472616c496e73756c6174696f6e546869636b6e657373, t_float), (0x7068617365436f6e647563746f7253706163696e67, t_float), (0x7068617365436f6e647563746f72436f756e74, t_EInt)],
  []⟩
/-- Class CIM14.IEC61968.AssetModels.ShortCircuitTest -/
def s_ShortCircuitTest : SClass := ⟨0x53686f72744369726375697454657374, 0x43494d31342e49454336313936382e41737365744d6f64656c732e53686f72744369726375697454657374, 0x43494d31342e49454336313936382e41737365744d6f64656c732e446973747269627574696f6e57696e64696e6754657374,
  [(0x6c6f61644c6f73735a65726f, t_float), (0x6c65616b616765496d706564616e63655a65726f, t_float), (0x6c65616b616765496d706564616e6365, t_float), (0x6c6f61644c6f7373, t_float)],
  [⟨0x53686f7274656457696e64696e675370656373, 0x43494d31342e49454336313936382e41737365744d6f64656c732e546f57696e64696e6753706563, true, 0x53686f7274436972637569745465737473⟩]⟩
/-- Class CIM14.IEC61968.AssetModels.TapeShieldCableInfo -/
def s_TapeShieldCableInfo : SClass := ⟨0x54617065536869656c644361626c65496e666f, 0x43494d31342e49454336313936382e41737365744d6f64656c732e54617065536869656c644361626c65496e666f, 0x43494d31342e49454336313936382e41737365744d6f64656c732e4361626c65496e666f,
  [(0x74617065546869636b6e657373, t_float), (0x746170654c6170, t_float)],
  []⟩
/-- Class CIM14.IEC61968.AssetModels.ToWindingSpec -/
def s_ToWindingSpec : SClass := ⟨0x546f57696e64696e6753706563, 0x43494d31342e49454336313936382e41737365744d6f64656c732e546f57696e64696e6753706563, 0x43494d31342e49454336313937302e436f72652e4964656e7469666965644f626a656374,
  [(0x766f6c74616765, t_float), (0x70686173655368696674, t_float), (0x746f54617053746570, t_EInt)],
  [⟨0x546f57696e64696e67, 0x43494d31342e49454336313936382e41737365744d6f64656c732e57696e64696e67496e666f, false, 0x546f57696e64696e675370656373⟩, ⟨0x4f70656e436972637569745465737473, 0x43494d31342e49454336313936382e41737365744d6f64656c732e4f70656e4369726375697454657374, true, 0x4d6561737572656457696e64696e675370656373⟩, ⟨0x53686f7274436972637569745465737473, 0x43494d31342e49454336313936382e41737365744d6f64656c732e53686f72744369726375697454657374, true, 0x53686f7274656457696e64696e675370656373⟩]⟩
/-- Class CIM14.IEC61968.AssetModels.TransformerInfo -/
def s_TransformerInfo : SClass := ⟨0x5472616e73666f726d6572496e666f, 0x43494d31342e49454336313936382e41737365744d6f64656c732e5472616e73666f726d6572496e666f, 0x43494d31342e49454336313937302e436f72652e4964656e7469666965644f626a656374,
  [],
  [⟨0x57696e64696e67496e666f73, 0x43494d31342e49454336313936382e41737365744d6f64656c732e57696e64696e67496e666f, true, 0x5472616e73666f726d6572496e666f⟩, ⟨0x5472616e73666f726d657273, 0x43494d31342e49454336313936382e57697265734578742e446973747269627574696f6e5472616e73666f726d6572, true, 0x5472616e73666f726d6572496e666f⟩]⟩
/-- Class CIM14.IEC61968.AssetModels.WindingInfo -/
def s_WindingInfo : SClass := ⟨0x57696e64696e67496e666f, 0x43494d31342e49454336313936382e41737365744d6f64656c732e57696e64696e67496e666f, 0x43494d31342e49454336313937302e436f72652e4964656e7469666965644f626a656374,
  [(0x636f6e6e656374696f6e4b696e64, e_WindingConnection), (0x72, t_float), (0x7068617365416e676c65, t_EInt), (0x656d657267656e637953, t_float), (0x726174656455, t_float), (0x696e73756c6174696f6e55, t_float), (0x726174656453, t_float), (0x73657175656e63654e756d626572, t_EInt), (0x73686f72745465726d53, t_float)],
  [⟨0x57696e64696e6773, 0x43494d31342e49454336313936382e57697265734578742e446973747269627574696f6e5472616e73666f726d657257696e64696e67, true, 0x57696e64696e67496e666f⟩, ⟨0x57696e64696e675465737473, 0x43494d31342e49454336313936382e41737365744d6f64656c732e446973747269627574696f6e57696e64696e6754657374, true, 0x46726f6d57696e64696e67⟩, ⟨0x5472616e73666f726d6572496e666f, 0x43494d31342e49454336313936382e41737365744d6f64656c732e5472616e73666f726d6572496e666f, false, 0x57696e64696e67496e666f73⟩, ⟨0x546f57696e64696e675370656373, 0x43494d31342e49454336313936382e41737365744d6f64656c732e546f57696e64696e6753706563, true, 0x546f57696e64696e67⟩]⟩
/-- Class CIM14.IEC61968.AssetModels.WireArrangement -/
def s_WireArrangement : SClass := ⟨0x57697265417272616e67656d656e74, 0x43494d31342e49454336313936382e41737365744d6f64656c732e57697265417272616e67656d656e74, 0x43494d31342e49454336313937302e436f72652e4964656e7469666965644f626a656374,
  [(0x706f736974696f6e, t_EInt), (0x6d6f756e74696e67506f696e7458, t_float), (0x6d6f756e74696e67506f696e7459, t_float)],
  [⟨0x5769726554797065, 0x43494d31342e49454336313936382e41737365744d6f64656c732e5769726554797065, false, 0x57697265417272616e67656d656e7473⟩, ⟨0x436f6e647563746f72496e666f, 0x43494d31342e49454336313936382e41737365744d6f64656c732e436f6e647563746f72496e666f, false, 0x57697265417272616e67656d656e7473⟩]⟩
/-- Class CIM14.IEC61968.AssetModels.WireType -/
def s_WireType : SClass := ⟨0x5769726554797065, 0x43494d31342e49454336313936382e41737365744d6f64656c732e5769726554797065, 0x43494d31342e49454336313937302e436f72652e4964656e7469666965644f626a656374,
  [(0x6d6174657269616c, e_ConductorMaterialKind), (0x7241433235, t_float), (0x73697a654465736372697074696f6e, t_EString), (0x7241433735, t_float), (0x726164697573, t_float), (0x636f7265526164697573, t_float), (0x7241433530, t_float), (0x676d72, t_float), (0x7244433230, t_float), (0x726174656443757272656e74, t_float), (0x636f7265537472616e64436f756e74, t_EInt), (0x737472616e64436f756e74, t_EInt)],
  [⟨0x57697265417272616e67656d656e7473, 0x43494d31342e49454336313936382e41737365744d6f64656c732e57697265417272616e67656d656e74, true, 0x5769726554797065⟩, ⟨0x436f6e63656e747269634e65757472616c4361626c65496e666f73, 0x43494d31342e49454336313936382e41737365744d6f64656c732e436f6e63656e747269634e65757472616c4361626c65496e666f, true, 0x5769726554797065⟩]⟩
/-- Class CIM14.IEC61968.Assets.AcceptanceTest -/
def s_AcceptanceTest : SClass := ⟨0x416363657074616e636554657374, 0x43494d31342e49454336313936382e4173736574732e416363657074616e636554657374, 0x43494d31342e456c656d656e74,
  [(0x73756363657373, t_EBoolean), (0x74797065, t_EString), (0x6461746554696d65, t_EDate)],
  []⟩
/-- Class CIM14.IEC61968.Assets.Asset -/
def s_Asset : SClass := ⟨0x4173736574, 0x43494d31342e49454336313936382e4173736574732e4173736574, 0x43494d31342e49454336313937302e436f72652e4964656e7469666965644f626a656374,
  [(0x63617465676f7279, t_EString), (0x73657269616c4e756d626572, t_EString), (0x6d616e75666163747572656444617465, t_java_lang_String), (0x6c6f744e756d626572, t_EString), (0x637269746963616c, t_EBoolean), (0x6170706c69636174696f6e, t_EString), (0x696e697469616c4c6f73734f664c696665, t_float), (0x636f72706f72617465436f6465, t_EString), (0x70757263686173655072696365, t_float), (0x7574634e756d626572, t_EString), (0x696e7374616c6c6174696f6e44617465, t_java_lang_String), (0x696e697469616c436f6e646974696f6e, t_EString)],
  [⟨0x506f77657253797374656d5265736f7572636573, 0x43494d31342e49454336313937302e436f72652e506f77657253797374656d5265736f75726365, true, 0x417373657473⟩, ⟨0x50726f70657274696573, 0x43494d31342e49454336313936382e436f6d6d6f6e2e55736572417474726962757465, true, 0x50726f7065727479417373657473⟩, ⟨0x616363657074616e636554657374, 0x43494d31342e49454336313936382e4173736574732e416363657074616e636554657374, false, 0⟩, ⟨0x41637469766974795265636f726473, 0x43494d31342e49454336313936382e436f6d6d6f6e2e41637469766974795265636f7264, true, 0x417373657473⟩, ⟨0x4c6f636174696f6e, 0x43494d31342e49454336313936382e436f6d6d6f6e2e4c6f636174696f6e, false, 0x417373657473⟩, ⟨0x417373657446756e6374696f6e73, 0x43494d31342e49454336313936382e4173736574732e417373657446756e6374696f6e, true, 0x4173736574⟩, ⟨0x4d6561737572656d656e7473, 0x43494d31342e49454336313937302e4d6561732e4d6561737572656d656e74, true, 0x4173736574⟩, ⟨0x4173736574436f6e7461696e6572, 0x43494d31342e49454336313936382e4173736574732e4173736574436f6e7461696e6572, false, 0x417373657473⟩, ⟨0x737461747573, 0x43494d31342e49454336313936382e436f6d6d6f6e2e537461747573, false, 0⟩, ⟨0x526174696e6773, 0x43494d31342e49454336313936382e436f6d6d6f6e2e55736572417474726962757465, true, 0x526174696e67417373657473⟩, ⟨0x656c656374726f6e696341646472657373, 0x43494d31342e49454336313936382e436f6d6d6f6e2e456c656374726f6e696341646472657373, false, 0⟩]⟩
/-- Class CIM14.IEC61968.Assets.AssetContainer -/
def s_AssetContainer : SClass := ⟨0x4173736574436f6e7461696e6572, 0x43494d31342e49454336313936382e4173736574732e4173736574436f6e7461696e6572, 0x43494d31342e49454336313936382e4173736574732e4173736574,
  [],
  [⟨0x5365616c73, 0x43494d31342e49454336313936382e4173736574732e5365616c, true, 0x4173736574436f6e7461696e6572⟩, ⟨0x417373657473, 0x43494d31342e49454336313936382e4173736574732e4173736574, true, 0x4173736574436f6e7461696e6572⟩]⟩
/-- Class CIM14.IEC61968.Assets.AssetFunction -/
def s_AssetFunction : SClass := ⟨0x417373657446756e6374696f6e, 0x43494d31342e49454336313936382e4173736574732e417373657446756e6374696f6e, 0x43494d31342e49454336313937302e436f72652e4964656e7469666965644f626a656374,
  [(0x636f6e6669674944, t_EString), (0x70726f6772616d4944, t_EString), (0x6669726d776172654944, t_EString), (0x70617373776f7264, t_EString), (0x68617264776172654944, t_EString)],
  [⟨0x4173736574, 0x43494d31342e49454336313936382e4173736574732e4173736574, false, 0x417373657446756e6374696f6e73⟩]⟩
/-- Class CIM14.IEC61968.Assets.ComMediaAsset -/
def s_ComMediaAsset : SClass := ⟨0x436f6d4d656469614173736574, 0x43494d31342e49454336313936382e4173736574732e436f6d4d656469614173736574, 0x43494d31342e49454336313936382e4173736574732e4173736574,
  [],
  []⟩
/-- Class CIM14.IEC61968.Assets.Seal -/
def s_Seal : SClass := ⟨0x5365616c, 0x43494d31342e49454336313936382e4173736574732e5365616c, 0x43494d31342e49454336313937302e436f72652e4964656e7469666965644f626a656374,
  [(0x6b696e64, e_SealKind), (0x636f6e646974696f6e, e_SealConditionKind), (0x7365616c4e756d626572, t_EString), (0x6170706c6965644461746554696d65, t_EDate)],
  [⟨0x4173736574436f6e7461696e6572, 0x43494d31342e49454336313936382e4173736574732e4173736574436f6e7461696e6572, false, 0x5365616c73⟩]⟩
/-- Class CIM14.IEC61968.Common.ActivityRecord -/
def s_ActivityRecord : SClass := ⟨0x41637469766974795265636f7264, 0x43494d31342e49454336313936382e436f6d6d6f6e2e41637469766974795265636f7264, 0x43494d31342e49454336313937302e436f72652e4964656e7469666965644f626a656374,
  [(0x726561736f6e, t_EString), (0x637265617465644461746554696d65, t_EDate), (0x7365766572697479, t_EString), (0x63617465676f7279, t_EString)],
  [⟨0x446f63756d656e7473, 0x43494d31342e49454336313936382e436f6d6d6f6e2e446f63756d656e74, true, 0x41637469766974795265636f726473⟩, ⟨0x417373657473, 0x43494d31342e49454336313936382e4173736574732e4173736574, true, 0x41637469766974795265636f726473⟩, ⟨0x737461747573, 0x43494d31342e49454336313936382e436f6d6d6f6e2e537461747573, false, 0⟩]⟩
/-- Class CIM14.IEC61968.Common.Agreement -/
def s_Agreement : SClass := ⟨0x41677265656d656e74, 0x43494d31342e49454336313936382e436f6d6d6f6e2e41677265656d656e74, 0x43494d31342e49454336313936382e436f6d6d6f6e2e446f63756d656e74,
  [(0x7369676e44617465, t_java_lang_String)],
  [⟨0x76616c6964697479496e74657276616c, 0x43494d31342e49454336313936382e436f6d6d6f6e2e4461746554696d65496e74657276616c, false, 0⟩]⟩
/-- Class CIM14.IEC61968.Common.CoordinateSystem -/
def s_CoordinateSystem : SClass := ⟨0x436f6f7264696e61746553797374656d, 0x43494d31342e49454336313936382e436f6d6d6f6e2e436f6f7264696e61746553797374656d, 0x43494d31342e456c656d656e74,
  [(0x6e616d65, t_EString)],
  [⟨0x4c6f636174696f6e, 0x43494d31342e49454336313936382e436f6d6d6f6e2e4c6f636174696f6e, false, 0x436f6f7264696e61746553797374656d73⟩, ⟨0x506f736974696f6e506f696e7473, 0x43494d31342e49454336313936382e436f6d6d6f6e2e506f736974696f6e506f696e74, true, 0x436f6f7264696e61746553797374656d⟩]⟩
/-- Class CIM14.IEC61968.Common.DateTimeInterval -/
def s_DateTimeInterval : SClass := ⟨0x4461746554696d65496e74657276616c, 0x43494d31342e49454336313936382e436f6d6d6f6e2e4461746554696d65496e74657276616c, 0x43494d31342e456c656d656e74,
  [(0x656e64, t_EDate), (0x7374617274, t_EDate)],
  []⟩
/-- Class CIM14.IEC61968.Common.Document -/
def s_Document : SClass := ⟨0x446f63756d656e74, 0x43494d31342e49454336313936382e436f6d6d6f6e2e446f63756d656e74, 0x43494d31342e49454336313937302e436f72652e4964656e7469666965644f626a656374,
  [(0x7265766973696f6e4e756d626572, t_EString), (0x7375626a656374, t_EString), (0x637265617465644461746554696d65, t_EDate), (0x7469746c65, t_EString), (0x63617465676f7279, t_EString), (0x6c6173744d6f6469666965644461746554696d65, t_EDate)],
  [⟨0x656c656374726f6e696341646472657373, 0x43494d31342e49454336313936382e436f6d6d6f6e2e456c656374726f6e696341646472657373, false, 0⟩, ⟨0x737461747573, 0x43494d31342e49454336313936382e436f6d6d6f6e2e537461747573, false, 0⟩, ⟨0x41637469766974795265636f726473, 0x43494d31342e49454336313936382e436f6d6d6f6e2e41637469766974795265636f7264, true, 0x446f63756d656e7473⟩, ⟨0x646f63537461747573, 0x43494d31342e49454336313936382e436f6d6d6f6e2e537461747573, false, 0⟩, ⟨0x4d6561737572656d656e7473, 0x43494d31342e49454336313937302e4d6561732e4d6561737572656d656e74, true, 0x446f63756d656e7473⟩]⟩
/-- Class CIM14.IEC61968.Common.ElectronicAddress -/
def s_ElectronicAddress : SClass := ⟨0x456c656374726f6e696341646472657373, 0x43494d31342e49454336313936382e436f6d6d6f6e2e456c656374726f6e696341646472657373, 0x43494d31342e456c656d656e74,
  [(0x70617373776f7264, t_EString), (0x656d61696c, t_EString), (0x726164696f, t_EString), (0x757365724944, t_EString), (0x6c616e, t_EString), (0x776562, t_EString)],
  [⟨0x737461747573, 0x43494d31342e49454336313936382e436f6d6d6f6e2e537461747573, false, 0⟩]⟩
/-- Class CIM14.IEC61968.Common.Location -/
def s_Location : SClass := ⟨0x4c6f636174696f6e, 0x43494d31342e49454336313936382e436f6d6d6f6e2e4c6f636174696f6e, 0x43494d31342e49454336313937302e436f72652e4964656e7469666965644f626a656374,
  [(0x67656f496e666f5265666572656e6365, t_EString), (0x636f72706f72617465436f6465, t_EString), (0x646972656374696f6e, t_EString), (0x63617465676f7279, t_EString)],
  [⟨0x506f736974696f6e506f696e7473, 0x43494d31342e49454336313936382e436f6d6d6f6e2e506f736974696f6e506f696e74, true, 0x4c6f636174696f6e⟩, ⟨0x506f77657253797374656d5265736f7572636573, 0x43494d31342e49454336313937302e436f72652e506f77657253797374656d5265736f75726365, true, 0x4c6f636174696f6e⟩, ⟨0x436f6f7264696e61746553797374656d73, 0x43494d31342e49454336313936382e436f6d6d6f6e2e436f6f7264696e61746553797374656d, true, 0x4c6f636174696f6e⟩, ⟨0x4d6561737572656d656e7473, 0x43494d31342e49454336313937302e4d6561732e4d6561737572656d656e74, true, 0x4c6f636174696f6e73⟩, ⟨0x7365636f6e6461727941646472657373, 0x43494d31342e49454336313936382e436f6d6d6f6e2e53747265657441646472657373, false, 0⟩, ⟨0x417373657473, 0x43494d31342e49454336313936382e4173736574732e4173736574, true, 0x4c6f636174696f6e⟩, ⟨0x70686f6e6532, 0x43494d31342e49454336313936382e436f6d6d6f6e2e54656c6570686f6e654e756d626572, false, 0⟩, ⟨0x656c656374726f6e696341646472657373, 0x43494d31342e49454336313936382e436f6d6d6f6e2e456c656374726f6e696341646472657373, false, 0⟩, ⟨0x70686f6e6531, 0x43494d31342e49454336313936382e436f6d6d6f6e2e54656c6570686f6e654e756d626572, false, 0⟩, ⟨0x6d61696e41646472657373, 0x43494d31342e49454336313936382e436f6d6d6f6e2e53747265657441646472657373, false, 0⟩, ⟨0x737461747573, 0x43494d31342e49454336313936382e436f6d6d6f6e2e537461747573, false, 0⟩]⟩
/-- Class CIM14.IEC61968.Common.Organisation -/
def s_Organisation : SClass := ⟨0x4f7267616e69736174696f6e, 0x43494d31342e49454336313936382e436f6d6d6f6e2e4f7267616e69736174696f6e, 0x43494d31342e49454336313937302e436f72652e4964656e7469666965644f626a656374,
  [],
  [⟨0x656c656374726f6e696341646472657373, 0x43494d31342e49454336313936382e436f6d6d6f6e2e456c656374726f6e696341646472657373, false, 0⟩, ⟨0x73747265657441646472657373, 0x43494d31342e49454336313936382e436f6d6d6f6e2e53747265657441646472657373, false, 0⟩, ⟨0x70686f6e6532, 0x43494d31342e49454336313936382e436f6d6d6f6e2e54656c6570686f6e654e756d626572, false, 0⟩, ⟨0x70686f6e6531, 0x43494d31342e49454336313936382e436f6d6d6f6e2e54656c6570686f6e654e756d626572, false, 0⟩, ⟨0x706f7374616c41646472657373, 0x43494d31342e49454336313936382e436f6d6d6f6e2e506f7374616c41646472657373, false, 0⟩]⟩
/-- Class CIM14.IEC61968.Common.PositionPoint -/
def s_PositionPoint : SClass := ⟨0x506f736974696f6e506f696e74, 0x43494d31342e49454336313936382e436f6d6d6f6e2e506f736974696f6e506f696e74, 0x43494d31342e456c656d656e74,
  [(0x78506f736974696f6e, t_EString), (0x7a506f736974696f6e, t_EString), (0x73657175656e63654e756d626572, t_EInt), (0x79506f736974696f6e, t_EString)],
  [⟨0x4c6f636174696f6e, 0x43494d31342e49454336313936382e436f6d6d6f6e2e4c6f636174696f6e, false, 0x506f736974696f6e506f696e7473⟩, ⟨0x436f6f7264696e61746553797374656d, 0x43494d31342e49454336313936382e436f6d6d6f6e2e436f6f7264696e61746553797374656d, false, 0x506f736974696f6e506f696e7473⟩]⟩
/-- Class CIM14.IEC61968.Common.PostalAddress -/
def s_PostalAddress : SClass := ⟨0x506f7374616c41646472657373, 0x43494d31342e49454336313936382e436f6d6d6f6e2e506f7374616c41646472657373, 0x43494d31342e456c656d656e74,
  [(0x706f426f78, t_EString), (0x706f7374616c436f6465, t_EString)],
  [⟨0x73747265657444657461696c, 0x43494d31342e49454336313936382e436f6d6d6f6e2e53747265657444657461696c, false, 0⟩, ⟨0x746f776e44657461696c, 0x43494d31342e49454336313936382e436f6d6d6f6e2e546f776e44657461696c, false, 0⟩]⟩
/-- Class CIM14.IEC61968.Common.Status -/
def s_Status : SClass := ⟨0x537461747573, 0x43494d31342e49454336313936382e436f6d6d6f6e2e537461747573, 0x43494d31342e456c656d656e74,
  [(0x726561736f6e, t_EString), (0x72656d61726b, t_EString), (0x76616c7565, t_EString), (0x6461746554696d65, t_EDate)],
  []⟩
/-- Class CIM14.IEC61968.Common.StreetAddress -/
def s_StreetAddress : SClass := ⟨0x53747265657441646472657373, 0x43494d31342e49454336313936382e436f6d6d6f6e2e53747265657441646472657373, 0x43494d31342e456c656d656e74,
  [],
  [⟨0x737461747573, 0x43494d31342e49454336313936382e436f6d6d6f6e2e537461747573, false, 0⟩, ⟨0x746f776e44657461696c, 0x43494d31342e49454336313936382e436f6d6d6f6e2e546f776e44657461696c, false, 0⟩, ⟨0x73747265657444657461696c, 0x43494d31342e49454336313936382e436f6d6d6f6e2e53747265657444657461696c, false, 0⟩]⟩
/-- Class CIM14.IEC61968.Common.StreetDetail -/
def s_StreetDetail : SClass := ⟨0x53747265657444657461696c, 0x43494d31342e49454336313936382e436f6d6d6f6e2e53747265657444657461696c, 0x43494d31342e456c656d656e74,
  [(0x6e756d626572, t_EString), (0x74797065, t_EString), (0x73756974654e756d626572, t_EString), (0x6164647265737347656e6572616c, t_EString), (0x6275696c64696e674e616d65, t_EString), (0x6e616d65, t_EString), (0x77697468696e546f776e4c696d697473, t_EBoolean), (0x737566666978, t_EString), (0x636f6465, t_EString), (0x707265666978, t_EString)],
  []⟩
/-- Class CIM14.IEC61968.Common.TelephoneNumber -/
def s_TelephoneNumber : SClass := ⟨0x54656c6570686f6e654e756d626572, 0x43494d31342e49454336313936382e436f6d6d6f6e2e54656c6570686f6e654e756d626572, 0x43494d31342e456c656d656e74,
  [(0x636f756e747279436f6465, t_EString), (0x63697479436f6465, t_EString), (0x61726561436f6465, t_EString), (0x6c6f63616c4e756d626572, t_EString), (0x657874656e73696f6e, t_EString)],
  []⟩
/-- Class CIM14.IEC61968.Common.TimePoint -/
def s_TimePoint : SClass := ⟨0x54696d65506f696e74, 0x43494d31342e49454336313936382e436f6d6d6f6e2e54696d65506f696e74, 0x43494d31342e49454336313937302e436f72652e4964656e7469666965644f626a656374,
  [(0x72656c617469766554696d65496e74657276616c, t_float), (0x73657175656e63654e756d626572, t_EInt), (0x6461746554696d65, t_EDate)],
  [⟨0x54696d655363686564756c65, 0x43494d31342e49454336313936382e436f6d6d6f6e2e54696d655363686564756c65, false, 0x54696d65506f696e7473⟩, ⟨0x737461747573, 0x43494d31342e49454336313936382e436f6d6d6f6e2e537461747573, false, 0⟩, ⟨0x77696e646f77, 0x43494d31342e49454336313936382e436f6d6d6f6e2e4461746554696d65496e74657276616c, false, 0⟩]⟩
/-- Class CIM14.IEC61968.Common.TimeSchedule -/
def s_TimeSchedule : SClass := ⟨0x54696d655363686564756c65, 0x43494d31342e49454336313936382e436f6d6d6f6e2e54696d655363686564756c65, 0x43494d31342e49454336313936382e436f6d6d6f6e2e446f63756d656e74,
  [(0x726563757272656e6365506572696f64, t_float), (0x64697361626c6564, t_EBoolean), (0x6f6666736574, t_float), (0x726563757272656e63655061747465726e, t_EString)],
  [⟨0x54696d65506f696e7473, 0x43494d31342e49454336313936382e436f6d6d6f6e2e54696d65506f696e74, true, 0x54696d655363686564756c65⟩, ⟨0x7363686564756c65496e74657276616c, 0x43494d31342e49454336313936382e436f6d6d6f6e2e4461746554696d65496e74657276616c, false, 0⟩]⟩
/-- Class CIM14.IEC61968.Common.TownDetail -/
def s_TownDetail : SClass := ⟨0x546f776e44657461696c, 0x43494d31342e49454336313936382e436f6d6d6f6e2e546f776e44657461696c, 0x43494d31342e456c656d656e74,
  [(0x636f6465, t_EString), (0x636f756e747279, t_EString), (0x73746174654f7250726f76696e6365, t_EString), (0x6e616d65, t_EString), (0x73656374696f6e, t_EString)],
  []⟩
/-- Class CIM14.IEC61968.Common.UserAttribute -/
def s_UserAttribute : SClass := ⟨0x55736572417474726962757465, 0x43494d31342e49454336313936382e436f6d6d6f6e2e55736572417474726962757465, 0x43494d31342e456c656d656e74,
  [(0x76616c7565, t_java_lang_String), (0x73657175656e63654e756d626572, t_EInt), (0x6e616d65, t_EString)],
  [⟨0x50726f7065727479417373657473, 0x43494d31342e49454336313936382e4173736574732e4173736574, true, 0x50726f70657274696573⟩, ⟨0x5472616e73616374696f6e, 0x43494d31342e49454336313936382e5061796d656e744d65746572696e672e5472616e73616374696f6e, false, 0x5573657241747472696275746573⟩, ⟨0x526174696e67417373657473, 0x43494d31342e49454336313936382e4173736574732e4173736574, true, 0x526174696e6773⟩]⟩
/-- Class CIM14.IEC61968.Customers.Customer -/
def s_Customer : SClass := ⟨0x437573746f6d6572, 0x43494d31342e49454336313936382e437573746f6d6572732e437573746f6d6572, 0x43494d31342e49454336313936382e436f6d6d6f6e2e4f7267616e69736174696f6e,
  [(0x6b696e64, e_CustomerKind), (0x7075634e756d626572, t_EString), (0x7370656369616c4e656564, t_EString), (0x766970, t_EBoolean)],
  [⟨0x737461747573, 0x43494d31342e49454336313936382e436f6d6d6f6e2e537461747573, false, 0⟩, ⟨0x576f726b73, 0x43494d31342e49454336313936382e576f726b2e576f726b, true, 0x437573746f6d657273⟩, ⟨0x437573746f6d657241677265656d656e7473, 0x43494d31342e49454336313936382e437573746f6d6572732e437573746f6d657241677265656d656e74, true, 0x437573746f6d6572⟩, ⟨0x456e64446576696365417373657473, 0x43494d31342e49454336313936382e4d65746572696e672e456e644465766963654173736574, true, 0x437573746f6d6572⟩]⟩
/-- Class CIM14.IEC61968.Customers.CustomerAccount -/
def s_CustomerAccount : SClass := ⟨0x437573746f6d65724163636f756e74, 0x43494d31342e49454336313936382e437573746f6d6572732e437573746f6d65724163636f756e74, 0x43494d31342e49454336313936382e436f6d6d6f6e2e446f63756d656e74,
  [],
  [⟨0x5061796d656e745472616e73616374696f6e73, 0x43494d31342e49454336313936382e5061796d656e744d65746572696e672e5472616e73616374696f6e, true, 0x437573746f6d65724163636f756e74⟩, ⟨0x437573746f6d657241677265656d656e7473, 0x43494d31342e49454336313936382e437573746f6d6572732e437573746f6d657241677265656d656e74, true, 0x437573746f6d65724163636f756e74⟩]⟩
/-- Class CIM14.IEC61968.Customers.CustomerAgreement -/
def s_CustomerAgreement : SClass := ⟨0x437573746f6d657241677265656d656e74, 0x43494d31342e49454336313936382e437573746f6d6572732e437573746f6d657241677265656d656e74, 0x43494d31342e49454336313936382e436f6d6d6f6e2e41677265656d656e74,
  [(0x6c6f61644d676d74, t_EString), (0x62756467657442696c6c, t_EString), (0x62696c6c696e674379636c65, t_EString)],
  [⟨0x44656d616e64526573706f6e736550726f6772616d, 0x43494d31342e49454336313936382e4d65746572696e672e44656d616e64526573706f6e736550726f6772616d, false, 0x437573746f6d657241677265656d656e7473⟩, ⟨0x53657276696365537570706c696572, 0x43494d31342e49454336313936382e5061796d656e744d65746572696e672e53657276696365537570706c696572, false, 0x437573746f6d657241677265656d656e7473⟩, ⟨0x50726963696e6753747275637475726573, 0x43494d31342e49454336313936382e437573746f6d6572732e50726963696e67537472756374757265, true, 0x437573746f6d657241677265656d656e7473⟩, ⟨0x536572766963654c6f636174696f6e73, 0x43494d31342e49454336313936382e437573746f6d6572732e536572766963654c6f636174696f6e, true, 0x437573746f6d657241677265656d656e7473⟩, ⟨0x5365727669636543617465676f7279, 0x43494d31342e49454336313936382e437573746f6d6572732e5365727669636543617465676f7279, false, 0x437573746f6d657241677265656d656e7473⟩, ⟨0x4d6574657252656164696e6773, 0x43494d31342e49454336313936382e4d65746572696e672e4d6574657252656164696e67, true, 0x437573746f6d657241677265656d656e74⟩, ⟨0x437573746f6d65724163636f756e74, 0x43494d31342e49454336313936382e437573746f6d6572732e437573746f6d65724163636f756e74, false, 0x437573746f6d657241677265656d656e7473⟩, ⟨0x417578696c6961727941677265656d656e7473, 0x43494d31342e49454336313936382e5061796d656e744d65746572696e672e417578696c6961727941677265656d656e74, true, 0x437573746f6d657241677265656d656e74⟩, ⟨0x456e64446576696365436f6e74726f6c73, 0x43494d31342e49454336313936382e4d65746572696e672e456e64446576696365436f6e74726f6c, true, 0x437573746f6d657241677265656d656e74⟩, ⟨0x437573746f6d6572, 0x43494d31342e49454336313936382e437573746f6d6572732e437573746f6d6572, false, 0x437573746f6d657241677265656d656e7473⟩, ⟨0x5365727669636544656c6976657279506f696e7473, 0x43494d31342e49454336313936382e4d65746572696e672e5365727669636544656c6976657279506f696e74, true, 0x437573746f6d657241677265656d656e74⟩, ⟨0x45717569706d656e7473, 0x43494d31342e49454336313937302e436f72652e45717569706d656e74, true, 0x437573746f6d657241677265656d656e7473⟩]⟩
/-- Class CIM14.IEC61968.Customers.PricingStructure -/
def s_PricingStructure : SClass := ⟨0x50726963696e67537472756374757265, 0x43494d31342e49454336313936382e437573746f6d6572732e50726963696e67537472756374757265, 0x43494d31342e49454336313936382e436f6d6d6f6e2e446f63756d656e74,
  [(0x726576656e75654b696e64, e_RevenueKind), (0x636f6465, t_EString), (0x6461696c79466c6f6f725573616765, t_EInt), (0x7461784578656d7074696f6e, t_EBoolean), (0x6461696c79457374696d617465645573616765, t_EInt), (0x6461696c794365696c696e675573616765, t_EInt)],
  [⟨0x5472616e73616374696f6e73, 0x43494d31342e49454336313936382e5061796d656e744d65746572696e672e5472616e73616374696f6e, true, 0x50726963696e67537472756374757265⟩, ⟨0x5365727669636544656c6976657279506f696e7473, 0x43494d31342e49454336313936382e4d65746572696e672e5365727669636544656c6976657279506f696e74, true, 0x50726963696e6753747275637475726573⟩, ⟨0x437573746f6d657241677265656d656e7473, 0x43494d31342e49454336313936382e437573746f6d6572732e437573746f6d657241677265656d656e74, true, 0x50726963696e6753747275637475726573⟩, ⟨0x5365727669636543617465676f7279, 0x43494d31342e49454336313936382e437573746f6d6572732e5365727669636543617465676f7279, false, 0x50726963696e6753747275637475726573⟩, ⟨0x54617269666673, 0x43494d31342e49454336313936382e437573746f6d6572732e546172696666, true, 0x50726963696e6753747275637475726573⟩]⟩
/-- Class CIM14.IEC61968.Customers.ServiceCategory -/
def s_ServiceCategory : SClass := ⟨0x5365727669636543617465676f7279, 0x43494d31342e49454336313936382e437573746f6d6572732e5365727669636543617465676f7279, 0x43494d31342e49454336313937302e436f72652e4964656e7469666965644f626a656374,
  [(0x6b696e64, e_ServiceKind)],
  [⟨0x437573746f6d657241677265656d656e7473, 0x43494d31342e49454336313936382e437573746f6d6572732e437573746f6d657241677265656d656e74, true, 0x5365727669636543617465676f7279⟩, ⟨0x50726963696e6753747275637475726573, 0x43494d31342e49454336313936382e437573746f6d6572732e50726963696e67537472756374757265, true, 0x5365727669636543617465676f7279⟩, ⟨0x5365727669636544656c6976657279506f696e7473, 0x43494d31342e49454336313936382e4d65746572696e672e5365727669636544656c6976657279506f696e74, true, 0x5365727669636543617465676f7279⟩]⟩
/-- Class CIM14.IEC61968.Customers.ServiceLocation -/
def s_ServiceLocation : SClass := ⟨0x536572766963654c6f636174696f6e, 0x43494d31342e49454336313936382e437573746f6d6572732e536572766963654c6f636174696f6e, 0x43494d31342e49454336313936382e436f6d6d6f6e2e4c6f636174696f6e,
  [(0x7369746541636365737350726f626c656d, t_EString), (0x6163636573734d6574686f64, t_EString), (0x6e65656473496e7370656374696f6e, t_EBoolean)],
  [⟨0x456e64446576696365417373657473, 0x43494d31342e49454336313936382e4d65746572696e672e456e644465766963654173736574, true, 0x536572766963654c6f636174696f6e⟩, ⟨0x437573746f6d657241677265656d656e7473, 0x43494d31342e49454336313936382e437573746f6d6572732e437573746f6d657241677265656d656e74, true, 0x536572766963654c6f636174696f6e73⟩, ⟨0x5365727669636544656c6976657279506f696e7473, 0x43494d31342e49454336313936382e4d65746572696e672e5365727669636544656c6976657279506f696e74, true, 0x536572766963654c6f636174696f6e⟩]⟩
/-- Class CIM14.IEC61968.Customers.Tariff -/
def s_Tariff : SClass := ⟨0x546172696666, 0x43494d31342e49454336313936382e437573746f6d6572732e546172696666, 0x43494d31342e49454336313936382e436f6d6d6f6e2e446f63756d656e74,
  [(0x737461727444617465, t_java_lang_String), (0x656e6444617465, t_java_lang_String)],
  [⟨0x54617269666650726f66696c6573, 0x43494d31342e49454336313936382e5061796d656e744d65746572696e672e54617269666650726f66696c65, true, 0x54617269666673⟩, ⟨0x50726963696e6753747275637475726573, 0x43494d31342e49454336313936382e437573746f6d6572732e50726963696e67537472756374757265, true, 0x54617269666673⟩]⟩
/-- Class CIM14.IEC61968.IEC61968CIMVersion -/
def s_IEC61968CIMVersion : SClass := ⟨0x494543363139363843494d56657273696f6e, 0x43494d31342e49454336313936382e494543363139363843494d56657273696f6e, 0x43494d31342e456c656d656e74,
  [(0x64617465, t_EDate), (0x76657273696f6e, t_EString)],
  []⟩
/-- Class CIM14.IEC61968.LoadControl.ConnectDisconnectFunction -/
def s_ConnectDisconnectFunction : SClass := ⟨0x436f6e6e656374446973636f6e6e65637446756e6374696f6e, 0x43494d31342e49454336313936382e4c6f6164436f6e74726f6c2e436f6e6e656374446973636f6e6e65637446756e6374696f6e, 0x43494d31342e49454336313936382e4d65746572696e672e44657669636546756e6374696f6e,
  [(0x69734c6f63616c4175746f5265636f6e4f70, t_EBoolean), (0x69734c6f63616c4175746f446973636f6e4f70, t_EBoolean), (0x697352656d6f74654175746f5265636f6e4f70, t_EBoolean), (0x697352656d6f74654175746f446973636f6e4f70, t_EBoolean), (0x6973436f6e6e6563746564, t_EBoolean), (0x6576656e74436f756e74, t_EInt), (0x697344656c61796564446973636f6e, t_EBoolean)],
  [⟨0x726364496e666f, 0x43494d31342e49454336313936382e4c6f6164436f6e74726f6c2e52656d6f7465436f6e6e656374446973636f6e6e656374496e666f, false, 0⟩, ⟨0x5377697463686573, 0x43494d31342e49454336313937302e57697265732e537769746368, true, 0x436f6e6e656374446973636f6e6e65637446756e6374696f6e73⟩]⟩
/-- Class CIM14.IEC61968.LoadControl.RemoteConnectDisconnectInfo -/
def s_RemoteConnectDisconnectInfo : SClass := ⟨0x52656d6f7465436f6e6e656374446973636f6e6e656374496e666f, 0x43494d31342e49454336313936382e4c6f6164436f6e74726f6c2e52656d6f7465436f6e6e656374446973636f6e6e656374496e666f, 0x43494d31342e456c656d656e74,
  [(0x6e65656473506f7765724c696d6974436865636b, t_EBoolean), (0x6973456e657267794c696d6974696e67, t_EBoolean), (0x697341726d436f6e6e656374, t_EBoolean), (0x656e6572677955736167655761726e696e67, t_float), (0x61726d656454696d656f7574, t_float), (0x656e65726779557361676553746172744461746554696d65, t_EDate), (0x697341726d446973636f6e6e656374, t_EBoolean), (0x6e65656473566f6c746167654c696d6974436865636b, t_EBoolean), (0x706f7765724c696d6974, t_float), (0x75736550757368627574746f6e, t_EBoolean), (0x637573746f6d6572566f6c746167654c696d6974, t_float), (0x656e657267794c696d6974, t_float)],
  []⟩
/-- Class CIM14.IEC61968.Metering.ComFunction -/
def s_ComFunction : SClass := ⟨0x436f6d46756e6374696f6e, 0x43494d31342e49454336313936382e4d65746572696e672e436f6d46756e6374696f6e, 0x43494d31342e49454336313936382e4d65746572696e672e44657669636546756e6374696f6e,
  [(0x616d72526f75746572, t_EString), (0x74776f576179, t_EBoolean), (0x616d7241646472657373, t_EString)],
  []⟩
/-- Class CIM14.IEC61968.Metering.DemandResponseProgram -/
def s_DemandResponseProgram : SClass := ⟨0x44656d616e64526573706f6e736550726f6772616d, 0x43494d31342e49454336313936382e4d65746572696e672e44656d616e64526573706f6e736550726f6772616d, 0x43494d31342e49454336313937302e436f72652e4964656e7469666965644f626a656374,
  [(0x74797065, t_EString)],
  [⟨0x437573746f6d657241677265656d656e7473, 0x43494d31342e49454336313936382e437573746f6d6572732e437573746f6d657241677265656d656e74, true, 0x44656d616e64526573706f6e736550726f6772616d⟩, ⟨0x456e64446576696365436f6e74726f6c73, 0x43494d31342e49454336313936382e4d65746572696e672e456e64446576696365436f6e74726f6c, true, 0x44656d616e64526573706f6e736550726f6772616d⟩, ⟨0x76616c6964697479496e74657276616c, 0x43494d31342e49454336313936382e436f6d6d6f6e2e4461746554696d65496e74657276616c, false, 0⟩, ⟨0x456e6444657669636547726f757073, 0x43494d31342e49454336313936382e4d65746572696e672e456e6444657669636547726f7570, true, 0x44656d616e64526573706f6e736550726f6772616d⟩]⟩
/-- Class CIM14.IEC61968.Metering.DeviceFunction -/
def s_DeviceFunction : SClass := ⟨0x44657669636546756e6374696f6e, 0x43494d31342e49454336313936382e4d65746572696e672e44657669636546756e6374696f6e, 0x43494d31342e49454336313936382e4173736574732e417373657446756e6374696f6e,
  [(0x64697361626c6564, t_EBoolean)],
  [⟨0x456e644465766963654173736574, 0x43494d31342e49454336313936382e4d65746572696e672e456e644465766963654173736574, false, 0x44657669636546756e6374696f6e73⟩, ⟨0x526567697374657273, 0x43494d31342e49454336313936382e4d65746572696e672e5265676973746572, true, 0x44657669636546756e6374696f6e⟩, ⟨0x456e644465766963654576656e7473, 0x43494d31342e49454336313936382e4d65746572696e672e456e644465766963654576656e74, true, 0x44657669636546756e6374696f6e⟩]⟩
/-- Class CIM14.IEC61968.Metering.DynamicDemand -/
def s_DynamicDemand : SClass := ⟨0x44796e616d696344656d616e64, 0x43494d31342e49454336313936382e4d65746572696e672e44796e616d696344656d616e64, 0x43494d31342e456c656d656e74,
  [(0x6b696e64, e_DemandKind), (0x696e74657276616c, t_float), (0x737562496e74657276616c, t_float)],
  []⟩
/-- Class CIM14.IEC61968.Metering.ElectricMeteringFunction -/
def s_ElectricMeteringFunction : SClass := ⟨0x456c6563747269634d65746572696e6746756e6374696f6e, 0x43494d31342e49454336313936382e4d65746572696e672e456c6563747269634d65746572696e6746756e6374696f6e, 0x43494d31342e49454336313936382e4d65746572696e672e44657669636546756e6374696f6e,
  [(0x62696c6c696e674d756c7469706c6965724170706c696564, t_EBoolean), (0x6b574d756c7469706c696572, t_EInt), (0x64656d616e644d756c7469706c696572, t_EFloat), (0x64656d616e644d756c7469706c6965724170706c696564, t_EBoolean), (0x7472616e73666f726d6572526174696f734170706c696564, t_EBoolean), (0x766f6c74616765526174696e67, t_float), (0x62696c6c696e674d756c7469706c696572, t_EFloat), (0x7472616e73666f726d65725654526174696f, t_EFloat), (0x6b57684d756c7469706c696572, t_EInt), (0x7472616e73666f726d65724354526174696f, t_EFloat), (0x63757272656e74526174696e67, t_float)],
  []⟩
/-- Class CIM14.IEC61968.Metering.EndDeviceAsset -/
def s_EndDeviceAsset : SClass := ⟨0x456e644465766963654173736574, 0x43494d31342e49454336313936382e4d65746572696e672e456e644465766963654173736574, 0x43494d31342e49454336313936382e4173736574732e4173736574436f6e7461696e6572,
  [(0x7265616452657175657374, t_EBoolean), (0x64656d616e64526573706f6e7365, t_EBoolean), (0x72656c617943617061626c65, t_EBoolean), (0x616d7253797374656d, t_EString), (0x726174656443757272656e74, t_float), (0x7068617365436f756e74, t_EInt), (0x72657665727365466c6f7748616e646c696e67, t_EBoolean), (0x6d6574726f6c6f6779, t_EBoolean), (0x74696d655a6f6e654f6666736574, t_float), (0x6f75746167655265706f7274, t_EBoolean), (0x647374456e61626c6564, t_EBoolean), (0x646973636f6e6e656374, t_EBoolean), (0x7261746564566f6c74616765, t_float), (0x6c6f6164436f6e74726f6c, t_EBoolean)],
  [⟨0x456e6444657669636547726f757073, 0x43494d31342e49454336313936382e4d65746572696e672e456e6444657669636547726f7570, true, 0x456e64446576696365417373657473⟩, ⟨0x536572766963654c6f636174696f6e, 0x43494d31342e49454336313936382e437573746f6d6572732e536572766963654c6f636174696f6e, false, 0x456e64446576696365417373657473⟩, ⟨0x456e644465766963654d6f64656c, 0x43494d31342e49454336313936382e41737365744d6f64656c732e456e644465766963654d6f64656c, false, 0x456e64446576696365417373657473⟩, ⟨0x44657669636546756e6374696f6e73, 0x43494d31342e49454336313936382e4d65746572696e672e44657669636546756e6374696f6e, true, 0x456e644465766963654173736574⟩, ⟨0x5365727669636544656c6976657279506f696e74, 0x43494d31342e49454336313936382e4d65746572696e672e5365727669636544656c6976657279506f696e74, false, 0x456e64446576696365417373657473⟩, ⟨0x52656164696e6773, 0x43494d31342e49454336313936382e4d65746572696e672e52656164696e67, true, 0x456e644465766963654173736574⟩, ⟨0x456e64446576696365436f6e74726f6c73, 0x43494d31342e49454336313936382e4d65746572696e672e456e64446576696365436f6e74726f6c, true, 0x456e644465766963654173736574⟩, ⟨0x437573746f6d6572, 0x43494d31342e49454336313936382e437573746f6d6572732e437573746f6d6572, false, 0x456e64446576696365417373657473⟩]⟩
/-- Class CIM14.IEC61968.Metering.EndDeviceControl -/
def s_EndDeviceControl : SClass := ⟨0x456e64446576696365436f6e74726f6c, 0x43494d31342e49454336313936382e4d65746572696e672e456e64446576696365436f6e74726f6c, 0x43494d31342e49454336313937302e436f72652e4964656e7469666965644f626a656374,
  [(0x74797065, t_EString), (0x647250726f6772616d4d616e6461746f7279, t_EBoolean), (0x70726963655369676e616c, t_float), (0x647250726f6772616d4c6576656c, t_EInt)],
  [⟨0x456e6444657669636547726f7570, 0x43494d31342e49454336313936382e4d65746572696e672e456e6444657669636547726f7570, false, 0x456e64446576696365436f6e74726f6c73⟩, ⟨0x44656d616e64526573706f6e736550726f6772616d, 0x43494d31342e49454336313936382e4d65746572696e672e44656d616e64526573706f6e736550726f6772616d, false, 0x456e64446576696365436f6e74726f6c73⟩, ⟨0x437573746f6d657241677265656d656e74, 0x43494d31342e49454336313936382e437573746f6d6572732e437573746f6d657241677265656d656e74, false, 0x456e64446576696365436f6e74726f6c73⟩, ⟨0x456e644465766963654173736574, 0x43494d31342e49454336313936382e4d65746572696e672e456e644465766963654173736574, false, 0x456e64446576696365436f6e74726f6c73⟩, ⟨0x7363686564756c6564496e74657276616c, 0x43494d31342e49454336313936382e436f6d6d6f6e2e4461746554696d65496e74657276616c, false, 0⟩]⟩
/-- Class CIM14.IEC61968.Metering.EndDeviceEvent -/
def s_EndDeviceEvent : SClass := ⟨0x456e644465766963654576656e74, 0x43494d31342e49454336313936382e4d65746572696e672e456e644465766963654576656e74, 0x43494d31342e49454336313936382e436f6d6d6f6e2e41637469766974795265636f7264,
  [(0x757365724944, t_EString)],
  [⟨0x4d6574657252656164696e67, 0x43494d31342e49454336313936382e4d65746572696e672e4d6574657252656164696e67, false, 0x456e644465766963654576656e7473⟩, ⟨0x44657669636546756e6374696f6e, 0x43494d31342e49454336313936382e4d65746572696e672e44657669636546756e6374696f6e, false, 0x456e644465766963654576656e7473⟩]⟩
/-- Class CIM14.IEC61968.Metering.EndDeviceGroup -/
def s_EndDeviceGroup : SClass := ⟨0x456e6444657669636547726f7570, 0x43494d31342e49454336313936382e4d65746572696e672e456e6444657669636547726f7570, 0x43494d31342e49454336313937302e436f72652e4964656e7469666965644f626a656374,
  [(0x67726f757041646472657373, t_EInt)],
  [⟨0x456e64446576696365417373657473, 0x43494d31342e49454336313936382e4d65746572696e672e456e644465766963654173736574, true, 0x456e6444657669636547726f757073⟩, ⟨0x456e64446576696365436f6e74726f6c73, 0x43494d31342e49454336313936382e4d65746572696e672e456e64446576696365436f6e74726f6c, true, 0x456e6444657669636547726f7570⟩, ⟨0x44656d616e64526573706f6e736550726f6772616d, 0x43494d31342e49454336313936382e4d65746572696e672e44656d616e64526573706f6e736550726f6772616d, false, 0x456e6444657669636547726f757073⟩]⟩
/-- Class CIM14.IEC61968.Metering.IntervalBlock -/
def s_IntervalBlock : SClass := ⟨0x496e74657276616c426c6f636b, 0x43494d31342e49454336313936382e4d65746572696e672e496e74657276616c426c6f636b, 0x43494d31342e456c656d656e74,
  [],
  [⟨0x4d6574657252656164696e67, 0x43494d31342e49454336313936382e4d65746572696e672e4d6574657252656164696e67, false, 0x496e74657276616c426c6f636b73⟩, ⟨0x50656e64696e67, 0x43494d31342e49454336313936382e4d65746572696e672e50656e64696e67, false, 0x496e74657276616c426c6f636b73⟩, ⟨0x52656164696e6754797065, 0x43494d31342e49454336313936382e4d65746572696e672e52656164696e6754797065, false, 0x496e74657276616c426c6f636b73⟩, ⟨0x496e74657276616c52656164696e6773, 0x43494d31342e49454336313936382e4d65746572696e672e496e74657276616c52656164696e67, true, 0x496e74657276616c426c6f636b73⟩]⟩
/-- Class CIM14.IEC61968.Metering.IntervalReading -/
def s_IntervalReading : SClass := ⟨0x496e74657276616c52656164696e67, 0x43494d31342e49454336313936382e4d65746572696e672e496e74657276616c52656164696e67, 0x43494d31342e49454336313937302e4d6561732e4d6561737572656d656e7456616c7565,
  [(0x76616c7565, t_EFloat)],
  [⟨0x52656164696e675175616c6974696573, 0x43494d31342e49454336313936382e4d65746572696e672e52656164696e675175616c697479, true, 0x496e74657276616c52656164696e67⟩, ⟨0x496e74657276616c426c6f636b73, 0x43494d31342e49454336313936382e4d65746572696e672e496e74657276616c426c6f636b, true, 0x496e74657276616c52656164696e6773⟩]⟩
/-- Class CIM14.IEC61968.Metering.MeterAsset -/
def s_MeterAsset : SClass := ⟨0x4d657465724173736574, 0x43494d31342e49454336313936382e4d65746572696e672e4d657465724173736574, 0x43494d31342e49454336313936382e4d65746572696e672e456e644465766963654173736574,
  [(0x6b48, t_EFloat), (0x6b52, t_EFloat), (0x666f726d4e756d626572, t_EString)],
  [⟨0x4d657465725265706c6163656d656e74576f726b73, 0x43494d31342e49454336313936382e4d65746572696e672e4d6574657253657276696365576f726b, true, 0x4f6c644d657465724173736574⟩, ⟨0x4d6574657253657276696365576f726b73, 0x43494d31342e49454336313936382e4d65746572696e672e4d6574657253657276696365576f726b, true, 0x4d657465724173736574⟩, ⟨0x4d6574657252656164696e6773, 0x43494d31342e49454336313936382e4d65746572696e672e4d6574657252656164696e67, true, 0x4d657465724173736574⟩, ⟨0x56656e64696e675472616e73616374696f6e73, 0x43494d31342e49454336313936382e5061796d656e744d65746572696e672e5472616e73616374696f6e, true, 0x4d657465724173736574⟩]⟩
/-- Class CIM14.IEC61968.Metering.MeterReading -/
def s_MeterReading : SClass := ⟨0x4d6574657252656164696e67, 0x43494d31342e49454336313936382e4d65746572696e672e4d6574657252656164696e67, 0x43494d31342e49454336313937302e436f72652e4964656e7469666965644f626a656374,
  [],
  [⟨0x496e74657276616c426c6f636b73, 0x43494d31342e49454336313936382e4d65746572696e672e496e74657276616c426c6f636b, true, 0x4d6574657252656164696e67⟩, ⟨0x437573746f6d657241677265656d656e74, 0x43494d31342e49454336313936382e437573746f6d6572732e437573746f6d657241677265656d656e74, false, 0x4d6574657252656164696e6773⟩, ⟨0x4d657465724173736574, 0x43494d31342e49454336313936382e4d65746572696e672e4d657465724173736574, false, 0x4d6574657252656164696e6773⟩, ⟨0x456e644465766963654576656e7473, 0x43494d31342e49454336313936382e4d65746572696e672e456e644465766963654576656e74, true, 0x4d6574657252656164696e67⟩, ⟨0x52656164696e6773, 0x43494d31342e49454336313936382e4d65746572696e672e52656164696e67, true, 0x4d6574657252656164696e6773⟩, ⟨0x5365727669636544656c6976657279506f696e74, 0x43494d31342e49454336313936382e4d65746572696e672e5365727669636544656c6976657279506f696e74, false, 0x4d6574657252656164696e6773⟩, ⟨0x76616c756573496e74657276616c, 0x43494d31342e49454336313936382e436f6d6d6f6e2e4461746554696d65496e74657276616c, false, 0⟩]⟩
/-- Class CIM14.IEC61968.Metering.MeterServiceWork -/
def s_MeterServiceWork : SClass := ⟨0x4d6574657253657276696365576f726b, 0x43494d31342e49454336313936382e4d65746572696e672e4d6574657253657276696365576f726b, 0x43494d31342e49454336313936382e576f726b2e576f726b,
  [],
  [⟨0x4f6c644d657465724173736574, 0x43494d31342e49454336313936382e4d65746572696e672e4d657465724173736574, false, 0x4d657465725265706c6163656d656e74576f726b73⟩, ⟨0x4d657465724173736574, 0x43494d31342e49454336313936382e4d65746572696e672e4d657465724173736574, false, 0x4d6574657253657276696365576f726b73⟩]⟩
/-- Class CIM14.IEC61968.Metering.Pending -/
def s_Pending : SClass := ⟨0x50656e64696e67, 0x43494d31342e49454336313936382e4d65746572696e672e50656e64696e67, 0x43494d31342e456c656d656e74,
  [(0x7363616c617244656e6f6d696e61746f72, t_EInt), (0x7363616c6172466c6f6174, t_EFloat), (0x7363616c61724e756d657261746f72, t_EInt), (0x6d756c7469706c794265666f7265416464, t_EBoolean), (0x6f6666736574, t_EInt)],
  [⟨0x496e74657276616c426c6f636b73, 0x43494d31342e49454336313936382e4d65746572696e672e496e74657276616c426c6f636b, true, 0x50656e64696e67⟩, ⟨0x52656164696e6754797065, 0x43494d31342e49454336313936382e4d65746572696e672e52656164696e6754797065, false, 0x50656e64696e67⟩]⟩
/-- Class CIM14.IEC61968.Metering.Reading -/
def s_Reading : SClass := ⟨0x52656164696e67, 0x43494d31342e49454336313936382e4d65746572696e672e52656164696e67, 0x43494d31342e49454336313937302e4d6561732e4d6561737572656d656e7456616c7565,
  [(0x76616c7565, t_EFloat)],
  [⟨0x52656164696e6754797065, 0x43494d31342e49454336313936382e4d65746572696e672e52656164696e6754797065, false, 0x52656164696e6773⟩, ⟨0x52656164696e675175616c6974696573, 0x43494d31342e49454336313936382e4d65746572696e672e52656164696e675175616c697479, true, 0x52656164696e67⟩, ⟨0x456e644465766963654173736574, 0x43494d31342e49454336313936382e4d65746572696e672e456e644465766963654173736574, false, 0x52656164696e6773⟩, ⟨0x4d6574657252656164696e6773, 0x43494d31342e49454336313936382e4d65746572696e672e4d6574657252656164696e67, true, 0x52656164696e6773⟩]⟩
/-- Class CIM14.IEC61968.Metering.ReadingQuality -/
def s_ReadingQuality : SClass := ⟨0x52656164696e675175616c697479, 0x43494d31342e49454336313936382e4d65746572696e672e52656164696e675175616c697479, 0x43494d31342e456c656d656e74,
  [(0x7175616c697479, t_EString)],
  [⟨0x496e74657276616c52656164696e67, 0x43494d31342e49454336313936382e4d65746572696e672e496e74657276616c52656164696e67, false, 0x52656164696e675175616c6974696573⟩, ⟨0x52656164696e67, 0x43494d31342e49454336313936382e4d65746572696e672e52656164696e67, false, 0x52656164696e675175616c6974696573⟩]⟩
/-- Class CIM14.IEC61968.Metering.ReadingType -/
def s_ReadingType : SClass := ⟨0x52656164696e6754797065, 0x43494d31342e49454336313936382e4d65746572696e672e52656164696e6754797065, 0x43494d31342e49454336313937302e436f72652e4964656e7469666965644f626a656374,
  [(0x6d756c7469706c696572, e_UnitMultiplier), (0x6b696e64, e_ReadingKind), (0x756e6974, e_UnitSymbol), (0x726576657273654368726f6e6f6c6f6779, t_EBoolean), (0x64656661756c745175616c697479, t_EString), (0x64656661756c7456616c75654461746154797065, t_EString), (0x6368616e6e656c4e756d626572, t_EInt), (0x696e74657276616c4c656e677468, t_float)],
  [⟨0x52656164696e6773, 0x43494d31342e49454336313936382e4d65746572696e672e52656164696e67, true, 0x52656164696e6754797065⟩, ⟨0x64796e616d6963436f6e66696775726174696f6e, 0x43494d31342e49454336313936382e4d65746572696e672e44796e616d696344656d616e64, false, 0⟩, ⟨0x496e74657276616c426c6f636b73, 0x43494d31342e49454336313936382e4d65746572696e672e496e74657276616c426c6f636b, true, 0x52656164696e6754797065⟩, ⟨0x50656e64696e67, 0x43494d31342e49454336313936382e4d65746572696e672e50656e64696e67, false, 0x52656164696e6754797065⟩, ⟨0x5265676973746572, 0x43494d31342e49454336313936382e4d65746572696e672e5265676973746572, false, 0x52656164696e6754797065⟩]⟩
/-- Class CIM14.IEC61968.Metering.Register -/
def s_Register : SClass := ⟨0x5265676973746572, 0x43494d31342e49454336313936382e4d65746572696e672e5265676973746572, 0x43494d31342e49454336313937302e436f72652e4964656e7469666965644f626a656374,
  [(0x6c6566744469676974436f756e74, t_EInt), (0x72696768744469676974436f756e74, t_EInt)],
  [⟨0x52656164696e6754797065, 0x43494d31342e49454336313936382e4d65746572696e672e52656164696e6754797065, false, 0x5265676973746572⟩, ⟨0x44657669636546756e6374696f6e, 0x43494d31342e49454336313936382e4d65746572696e672e44657669636546756e6374696f6e, false, 0x526567697374657273⟩]⟩
/-- Class CIM14.IEC61968.Metering.SDPLocation -/
def s_SDPLocation : SClass := ⟨0x5344504c6f636174696f6e, 0x43494d31342e49454336313936382e4d65746572696e672e5344504c6f636174696f6e, 0x43494d31342e49454336313936382e436f6d6d6f6e2e4c6f636174696f6e,
  [(0x72656d61726b, t_EString), (0x7369746541636365737350726f626c656d, t_EString), (0x6f63637570616e637944617465, t_java_lang_String), (0x6163636573734d6574686f64, t_EString)],
  [⟨0x5365727669636544656c6976657279506f696e7473, 0x43494d31342e49454336313936382e4d65746572696e672e5365727669636544656c6976657279506f696e74, true, 0x5344504c6f636174696f6e73⟩]⟩
/-- Class CIM14.IEC61968.Metering.ServiceDeliveryPoint -/
def s_ServiceDeliveryPoint : SClass := ⟨0x5365727669636544656c6976657279506f696e74, 0x43494d31342e49454336313936382e4d65746572696e672e5365727669636544656c6976657279506f696e74, 0x43494d31342e49454336313937302e436f72652e4964656e7469666965644f626a656374,
  [(0x7068617365436f6465, e_PhaseCode), (0x7261746564506f776572, t_float), (0x736572766963655072696f72697479, t_EString), (0x636865636b42696c6c696e67, t_EBoolean), (0x67726f756e646564, t_EBoolean), (0x7365727669636544656c697665727952656d61726b, t_EString), (0x726174656443757272656e74, t_float), (0x657374696d617465644c6f6164, t_float), (0x6e6f6d696e616c53657276696365566f6c74616765, t_EInt), (0x637470745265666572656e6365, t_EInt)],
  [⟨0x50726963696e6753747275637475726573, 0x43494d31342e49454336313936382e437573746f6d6572732e50726963696e67537472756374757265, true, 0x5365727669636544656c6976657279506f696e7473⟩, ⟨0x5472616e73666f726d6572, 0x43494d31342e49454336313936382e57697265734578742e446973747269627574696f6e5472616e73666f726d6572, false, 0x5365727669636544656c6976657279506f696e7473⟩, ⟨0x5344504c6f636174696f6e73, 0x43494d31342e49454336313936382e4d65746572696e672e5344504c6f636174696f6e, true, 0x5365727669636544656c6976657279506f696e7473⟩, ⟨0x456e64446576696365417373657473, 0x43494d31342e49454336313936382e4d65746572696e672e456e644465766963654173736574, true, 0x5365727669636544656c6976657279506f696e74⟩, ⟨0x456e65726779436f6e73756d6572, 0x43494d31342e49454336313937302e57697265732e456e65726779436f6e73756d6572, false, 0x5365727669636544656c6976657279506f696e7473⟩, ⟨0x536572766963654c6f636174696f6e, 0x43494d31342e49454336313936382e437573746f6d6572732e536572766963654c6f636174696f6e, false, 0x5365727669636544656c6976657279506f696e7473⟩, ⟨0x437573746f6d657241677265656d656e74, 0x43494d31342e49454336313936382e437573746f6d6572732e437573746f6d657241677265656d656e74, false, 0x5365727669636544656c6976657279506f696e7473⟩, ⟨0x4d6574657252656164696e6773, 0x43494d31342e49454336313936382e4d65746572696e672e4d6574657252656164696e67, true, 0x5365727669636544656c6976657279506f696e74⟩, ⟨0x53657276696365537570706c696572, 0x43494d31342e49454336313936382e5061796d656e744d65746572696e672e53657276696365537570706c696572, false, 0x5365727669636544656c6976657279506f696e7473⟩, ⟨0x5365727669636543617465676f7279, 0x43494d31342e49454336313936382e437573746f6d6572732e5365727669636543617465676f7279, false, 0x5365727669636544656c6976657279506f696e7473⟩]⟩
/-- Class CIM14.IEC61968.PaymentMetering.AccountMovement -/
def s_AccountMovement : SClass := ⟨0x4163636f756e744d6f76656d656e74, 0x43494d31342e49454336313936382e5061796d656e744d65746572696e672e4163636f756e744d6f76656d656e74, 0x43494d31342e456c656d656e74,
  [(0x6461746554696d65, t_EDate), (0x616d6f756e74, t_float), (0x726561736f6e, t_EString)],
  []⟩
/-- Class CIM14.IEC61968.PaymentMetering.AccountingUnit -/
def s_AccountingUnit : SClass := ⟨0x4163636f756e74696e67556e6974, 0x43494d31342e49454336313936382e5061796d656e744d65746572696e672e4163636f756e74696e67556e6974, 0x43494d31342e456c656d656e74,
  [(0x6d756c7469706c696572, e_UnitMultiplier), (0x6d6f6e6574617279556e6974, e_Currency), (0x656e65726779556e6974, t_float), (0x76616c7565, t_EFloat)],
  []⟩
/-- Class CIM14.IEC61968.PaymentMetering.AuxiliaryAccount -/
def s_AuxiliaryAccount : SClass := ⟨0x417578696c696172794163636f756e74, 0x43494d31342e49454336313936382e5061796d656e744d65746572696e672e417578696c696172794163636f756e74, 0x43494d31342e49454336313936382e436f6d6d6f6e2e446f63756d656e74,
  [(0x62616c616e6365, t_float), (0x7072696e6369706c65416d6f756e74, t_float)],
  [⟨0x43686172676573, 0x43494d31342e49454336313936382e5061796d656e744d65746572696e672e436861726765, true, 0x417578696c696172794163636f756e7473⟩, ⟨0x417578696c6961727941677265656d656e74, 0x43494d31342e49454336313936382e5061796d656e744d65746572696e672e417578696c6961727941677265656d656e74, false, 0x417578696c696172794163636f756e7473⟩, ⟨0x5061796d656e745472616e73616374696f6e73, 0x43494d31342e49454336313936382e5061796d656e744d65746572696e672e5472616e73616374696f6e, true, 0x417578696c696172794163636f756e74⟩, ⟨0x6c6173744465626974, 0x43494d31342e49454336313936382e5061796d656e744d65746572696e672e4163636f756e744d6f76656d656e74, false, 0⟩, ⟨0x6c617374437265646974, 0x43494d31342e49454336313936382e5061796d656e744d65746572696e672e4163636f756e744d6f76656d656e74, false, 0⟩, ⟨0x647565, 0x43494d31342e49454336313936382e5061796d656e744d65746572696e672e447565, false, 0⟩]⟩
/-- Class CIM14.IEC61968.PaymentMetering.AuxiliaryAgreement -/
def s_AuxiliaryAgreement : SClass := ⟨0x417578696c6961727941677265656d656e74, 0x43494d31342e49454336313936382e5061796d656e744d65746572696e672e417578696c6961727941677265656d656e74, 0x43494d31342e49454336313936382e436f6d6d6f6e2e41677265656d656e74,
  [(0x61727265617273496e746572657374, t_float), (0x76656e64506f7274696f6e, t_float), (0x6d696e416d6f756e74, t_float), (0x6175785072696f72697479436f6465, t_EString), (0x73756243617465676f7279, t_EString), (0x617578526566, t_EString), (0x6175784379636c65, t_EString), (0x76656e64506f7274696f6e417272656172, t_float), (0x7061794379636c65, t_EString), (0x6669786564416d6f756e74, t_float)],
  [⟨0x417578696c696172794163636f756e7473, 0x43494d31342e49454336313936382e5061796d656e744d65746572696e672e417578696c696172794163636f756e74, true, 0x417578696c6961727941677265656d656e74⟩, ⟨0x437573746f6d657241677265656d656e74, 0x43494d31342e49454336313936382e437573746f6d6572732e437573746f6d657241677265656d656e74, false, 0x417578696c6961727941677265656d656e7473⟩]⟩
/-- Class CIM14.IEC61968.PaymentMetering.BankAccountDetail -/
def s_BankAccountDetail : SClass := ⟨0x42616e6b4163636f756e7444657461696c, 0x43494d31342e49454336313936382e5061796d656e744d65746572696e672e42616e6b4163636f756e7444657461696c, 0x43494d31342e456c656d656e74,
  [(0x686f6c6465724e616d65, t_EString), (0x6163636f756e744e756d626572, t_EString), (0x62616e6b4e616d65, t_EString), (0x6272616e6368436f6465, t_EString), (0x686f6c6465724944, t_EString)],
  []⟩
/-- Class CIM14.IEC61968.PaymentMetering.Card -/
def s_Card : SClass := ⟨0x43617264, 0x43494d31342e49454336313936382e5061796d656e744d65746572696e672e43617264, 0x43494d31342e456c656d656e74,
  [(0x70616e, t_EString), (0x65787069727944617465, t_java_lang_String), (0x63764e756d626572, t_EString), (0x6163636f756e74486f6c6465724e616d65, t_EString)],
  [⟨0x54656e646572, 0x43494d31342e49454336313936382e5061796d656e744d65746572696e672e54656e646572, false, 0x43617264⟩]⟩
/-- Class CIM14.IEC61968.PaymentMetering.Cashier -/
def s_Cashier : SClass := ⟨0x43617368696572, 0x43494d31342e49454336313936382e5061796d656e744d65746572696e672e43617368696572, 0x43494d31342e49454336313937302e436f72652e4964656e7469666965644f626a656374,
  [],
  [⟨0x43617368696572536869667473, 0x43494d31342e49454336313936382e5061796d656e744d65746572696e672e436173686965725368696674, true, 0x43617368696572⟩, ⟨0x656c656374726f6e696341646472657373, 0x43494d31342e49454336313936382e436f6d6d6f6e2e456c656374726f6e696341646472657373, false, 0⟩, ⟨0x56656e646f72, 0x43494d31342e49454336313936382e5061796d656e744d65746572696e672e56656e646f72, false, 0x4361736869657273⟩]⟩
/-- Class CIM14.IEC61968.PaymentMetering.CashierShift -/
def s_CashierShift : SClass := ⟨0x436173686965725368696674, 0x43494d31342e49454336313936382e5061796d656e744d65746572696e672e436173686965725368696674, 0x43494d31342e49454336313936382e5061796d656e744d65746572696e672e5368696674,
  [(0x63617368466c6f6174, t_float)],
  [⟨0x5265636569707473, 0x43494d31342e49454336313936382e5061796d656e744d65746572696e672e52656365697074, true, 0x436173686965725368696674⟩, ⟨0x5472616e73616374696f6e73, 0x43494d31342e49454336313936382e5061796d656e744d65746572696e672e5472616e73616374696f6e, true, 0x436173686965725368696674⟩, ⟨0x43617368696572, 0x43494d31342e49454336313936382e5061796d656e744d65746572696e672e43617368696572, false, 0x43617368696572536869667473⟩, ⟨0x506f696e744f6653616c65, 0x43494d31342e49454336313936382e5061796d656e744d65746572696e672e506f696e744f6653616c65, false, 0x43617368696572536869667473⟩]⟩
/-- Class CIM14.IEC61968.PaymentMetering.Charge -/
def s_Charge : SClass := ⟨0x436861726765, 0x43494d31342e49454336313936382e5061796d656e744d65746572696e672e436861726765, 0x43494d31342e49454336313937302e436f72652e4964656e7469666965644f626a656374,
  [(0x6b696e64, e_ChargeKind), (0x7661726961626c65506f7274696f6e, t_float)],
  [⟨0x417578696c696172794163636f756e7473, 0x43494d31342e49454336313936382e5061796d656e744d65746572696e672e417578696c696172794163636f756e74, true, 0x43686172676573⟩, ⟨0x506172656e74436861726765, 0x43494d31342e49454336313936382e5061796d656e744d65746572696e672e436861726765, false, 0x4368696c6443686172676573⟩, ⟨0x4368696c6443686172676573, 0x43494d31342e49454336313936382e5061796d656e744d65746572696e672e436861726765, true, 0x506172656e74436861726765⟩, ⟨0x6669786564506f7274696f6e, 0x43494d31342e49454336313936382e5061796d656e744d65746572696e672e4163636f756e74696e67556e6974, false, 0⟩, ⟨0x436f6e73756d7074696f6e546172696666496e74657276616c73, 0x43494d31342e49454336313936382e5061796d656e744d65746572696e672e436f6e73756d7074696f6e546172696666496e74657276616c, true, 0x43686172676573⟩, ⟨0x54696d65546172696666496e74657276616c73, 0x43494d31342e49454336313936382e5061796d656e744d65746572696e672e54696d65546172696666496e74657276616c, true, 0x43686172676573⟩]⟩
/-- Class CIM14.IEC61968.PaymentMetering.Cheque -/
def s_Cheque : SClass := ⟨0x436865717565, 0x43494d31342e49454336313936382e5061796d656e744d65746572696e672e436865717565, 0x43494d31342e456c656d656e74,
  [(0x6b696e64, e_ChequeKind), (0x6d6963724e756d626572, t_EString), (0x64617465, t_java_lang_String), (0x6368657175654e756d626572, t_EString)],
  [⟨0x54656e646572, 0x43494d31342e49454336313936382e5061796d656e744d65746572696e672e54656e646572, false, 0x436865717565⟩, ⟨0x62616e6b4163636f756e7444657461696c, 0x43494d31342e49454336313936382e5061796d656e744d65746572696e672e42616e6b4163636f756e7444657461696c, false, 0⟩]⟩
/-- Class CIM14.IEC61968.PaymentMetering.ConsumptionTariffInterval -/
def s_ConsumptionTariffInterval : SClass := ⟨0x436f6e73756d7074696f6e546172696666496e74657276616c, 0x43494d31342e49454336313936382e5061796d656e744d65746572696e672e436f6e73756d7074696f6e546172696666496e74657276616c, 0x43494d31342e456c656d656e74,
  [(0x73657175656e63654e756d626572, t_EInt), (0x737461727456616c7565, t_float)],
  [⟨0x54617269666650726f66696c6573, 0x43494d31342e49454336313936382e5061796d656e744d65746572696e672e54617269666650726f66696c65, true, 0x436f6e73756d7074696f6e546172696666496e74657276616c73⟩, ⟨0x43686172676573, 0x43494d31342e49454336313936382e5061796d656e744d65746572696e672e436861726765, true, 0x436f6e73756d7074696f6e546172696666496e74657276616c73⟩]⟩
/-- Class CIM14.IEC61968.PaymentMetering.Due -/
def s_Due : SClass := ⟨0x447565, 0x43494d31342e49454336313936382e5061796d656e744d65746572696e672e447565, 0x43494d31342e456c656d656e74,
  [(0x696e746572657374, t_float), (0x7072696e6369706c65, t_float), (0x61727265617273, t_float), (0x63757272656e74, t_float), (0x63686172676573, t_float)],
  []⟩
/-- Class CIM14.IEC61968.PaymentMetering.LineDetail -/
def s_LineDetail : SClass := ⟨0x4c696e6544657461696c, 0x43494d31342e49454336313936382e5061796d656e744d65746572696e672e4c696e6544657461696c, 0x43494d31342e456c656d656e74,
  [(0x6461746554696d65, t_EDate), (0x726f756e64696e67, t_float), (0x6e6f7465, t_EString), (0x616d6f756e74, t_float)],
  []⟩
/-- Class CIM14.IEC61968.PaymentMetering.MerchantAccount -/
def s_MerchantAccount : SClass := ⟨0x4d65726368616e744163636f756e74, 0x43494d31342e49454336313936382e5061796d656e744d65746572696e672e4d65726368616e744163636f756e74, 0x43494d31342e49454336313936382e436f6d6d6f6e2e446f63756d656e74,
  [(0x70726f766973696f6e616c42616c616e6365, t_float), (0x63757272656e7442616c616e6365, t_float)],
  [⟨0x56656e646f72536869667473, 0x43494d31342e49454336313936382e5061796d656e744d65746572696e672e56656e646f725368696674, true, 0x4d65726368616e744163636f756e74⟩, ⟨0x4d65726368616e7441677265656d656e74, 0x43494d31342e49454336313936382e5061796d656e744d65746572696e672e4d65726368616e7441677265656d656e74, false, 0x4d65726368616e744163636f756e7473⟩, ⟨0x56656e646f7273, 0x43494d31342e49454336313936382e5061796d656e744d65746572696e672e56656e646f72, true, 0x4d65726368616e744163636f756e74⟩, ⟨0x5472616e736163746f7273, 0x43494d31342e49454336313936382e5061796d656e744d65746572696e672e5472616e736163746f72, true, 0x4d65726368616e744163636f756e7473⟩]⟩
/-- Class CIM14.IEC61968.PaymentMetering.MerchantAgreement -/
def s_MerchantAgreement : SClass := ⟨0x4d65726368616e7441677265656d656e74, 0x43494d31342e49454336313936382e5061796d656e744d65746572696e672e4d65726368616e7441677265656d656e74, 0x43494d31342e49454336313936382e436f6d6d6f6e2e41677265656d656e74,
  [],
  [⟨0x4d65726368616e744163636f756e7473, 0x43494d31342e49454336313936382e5061796d656e744d65746572696e672e4d65726368616e744163636f756e74, true, 0x4d65726368616e7441677265656d656e74⟩]⟩
/-- Class CIM14.IEC61968.PaymentMetering.PointOfSale -/
def s_PointOfSale : SClass := ⟨0x506f696e744f6653616c65, 0x43494d31342e49454336313936382e5061796d656e744d65746572696e672e506f696e744f6653616c65, 0x43494d31342e49454336313937302e436f72652e4964656e7469666965644f626a656374,
  [(0x6c6f636174696f6e, t_EString)],
  [⟨0x56656e646f72, 0x43494d31342e49454336313936382e5061796d656e744d65746572696e672e56656e646f72, false, 0x506f696e744f6653616c6573⟩, ⟨0x43617368696572536869667473, 0x43494d31342e49454336313936382e5061796d656e744d65746572696e672e436173686965725368696674, true, 0x506f696e744f6653616c65⟩]⟩
/-- Class CIM14.IEC61968.PaymentMetering.Receipt -/
def s_Receipt : SClass := ⟨0x52656365697074, 0x43494d31342e49454336313936382e5061796d656e744d65746572696e672e52656365697074, 0x43494d31342e49454336313937302e436f72652e4964656e7469666965644f626a656374,
  [(0x697342616e6b61626c65, t_EBoolean)],
  [⟨0x436173686965725368696674, 0x43494d31342e49454336313936382e5061796d656e744d65746572696e672e436173686965725368696674, false, 0x5265636569707473⟩, ⟨0x54656e64657273, 0x43494d31342e49454336313936382e5061796d656e744d65746572696e672e54656e646572, true, 0x52656365697074⟩, ⟨0x56656e646f725368696674, 0x43494d31342e49454336313936382e5061796d656e744d65746572696e672e56656e646f725368696674, false, 0x5265636569707473⟩, ⟨0x5472616e73616374696f6e73, 0x43494d31342e49454336313936382e5061796d656e744d65746572696e672e5472616e73616374696f6e, true, 0x52656365697074⟩, ⟨0x6c696e65, 0x43494d31342e49454336313936382e5061796d656e744d65746572696e672e4c696e6544657461696c, false, 0⟩]⟩
/-- Class CIM14.IEC61968.PaymentMetering.ServiceSupplier -/
def s_ServiceSupplier : SClass := ⟨0x53657276696365537570706c696572, 0x43494d31342e49454336313936382e5061796d656e744d65746572696e672e53657276696365537570706c696572, 0x43494d31342e49454336313936382e436f6d6d6f6e2e4f7267616e69736174696f6e,
  [(0x6b696e64, e_SupplierKind), (0x6973737565724964656e74696669636174696f6e4e756d626572, t_EString)],
  [⟨0x437573746f6d657241677265656d656e7473, 0x43494d31342e49454336313936382e437573746f6d6572732e437573746f6d657241677265656d656e74, true, 0x53657276696365537570706c696572⟩, ⟨0x5365727669636544656c6976657279506f696e7473, 0x43494d31342e49454336313936382e4d65746572696e672e5365727669636544656c6976657279506f696e74, true, 0x53657276696365537570706c696572⟩]⟩
/-- Class CIM14.IEC61968.PaymentMetering.Shift -/
def s_Shift : SClass := ⟨0x5368696674, 0x43494d31342e49454336313936382e5061796d656e744d65746572696e672e5368696674, 0x43494d31342e49454336313937302e436f72652e4964656e7469666965644f626a656374,
  [(0x72656365697074734772616e64546f74616c4e6f6e42616e6b61626c65, t_float), (0x72656365697074734772616e64546f74616c42616e6b61626c65, t_float), (0x72656365697074734772616e64546f74616c526f756e64696e67, t_float), (0x7472616e73616374696f6e734772616e64546f74616c, t_float), (0x7472616e73616374696f6e734772616e64546f74616c526f756e64696e67, t_float)],
  [⟨0x6163746976697479496e74657276616c, 0x43494d31342e49454336313936382e436f6d6d6f6e2e4461746554696d65496e74657276616c, false, 0⟩]⟩
/-- Class CIM14.IEC61968.PaymentMetering.TariffProfile -/
def s_TariffProfile : SClass := ⟨0x54617269666650726f66696c65, 0x43494d31342e49454336313936382e5061796d656e744d65746572696e672e54617269666650726f66696c65, 0x43494d31342e49454336313936382e436f6d6d6f6e2e446f63756d656e74,
  [(0x7461726966664379636c65, t_EString)],
  [⟨0x436f6e73756d7074696f6e546172696666496e74657276616c73, 0x43494d31342e49454336313936382e5061796d656e744d65746572696e672e436f6e73756d7074696f6e546172696666496e74657276616c, true, 0x54617269666650726f66696c6573⟩, ⟨0x54696d65546172696666496e74657276616c73, 0x43494d31342e49454336313936382e5061796d656e744d65746572696e672e54696d65546172696666496e74657276616c, true, 0x54617269666650726f66696c6573⟩, ⟨0x54617269666673, 0x43494d31342e49454336313936382e437573746f6d6572732e546172696666, true, 0x54617269666650726f66696c6573⟩]⟩
/-- Class CIM14.IEC61968.PaymentMetering.Tender -/
def s_Tender : SClass := ⟨0x54656e646572, 0x43494d31342e49454336313936382e5061796d656e744d65746572696e672e54656e646572, 0x43494d31342e49454336313937302e436f72652e4964656e7469666965644f626a656374,
  [(0x6b696e64, e_TenderKind), (0x616d6f756e74, t_float), (0x6368616e6765, t_float)],
  [⟨0x436865717565, 0x43494d31342e49454336313936382e5061796d656e744d65746572696e672e436865717565, false, 0x54656e646572⟩, ⟨0x52656365697074, 0x43494d31342e49454336313936382e5061796d656e744d65746572696e672e52656365697074, false, 0x54656e64657273⟩, ⟨0x43617264, 0x43494d31342e49454336313936382e5061796d656e744d65746572696e672e43617264, false, 0x54656e646572⟩]⟩
/-- Class CIM14.IEC61968.PaymentMetering.TimeTariffInterval -/
def s_TimeTariffInterval : SClass := ⟨0x54696d65546172696666496e74657276616c, 0x43494d31342e49454336313936382e5061796d656e744d65746572696e672e54696d65546172696666496e74657276616c, 0x43494d31342e456c656d656e74,
  [(0x73657175656e63654e756d626572, t_EInt), (0x73746172744461746554696d65, t_EDate)],
  [⟨0x54617269666650726f66696c6573, 0x43494d31342e49454336313936382e5061796d656e744d65746572696e672e54617269666650726f66696c65, true, 0x54696d65546172696666496e74657276616c73⟩, ⟨0x43686172676573, 0x43494d31342e49454336313936382e5061796d656e744d65746572696e672e436861726765, true, 0x54696d65546172696666496e74657276616c73⟩]⟩
/-- Class CIM14.IEC61968.PaymentMetering.Transaction -/
def s_Transaction : SClass := ⟨0x5472616e73616374696f6e, 0x43494d31342e49454336313936382e5061796d656e744d65746572696e672e5472616e73616374696f6e, 0x43494d31342e49454336313937302e436f72652e4964656e7469666965644f626a656374,
  [(0x6b696e64, e_TransactionKind), (0x73657276696365556e697473456e65726779, t_float), (0x646976657273655265666572656e6365, t_EString), (0x72656365697665725265666572656e6365, t_EString), (0x646f6e6f725265666572656e6365, t_EString), (0x73657276696365556e6974734572726f72, t_float), (0x72657665727365644964, t_EString)],
  [⟨0x50726963696e67537472756374757265, 0x43494d31342e49454336313936382e437573746f6d6572732e50726963696e67537472756374757265, false, 0x5472616e73616374696f6e73⟩, ⟨0x5573657241747472696275746573, 0x43494d31342e49454336313936382e436f6d6d6f6e2e55736572417474726962757465, true, 0x5472616e73616374696f6e⟩, ⟨0x437573746f6d65724163636f756e74, 0x43494d31342e49454336313936382e437573746f6d6572732e437573746f6d65724163636f756e74, false, 0x5061796d656e745472616e73616374696f6e73⟩, ⟨0x436173686965725368696674, 0x43494d31342e49454336313936382e5061796d656e744d65746572696e672e436173686965725368696674, false, 0x5472616e73616374696f6e73⟩, ⟨0x56656e646f725368696674, 0x43494d31342e49454336313936382e5061796d656e744d65746572696e672e56656e646f725368696674, false, 0x5472616e73616374696f6e73⟩, ⟨0x4d657465724173736574, 0x43494d31342e49454336313936382e4d65746572696e672e4d657465724173736574, false, 0x56656e64696e675472616e73616374696f6e73⟩, ⟨0x417578696c696172794163636f756e74, 0x43494d31342e49454336313936382e5061796d656e744d65746572696e672e417578696c696172794163636f756e74, false, 0x5061796d656e745472616e73616374696f6e73⟩, ⟨0x6c696e65, 0x43494d31342e49454336313936382e5061796d656e744d65746572696e672e4c696e6544657461696c, false, 0⟩, ⟨0x52656365697074, 0x43494d31342e49454336313936382e5061796d656e744d65746572696e672e52656365697074, false, 0x5472616e73616374696f6e73⟩]⟩
/-- Class CIM14.IEC61968.PaymentMetering.Transactor -/
def s_Transactor : SClass := ⟨0x5472616e736163746f72, 0x43494d31342e49454336313936382e5061796d656e744d65746572696e672e5472616e736163746f72, 0x43494d31342e49454336313937302e436f72652e4964656e7469666965644f626a656374,
  [],
  [⟨0x4d65726368616e744163636f756e7473, 0x43494d31342e49454336313936382e5061796d656e744d65746572696e672e4d65726368616e744163636f756e74, true, 0x5472616e736163746f7273⟩]⟩
/-- Class CIM14.IEC61968.PaymentMetering.Vendor -/
def s_Vendor : SClass := ⟨0x56656e646f72, 0x43494d31342e49454336313936382e5061796d656e744d65746572696e672e56656e646f72, 0x43494d31342e49454336313937302e436f72652e4964656e7469666965644f626a656374,
  [],
  [⟨0x506f696e744f6653616c6573, 0x43494d31342e49454336313936382e5061796d656e744d65746572696e672e506f696e744f6653616c65, true, 0x56656e646f72⟩, ⟨0x4d65726368616e744163636f756e74, 0x43494d31342e49454336313936382e5061796d656e744d65746572696e672e4d65726368616e744163636f756e74, false, 0x56656e646f7273⟩, ⟨0x4361736869657273, 0x43494d31342e49454336313936382e5061796d656e744d65746572696e672e43617368696572, true, 0x56656e646f72⟩, ⟨0x56656e646f72536869667473, 0x43494d31342e49454336313936382e5061796d656e744d65746572696e672e56656e646f725368696674, true, 0x56656e646f72⟩]⟩
/-- Class CIM14.IEC61968.PaymentMetering.VendorShift -/
def s_VendorShift : SClass := ⟨0x56656e646f725368696674, 0x43494d31342e49454336313936382e5061796d656e744d65746572696e672e56656e646f725368696674, 0x43494d31342e49454336313936382e5061796d656e744d65746572696e672e5368696674,
  [(0x6d65726368616e744465626974416d6f756e74, t_float), (0x706f73746564, t_EBoolean)],
  [⟨0x4d65726368616e744163636f756e74, 0x43494d31342e49454336313936382e5061796d656e744d65746572696e672e4d65726368616e744163636f756e74, false, 0x56656e646f72536869667473⟩, ⟨0x5472616e73616374696f6e73, 0x43494d31342e49454336313936382e5061796d656e744d65746572696e672e5472616e73616374696f6e, true, 0x56656e646f725368696674⟩, ⟨0x5265636569707473, 0x43494d31342e49454336313936382e5061796d656e744d65746572696e672e52656365697074, true, 0x56656e646f725368696674⟩, ⟨0x56656e646f72, 0x43494d31342e49454336313936382e5061796d656e744d65746572696e672e56656e646f72, false, 0x56656e646f72536869667473⟩]⟩
/-- Class CIM14.IEC61968.WiresExt.DistributionLineSegment -/
def s_DistributionLineSegment : SClass := ⟨0x446973747269627574696f6e4c696e655365676d656e74, 0x43494d31342e49454336313936382e57697265734578742e446973747269627574696f6e4c696e655365676d656e74, 0x43494d31342e49454336313937302e57697265732e41434c696e655365676d656e74,
  [],
  [⟨0x436f6e647563746f72496e666f, 0x43494d31342e49454336313936382e41737365744d6f64656c732e436f6e647563746f72496e666f, false, 0x436f6e647563746f725365676d656e7473⟩, ⟨0x5068617365496d706564616e6365, 0x43494d31342e49454336313936382e57697265734578742e5065724c656e6774685068617365496d706564616e6365, false, 0x436f6e647563746f725365676d656e7473⟩, ⟨0x53657175656e6365496d706564616e6365, 0x43494d31342e49454336313936382e57697265734578742e5065724c656e67746853657175656e6365496d706564616e6365, false, 0x436f6e647563746f725365676d656e7473⟩]⟩
/-- Class CIM14.IEC61968.WiresExt.DistributionTapChanger -/
def s_DistributionTapChanger : SClass := ⟨0x446973747269627574696f6e5461704368616e676572, 0x43494d31342e49454336313936382e57697265734578742e446973747269627574696f6e5461704368616e676572, 0x43494d31342e49454336313937302e57697265732e526174696f5461704368616e676572,
  [(0x6d6f6e69746f7265645068617365, e_PhaseCode), (0x7074526174696f, t_EFloat), (0x726576657273654c696e6544726f7058, t_float), (0x6374526174696e67, t_float), (0x726576657273654c696e6544726f7052, t_float), (0x6c696e6544726f70436f6d70656e736174696f6e, t_EBoolean), (0x6374526174696f, t_EFloat), (0x746172676574566f6c74616765, t_float), (0x6c696d6974566f6c74616765, t_float), (0x6c696e6544726f7052, t_float), (0x6c696e6544726f7058, t_float), (0x62616e64566f6c74616765, t_float)],
  []⟩
/-- Class CIM14.IEC61968.WiresExt.DistributionTransformer -/
def s_DistributionTransformer : SClass := ⟨0x446973747269627574696f6e5472616e73666f726d6572, 0x43494d31342e49454336313936382e57697265734578742e446973747269627574696f6e5472616e73666f726d6572, 0x43494d31342e49454336313937302e436f72652e45717569706d656e74,
  [],
  [⟨0x57696e64696e6773, 0x43494d31342e49454336313936382e57697265734578742e446973747269627574696f6e5472616e73666f726d657257696e64696e67, true, 0x5472616e73666f726d6572⟩, ⟨0x5365727669636544656c6976657279506f696e7473, 0x43494d31342e49454336313936382e4d65746572696e672e5365727669636544656c6976657279506f696e74, true, 0x5472616e73666f726d6572⟩, ⟨0x5472616e73666f726d657242616e6b, 0x43494d31342e49454336313936382e57697265734578742e5472616e73666f726d657242616e6b, false, 0x5472616e73666f726d657273⟩, ⟨0x5472616e73666f726d6572496e666f, 0x43494d31342e49454336313936382e41737365744d6f64656c732e5472616e73666f726d6572496e666f, false, 0x5472616e73666f726d657273⟩]⟩
/-- Class CIM14.IEC61968.WiresExt.DistributionTransformerWinding -/
def s_DistributionTransformerWinding : SClass := ⟨0x446973747269627574696f6e5472616e73666f726d657257696e64696e67, 0x43494d31342e49454336313936382e57697265734578742e446973747269627574696f6e5472616e73666f726d657257696e64696e67, 0x43494d31342e49454336313937302e436f72652e436f6e64756374696e6745717569706d656e74,
  [(0x67726f756e646564, t_EBoolean), (0x7867726f756e64, t_float), (0x7267726f756e64, t_float)],
  [⟨0x5472616e73666f726d6572, 0x43494d31342e49454336313936382e57697265734578742e446973747269627574696f6e5472616e73666f726d6572, false, 0x57696e64696e6773⟩, ⟨0x57696e64696e67496e666f, 0x43494d31342e49454336313936382e41737365744d6f64656c732e57696e64696e67496e666f, false, 0x57696e64696e6773⟩, ⟨0x526174696f5461704368616e676572, 0x43494d31342e49454336313937302e57697265732e526174696f5461704368616e676572, false, 0x57696e64696e67⟩, ⟨0x5069496d706564616e6365, 0x43494d31342e49454336313936382e57697265734578742e57696e64696e675069496d706564616e6365, false, 0x57696e64696e6773⟩, ⟨0x50686173655461704368616e676572, 0x43494d31342e49454336313937302e57697265732e50686173655461704368616e676572, false, 0x57696e64696e67⟩]⟩
/-- Class CIM14.IEC61968.WiresExt.PerLengthPhaseImpedance -/
def s_PerLengthPhaseImpedance : SClass := ⟨0x5065724c656e6774685068617365496d706564616e6365, 0x43494d31342e49454336313936382e57697265734578742e5065724c656e6774685068617365496d706564616e6365, 0x43494d31342e49454336313937302e436f72652e4964656e7469666965644f626a656374,
  [(0x636f6e647563746f72436f756e74, t_EInt)],
  [⟨0x436f6e647563746f725365676d656e7473, 0x43494d31342e49454336313936382e57697265734578742e446973747269627574696f6e4c696e655365676d656e74, true, 0x5068617365496d706564616e6365⟩, ⟨0x5068617365496d706564616e636544617461, 0x43494d31342e49454336313936382e57697265734578742e5068617365496d706564616e636544617461, true, 0x5068617365496d706564616e6365⟩]⟩
/-- Class CIM14.IEC61968.WiresExt.PerLengthSequenceImpedance -/
def s_PerLengthSequenceImpedance : SClass := ⟨0x5065724c656e67746853657175656e6365496d706564616e6365, 0x43494d31342e49454336313936382e57697265734578742e5065724c656e67746853657175656e6365496d706564616e6365, 0x43494d31342e49454336313937302e436f72652e4964656e7469666965644f626a656374,
  [(0x7230, t_float), (0x72, t_float), (0x62306368, t_float), (0x7830, t_float), (0x676368, t_float), (0x67306368, t_float), (0x626368, t_float), (0x78, t_float)],
  [⟨0x436f6e647563746f725365676d656e7473, 0x43494d31342e49454336313936382e57697265734578742e446973747269627574696f6e4c696e655365676d656e74, true, 0x53657175656e6365496d706564616e6365⟩]⟩
/-- Class CIM14.IEC61968.WiresExt.PhaseImpedanceData -/
def s_PhaseImpedanceData : SClass := ⟨0x5068617365496d706564616e636544617461, 0x43494d31342e49454336313936382e57697265734578742e5068617365496d706564616e636544617461, 0x43494d31342e456c656d656e74,
  [(0x72, t_float), (0x78, t_float), (0x73657175656e63654e756d626572, t_EInt), (0x62, t_float)],
  [⟨0x5068617365496d706564616e6365, 0x43494d31342e49454336313936382e57697265734578742e5065724c656e6774685068617365496d706564616e6365, false, 0x5068617365496d706564616e636544617461⟩]⟩
/-- Class CIM14.IEC61968.WiresExt.TransformerBank -/
def s_TransformerBank : SClass := ⟨0x5472616e73666f726d657242616e6b, 0x43494d31342e49454336313936382e57697265734578742e5472616e73666f726d657242616e6b, 0x43494d31342e49454336313937302e436f72652e45717569706d656e74,
  [(0x766563746f7247726f7570, t_EString)],
  [⟨0x5472616e73666f726d657273, 0x43494d31342e49454336313936382e57697265734578742e446973747269627574696f6e5472616e73666f726d6572, true, 0x5472616e73666f726d657242616e6b⟩]⟩
/-- Class CIM14.IEC61968.WiresExt.WindingPiImpedance -/
def s_WindingPiImpedance : SClass := ⟨0x57696e64696e675069496d706564616e6365, 0x43494d31342e49454336313936382e57697265734578742e57696e64696e675069496d706564616e6365, 0x43494d31342e49454336313937302e436f72652e4964656e7469666965644f626a656374,
  [(0x67, t_float), (0x62, t_float), (0x72, t_float), (0x7830, t_float), (0x78, t_float), (0x7230, t_float), (0x6230, t_float), (0x6730, t_float)],
  [⟨0x57696e64696e6773, 0x43494d31342e49454336313936382e57697265734578742e446973747269627574696f6e5472616e73666f726d657257696e64696e67, true, 0x5069496d706564616e6365⟩]⟩
/-- Class CIM14.IEC61968.Work.Work -/
def s_Work : SClass := ⟨0x576f726b, 0x43494d31342e49454336313936382e576f726b2e576f726b, 0x43494d31342e49454336313936382e436f6d6d6f6e2e446f63756d656e74,
  [(0x6b696e64, e_WorkKind), (0x7072696f72697479, t_EString), (0x726571756573744461746554696d65, t_EDate)],
  [⟨0x437573746f6d657273, 0x43494d31342e49454336313936382e437573746f6d6572732e437573746f6d6572, true, 0x576f726b73⟩]⟩
/-- Class CIM14.IEC61970.Contingency.Contingency -/
def s_Contingency : SClass := ⟨0x436f6e74696e67656e6379, 0x43494d31342e49454336313937302e436f6e74696e67656e63792e436f6e74696e67656e6379, 0x43494d31342e49454336313937302e436f72652e4964656e7469666965644f626a656374,
  [(0x6d7573745374756479, t_EBoolean)],
  [⟨0x436f6e74696e67656e6379456c656d656e74, 0x43494d31342e49454336313937302e436f6e74696e67656e63792e436f6e74696e67656e6379456c656d656e74, true, 0x436f6e74696e67656e6379⟩]⟩
/-- Class CIM14.IEC61970.Contingency.ContingencyElement -/
def s_ContingencyElement : SClass := ⟨0x436f6e74696e67656e6379456c656d656e74, 0x43494d31342e49454336313937302e436f6e74696e67656e63792e436f6e74696e67656e6379456c656d656e74, 0x43494d31342e49454336313937302e436f72652e4964656e7469666965644f626a656374,
  [],
  [⟨0x436f6e74696e67656e6379, 0x43494d31342e49454336313937302e436f6e74696e67656e63792e436f6e74696e67656e6379, false, 0x436f6e74696e67656e6379456c656d656e74⟩]⟩
/-- Class CIM14.IEC61970.Contingency.ContingencyEquipment -/
def s_ContingencyEquipment : SClass := ⟨0x436f6e74696e67656e637945717569706d656e74, 0x43494d31342e49454336313937302e436f6e74696e67656e63792e436f6e74696e67656e637945717569706d656e74, 0x43494d31342e49454336313937302e436f6e74696e67656e63792e436f6e74696e67656e6379456c656d656e74,
  [(0x636f6e74696e67656e74537461747573, e_ContingencyEquipmentStatusKind)],
  [⟨0x45717569706d656e74, 0x43494d31342e49454336313937302e436f72652e45717569706d656e74, false, 0x436f6e74696e67656e637945717569706d656e74⟩]⟩
/-- Class CIM14.IEC61970.ControlArea.AltGeneratingUnitMeas -/
def s_AltGeneratingUnitMeas : SClass := ⟨0x416c7447656e65726174696e67556e69744d656173, 0x43494d31342e49454336313937302e436f6e74726f6c417265612e416c7447656e65726174696e67556e69744d656173, 0x43494d31342e456c656d656e74,
  [(0x7072696f72697479, t_EInt)],
  [⟨0x436f6e74726f6c4172656147656e65726174696e67556e6974, 0x43494d31342e49454336313937302e436f6e74726f6c417265612e436f6e74726f6c4172656147656e65726174696e67556e6974, false, 0x416c7447656e65726174696e67556e69744d656173⟩, ⟨0x416e616c6f6756616c7565, 0x43494d31342e49454336313937302e4d6561732e416e616c6f6756616c7565, false, 0x416c7447656e65726174696e67556e6974⟩]⟩
/-- Class CIM14.IEC61970.ControlArea.AltTieMeas -/
def s_AltTieMeas : SClass := ⟨0x416c745469654d656173, 0x43494d31342e49454336313937302e436f6e74726f6c417265612e416c745469654d656173, 0x43494d31342e456c656d656e74,
  [(0x7072696f72697479, t_EInt)],
  [⟨0x416e616c6f6756616c7565, 0x43494d31342e49454336313937302e4d6561732e416e616c6f6756616c7565, false, 0x416c745469654d656173⟩, ⟨0x546965466c6f77, 0x43494d31342e49454336313937302e436f6e74726f6c417265612e546965466c6f77, false, 0x416c745469654d656173⟩]⟩
/-- Class CIM14.IEC61970.ControlArea.ControlArea -/
def s_ControlArea : SClass := ⟨0x436f6e74726f6c41726561, 0x43494d31342e49454336313937302e436f6e74726f6c417265612e436f6e74726f6c41726561, 0x43494d31342e49454336313937302e436f72652e506f77657253797374656d5265736f75726365,
  [(0x74797065, e_ControlAreaTypeKind), (0x6e6574496e7465726368616e6765, t_float), (0x70546f6c6572616e6365, t_float)],
  [⟨0x546965466c6f77, 0x43494d31342e49454336313937302e436f6e74726f6c417265612e546965466c6f77, true, 0x436f6e74726f6c41726561⟩, ⟨0x456e6572677941726561, 0x43494d31342e49454336313937302e4c6f61644d6f64656c2e456e6572677941726561, false, 0x436f6e74726f6c41726561⟩, ⟨0x436f6e74726f6c4172656147656e65726174696e67556e6974, 0x43494d31342e49454336313937302e436f6e74726f6c417265612e436f6e74726f6c4172656147656e65726174696e67556e6974, true, 0x436f6e74726f6c41726561⟩]⟩
/-- Class CIM14.IEC61970.ControlArea.ControlAreaGeneratingUnit -/
def s_ControlAreaGeneratingUnit : SClass := ⟨0x436f6e74726f6c4172656147656e65726174696e67556e6974, 0x43494d31342e49454336313937302e436f6e74726f6c417265612e436f6e74726f6c4172656147656e65726174696e67556e6974, 0x43494d31342e456c656d656e74,
  [],
  [⟨0x416c7447656e65726174696e67556e69744d656173, 0x43494d31342e49454336313937302e436f6e74726f6c417265612e416c7447656e65726174696e67556e69744d656173, true, 0x436f6e74726f6c4172656147656e65726174696e67556e6974⟩, ⟨0x436f6e74726f6c41726561, 0x43494d31342e49454336313937302e436f6e74726f6c417265612e436f6e74726f6c41726561, false, 0x436f6e74726f6c4172656147656e65726174696e67556e6974⟩, ⟨0x47656e65726174696e67556e6974, 0x43494d31342e49454336313937302e47656e65726174696f6e2e50726f64756374696f6e2e47656e65726174696e67556e6974, false, 0x436f6e74726f6c4172656147656e65726174696e67556e6974⟩]⟩
/-- Class CIM14.IEC61970.ControlArea.TieFlow -/
def s_TieFlow : SClass := ⟨0x546965466c6f77, 0x43494d31342e49454336313937302e436f6e74726f6c417265612e546965466c6f77, 0x43494d31342e456c656d656e74,
  [(0x706f736974697665466c6f77496e, t_EBoolean)],
  [⟨0x436f6e74726f6c41726561, 0x43494d31342e49454336313937302e436f6e74726f6c417265612e436f6e74726f6c41726561, false, 0x546965466c6f77⟩, ⟨0x416c745469654d656173, 0x43494d31342e49454336313937302e436f6e74726f6c417265612e416c745469654d656173, true, 0x546965466c6f77⟩, ⟨0x5465726d696e616c, 0x43494d31342e49454336313937302e436f72652e5465726d696e616c, false, 0x546965466c6f77⟩]⟩
/-- Class CIM14.IEC61970.Core.BasePower -/
def s_BasePower : SClass := ⟨0x42617365506f776572, 0x43494d31342e49454336313937302e436f72652e42617365506f776572, 0x43494d31342e49454336313937302e436f72652e4964656e7469666965644f626a656374,
  [(0x62617365506f776572, t_float)],
  []⟩
/-- Class CIM14.IEC61970.Core.BaseVoltage -/
def s_BaseVoltage : SClass := ⟨0x42617365566f6c74616765, 0x43494d31342e49454336313937302e436f72652e42617365566f6c74616765, 0x43494d31342e49454336313937302e436f72652e4964656e7469666965644f626a656374,
  [(0x6e6f6d696e616c566f6c74616765, t_float), (0x69734443, t_EBoolean)],
  [⟨0x436f6e64756374696e6745717569706d656e74, 0x43494d31342e49454336313937302e436f72652e436f6e64756374696e6745717569706d656e74, true, 0x42617365566f6c74616765⟩, ⟨0x566f6c746167654c6576656c, 0x43494d31342e49454336313937302e436f72652e566f6c746167654c6576656c, true, 0x42617365566f6c74616765⟩, ⟨0x546f706f6c6f676963616c4e6f6465, 0x43494d31342e49454336313937302e546f706f6c6f67792e546f706f6c6f676963616c4e6f6465, true, 0x42617365566f6c74616765⟩]⟩
/-- Class CIM14.IEC61970.Core.BasicIntervalSchedule -/
def s_BasicIntervalSchedule : SClass := ⟨0x4261736963496e74657276616c5363686564756c65, 0x43494d31342e49454336313937302e436f72652e4261736963496e74657276616c5363686564756c65, 0x43494d31342e49454336313937302e436f72652e4964656e7469666965644f626a656374,
  [(0x76616c7565324d756c7469706c696572, e_UnitMultiplier), (0x76616c756532556e6974, e_UnitSymbol), (0x76616c7565314d756c7469706c696572, e_UnitMultiplier), (0x76616c756531556e6974, e_UnitSymbol), (0x737461727454696d65, t_EDate)],
  []⟩
/-- Class CIM14.IEC61970.Core.Bay -/
def s_Bay : SClass := ⟨0x426179, 0x43494d31342e49454336313937302e436f72652e426179, 0x43494d31342e49454336313937302e436f72652e45717569706d656e74436f6e7461696e6572,
  [(0x627573426172436f6e66696775726174696f6e, e_BusbarConfiguration), (0x627265616b6572436f6e66696775726174696f6e, e_BreakerConfiguration), (0x626179506f7765724d656173466c6167, t_EBoolean), (0x626179456e657267794d656173466c6167, t_EBoolean)],
  [⟨0x53756273746174696f6e, 0x43494d31342e49454336313937302e436f72652e53756273746174696f6e, false, 0x42617973⟩, ⟨0x566f6c746167654c6576656c, 0x43494d31342e49454336313937302e436f72652e566f6c746167654c6576656c, false, 0x42617973⟩]⟩
/-- Class CIM14.IEC61970.Core.ConductingEquipment -/
def s_ConductingEquipment : SClass := ⟨0x436f6e64756374696e6745717569706d656e74, 0x43494d31342e49454336313937302e436f72652e436f6e64756374696e6745717569706d656e74, 0x43494d31342e49454336313937302e436f72652e45717569706d656e74,
  [(0x706861736573, e_PhaseCode)],
  [⟨0x436c656172616e636554616773, 0x43494d31342e49454336313937302e4f75746167652e436c656172616e6365546167, true, 0x436f6e64756374696e6745717569706d656e74⟩, ⟨0x5376537461747573, 0x43494d31342e49454336313937302e53746174655661726961626c65732e5376537461747573, false, 0x436f6e64756374696e6745717569706d656e74⟩, ⟨0x5465726d696e616c73, 0x43494d31342e49454336313937302e436f72652e5465726d696e616c, true, 0x436f6e64756374696e6745717569706d656e74⟩, ⟨0x42617365566f6c74616765, 0x43494d31342e49454336313937302e436f72652e42617365566f6c74616765, false, 0x436f6e64756374696e6745717569706d656e74⟩, ⟨0x50726f74656374696f6e45717569706d656e7473, 0x43494d31342e49454336313937302e50726f74656374696f6e2e50726f74656374696f6e45717569706d656e74, true, 0x436f6e64756374696e6745717569706d656e7473⟩]⟩
/-- Class CIM14.IEC61970.Core.ConnectivityNode -/
def s_ConnectivityNode : SClass := ⟨0x436f6e6e65637469766974794e6f6465, 0x43494d31342e49454336313937302e436f72652e436f6e6e65637469766974794e6f6465, 0x43494d31342e49454336313937302e436f72652e4964656e7469666965644f626a656374,
  [],
  [⟨0x546f706f6c6f676963616c4e6f6465, 0x43494d31342e49454336313937302e546f706f6c6f67792e546f706f6c6f676963616c4e6f6465, false, 0x436f6e6e65637469766974794e6f646573⟩, ⟨0x4275734e616d654d61726b6572, 0x43494d31342e49454336313937302e546f706f6c6f67792e4275734e616d654d61726b6572, false, 0x436f6e6e65637469766974794e6f6465⟩, ⟨0x436f6e6e65637469766974794e6f6465436f6e7461696e6572, 0x43494d31342e49454336313937302e436f72652e436f6e6e65637469766974794e6f6465436f6e7461696e6572, false, 0x436f6e6e65637469766974794e6f646573⟩, ⟨0x5465726d696e616c73, 0x43494d31342e49454336313937302e436f72652e5465726d696e616c, true, 0x436f6e6e65637469766974794e6f6465⟩]⟩
/-- Class CIM14.IEC61970.Core.ConnectivityNodeContainer -/
def s_ConnectivityNodeContainer : SClass := ⟨0x436f6e6e65637469766974794e6f6465436f6e7461696e6572, 0x43494d31342e49454336313937302e436f72652e436f6e6e65637469766974794e6f6465436f6e7461696e6572, 0x43494d31342e49454336313937302e436f72652e506f77657253797374656d5265736f75726365,
  [],
  [⟨0x436f6e6e65637469766974794e6f646573, 0x43494d31342e49454336313937302e436f72652e436f6e6e65637469766974794e6f6465, true, 0x436f6e6e65637469766974794e6f6465436f6e7461696e6572⟩, ⟨0x546f706f6c6f676963616c4e6f6465, 0x43494d31342e49454336313937302e546f706f6c6f67792e546f706f6c6f676963616c4e6f6465, true, 0x436f6e6e65637469766974794e6f6465436f6e7461696e6572⟩]⟩
/-- Class CIM14.IEC61970.Core.Curve -/
def s_Curve : SClass := ⟨0x4375727665, 0x43494d31342e49454336313937302e436f72652e4375727665, 0x43494d31342e49454336313937302e436f72652e4964656e7469666965644f626a656374,
  [(0x79324d756c7469706c696572, e_UnitMultiplier), (0x79334d756c7469706c696572, e_UnitMultiplier), (0x7931556e6974, e_UnitSymbol), (0x784d756c7469706c696572, e_UnitMultiplier), (0x7933556e6974, e_UnitSymbol), (0x78556e6974, e_UnitSymbol), (0x79314d756c7469706c696572, e_UnitMultiplier), (0x63757276655374796c65, e_CurveStyle), (0x7932556e6974, e_UnitSymbol)],
  [⟨0x43757276654461746173, 0x43494d31342e49454336313937302e436f72652e437572766544617461, true, 0x4375727665⟩]⟩
/-- Class CIM14.IEC61970.Core.CurveData -/
def s_CurveData : SClass := ⟨0x437572766544617461, 0x43494d31342e49454336313937302e436f72652e437572766544617461, 0x43494d31342e456c656d656e74,
  [(0x793376616c7565, t_EFloat), (0x7876616c7565, t_EFloat), (0x793276616c7565, t_EFloat), (0x793176616c7565, t_EFloat)],
  [⟨0x4375727665, 0x43494d31342e49454336313937302e436f72652e4375727665, false, 0x43757276654461746173⟩]⟩
/-- Class CIM14.IEC61970.Core.Equipment -/
def s_Equipment : SClass := ⟨0x45717569706d656e74, 0x43494d31342e49454336313937302e436f72652e45717569706d656e74, 0x43494d31342e49454336313937302e436f72652e506f77657253797374656d5265736f75726365,
  [(0x6e6f726d61496c79496e53657276696365, t_EBoolean), (0x616767726567617465, t_EBoolean)],
  [⟨0x4f7065726174696f6e616c4c696d6974536574, 0x43494d31342e49454336313937302e4f7065726174696f6e616c4c696d6974732e4f7065726174696f6e616c4c696d6974536574, true, 0x45717569706d656e74⟩, ⟨0x436f6e74696e67656e637945717569706d656e74, 0x43494d31342e49454336313937302e436f6e74696e67656e63792e436f6e74696e67656e637945717569706d656e74, true, 0x45717569706d656e74⟩, ⟨0x45717569706d656e74436f6e7461696e6572, 0x43494d31342e49454336313937302e436f72652e45717569706d656e74436f6e7461696e6572, false, 0x45717569706d656e7473⟩, ⟨0x437573746f6d657241677265656d656e7473, 0x43494d31342e49454336313936382e437573746f6d6572732e437573746f6d657241677265656d656e74, true, 0x45717569706d656e7473⟩]⟩
/-- Class CIM14.IEC61970.Core.EquipmentContainer -/
def s_EquipmentContainer : SClass := ⟨0x45717569706d656e74436f6e7461696e6572, 0x43494d31342e49454336313937302e436f72652e45717569706d656e74436f6e7461696e6572, 0x43494d31342e49454336313937302e436f72652e436f6e6e65637469766974794e6f6465436f6e7461696e6572,
  [],
  [⟨0x45717569706d656e7473, 0x43494d31342e49454336313937302e436f72652e45717569706d656e74, true, 0x45717569706d656e74436f6e7461696e6572⟩]⟩
/-- Class CIM14.IEC61970.Core.GeographicalRegion -/
def s_GeographicalRegion : SClass := ⟨0x47656f67726170686963616c526567696f6e, 0x43494d31342e49454336313937302e436f72652e47656f67726170686963616c526567696f6e, 0x43494d31342e49454336313937302e436f72652e4964656e7469666965644f626a656374,
  [],
  [⟨0x526567696f6e73, 0x43494d31342e49454336313937302e436f72652e53756247656f67726170686963616c526567696f6e, true, 0x526567696f6e⟩]⟩
/-- Class CIM14.IEC61970.Core.IdentifiedObject -/
def s_IdentifiedObject : SClass := ⟨0x4964656e7469666965644f626a656374, 0x43494d31342e49454336313937302e436f72652e4964656e7469666965644f626a656374, 0x43494d31342e456c656d656e74,
  [(0x706174684e616d65, t_EString), (0x616c6961734e616d65, t_EString), (0x6d524944, t_EString), (0x6e616d65, t_EString), (0x6465736372697074696f6e, t_EString), (0x6c6f63616c4e616d65, t_EString)],
  [⟨0x4d6f64656c696e67417574686f72697479536574, 0x43494d31342e49454336313937302e496e666f726d61746976652e496e66436f72652e4d6f64656c696e67417574686f72697479536574, false, 0x4964656e7469666965644f626a65637473⟩]⟩
/-- Class CIM14.IEC61970.Core.IrregularIntervalSchedule -/
def s_IrregularIntervalSchedule : SClass := ⟨0x4972726567756c6172496e74657276616c5363686564756c65, 0x43494d31342e49454336313937302e436f72652e4972726567756c6172496e74657276616c5363686564756c65, 0x43494d31342e49454336313937302e436f72652e4261736963496e74657276616c5363686564756c65,
  [],
  [⟨0x54696d65506f696e7473, 0x43494d31342e49454336313937302e436f72652e4972726567756c617254696d65506f696e74, true, 0x496e74657276616c5363686564756c65⟩]⟩
/-- Class CIM14.IEC61970.Core.IrregularTimePoint -/
def s_IrregularTimePoint : SClass := ⟨0x4972726567756c617254696d65506f696e74, 0x43494d31342e49454336313937302e436f72652e4972726567756c617254696d65506f696e74, 0x43494d31342e456c656d656e74,
  [(0x74696d65, t_float), (0x76616c756532, t_EFloat), (0x76616c756531, t_EFloat)],
  [⟨0x496e74657276616c5363686564756c65, 0x43494d31342e49454336313937302e436f72652e4972726567756c6172496e74657276616c5363686564756c65, false, 0x54696d65506f696e7473⟩]⟩
/-- Class CIM14.IEC61970.Core.OperatingParticipant -/
def s_OperatingParticipant : SClass := ⟨0x4f7065726174696e675061727469636970616e74, 0x43494d31342e49454336313937302e436f72652e4f7065726174696e675061727469636970616e74, 0x43494d31342e49454336313937302e436f72652e4964656e7469666965644f626a656374,
  [],
  [⟨0x4f7065726174696e675368617265, 0x43494d31342e49454336313937302e436f72652e4f7065726174696e675368617265, true, 0x4f7065726174696e675061727469636970616e74⟩]⟩
/-- Class CIM14.IEC61970.Core.OperatingShare -/
def s_OperatingShare : SClass := ⟨0x4f7065726174696e675368617265, 0x43494d31342e49454336313937302e436f72652e4f7065726174696e675368617265, 0x43494d31342e456c656d656e74,
  [(0x70657263656e74616765, t_float)],
  [⟨0x506f77657253797374656d5265736f75726365, 0x43494d31342e49454336313937302e436f72652e506f77657253797374656d5265736f75726365, false, 0x4f7065726174696e675368617265⟩, ⟨0x4f7065726174696e675061727469636970616e74, 0x43494d31342e49454336313937302e436f72652e4f7065726174696e675061727469636970616e74, false, 0x4f7065726174696e675368617265⟩]⟩
/-- Class CIM14.IEC61970.Core.PSRType -/
def s_PSRType : SClass := ⟨0x50535254797065, 0x43494d31342e49454336313937302e436f72652e50535254797065, 0x43494d31342e49454336313937302e436f72652e4964656e7469666965644f626a656374,
  [],
  [⟨0x506f77657253797374656d5265736f7572636573, 0x43494d31342e49454336313937302e436f72652e506f77657253797374656d5265736f75726365, true, 0x50535254797065⟩]⟩
/-- Class CIM14.IEC61970.Core.PowerSystemResource -/
def s_PowerSystemResource : SClass := ⟨0x506f77657253797374656d5265736f75726365, 0x43494d31342e49454336313937302e436f72652e506f77657253797374656d5265736f75726365, 0x43494d31342e49454336313937302e436f72652e4964656e7469666965644f626a656374,
  [],
  [⟨0x4c6f636174696f6e, 0x43494d31342e49454336313936382e436f6d6d6f6e2e4c6f636174696f6e, false, 0x506f77657253797374656d5265736f7572636573⟩, ⟨0x417373657473, 0x43494d31342e49454336313936382e4173736574732e4173736574, true, 0x506f77657253797374656d5265736f7572636573⟩, ⟨0x5073724c69737473, 0x43494d31342e49454336313937302e436f72652e5073724c697374, true, 0x506f77657253797374656d5265736f7572636573⟩, ⟨0x4d6561737572656d656e7473, 0x43494d31342e49454336313937302e4d6561732e4d6561737572656d656e74, true, 0x506f77657253797374656d5265736f75726365⟩, ⟨0x4f7065726174696e675368617265, 0x43494d31342e49454336313937302e436f72652e4f7065726174696e675368617265, true, 0x506f77657253797374656d5265736f75726365⟩, ⟨0x4f75746167655363686564756c65, 0x43494d31342e49454336313937302e4f75746167652e4f75746167655363686564756c65, false, 0x506f77657253797374656d5265736f75726365⟩, ⟨0x5265706f7274696e6747726f7570, 0x43494d31342e49454336313937302e436f72652e5265706f7274696e6747726f7570, true, 0x506f77657253797374656d5265736f75726365⟩, ⟨0x426c6f636b, 0x43494d31342e49454336313937302e44796e616d6963732e426c6f636b, true, 0x506f77657253797374656d5265736f75726365⟩, ⟨0x50535254797065, 0x43494d31342e49454336313937302e436f72652e50535254797065, false, 0x506f77657253797374656d5265736f7572636573⟩]⟩
/-- Class CIM14.IEC61970.Core.PsrList -/
def s_PsrList : SClass := ⟨0x5073724c697374, 0x43494d31342e49454336313937302e436f72652e5073724c697374, 0x43494d31342e49454336313937302e436f72652e4964656e7469666965644f626a656374,
  [(0x747970655053524c697374, t_EString)],
  [⟨0x506f77657253797374656d5265736f7572636573, 0x43494d31342e49454336313937302e436f72652e506f77657253797374656d5265736f75726365, true, 0x5073724c69737473⟩]⟩
/-- Class CIM14.IEC61970.Core.RegularIntervalSchedule -/
def s_RegularIntervalSchedule : SClass := ⟨0x526567756c6172496e74657276616c5363686564756c65, 0x43494d31342e49454336313937302e436f72652e526567756c6172496e74657276616c5363686564756c65, 0x43494d31342e49454336313937302e436f72652e4261736963496e74657276616c5363686564756c65,
  [(0x656e6454696d65, t_EDate), (0x74696d6553746570, t_float)],
  [⟨0x54696d65506f696e7473, 0x43494d31342e49454336313937302e436f72652e526567756c617254696d65506f696e74, true, 0x496e74657276616c5363686564756c65⟩]⟩
/-- Class CIM14.IEC61970.Core.RegularTimePoint -/
def s_RegularTimePoint : SClass := ⟨0x526567756c617254696d65506f696e74, 0x43494d31342e49454336313937302e436f72652e526567756c617254696d65506f696e74, 0x43494d31342e456c656d656e74,
  [(0x76616c756531, t_EFloat), (0x73657175656e63654e756d626572, t_EInt), (0x76616c756532, t_EFloat)],
  [⟨0x496e74657276616c5363686564756c65, 0x43494d31342e49454336313937302e436f72652e526567756c6172496e74657276616c5363686564756c65, false, 0x54696d65506f696e7473⟩]⟩
/-- Class CIM14.IEC61970.Core.ReportingGroup -/
def s_ReportingGroup : SClass := ⟨0x5265706f7274696e6747726f7570, 0x43494d31342e49454336313937302e436f72652e5265706f7274696e6747726f7570, 0x43494d31342e49454336313937302e436f72652e4964656e7469666965644f626a656374,
  [],
  [⟨0x5265706f7274696e67537570657247726f7570, 0x43494d31342e49454336313937302e436f72652e5265706f7274696e67537570657247726f7570, false, 0x5265706f7274696e6747726f7570⟩, ⟨0x546f706f6c6f676963616c4e6f6465, 0x43494d31342e49454336313937302e546f706f6c6f67792e546f706f6c6f676963616c4e6f6465, true, 0x5265706f7274696e6747726f7570⟩, ⟨0x4275734e616d654d61726b6572, 0x43494d31342e49454336313937302e546f706f6c6f67792e4275734e616d654d61726b6572, true, 0x5265706f7274696e6747726f7570⟩, ⟨0x506f77657253797374656d5265736f75726365, 0x43494d31342e49454336313937302e436f72652e506f77657253797374656d5265736f75726365, true, 0x5265706f7274696e6747726f7570⟩]⟩
/-- Class CIM14.IEC61970.Core.ReportingSuperGroup -/
def s_ReportingSuperGroup : SClass := ⟨0x5265706f7274696e67537570657247726f7570, 0x43494d31342e49454336313937302e436f72652e5265706f7274696e67537570657247726f7570, 0x43494d31342e49454336313937302e436f72652e4964656e7469666965644f626a656374,
  [],
  [⟨0x5265706f7274696e6747726f7570, 0x43494d31342e49454336313937302e436f72652e5265706f7274696e6747726f7570, true, 0x5265706f7274696e67537570657247726f7570⟩]⟩
/-- Class CIM14.IEC61970.Core.SubGeographicalRegion -/
def s_SubGeographicalRegion : SClass := ⟨0x53756247656f67726170686963616c526567696f6e, 0x43494d31342e49454336313937302e436f72652e53756247656f67726170686963616c526567696f6e, 0x43494d31342e49454336313937302e436f72652e4964656e7469666965644f626a656374,
  [],
  [⟨0x526567696f6e, 0x43494d31342e49454336313937302e436f72652e47656f67726170686963616c526567696f6e, false, 0x526567696f6e73⟩, ⟨0x53756273746174696f6e73, 0x43494d31342e49454336313937302e436f72652e53756273746174696f6e, true, 0x526567696f6e⟩, ⟨0x4c696e6573, 0x43494d31342e49454336313937302e57697265732e4c696e65, true, 0x526567696f6e⟩]⟩
/-- Class CIM14.IEC61970.Core.Substation -/
def s_Substation : SClass := ⟨0x53756273746174696f6e, 0x43494d31342e49454336313937302e436f72652e53756273746174696f6e, 0x43494d31342e49454336313937302e436f72652e45717569706d656e74436f6e7461696e6572,
  [],
  [⟨0x566f6c746167654c6576656c73, 0x43494d31342e49454336313937302e436f72652e566f6c746167654c6576656c, true, 0x53756273746174696f6e⟩, ⟨0x42617973, 0x43494d31342e49454336313937302e436f72652e426179, true, 0x53756273746174696f6e⟩, ⟨0x526567696f6e, 0x43494d31342e49454336313937302e436f72652e53756247656f67726170686963616c526567696f6e, false, 0x53756273746174696f6e73⟩]⟩
/-- Class CIM14.IEC61970.Core.Terminal -/
def s_Terminal : SClass := ⟨0x5465726d696e616c, 0x43494d31342e49454336313937302e436f72652e5465726d696e616c, 0x43494d31342e49454336313937302e436f72652e4964656e7469666965644f626a656374,
  [(0x636f6e6e6563746564, t_EBoolean), (0x73657175656e63654e756d626572, t_EInt)],
  [⟨0x546f706f6c6f676963616c4e6f6465, 0x43494d31342e49454336313937302e546f706f6c6f67792e546f706f6c6f676963616c4e6f6465, false, 0x5465726d696e616c⟩, ⟨0x426c6f636b, 0x43494d31342e49454336313937302e44796e616d6963732e426c6f636b, true, 0x5465726d696e616c⟩, ⟨0x4f7065726174696f6e616c4c696d6974536574, 0x43494d31342e49454336313937302e4f7065726174696f6e616c4c696d6974732e4f7065726174696f6e616c4c696d6974536574, true, 0x5465726d696e616c⟩, ⟨0x4861735365636f6e645f4d757475616c436f75706c696e67, 0x43494d31342e49454336313937302e57697265732e4d757475616c436f75706c696e67, true, 0x5365636f6e645f5465726d696e616c⟩, ⟨0x526567756c6174696e67436f6e74726f6c, 0x43494d31342e49454336313937302e57697265732e526567756c6174696e67436f6e74726f6c, true, 0x5465726d696e616c⟩, ⟨0x4d6561737572656d656e7473, 0x43494d31342e49454336313937302e4d6561732e4d6561737572656d656e74, true, 0x5465726d696e616c⟩, ⟨0x4272616e636847726f75705465726d696e616c, 0x43494d31342e49454336313937302e4f7065726174696f6e616c4c696d6974732e4272616e636847726f75705465726d696e616c, true, 0x5465726d696e616c⟩, ⟨0x436f6e64756374696e6745717569706d656e74, 0x43494d31342e49454336313937302e436f72652e436f6e64756374696e6745717569706d656e74, false, 0x5465726d696e616c73⟩, ⟨0x48617346697273745f4d757475616c436f75706c696e67, 0x43494d31342e49454336313937302e57697265732e4d757475616c436f75706c696e67, true, 0x46697273745f5465726d696e616c⟩, ⟨0x5376506f776572466c6f77, 0x43494d31342e49454336313937302e53746174655661726961626c65732e5376506f776572466c6f77, false, 0x5465726d696e616c⟩, ⟨0x436f6e6e65637469766974794e6f6465, 0x43494d31342e49454336313937302e436f72652e436f6e6e65637469766974794e6f6465, false, 0x5465726d696e616c73⟩, ⟨0x546965466c6f77, 0x43494d31342e49454336313937302e436f6e74726f6c417265612e546965466c6f77, true, 0x5465726d696e616c⟩]⟩
/-- Class CIM14.IEC61970.Core.Unit -/
def s_Unit : SClass := ⟨0x556e6974, 0x43494d31342e49454336313937302e436f72652e556e6974, 0x43494d31342e49454336313937302e436f72652e4964656e7469666965644f626a656374,
  [],
  [⟨0x436f6e74726f6c73, 0x43494d31342e49454336313937302e4d6561732e436f6e74726f6c, true, 0x556e6974⟩, ⟨0x4d6561737572656d656e7473, 0x43494d31342e49454336313937302e4d6561732e4d6561737572656d656e74, true, 0x556e6974⟩, ⟨0x4d657461426c6f636b436f6e4f7574707574, 0x43494d31342e49454336313937302e44796e616d6963732e4d657461426c6f636b436f6e4f7574707574, true, 0x556e6974⟩, ⟨0x4d657461426c6f636b436f6e496e707574, 0x43494d31342e49454336313937302e44796e616d6963732e4d657461426c6f636b436f6e496e707574, true, 0x556e6974⟩, ⟨0x50726f74656374696f6e45717569706d656e7473, 0x43494d31342e49454336313937302e50726f74656374696f6e2e50726f74656374696f6e45717569706d656e74, true, 0x556e6974⟩]⟩
/-- Class CIM14.IEC61970.Core.VoltageLevel -/
def s_VoltageLevel : SClass := ⟨0x566f6c746167654c6576656c, 0x43494d31342e49454336313937302e436f72652e566f6c746167654c6576656c, 0x43494d31342e49454336313937302e436f72652e45717569706d656e74436f6e7461696e6572,
  [(0x68696768566f6c746167654c696d6974, t_float), (0x6c6f77566f6c746167654c696d6974, t_float)],
  [⟨0x53756273746174696f6e, 0x43494d31342e49454336313937302e436f72652e53756273746174696f6e, false, 0x566f6c746167654c6576656c73⟩, ⟨0x42617973, 0x43494d31342e49454336313937302e436f72652e426179, true, 0x566f6c746167654c6576656c⟩, ⟨0x42617365566f6c74616765, 0x43494d31342e49454336313937302e436f72652e42617365566f6c74616765, false, 0x566f6c746167654c6576656c⟩]⟩
/-- Class CIM14.IEC61970.Dynamics.AsynchronousMachine -/
def s_AsynchronousMachine : SClass := ⟨0x4173796e6368726f6e6f75734d616368696e65, 0x43494d31342e49454336313937302e44796e616d6963732e4173796e6368726f6e6f75734d616368696e65, 0x43494d31342e49454336313937302e44796e616d6963732e526f746174696e674d616368696e65,
  [(0x786d, t_float), (0x7873, t_float), (0x787070, t_float), (0x786c7232, t_float), (0x727232, t_float), (0x74706f, t_float), (0x727231, t_float), (0x7870, t_float), (0x7470706f, t_float), (0x786c7231, t_float)],
  []⟩
/-- Class CIM14.IEC61970.Dynamics.AttributeBlockParameter -/
def s_AttributeBlockParameter : SClass := ⟨0x417474726962757465426c6f636b506172616d65746572, 0x43494d31342e49454336313937302e44796e616d6963732e417474726962757465426c6f636b506172616d65746572, 0x43494d31342e49454336313937302e44796e616d6963732e4d657461426c6f636b506172616d65746572,
  [(0x6174747269627574654e616d65, t_EString)],
  []⟩
/-- Class CIM14.IEC61970.Dynamics.Block -/
def s_Block : SClass := ⟨0x426c6f636b, 0x43494d31342e49454336313937302e44796e616d6963732e426c6f636b, 0x43494d31342e49454336313937302e436f72652e506f77657253797374656d5265736f75726365,
  [(0x706f736974697665466c6f77496e, t_EBoolean), (0x696e53657276696365, t_EBoolean)],
  [⟨0x5465726d696e616c, 0x43494d31342e49454336313937302e436f72652e5465726d696e616c, false, 0x426c6f636b⟩, ⟨0x4d656d6265724f665f426c6f636b436f6e6e6563746976697479, 0x43494d31342e49454336313937302e44796e616d6963732e426c6f636b436f6e6e6563746976697479, false, 0x426c6f636b⟩, ⟨0x626c6f636b5573616765496e7075745265666572656e636530, 0x43494d31342e49454336313937302e44796e616d6963732e426c6f636b5573616765496e7075745265666572656e6365, true, 0x626c6f636b30⟩, ⟨0x426c6f636b55736167654f75747075745265666572656e6365, 0x43494d31342e49454336313937302e44796e616d6963732e426c6f636b55736167654f75747075745265666572656e6365, true, 0x626c6f636b30⟩, ⟨0x506f77657253797374656d5265736f75726365, 0x43494d31342e49454336313937302e436f72652e506f77657253797374656d5265736f75726365, false, 0x426c6f636b⟩, ⟨0x736c6f745265666572656e636530, 0x43494d31342e49454336313937302e44796e616d6963732e536c6f745265666572656e6365, false, 0x626c6f636b30⟩, ⟨0x746965546f4d6561737572656d656e7430, 0x43494d31342e49454336313937302e44796e616d6963732e546965546f4d6561737572656d656e74, true, 0x626c6f636b30⟩, ⟨0x4d657461426c6f636b, 0x43494d31342e49454336313937302e44796e616d6963732e4d657461426c6f636b, false, 0x426c6f636b⟩, ⟨0x426c6f636b436f6e6e656374696f6e, 0x43494d31342e49454336313937302e44796e616d6963732e426c6f636b436f6e6e656374696f6e, true, 0x426c6f636b⟩, ⟨0x426c6f636b506172616d65746572, 0x43494d31342e49454336313937302e44796e616d6963732e426c6f636b506172616d65746572, true, 0x4d656d6265724f665f426c6f636b⟩]⟩
/-- Class CIM14.IEC61970.Dynamics.BlockConnection -/
def s_BlockConnection : SClass := ⟨0x426c6f636b436f6e6e656374696f6e, 0x43494d31342e49454336313937302e44796e616d6963732e426c6f636b436f6e6e656374696f6e, 0x43494d31342e49454336313937302e436f72652e4964656e7469666965644f626a656374,
  [],
  [⟨0x4d657461426c6f636b436f6e6e656374696f6e, 0x43494d31342e49454336313937302e44796e616d6963732e4d657461426c6f636b436f6e6e656374696f6e, false, 0x426c6f636b436f6e6e656374696f6e⟩, ⟨0x4d656d6265724f665f426c6f636b436f6e6e6563746976697479, 0x43494d31342e49454336313937302e44796e616d6963732e426c6f636b436f6e6e6563746976697479, false, 0x426c6f636b436f6e6e656374696f6e⟩, ⟨0x426c6f636b, 0x43494d31342e49454336313937302e44796e616d6963732e426c6f636b, false, 0x426c6f636b436f6e6e656374696f6e⟩]⟩
/-- Class CIM14.IEC61970.Dynamics.BlockConnectivity -/
def s_BlockConnectivity : SClass := ⟨0x426c6f636b436f6e6e6563746976697479, 0x43494d31342e49454336313937302e44796e616d6963732e426c6f636b436f6e6e6563746976697479, 0x43494d31342e49454336313937302e436f72652e4964656e7469666965644f626a656374,
  [],
  [⟨0x4d657461426c6f636b436f6e6e6563746976697479, 0x43494d31342e49454336313937302e44796e616d6963732e4d657461426c6f636b436f6e6e6563746976697479, false, 0x426c6f636b436f6e6e6563746976697479⟩, ⟨0x426c6f636b, 0x43494d31342e49454336313937302e44796e616d6963732e426c6f636b, true, 0x4d656d6265724f665f426c6f636b436f6e6e6563746976697479⟩, ⟨0x426c6f636b436f6e6e656374696f6e, 0x43494d31342e49454336313937302e44796e616d6963732e426c6f636b436f6e6e656374696f6e, true, 0x4d656d6265724f665f426c6f636b436f6e6e6563746976697479⟩]⟩
/-- Class CIM14.IEC61970.Dynamics.BlockConstant -/
def s_BlockConstant : SClass := ⟨0x426c6f636b436f6e7374616e74, 0x43494d31342e49454336313937302e44796e616d6963732e426c6f636b436f6e7374616e74, 0x43494d31342e49454336313937302e44796e616d6963732e4d657461426c6f636b436f6e6e65637461626c65,
  [(0x76616c7565, t_EFloat)],
  [⟨0x6d657461426c6f636b30, 0x43494d31342e49454336313937302e44796e616d6963732e4d657461426c6f636b, false, 0x626c6f636b436f6e7374616e7430⟩]⟩
/-- Class CIM14.IEC61970.Dynamics.BlockInputReference -/
def s_BlockInputReference : SClass := ⟨0x426c6f636b496e7075745265666572656e6365, 0x43494d31342e49454336313937302e44796e616d6963732e426c6f636b496e7075745265666572656e6365, 0x43494d31342e49454336313937302e436f72652e4964656e7469666965644f626a656374,
  [],
  [⟨0x6d657461426c6f636b5265666572656e636530, 0x43494d31342e49454336313937302e44796e616d6963732e4d657461426c6f636b5265666572656e6365, false, 0x626c6f636b496e7075745265666572656e636530⟩, ⟨0x6d657461426c6f636b496e70757430, 0x43494d31342e49454336313937302e44796e616d6963732e4d657461426c6f636b496e707574, false, 0x626c6f636b496e7075745265666572656e636530⟩, ⟨0x426c6f636b436f6e6e65637461626c65, 0x43494d31342e49454336313937302e44796e616d6963732e4d657461426c6f636b436f6e6e65637461626c65, false, 0x426c6f636b496e7075745265666572656e6365⟩]⟩
/-- Class CIM14.IEC61970.Dynamics.BlockInputType -/
def s_BlockInputType : SClass := ⟨0x426c6f636b496e70757454797065, 0x43494d31342e49454336313937302e44796e616d6963732e426c6f636b496e70757454797065, 0x43494d31342e49454336313937302e436f72652e4964656e7469666965644f626a656374,
  [],
  [⟨0x736c6f74496e70757430, 0x43494d31342e49454336313937302e44796e616d6963732e536c6f74496e707574, true, 0x626c6f636b496e7075745479706530⟩, ⟨0x6d657461426c6f636b496e70757430, 0x43494d31342e49454336313937302e44796e616d6963732e4d657461426c6f636b496e707574, true, 0x626c6f636b496e7075745479706530⟩]⟩
/-- Class CIM14.IEC61970.Dynamics.BlockOutputReference -/
def s_BlockOutputReference : SClass := ⟨0x426c6f636b4f75747075745265666572656e6365, 0x43494d31342e49454336313937302e44796e616d6963732e426c6f636b4f75747075745265666572656e6365, 0x43494d31342e49454336313937302e44796e616d6963732e4d657461426c6f636b436f6e6e65637461626c65,
  [],
  [⟨0x6d657461426c6f636b4f757470757430, 0x43494d31342e49454336313937302e44796e616d6963732e4d657461426c6f636b4f7574707574, false, 0x426c6f636b4f75747075745265666572656e6365⟩, ⟨0x6d657461426c6f636b5265666572656e636530, 0x43494d31342e49454336313937302e44796e616d6963732e4d657461426c6f636b5265666572656e6365, true, 0x626c6f636b4f75747075745265666572656e636530⟩]⟩
/-- Class CIM14.IEC61970.Dynamics.BlockOutputType -/
def s_BlockOutputType : SClass := ⟨0x426c6f636b4f757470757454797065, 0x43494d31342e49454336313937302e44796e616d6963732e426c6f636b4f757470757454797065, 0x43494d31342e49454336313937302e436f72652e4964656e7469666965644f626a656374,
  [],
  [⟨0x6d657461426c6f636b4f757470757430, 0x43494d31342e49454336313937302e44796e616d6963732e4d657461426c6f636b4f7574707574, true, 0x626c6f636b4f75747075745479706530⟩, ⟨0x736c6f744f757470757430, 0x43494d31342e49454336313937302e44796e616d6963732e536c6f744f7574707574, true, 0x626c6f636b4f75747075745479706530⟩]⟩
/-- Class CIM14.IEC61970.Dynamics.BlockParameter -/
def s_BlockParameter : SClass := ⟨0x426c6f636b506172616d65746572, 0x43494d31342e49454336313937302e44796e616d6963732e426c6f636b506172616d65746572, 0x43494d31342e49454336313937302e436f72652e4964656e7469666965644f626a656374,
  [(0x76616c7565, t_EFloat)],
  [⟨0x4d657461426c6f636b506172616d65746572, 0x43494d31342e49454336313937302e44796e616d6963732e4d657461426c6f636b506172616d65746572, false, 0x426c6f636b506172616d65746572⟩, ⟨0x4d656d6265724f665f4d657461426c6f636b5265666572656e6365, 0x43494d31342e49454336313937302e44796e616d6963732e4d657461426c6f636b5265666572656e6365, false, 0x426c6f636b506172616d65746572⟩, ⟨0x55736572426c6f636b506172616d65746572, 0x43494d31342e49454336313937302e44796e616d6963732e55736572426c6f636b506172616d65746572, false, 0x426c6f636b5573616765506172616d65746572⟩, ⟨0x4d656d6265724f665f426c6f636b, 0x43494d31342e49454336313937302e44796e616d6963732e426c6f636b, false, 0x426c6f636b506172616d65746572⟩]⟩
/-- Class CIM14.IEC61970.Dynamics.BlockType -/
def s_BlockType : SClass := ⟨0x426c6f636b54797065, 0x43494d31342e49454336313937302e44796e616d6963732e426c6f636b54797065, 0x43494d31342e49454336313937302e436f72652e4964656e7469666965644f626a656374,
  [],
  [⟨0x736c6f7430, 0x43494d31342e49454336313937302e44796e616d6963732e536c6f74, true, 0x626c6f636b5479706530⟩, ⟨0x6d657461426c6f636b30, 0x43494d31342e49454336313937302e44796e616d6963732e4d657461426c6f636b, true, 0x626c6f636b5479706530⟩]⟩
/-- Class CIM14.IEC61970.Dynamics.BlockUsageInputReference -/
def s_BlockUsageInputReference : SClass := ⟨0x426c6f636b5573616765496e7075745265666572656e6365, 0x43494d31342e49454336313937302e44796e616d6963732e426c6f636b5573616765496e7075745265666572656e6365, 0x43494d31342e49454336313937302e436f72652e4964656e7469666965644f626a656374,
  [],
  [⟨0x626c6f636b30, 0x43494d31342e49454336313937302e44796e616d6963732e426c6f636b, false, 0x626c6f636b5573616765496e7075745265666572656e636530⟩, ⟨0x426c6f636b55736167654f75747075745265666572656e6365, 0x43494d31342e49454336313937302e44796e616d6963732e426c6f636b55736167654f75747075745265666572656e6365, false, 0x426c6f636b5573616765496e7075745265666572656e6365⟩, ⟨0x6d657461426c6f636b496e70757430, 0x43494d31342e49454336313937302e44796e616d6963732e4d657461426c6f636b496e707574, false, 0x626c6f636b5573616765496e7075745265666572656e636530⟩]⟩
/-- Class CIM14.IEC61970.Dynamics.BlockUsageOutputReference -/
def s_BlockUsageOutputReference : SClass := ⟨0x426c6f636b55736167654f75747075745265666572656e6365, 0x43494d31342e49454336313937302e44796e616d6963732e426c6f636b55736167654f75747075745265666572656e6365, 0x43494d31342e49454336313937302e436f72652e4964656e7469666965644f626a656374,
  [],
  [⟨0x626c6f636b30, 0x43494d31342e49454336313937302e44796e616d6963732e426c6f636b, false, 0x426c6f636b55736167654f75747075745265666572656e6365⟩, ⟨0x426c6f636b5573616765496e7075745265666572656e6365, 0x43494d31342e49454336313937302e44796e616d6963732e426c6f636b5573616765496e7075745265666572656e6365, true, 0x426c6f636b55736167654f75747075745265666572656e6365⟩, ⟨0x6d657461426c6f636b4f757470757430, 0x43494d31342e49454336313937302e44796e616d6963732e4d657461426c6f636b4f7574707574, false, 0x626c6f636b55736167654f75747075745265666572656e636530⟩]⟩
/-- Class CIM14.IEC61970.Dynamics.CompositeModel -/
def s_CompositeModel : SClass := ⟨0x436f6d706f736974654d6f64656c, 0x43494d31342e49454336313937302e44796e616d6963732e436f6d706f736974654d6f64656c, 0x43494d31342e456c656d656e74,
  [],
  [⟨0x736c6f745265666572656e636530, 0x43494d31342e49454336313937302e44796e616d6963732e536c6f745265666572656e6365, true, 0x636f6d706f736974654d6f64656c30⟩]⟩
/-- Class CIM14.IEC61970.Dynamics.ConnectionFrame -/
def s_ConnectionFrame : SClass := ⟨0x436f6e6e656374696f6e4672616d65, 0x43494d31342e49454336313937302e44796e616d6963732e436f6e6e656374696f6e4672616d65, 0x43494d31342e49454336313937302e436f72652e4964656e7469666965644f626a656374,
  [],
  [⟨0x736c6f74436f6e6e656374696f6e30, 0x43494d31342e49454336313937302e44796e616d6963732e536c6f74436f6e6e656374696f6e, true, 0x636f6e6e656374696f6e4672616d6530⟩, ⟨0x736c6f7430, 0x43494d31342e49454336313937302e44796e616d6963732e536c6f74, true, 0x636f6e6e656374696f6e4672616d6530⟩]⟩
/-- Class CIM14.IEC61970.Dynamics.ExcitationSystemLimiter -/
def s_ExcitationSystemLimiter : SClass := ⟨0x45786369746174696f6e53797374656d4c696d69746572, 0x43494d31342e49454336313937302e44796e616d6963732e45786369746174696f6e53797374656d4c696d69746572, 0x43494d31342e456c656d656e74,
  [],
  []⟩
/-- Class CIM14.IEC61970.Dynamics.ExcitationSystems.ExcAC1A -/
def s_ExcAC1A : SClass := ⟨0x45786341433141, 0x43494d31342e49454336313937302e44796e616d6963732e45786369746174696f6e53797374656d732e45786341433141, 0x43494d31342e49454336313937302e44796e616d6963732e45786369746174696f6e53797374656d732e45786369746174696f6e53797374656d,
  [(0x76726d696e, t_EFloat), (0x7472, t_float), (0x76726d6178, t_EFloat), (0x7461, t_float), (0x6b66, t_EFloat), (0x7465, t_float), (0x6b61, t_EFloat), (0x76616d6178, t_EFloat), (0x7462, t_float), (0x6531, t_EFloat), (0x6b64, t_EFloat), (0x736531, t_EFloat), (0x76616d696e, t_EFloat), (0x6b65, t_EFloat), (0x6b63, t_EFloat), (0x7466, t_float), (0x7463, t_float), (0x6532, t_EFloat), (0x736532, t_EFloat)],
  []⟩
/-- Class CIM14.IEC61970.Dynamics.ExcitationSystems.ExcAC2A -/
def s_ExcAC2A : SClass := ⟨0x45786341433241, 0x43494d31342e49454336313937302e44796e616d6963732e45786369746174696f6e53797374656d732e45786341433241, 0x43494d31342e49454336313937302e44796e616d6963732e45786369746174696f6e53797374656d732e45786369746174696f6e53797374656d,
  [(0x76726d696e, t_EFloat), (0x76616d696e, t_EFloat), (0x6b68, t_EFloat), (0x76726d6178, t_EFloat), (0x7462, t_float), (0x6531, t_EFloat), (0x736531, t_EFloat), (0x7465, t_float), (0x6b66, t_EFloat), (0x7463, t_float), (0x6532, t_EFloat), (0x6b65, t_EFloat), (0x7472, t_float), (0x7466, t_float), (0x7461, t_float), (0x6b63, t_EFloat), (0x6b64, t_EFloat), (0x736532, t_EFloat), (0x7666656d6178, t_EFloat), (0x76616d6178, t_EFloat), (0x6b62, t_EFloat), (0x6b61, t_EFloat)],
  []⟩
/-- Class CIM14.IEC61970.Dynamics.ExcitationSystems.ExcAC3A -/
def s_ExcAC3A : SClass := ⟨0x45786341433341, 0x43494d31342e49454336313937302e44796e616d6963732e45786369746174696f6e53797374656d732e45786341433341, 0x43494d31342e49454336313937302e44796e616d6963732e45786369746174696f6e53797374656d732e45786369746174696f6e53797374656d,
  [(0x6b66, t_EFloat), (0x6532, t_EFloat), (0x7465, t_float), (0x6b61, t_EFloat), (0x6b72, t_EFloat), (0x7463, t_float), (0x6566646e, t_EFloat), (0x6b65, t_EFloat), (0x6531, t_EFloat), (0x6b64, t_EFloat), (0x736532, t_EFloat), (0x76616d6178, t_EFloat), (0x7472, t_float), (0x76616d696e, t_EFloat), (0x7466, t_float), (0x76656d696e, t_EFloat), (0x6b6e, t_EFloat), (0x7666656d6178, t_EFloat), (0x7462, t_float), (0x736531, t_EFloat), (0x6b63, t_EFloat), (0x7461, t_float)],
  []⟩
/-- Class CIM14.IEC61970.Dynamics.ExcitationSystems.ExcAC4A -/
def s_ExcAC4A : SClass := ⟨0x45786341433441, 0x43494d31342e49454336313937302e44796e616d6963732e45786369746174696f6e53797374656d732e45786341433441, 0x43494d31342e49454336313937302e44796e616d6963732e45786369746174696f6e53797374656d732e45786369746174696f6e53797374656d,
  [(0x6b61, t_EFloat), (0x76696d696e, t_EFloat), (0x7462, t_float), (0x7472, t_float), (0x7463, t_float), (0x7461, t_float), (0x6b63, t_EFloat), (0x76726d696e, t_EFloat), (0x76726d6178, t_EFloat), (0x76696d6178, t_EFloat)],
  []⟩
/-- Class CIM14.IEC61970.Dynamics.ExcitationSystems.ExcAC5A -/
def s_ExcAC5A : SClass := ⟨0x45786341433541, 0x43494d31342e49454336313937302e44796e616d6963732e45786369746174696f6e53797374656d732e45786341433541, 0x43494d31342e49454336313937302e44796e616d6963732e45786369746174696f6e53797374656d732e45786369746174696f6e53797374656d,
  [(0x6b61, t_EFloat), (0x6531, t_EFloat), (0x6b66, t_EFloat), (0x7465, t_float), (0x76726d696e, t_EFloat), (0x76726d6178, t_EFloat), (0x736532, t_EFloat), (0x746633, t_float), (0x6532, t_EFloat), (0x6b65, t_EFloat), (0x7472, t_float), (0x736531, t_EFloat), (0x746632, t_float), (0x746631, t_float), (0x7461, t_float)],
  []⟩
/-- Class CIM14.IEC61970.Dynamics.ExcitationSystems.ExcAC6A -/
def s_ExcAC6A : SClass := ⟨0x45786341433641, 0x43494d31342e49454336313937302e44796e616d6963732e45786369746174696f6e53797374656d732e45786341433641, 0x43494d31342e49454336313937302e44796e616d6963732e45786369746174696f6e53797374656d732e45786369746174696f6e53797374656d,
  [(0x7465, t_float), (0x6b61, t_EFloat), (0x76686d6178, t_EFloat), (0x6b68, t_EFloat), (0x746b, t_float), (0x6b65, t_EFloat), (0x736531, t_EFloat), (0x7472, t_float), (0x76726d696e, t_EFloat), (0x76726d6178, t_EFloat), (0x7463, t_float), (0x6532, t_EFloat), (0x746a, t_float), (0x6b63, t_EFloat), (0x7666656c696d, t_EFloat), (0x7461, t_float), (0x7468, t_float), (0x6b64, t_EFloat), (0x76616d6178, t_EFloat), (0x7462, t_float), (0x6531, t_EFloat), (0x76616d696e, t_EFloat), (0x736532, t_EFloat)],
  []⟩
/-- Class CIM14.IEC61970.Dynamics.ExcitationSystems.ExcAC7B -/
def s_ExcAC7B : SClass := ⟨0x45786341433742, 0x43494d31342e49454336313937302e44796e616d6963732e45786369746174696f6e53797374656d732e45786341433742, 0x43494d31342e49454336313937302e44796e616d6963732e45786369746174696f6e53797374656d732e45786369746174696f6e53797374656d,
  [(0x6b6972, t_EFloat), (0x6b7072, t_EFloat), (0x7666656d6178, t_EFloat), (0x7465, t_float), (0x76656d696e, t_EFloat), (0x6b65, t_EFloat), (0x6b70, t_EFloat), (0x6b64, t_EFloat), (0x6b6472, t_EFloat), (0x6b6633, t_EFloat), (0x6531, t_EFloat), (0x746472, t_float), (0x736532, t_EFloat), (0x6b6631, t_EFloat), (0x6532, t_EFloat), (0x6b63, t_EFloat), (0x76616d696e, t_EFloat), (0x736531, t_EFloat), (0x76726d696e, t_EFloat), (0x7466, t_float), (0x76726d6178, t_EFloat), (0x6b6632, t_EFloat), (0x6b6c, t_EFloat), (0x6b7061, t_EFloat), (0x6b6961, t_EFloat), (0x7472, t_float), (0x76616d6178, t_EFloat)],
  []⟩
/-- Class CIM14.IEC61970.Dynamics.ExcitationSystems.ExcAC8B -/
def s_ExcAC8B : SClass := ⟨0x45786341433842, 0x43494d31342e49454336313937302e44796e616d6963732e45786369746174696f6e53797374656d732e45786341433842, 0x43494d31342e49454336313937302e44796e616d6963732e45786369746174696f6e53797374656d732e45786369746174696f6e53797374656d,
  [(0x7666656d6178, t_EFloat), (0x76726d696e, t_EFloat), (0x7461, t_float), (0x746472, t_float), (0x76746d756c74, t_EFloat), (0x6b61, t_EFloat), (0x6b6472, t_EFloat), (0x736531, t_EFloat), (0x6531, t_EFloat), (0x76656d696e, t_EFloat), (0x7465, t_float), (0x6b65, t_EFloat), (0x736532, t_EFloat), (0x7472, t_float), (0x6b6972, t_EFloat), (0x6b7072, t_EFloat), (0x76726d6178, t_EFloat), (0x6b64, t_EFloat), (0x6532, t_EFloat), (0x6b63, t_EFloat)],
  []⟩
/-- Class CIM14.IEC61970.Dynamics.ExcitationSystems.ExcBAS -/
def s_ExcBAS : SClass := ⟨0x457863424153, 0x43494d31342e49454336313937302e44796e616d6963732e45786369746174696f6e53797374656d732e457863424153, 0x43494d31342e49454336313937302e44796e616d6963732e45786369746174696f6e53797374656d732e45786369746174696f6e53797374656d,
  [],
  []⟩
/-- Class CIM14.IEC61970.Dynamics.ExcitationSystems.ExcBBC -/
def s_ExcBBC : SClass := ⟨0x457863424243, 0x43494d31342e49454336313937302e44796e616d6963732e45786369746174696f6e53797374656d732e457863424243, 0x43494d31342e49454336313937302e44796e616d6963732e45786369746174696f6e53797374656d732e45786369746174696f6e53797374656d,
  [],
  []⟩
/-- Class CIM14.IEC61970.Dynamics.ExcitationSystems.ExcCZ -/
def s_ExcCZ : SClass := ⟨0x457863435a, 0x43494d31342e49454336313937302e44796e616d6963732e45786369746174696f6e53797374656d732e457863435a, 0x43494d31342e49454336313937302e44796e616d6963732e45786369746174696f6e53797374656d732e45786369746174696f6e53797374656d,
  [],
  []⟩
/-- Class CIM14.IEC61970.Dynamics.ExcitationSystems.ExcDC1A -/
def s_ExcDC1A : SClass := ⟨0x45786344433141, 0x43494d31342e49454336313937302e44796e616d6963732e45786369746174696f6e53797374656d732e45786344433141, 0x43494d31342e49454336313937302e44796e616d6963732e45786369746174696f6e53797374656d732e45786369746174696f6e53797374656d,
  [(0x7461, t_float), (0x6b61, t_EFloat), (0x6531, t_EFloat), (0x7462, t_float), (0x736532, t_EFloat), (0x7465, t_float), (0x6578636c696d, t_EFloat), (0x6532, t_EFloat), (0x7472, t_float), (0x75656c696e, t_EFloat), (0x7466, t_float), (0x76726d6178, t_EFloat), (0x6b66, t_EFloat), (0x6b65, t_EFloat), (0x736531, t_EFloat), (0x76726d696e, t_EFloat), (0x7463, t_float)],
  []⟩
/-- Class CIM14.IEC61970.Dynamics.ExcitationSystems.ExcDC2A -/
def s_ExcDC2A : SClass := ⟨0x45786344433241, 0x43494d31342e49454336313937302e44796e616d6963732e45786369746174696f6e53797374656d732e45786344433241, 0x43494d31342e49454336313937302e44796e616d6963732e45786369746174696f6e53797374656d732e45786369746174696f6e53797374656d,
  [(0x7465, t_float), (0x6b65, t_EFloat), (0x6531, t_EFloat), (0x7463, t_float), (0x736532, t_EFloat), (0x7462, t_float), (0x75656c696e, t_EFloat), (0x6532, t_EFloat), (0x7466, t_float), (0x6b66, t_EFloat), (0x76726d6178, t_EFloat), (0x736531, t_EFloat), (0x7461, t_float), (0x6b61, t_EFloat), (0x7472, t_float), (0x6578636c696d, t_EFloat), (0x76726d696e, t_EFloat)],
  []⟩
/-- Class CIM14.IEC61970.Dynamics.ExcitationSystems.ExcDC3A -/
def s_ExcDC3A : SClass := ⟨0x45786344433341, 0x43494d31342e49454336313937302e44796e616d6963732e45786369746174696f6e53797374656d732e45786344433341, 0x43494d31342e49454336313937302e44796e616d6963732e45786369746174696f6e53797374656d732e45786369746174696f6e53797374656d,
  [(0x6531, t_EFloat), (0x76726d6178, t_EFloat), (0x7465, t_float), (0x6b65, t_EFloat), (0x7472, t_float), (0x736532, t_EFloat), (0x747268, t_float), (0x76726d696e, t_EFloat), (0x6578636c696d, t_EFloat), (0x6532, t_EFloat), (0x6b76, t_EFloat), (0x736531, t_EFloat)],
  []⟩
/-- Class CIM14.IEC61970.Dynamics.ExcitationSystems.ExcDC4B -/
def s_ExcDC4B : SClass := ⟨0x45786344433442, 0x43494d31342e49454336313937302e44796e616d6963732e45786369746174696f6e53797374656d732e45786344433442, 0x43494d31342e49454336313937302e44796e616d6963732e45786369746174696f6e53797374656d732e45786369746174696f6e53797374656d,
  [(0x6531, t_EFloat), (0x736532, t_EFloat), (0x7466, t_float), (0x6f656c696e, t_EFloat), (0x6b69, t_EFloat), (0x7461, t_float), (0x76726d6178, t_EFloat), (0x7472, t_float), (0x6b66, t_EFloat), (0x76726d696e, t_EFloat), (0x7465, t_float), (0x6b61, t_EFloat), (0x6b70, t_EFloat), (0x7464, t_float), (0x6b64, t_EFloat), (0x76656d696e, t_EFloat), (0x6b65, t_EFloat), (0x736531, t_EFloat), (0x6532, t_EFloat), (0x75656c696e, t_EFloat)],
  []⟩
/-- Class CIM14.IEC61970.Dynamics.ExcitationSystems.ExcELIN1 -/
def s_ExcELIN1 : SClass := ⟨0x457863454c494e31, 0x43494d31342e49454336313937302e44796e616d6963732e45786369746174696f6e53797374656d732e457863454c494e31, 0x43494d31342e49454336313937302e44796e616d6963732e45786369746174696f6e53797374656d732e45786369746174696f6e53797374656d,
  [],
  []⟩
/-- Class CIM14.IEC61970.Dynamics.ExcitationSystems.ExcELIN2 -/
def s_ExcELIN2 : SClass := ⟨0x457863454c494e32, 0x43494d31342e49454336313937302e44796e616d6963732e45786369746174696f6e53797374656d732e457863454c494e32, 0x43494d31342e49454336313937302e44796e616d6963732e45786369746174696f6e53797374656d732e45786369746174696f6e53797374656d,
  [],
  []⟩
/-- Class CIM14.IEC61970.Dynamics.ExcitationSystems.ExcHU -/
def s_ExcHU : SClass := ⟨0x4578634855, 0x43494d31342e49454336313937302e44796e616d6963732e45786369746174696f6e53797374656d732e4578634855, 0x43494d31342e49454336313937302e44796e616d6963732e45786369746174696f6e53797374656d732e45786369746174696f6e53797374656d,
  [],
  []⟩
/-- Class CIM14.IEC61970.Dynamics.ExcitationSystems.ExcPIC -/
def s_ExcPIC : SClass := ⟨0x457863504943, 0x43494d31342e49454336313937302e44796e616d6963732e45786369746174696f6e53797374656d732e457863504943, 0x43494d31342e49454336313937302e44796e616d6963732e45786369746174696f6e53797374656d732e45786369746174696f6e53797374656d,
  [],
  []⟩
/-- Class CIM14.IEC61970.Dynamics.ExcitationSystems.ExcREXS -/
def s_ExcREXS : SClass := ⟨0x45786352455853, 0x43494d31342e49454336313937302e44796e616d6963732e45786369746174696f6e53797374656d732e45786352455853, 0x43494d31342e49454336313937302e44796e616d6963732e45786369746174696f6e53797374656d732e45786369746174696f6e53797374656d,
  [],
  []⟩
/-- Class CIM14.IEC61970.Dynamics.ExcitationSystems.ExcSCRX -/
def s_ExcSCRX : SClass := ⟨0x45786353435258, 0x43494d31342e49454336313937302e44796e616d6963732e45786369746174696f6e53797374656d732e45786353435258, 0x43494d31342e49454336313937302e44796e616d6963732e45786369746174696f6e53797374656d732e45786369746174696f6e53797374656d,
  [(0x7462, t_float), (0x63737769746368, t_EBoolean), (0x656d696e, t_EFloat), (0x6b, t_EFloat), (0x7465, t_float), (0x656d6178, t_EFloat), (0x74617462, t_EFloat), (0x7263726664, t_EFloat)],
  []⟩
/-- Class CIM14.IEC61970.Dynamics.ExcitationSystems.ExcSEXS -/
def s_ExcSEXS : SClass := ⟨0x45786353455853, 0x43494d31342e49454336313937302e44796e616d6963732e45786369746174696f6e53797374656d732e45786353455853, 0x43494d31342e49454336313937302e44796e616d6963732e45786369746174696f6e53797374656d732e45786369746174696f6e53797374656d,
  [(0x7462, t_float), (0x6b63, t_EFloat), (0x656d6178, t_EFloat), (0x74617462, t_EFloat), (0x7463, t_float), (0x6566646d696e, t_EFloat), (0x6566646d6178, t_EFloat), (0x656d696e, t_EFloat), (0x6b, t_EFloat), (0x7465, t_float)],
  []⟩
/-- Class CIM14.IEC61970.Dynamics.ExcitationSystems.ExcSK -/
def s_ExcSK : SClass := ⟨0x457863534b, 0x43494d31342e49454336313937302e44796e616d6963732e45786369746174696f6e53797374656d732e457863534b, 0x43494d31342e49454336313937302e44796e616d6963732e45786369746174696f6e53797374656d732e45786369746174696f6e53797374656d,
  [],
  []⟩
/-- Class CIM14.IEC61970.Dynamics.ExcitationSystems.ExcSK2 -/
def s_ExcSK2 : SClass := ⟨0x457863534b32, 0x43494d31342e49454336313937302e44796e616d6963732e45786369746174696f6e53797374656d732e457863534b32, 0x43494d31342e49454336313937302e44796e616d6963732e45786369746174696f6e53797374656d732e45786369746174696f6e53797374656d,
  [],
  []⟩
/-- Class CIM14.IEC61970.Dynamics.ExcitationSystems.ExcST1A -/
def s_ExcST1A : SClass := ⟨0x45786353543141, 0x43494d31342e49454336313937302e44796e616d6963732e45786369746174696f6e53797374656d732e45786353543141, 0x43494d31342e49454336313937302e44796e616d6963732e45786369746174696f6e53797374656d732e45786369746174696f6e53797374656d,
  [(0x7461, t_float), (0x76696d696e, t_EFloat), (0x76616d696e, t_EFloat), (0x6b66, t_EFloat), (0x76726d696e, t_EFloat), (0x6b61, t_EFloat), (0x7462, t_float), (0x76616d6178, t_EFloat), (0x746231, t_float), (0x75656c696e, t_EFloat), (0x6b63, t_EFloat), (0x746331, t_float), (0x7466, t_float), (0x6b6c72, t_EFloat), (0x76696d6178, t_EFloat), (0x7463, t_float), (0x707373696e, t_EFloat), (0x76726d6178, t_EFloat), (0x7472, t_float), (0x696c72, t_EFloat)],
  []⟩
/-- Class CIM14.IEC61970.Dynamics.ExcitationSystems.ExcST2A -/
def s_ExcST2A : SClass := ⟨0x45786353543241, 0x43494d31342e49454336313937302e44796e616d6963732e45786369746174696f6e53797374656d732e45786353543241, 0x43494d31342e49454336313937302e44796e616d6963732e45786369746174696f6e53797374656d732e45786369746174696f6e53797374656d,
  [(0x7465, t_float), (0x6b61, t_EFloat), (0x7462, t_float), (0x7466, t_float), (0x6b66, t_EFloat), (0x6b65, t_EFloat), (0x7472, t_float), (0x7463, t_float), (0x7461, t_float), (0x6b63, t_EFloat), (0x6b69, t_EFloat), (0x6b70, t_EFloat), (0x75656c696e, t_EFloat), (0x76726d6178, t_EFloat), (0x6566646d6178, t_EFloat), (0x76726d696e, t_EFloat)],
  []⟩
/-- Class CIM14.IEC61970.Dynamics.ExcitationSystems.ExcST3A -/
def s_ExcST3A : SClass := ⟨0x45786353543341, 0x43494d31342e49454336313937302e44796e616d6963732e45786369746174696f6e53797374656d732e45786353543341, 0x43494d31342e49454336313937302e44796e616d6963732e45786369746174696f6e53797374656d732e45786369746174696f6e53797374656d,
  [(0x6b70, t_EFloat), (0x616e6770, t_EFloat), (0x786c, t_EFloat), (0x7463, t_float), (0x7462, t_float), (0x6b69, t_EFloat), (0x76626d6178, t_EFloat), (0x6b63, t_EFloat), (0x76726d6178, t_EFloat), (0x76696d6178, t_EFloat), (0x76676d6178, t_EFloat), (0x6b6d, t_EFloat), (0x766d6d6178, t_EFloat), (0x6b61, t_EFloat), (0x7472, t_float), (0x76726d696e, t_EFloat), (0x6b67, t_EFloat), (0x76696d696e, t_EFloat), (0x766d6d696e, t_EFloat), (0x746d, t_float), (0x7461, t_float)],
  []⟩
/-- Class CIM14.IEC61970.Dynamics.ExcitationSystems.ExcST4B -/
def s_ExcST4B : SClass := ⟨0x45786353543442, 0x43494d31342e49454336313937302e44796e616d6963732e45786369746174696f6e53797374656d732e45786353543442, 0x43494d31342e49454336313937302e44796e616d6963732e45786369746174696f6e53797374656d732e45786369746174696f6e53797374656d,
  [(0x6b70, t_EFloat), (0x6b696d, t_EFloat), (0x76626d6178, t_EFloat), (0x6b63, t_EFloat), (0x6b7072, t_EFloat), (0x786c, t_EFloat), (0x76676d6178, t_EFloat), (0x766d6d696e, t_EFloat), (0x6b67, t_EFloat), (0x766d6d6178, t_EFloat), (0x7472, t_float), (0x7461, t_float), (0x6b706d, t_EFloat), (0x616e6770, t_EFloat), (0x76726d696e, t_EFloat), (0x6b6972, t_EFloat), (0x76726d6178, t_EFloat), (0x6b69, t_EFloat)],
  []⟩
/-- Class CIM14.IEC61970.Dynamics.ExcitationSystems.ExcST5B -/
def s_ExcST5B : SClass := ⟨0x45786353543542, 0x43494d31342e49454336313937302e44796e616d6963732e45786369746174696f6e53797374656d732e45786353543542, 0x43494d31342e49454336313937302e44796e616d6963732e45786369746174696f6e53797374656d732e45786369746174696f6e53797374656d,
  [(0x746232, t_float), (0x746231, t_float), (0x74756232, t_float), (0x74756331, t_float), (0x6b72, t_EFloat), (0x746f6232, t_float), (0x746f6231, t_float), (0x746331, t_float), (0x746f6331, t_float), (0x74756231, t_float), (0x746332, t_float), (0x6b63, t_EFloat), (0x76726d6178, t_EFloat), (0x74756332, t_float), (0x746f6332, t_float), (0x7431, t_float), (0x7472, t_float), (0x76726d696e, t_EFloat)],
  []⟩
/-- Class CIM14.IEC61970.Dynamics.ExcitationSystems.ExcST6B -/
def s_ExcST6B : SClass := ⟨0x45786353543642, 0x43494d31342e49454336313937302e44796e616d6963732e45786369746174696f6e53797374656d732e45786353543642, 0x43494d31342e49454336313937302e44796e616d6963732e45786369746174696f6e53797374656d732e45786369746174696f6e53797374656d,
  [(0x7472, t_float), (0x696c72, t_EFloat), (0x76726d696e, t_EFloat), (0x766d756c74, t_EFloat), (0x76726d6178, t_EFloat), (0x6f656c696e, t_EFloat), (0x6b6c72, t_EFloat), (0x6b67, t_EFloat), (0x6b7061, t_EFloat), (0x76616d6178, t_EFloat), (0x7473, t_float), (0x6b636c, t_EFloat), (0x7467, t_float), (0x76616d696e, t_EFloat), (0x6b6961, t_EFloat), (0x6b6666, t_EFloat), (0x6b6d, t_EFloat)],
  []⟩
/-- Class CIM14.IEC61970.Dynamics.ExcitationSystems.ExcST7B -/
def s_ExcST7B : SClass := ⟨0x45786353543742, 0x43494d31342e49454336313937302e44796e616d6963732e45786369746174696f6e53797374656d732e45786353543742, 0x43494d31342e49454336313937302e44796e616d6963732e45786369746174696f6e53797374656d732e45786369746174696f6e53797374656d,
  [(0x6f656c696e, t_EFloat), (0x766d6178, t_EFloat), (0x7462, t_float), (0x6b6961, t_EFloat), (0x6b7061, t_EFloat), (0x6b68, t_EFloat), (0x76726d696e, t_EFloat), (0x7473, t_float), (0x746961, t_float), (0x7467, t_float), (0x7472, t_float), (0x7466, t_float), (0x76726d6178, t_EFloat), (0x75656c696e, t_EFloat), (0x6b6c, t_EFloat), (0x766d696e, t_EFloat), (0x7463, t_float)],
  []⟩
/-- Class CIM14.IEC61970.Dynamics.ExcitationSystems.ExcWT2E -/
def s_ExcWT2E : SClass := ⟨0x45786357543245, 0x43494d31342e49454336313937302e44796e616d6963732e45786369746174696f6e53797374656d732e45786357543245, 0x43494d31342e49454336313937302e44796e616d6963732e45786369746174696f6e53797374656d732e45786369746174696f6e53797374656d,
  [],
  []⟩
/-- Class CIM14.IEC61970.Dynamics.ExcitationSystems.ExcWT3E -/
def s_ExcWT3E : SClass := ⟨0x45786357543345, 0x43494d31342e49454336313937302e44796e616d6963732e45786369746174696f6e53797374656d732e45786357543345, 0x43494d31342e49454336313937302e44796e616d6963732e45786369746174696f6e53797374656d732e45786369746174696f6e53797374656d,
  [],
  []⟩
/-- Class CIM14.IEC61970.Dynamics.ExcitationSystems.ExcWT4E -/
def s_ExcWT4E : SClass := ⟨0x45786357543445, 0x43494d31342e49454336313937302e44796e616d6963732e45786369746174696f6e53797374656d732e45786357543445, 0x43494d31342e49454336313937302e44796e616d6963732e45786369746174696f6e53797374656d732e45786369746174696f6e53797374656d,
  [],
  []⟩
/-- Class CIM14.IEC61970.Dynamics.ExcitationSystems.ExcitationSystem -/
def s_ExcitationSystem : SClass := ⟨0x45786369746174696f6e53797374656d, 0x43494d31342e49454336313937302e44796e616d6963732e45786369746174696f6e53797374656d732e45786369746174696f6e53797374656d, 0x43494d31342e49454336313937302e436f72652e506f77657253797374656d5265736f75726365,
  [],
  []⟩
/-- Class CIM14.IEC61970.Dynamics.Generators.GenAsync -/
def s_GenAsync : SClass := ⟨0x47656e4173796e63, 0x43494d31342e49454336313937302e44796e616d6963732e47656e657261746f72732e47656e4173796e63, 0x43494d31342e49454336313937302e44796e616d6963732e4173796e6368726f6e6f75734d616368696e65,
  [],
  []⟩
/-- Class CIM14.IEC61970.Dynamics.Generators.GenEquiv -/
def s_GenEquiv : SClass := ⟨0x47656e4571756976, 0x43494d31342e49454336313937302e44796e616d6963732e47656e657261746f72732e47656e4571756976, 0x43494d31342e49454336313937302e44796e616d6963732e526f746174696e674d616368696e65,
  [(0x7870, t_float)],
  [⟨0x73796e6368726f6e6f75734d616368696e6530, 0x43494d31342e49454336313937302e57697265732e53796e6368726f6e6f75734d616368696e65, true, 0x67656e457175697630⟩]⟩
/-- Class CIM14.IEC61970.Dynamics.Generators.GenLoad -/
def s_GenLoad : SClass := ⟨0x47656e4c6f6164, 0x43494d31342e49454336313937302e44796e616d6963732e47656e657261746f72732e47656e4c6f6164, 0x43494d31342e49454336313937302e57697265732e526567756c6174696e67436f6e644571,
  [],
  [⟨0x73796e6368726f6e6f75734d616368696e6530, 0x43494d31342e49454336313937302e57697265732e53796e6368726f6e6f75734d616368696e65, true, 0x67656e4c6f616430⟩]⟩
/-- Class CIM14.IEC61970.Dynamics.Loads.AggregateLoad -/
def s_AggregateLoad : SClass := ⟨0x4167677265676174654c6f6164, 0x43494d31342e49454336313937302e44796e616d6963732e4c6f6164732e4167677265676174654c6f6164, 0x43494d31342e49454336313937302e436f72652e506f77657253797374656d5265736f75726365,
  [],
  [⟨0x656e65726779436f6e73756d657230, 0x43494d31342e49454336313937302e57697265732e456e65726779436f6e73756d6572, true, 0x6167677265676174654c6f616430⟩]⟩
/-- Class CIM14.IEC61970.Dynamics.Loads.LoadMotor -/
def s_LoadMotor : SClass := ⟨0x4c6f61644d6f746f72, 0x43494d31342e49454336313937302e44796e616d6963732e4c6f6164732e4c6f61644d6f746f72, 0x43494d31342e49454336313937302e44796e616d6963732e4c6f6164732e4167677265676174654c6f6164,
  [(0x7476, t_float), (0x7066726163, t_EFloat), (0x7674, t_float), (0x64, t_EFloat), (0x7261, t_float), (0x6c73, t_float), (0x6c666163, t_EFloat), (0x74706f, t_float), (0x68, t_float), (0x6c70, t_float), (0x6c7070, t_float), (0x7470706f, t_float), (0x74626b72, t_float)],
  []⟩
/-- Class CIM14.IEC61970.Dynamics.Loads.LoadStatic -/
def s_LoadStatic : SClass := ⟨0x4c6f6164537461746963, 0x43494d31342e49454336313937302e44796e616d6963732e4c6f6164732e4c6f6164537461746963, 0x43494d31342e49454336313937302e44796e616d6963732e4c6f6164732e4167677265676174654c6f6164,
  [(0x7374617469634c6f616454797065, e_StaticLoadType), (0x657031, t_EFloat), (0x6b7033, t_EFloat), (0x657133, t_EFloat), (0x6b7032, t_EFloat), (0x657132, t_EFloat), (0x6b7166, t_EFloat), (0x6b7134, t_EFloat), (0x6b7132, t_EFloat), (0x6b7031, t_EFloat), (0x657032, t_EFloat), (0x657131, t_EFloat), (0x6b7066, t_EFloat), (0x6b7034, t_EFloat), (0x6b7133, t_EFloat), (0x657033, t_EFloat), (0x6b7131, t_EFloat)],
  []⟩
/-- Class CIM14.IEC61970.Dynamics.Loads.LoadStaticArea -/
def s_LoadStaticArea : SClass := ⟨0x4c6f616453746174696341726561, 0x43494d31342e49454336313937302e44796e616d6963732e4c6f6164732e4c6f616453746174696341726561, 0x43494d31342e49454336313937302e44796e616d6963732e4c6f6164732e4c6f6164537461746963,
  [],
  []⟩
/-- Class CIM14.IEC61970.Dynamics.Loads.LoadStaticBus -/
def s_LoadStaticBus : SClass := ⟨0x4c6f6164537461746963427573, 0x43494d31342e49454336313937302e44796e616d6963732e4c6f6164732e4c6f6164537461746963427573, 0x43494d31342e49454336313937302e44796e616d6963732e4c6f6164732e4c6f6164537461746963,
  [],
  []⟩
/-- Class CIM14.IEC61970.Dynamics.Loads.LoadStaticOwner -/
def s_LoadStaticOwner : SClass := ⟨0x4c6f61645374617469634f776e6572, 0x43494d31342e49454336313937302e44796e616d6963732e4c6f6164732e4c6f61645374617469634f776e6572, 0x43494d31342e49454336313937302e44796e616d6963732e4c6f6164732e4c6f6164537461746963,
  [],
  []⟩
/-- Class CIM14.IEC61970.Dynamics.Loads.LoadStaticSystem -/
def s_LoadStaticSystem : SClass := ⟨0x4c6f616453746174696353797374656d, 0x43494d31342e49454336313937302e44796e616d6963732e4c6f6164732e4c6f616453746174696353797374656d, 0x43494d31342e49454336313937302e44796e616d6963732e4c6f6164732e4c6f6164537461746963,
  [],
  []⟩
/-- Class CIM14.IEC61970.Dynamics.Loads.LoadStaticZone -/
def s_LoadStaticZone : SClass := ⟨0x4c6f61645374617469635a6f6e65, 0x43494d31342e49454336313937302e44796e616d6963732e4c6f6164732e4c6f61645374617469635a6f6e65, 0x43494d31342e49454336313937302e44796e616d6963732e4c6f6164732e4c6f6164537461746963,
  [],
  []⟩
/-- Class CIM14.IEC61970.Dynamics.MetaBlock -/
def s_MetaBlock : SClass := ⟨0x4d657461426c6f636b, 0x43494d31342e49454336313937302e44796e616d6963732e4d657461426c6f636b, 0x43494d31342e49454336313937302e436f72652e4964656e7469666965644f626a656374,
  [(0x626c6f636b4b696e64, e_BlockKind), (0x696e7465726e616c, t_EBoolean), (0x70726f7072696574617279, t_EBoolean), (0x7072696d6974697665, t_EBoolean)],
  [⟨0x4d657461426c6f636b5265666572656e6365, 0x43494d31342e49454336313937302e44796e616d6963732e4d657461426c6f636b5265666572656e6365, true, 0x4d656d6265724f665f4d657461426c6f636b⟩, ⟨0x4d657461426c6f636b4f7574707574, 0x43494d31342e49454336313937302e44796e616d6963732e4d657461426c6f636b4f7574707574, true, 0x4d656d6265724f665f4d657461426c6f636b⟩, ⟨0x4d657461426c6f636b5374617465, 0x43494d31342e49454336313937302e44796e616d6963732e4d657461426c6f636b5374617465, true, 0x4d656d6265724f665f4d657461426c6f636b⟩, ⟨0x4d657461426c6f636b5369676e616c, 0x43494d31342e49454336313937302e44796e616d6963732e4d657461426c6f636b5369676e616c, true, 0x4d656d6265724f665f4d657461426c6f636b⟩, ⟨0x626c6f636b5479706530, 0x43494d31342e49454336313937302e44796e616d6963732e426c6f636b54797065, false, 0x6d657461426c6f636b30⟩, ⟨0x4d657461426c6f636b496e707574, 0x43494d31342e49454336313937302e44796e616d6963732e4d657461426c6f636b496e707574, true, 0x4d656d6265724f665f4d657461426c6f636b⟩, ⟨0x626c6f636b436f6e7374616e7430, 0x43494d31342e49454336313937302e44796e616d6963732e426c6f636b436f6e7374616e74, true, 0x6d657461426c6f636b30⟩, ⟨0x426c6f636b, 0x43494d31342e49454336313937302e44796e616d6963732e426c6f636b, true, 0x4d657461426c6f636b⟩, ⟨0x4d657461426c6f636b506172616d65746572, 0x43494d31342e49454336313937302e44796e616d6963732e4d657461426c6f636b506172616d65746572, true, 0x4d656d6265724f665f4d657461426c6f636b⟩]⟩
/-- Class CIM14.IEC61970.Dynamics.MetaBlockConInput -/
def s_MetaBlockConInput : SClass := ⟨0x4d657461426c6f636b436f6e496e707574, 0x43494d31342e49454336313937302e44796e616d6963732e4d657461426c6f636b436f6e496e707574, 0x43494d31342e49454336313937302e436f72652e4964656e7469666965644f626a656374,
  [],
  [⟨0x4d657461426c6f636b436f6e5369676e616c, 0x43494d31342e49454336313937302e44796e616d6963732e4d657461426c6f636b436f6e5369676e616c, false, 0x4d657461426c6f636b436f6e496e707574⟩, ⟨0x4d656d6265724f665f4d657461426c6f636b436f6e6e656374696f6e, 0x43494d31342e49454336313937302e44796e616d6963732e4d657461426c6f636b436f6e6e656374696f6e, false, 0x4d657461426c6f636b436f6e496e707574⟩, ⟨0x556e6974, 0x43494d31342e49454336313937302e436f72652e556e6974, false, 0x4d657461426c6f636b436f6e496e707574⟩]⟩
/-- Class CIM14.IEC61970.Dynamics.MetaBlockConOutput -/
def s_MetaBlockConOutput : SClass := ⟨0x4d657461426c6f636b436f6e4f7574707574, 0x43494d31342e49454336313937302e44796e616d6963732e4d657461426c6f636b436f6e4f7574707574, 0x43494d31342e49454336313937302e436f72652e4964656e7469666965644f626a656374,
  [],
  [⟨0x4d657461426c6f636b436f6e5369676e616c, 0x43494d31342e49454336313937302e44796e616d6963732e4d657461426c6f636b436f6e5369676e616c, true, 0x4d657461426c6f636b436f6e4f7574707574⟩, ⟨0x4d656d6265724f665f4d657461426c6f636b436f6e6e656374696f6e, 0x43494d31342e49454336313937302e44796e616d6963732e4d657461426c6f636b436f6e6e656374696f6e, false, 0x4d657461426c6f636b436f6e4f7574707574⟩, ⟨0x556e6974, 0x43494d31342e49454336313937302e436f72652e556e6974, false, 0x4d657461426c6f636b436f6e4f7574707574⟩]⟩
/-- Class CIM14.IEC61970.Dynamics.MetaBlockConSignal -/
def s_MetaBlockConSignal : SClass := ⟨0x4d657461426c6f636b436f6e5369676e616c, 0x43494d31342e49454336313937302e44796e616d6963732e4d657461426c6f636b436f6e5369676e616c, 0x43494d31342e49454336313937302e436f72652e4964656e7469666965644f626a656374,
  [],
  [⟨0x4d657461426c6f636b436f6e496e707574, 0x43494d31342e49454336313937302e44796e616d6963732e4d657461426c6f636b436f6e496e707574, false, 0x4d657461426c6f636b436f6e5369676e616c⟩, ⟨0x4d656d6265724f665f4d657461426c6f636b436f6e6e6563746976697479, 0x43494d31342e49454336313937302e44796e616d6963732e4d657461426c6f636b436f6e6e6563746976697479, false, 0x4d657461426c6f636b436f6e5369676e616c⟩, ⟨0x4d657461426c6f636b436f6e4f7574707574, 0x43494d31342e49454336313937302e44796e616d6963732e4d657461426c6f636b436f6e4f7574707574, false, 0x4d657461426c6f636b436f6e5369676e616c⟩, ⟨0x6d657461426c6f636b436f6e6e656374697669747930, 0x43494d31342e49454336313937302e44796e616d6963732e4d657461426c6f636b436f6e6e6563746976697479, false, 0x6d657461426c6f636b436f6e5369676e616c30⟩]⟩
/-- Class CIM14.IEC61970.Dynamics.MetaBlockConnectable -/
def s_MetaBlockConnectable : SClass := ⟨0x4d657461426c6f636b436f6e6e65637461626c65, 0x43494d31342e49454336313937302e44796e616d6963732e4d657461426c6f636b436f6e6e65637461626c65, 0x43494d31342e49454336313937302e436f72652e4964656e7469666965644f626a656374,
  [],
  [⟨0x5374616e64617264436f6e74726f6c426c6f636b5f4d657461426c6f636b53746174655265666572656e6365, 0x43494d31342e49454336313937302e44796e616d6963732e4d657461426c6f636b53746174655265666572656e6365, true, 0x5374616e64617264436f6e74726f6c426c6f636b5f4d657461426c6f636b436f6e6e65637461626c65⟩, ⟨0x4d657461426c6f636b4f75747075745265666572656e6365, 0x43494d31342e49454336313937302e44796e616d6963732e4d657461426c6f636b4f75747075745265666572656e6365, true, 0x4d657461426c6f636b436f6e6e65637461626c65⟩, ⟨0x4d657461426c6f636b53746174655265666572656e6365, 0x43494d31342e49454336313937302e44796e616d6963732e4d657461426c6f636b53746174655265666572656e6365, true, 0x4d657461426c6f636b436f6e6e65637461626c65⟩, ⟨0x426c6f636b496e7075745265666572656e6365, 0x43494d31342e49454336313937302e44796e616d6963732e426c6f636b496e7075745265666572656e6365, true, 0x426c6f636b436f6e6e65637461626c65⟩, ⟨0x5374616e64617264436f6e74726f6c426c6f636b5f4d657461426c6f636b496e7075745265666572656e6365, 0x43494d31342e49454336313937302e44796e616d6963732e4d657461426c6f636b496e7075745265666572656e6365, true, 0x5374616e64617264436f6e74726f6c426c6f636b5f4d657461426c6f636b436f6e6e65637461626c65⟩, ⟨0x5374616e64617264436f6e74726f6c426c6f636b5f4d657461426c6f636b506172616d657465725265666572656e6365, 0x43494d31342e49454336313937302e44796e616d6963732e4d657461426c6f636b506172616d657465725265666572656e6365, true, 0x5374616e64617264436f6e74726f6c426c6f636b5f4d657461426c6f636b436f6e6e65637461626c65⟩, ⟨0x4d657461426c6f636b506172616d657465725265666572656e6365, 0x43494d31342e49454336313937302e44796e616d6963732e4d657461426c6f636b506172616d657465725265666572656e6365, true, 0x4d657461426c6f636b436f6e6e65637461626c65⟩, ⟨0x5374616e64617264436f6e74726f6c426c6f636b5f4d657461426c6f636b4f75747075745265666572656e6365, 0x43494d31342e49454336313937302e44796e616d6963732e4d657461426c6f636b4f75747075745265666572656e6365, true, 0x5374616e64617264436f6e74726f6c426c6f636b5f4d657461426c6f636b436f6e6e65637461626c65⟩, ⟨0x4d657461426c6f636b496e7075745265666572656e6365, 0x43494d31342e49454336313937302e44796e616d6963732e4d657461426c6f636b496e7075745265666572656e6365, true, 0x4d657461426c6f636b436f6e6e65637461626c65⟩]⟩
/-- Class CIM14.IEC61970.Dynamics.MetaBlockConnection -/
def s_MetaBlockConnection : SClass := ⟨0x4d657461426c6f636b436f6e6e656374696f6e, 0x43494d31342e49454336313937302e44796e616d6963732e4d657461426c6f636b436f6e6e656374696f6e, 0x43494d31342e49454336313937302e436f72652e4964656e7469666965644f626a656374,
  [(0x736c6f746e616d65, t_EString)],
  [⟨0x4d657461426c6f636b436f6e4f7574707574, 0x43494d31342e49454336313937302e44796e616d6963732e4d657461426c6f636b436f6e4f7574707574, true, 0x4d656d6265724f665f4d657461426c6f636b436f6e6e656374696f6e⟩, ⟨0x4d657461426c6f636b436f6e496e707574, 0x43494d31342e49454336313937302e44796e616d6963732e4d657461426c6f636b436f6e496e707574, true, 0x4d656d6265724f665f4d657461426c6f636b436f6e6e656374696f6e⟩, ⟨0x6d657461426c6f636b436f6e6e656374697669747930, 0x43494d31342e49454336313937302e44796e616d6963732e4d657461426c6f636b436f6e6e6563746976697479, false, 0x6d657461426c6f636b436f6e6e656374696f6e30⟩, ⟨0x426c6f636b436f6e6e656374696f6e, 0x43494d31342e49454336313937302e44796e616d6963732e426c6f636b436f6e6e656374696f6e, true, 0x4d657461426c6f636b436f6e6e656374696f6e⟩, ⟨0x4d656d6265724f665f4d657461426c6f636b436f6e6e6563746976697479, 0x43494d31342e49454336313937302e44796e616d6963732e4d657461426c6f636b436f6e6e6563746976697479, false, 0x4d657461426c6f636b436f6e6e656374696f6e⟩]⟩
/-- Class CIM14.IEC61970.Dynamics.MetaBlockConnectivity -/
def s_MetaBlockConnectivity : SClass := ⟨0x4d657461426c6f636b436f6e6e6563746976697479, 0x43494d31342e49454336313937302e44796e616d6963732e4d657461426c6f636b436f6e6e6563746976697479, 0x43494d31342e49454336313937302e436f72652e4964656e7469666965644f626a656374,
  [],
  [⟨0x426c6f636b436f6e6e6563746976697479, 0x43494d31342e49454336313937302e44796e616d6963732e426c6f636b436f6e6e6563746976697479, true, 0x4d657461426c6f636b436f6e6e6563746976697479⟩, ⟨0x4d657461426c6f636b436f6e5369676e616c, 0x43494d31342e49454336313937302e44796e616d6963732e4d657461426c6f636b436f6e5369676e616c, true, 0x4d656d6265724f665f4d657461426c6f636b436f6e6e6563746976697479⟩, ⟨0x6d657461426c6f636b436f6e6e656374696f6e30, 0x43494d31342e49454336313937302e44796e616d6963732e4d657461426c6f636b436f6e6e656374696f6e, true, 0x6d657461426c6f636b436f6e6e656374697669747930⟩, ⟨0x6d657461426c6f636b436f6e5369676e616c30, 0x43494d31342e49454336313937302e44796e616d6963732e4d657461426c6f636b436f6e5369676e616c, true, 0x6d657461426c6f636b436f6e6e656374697669747930⟩, ⟨0x4d657461426c6f636b436f6e6e656374696f6e, 0x43494d31342e49454336313937302e44796e616d6963732e4d657461426c6f636b436f6e6e656374696f6e, true, 0x4d656d6265724f665f4d657461426c6f636b436f6e6e6563746976697479⟩]⟩
/-- Class CIM14.IEC61970.Dynamics.MetaBlockInput -/
def s_MetaBlockInput : SClass := ⟨0x4d657461426c6f636b496e707574, 0x43494d31342e49454336313937302e44796e616d6963732e4d657461426c6f636b496e707574, 0x43494d31342e49454336313937302e44796e616d6963732e4d657461426c6f636b436f6e6e65637461626c65,
  [],
  [⟨0x626c6f636b496e7075745265666572656e636530, 0x43494d31342e49454336313937302e44796e616d6963732e426c6f636b496e7075745265666572656e6365, true, 0x6d657461426c6f636b496e70757430⟩, ⟨0x4d656d6265724f665f4d657461426c6f636b, 0x43494d31342e49454336313937302e44796e616d6963732e4d657461426c6f636b, false, 0x4d657461426c6f636b496e707574⟩, ⟨0x626c6f636b5573616765496e7075745265666572656e636530, 0x43494d31342e49454336313937302e44796e616d6963732e426c6f636b5573616765496e7075745265666572656e6365, true, 0x6d657461426c6f636b496e70757430⟩, ⟨0x626c6f636b496e7075745479706530, 0x43494d31342e49454336313937302e44796e616d6963732e426c6f636b496e70757454797065, false, 0x6d657461426c6f636b496e70757430⟩, ⟨0x746965546f4d6561737572656d656e7430, 0x43494d31342e49454336313937302e44796e616d6963732e546965546f4d6561737572656d656e74, true, 0x6d657461426c6f636b496e70757430⟩]⟩
/-- Class CIM14.IEC61970.Dynamics.MetaBlockInputReference -/
def s_MetaBlockInputReference : SClass := ⟨0x4d657461426c6f636b496e7075745265666572656e6365, 0x43494d31342e49454336313937302e44796e616d6963732e4d657461426c6f636b496e7075745265666572656e6365, 0x43494d31342e49454336313937302e436f72652e4964656e7469666965644f626a656374,
  [(0x706f736974697665466c6f77496e, t_EBoolean)],
  [⟨0x5374616e64617264436f6e74726f6c426c6f636b5f4d657461426c6f636b436f6e6e65637461626c65, 0x43494d31342e49454336313937302e44796e616d6963732e4d657461426c6f636b436f6e6e65637461626c65, false, 0x5374616e64617264436f6e74726f6c426c6f636b5f4d657461426c6f636b496e7075745265666572656e6365⟩, ⟨0x4d656d6265724f665f4d657461426c6f636b5265666572656e6365, 0x43494d31342e49454336313937302e44796e616d6963732e4d657461426c6f636b5265666572656e6365, false, 0x4d657461426c6f636b496e7075745265666572656e6365⟩, ⟨0x4d657461426c6f636b5369676e616c, 0x43494d31342e49454336313937302e44796e616d6963732e4d657461426c6f636b5369676e616c, false, 0x46726f6d⟩, ⟨0x4d657461426c6f636b436f6e6e65637461626c65, 0x43494d31342e49454336313937302e44796e616d6963732e4d657461426c6f636b436f6e6e65637461626c65, false, 0x4d657461426c6f636b496e7075745265666572656e6365⟩]⟩
/-- Class CIM14.IEC61970.Dynamics.MetaBlockOutput -/
def s_MetaBlockOutput : SClass := ⟨0x4d657461426c6f636b4f7574707574, 0x43494d31342e49454336313937302e44796e616d6963732e4d657461426c6f636b4f7574707574, 0x43494d31342e49454336313937302e44796e616d6963732e4d657461426c6f636b436f6e6e65637461626c65,
  [],
  [⟨0x426c6f636b4f75747075745265666572656e6365, 0x43494d31342e49454336313937302e44796e616d6963732e426c6f636b4f75747075745265666572656e6365, true, 0x6d657461426c6f636b4f757470757430⟩, ⟨0x4d656d6265724f665f4d657461426c6f636b, 0x43494d31342e49454336313937302e44796e616d6963732e4d657461426c6f636b, false, 0x4d657461426c6f636b4f7574707574⟩, ⟨0x626c6f636b55736167654f75747075745265666572656e636530, 0x43494d31342e49454336313937302e44796e616d6963732e426c6f636b55736167654f75747075745265666572656e6365, true, 0x6d657461426c6f636b4f757470757430⟩, ⟨0x626c6f636b4f75747075745479706530, 0x43494d31342e49454336313937302e44796e616d6963732e426c6f636b4f757470757454797065, false, 0x6d657461426c6f636b4f757470757430⟩]⟩
/-- Class CIM14.IEC61970.Dynamics.MetaBlockOutputReference -/
def s_MetaBlockOutputReference : SClass := ⟨0x4d657461426c6f636b4f75747075745265666572656e6365, 0x43494d31342e49454336313937302e44796e616d6963732e4d657461426c6f636b4f75747075745265666572656e6365, 0x43494d31342e49454336313937302e436f72652e4964656e7469666965644f626a656374,
  [],
  [⟨0x4d657461426c6f636b436f6e6e65637461626c65, 0x43494d31342e49454336313937302e44796e616d6963732e4d657461426c6f636b436f6e6e65637461626c65, false, 0x4d657461426c6f636b4f75747075745265666572656e6365⟩, ⟨0x4d656d6265724f665f4d657461426c6f636b5265666572656e6365, 0x43494d31342e49454336313937302e44796e616d6963732e4d657461426c6f636b5265666572656e6365, false, 0x4d657461426c6f636b4f75747075745265666572656e6365⟩, ⟨0x4d657461426c6f636b5369676e616c, 0x43494d31342e49454336313937302e44796e616d6963732e4d657461426c6f636b5369676e616c, true, 0x546f⟩, ⟨0x5374616e64617264436f6e74726f6c426c6f636b5f4d657461426c6f636b436f6e6e65637461626c65, 0x43494d31342e49454336313937302e44796e616d6963732e4d657461426c6f636b436f6e6e65637461626c65, false, 0x5374616e64617264436f6e74726f6c426c6f636b5f4d657461426c6f636b4f75747075745265666572656e6365⟩]⟩
/-- Class CIM14.IEC61970.Dynamics.MetaBlockParameter -/
def s_MetaBlockParameter : SClass := ⟨0x4d657461426c6f636b506172616d65746572, 0x43494d31342e49454336313937302e44796e616d6963732e4d657461426c6f636b506172616d65746572, 0x43494d31342e49454336313937302e44796e616d6963732e4d657461426c6f636b436f6e6e65637461626c65,
  [],
  [⟨0x426c6f636b506172616d65746572, 0x43494d31342e49454336313937302e44796e616d6963732e426c6f636b506172616d65746572, true, 0x4d657461426c6f636b506172616d65746572⟩, ⟨0x4d656d6265724f665f4d657461426c6f636b, 0x43494d31342e49454336313937302e44796e616d6963732e4d657461426c6f636b, false, 0x4d657461426c6f636b506172616d65746572⟩]⟩
/-- Class CIM14.IEC61970.Dynamics.MetaBlockParameterReference -/
def s_MetaBlockParameterReference : SClass := ⟨0x4d657461426c6f636b506172616d657465725265666572656e6365, 0x43494d31342e49454336313937302e44796e616d6963732e4d657461426c6f636b506172616d657465725265666572656e6365, 0x43494d31342e49454336313937302e436f72652e4964656e7469666965644f626a656374,
  [],
  [⟨0x5374616e64617264436f6e74726f6c426c6f636b5f4d657461426c6f636b436f6e6e65637461626c65, 0x43494d31342e49454336313937302e44796e616d6963732e4d657461426c6f636b436f6e6e65637461626c65, false, 0x5374616e64617264436f6e74726f6c426c6f636b5f4d657461426c6f636b506172616d657465725265666572656e6365⟩, ⟨0x4d657461426c6f636b436f6e6e65637461626c65, 0x43494d31342e49454336313937302e44796e616d6963732e4d657461426c6f636b436f6e6e65637461626c65, false, 0x4d657461426c6f636b506172616d657465725265666572656e6365⟩, ⟨0x4d656d6265724f665f4d657461426c6f636b5265666572656e6365, 0x43494d31342e49454336313937302e44796e616d6963732e4d657461426c6f636b5265666572656e6365, false, 0x4d657461426c6f636b506172616d657465725265666572656e6365⟩]⟩
/-- Class CIM14.IEC61970.Dynamics.MetaBlockReference -/
def s_MetaBlockReference : SClass := ⟨0x4d657461426c6f636b5265666572656e6365, 0x43494d31342e49454336313937302e44796e616d6963732e4d657461426c6f636b5265666572656e6365, 0x43494d31342e49454336313937302e436f72652e4964656e7469666965644f626a656374,
  [(0x6571756174696f6e54797065, t_EString)],
  [⟨0x626c6f636b496e7075745265666572656e636530, 0x43494d31342e49454336313937302e44796e616d6963732e426c6f636b496e7075745265666572656e6365, true, 0x6d657461426c6f636b5265666572656e636530⟩, ⟨0x4d656d6265724f665f4d657461426c6f636b, 0x43494d31342e49454336313937302e44796e616d6963732e4d657461426c6f636b, false, 0x4d657461426c6f636b5265666572656e6365⟩, ⟨0x4d657461426c6f636b, 0x43494d31342e49454336313937302e44796e616d6963732e4d657461426c6f636b, false, 0⟩, ⟨0x626c6f636b4f75747075745265666572656e636530, 0x43494d31342e49454336313937302e44796e616d6963732e426c6f636b4f75747075745265666572656e6365, true, 0x6d657461426c6f636b5265666572656e636530⟩, ⟨0x4d657461426c6f636b53746174655265666572656e6365, 0x43494d31342e49454336313937302e44796e616d6963732e4d657461426c6f636b53746174655265666572656e6365, true, 0x4d656d6265724f665f4d657461426c6f636b5265666572656e6365⟩, ⟨0x4d657461426c6f636b496e7075745265666572656e6365, 0x43494d31342e49454336313937302e44796e616d6963732e4d657461426c6f636b496e7075745265666572656e6365, true, 0x4d656d6265724f665f4d657461426c6f636b5265666572656e6365⟩, ⟨0x4d657461426c6f636b4f75747075745265666572656e6365, 0x43494d31342e49454336313937302e44796e616d6963732e4d657461426c6f636b4f75747075745265666572656e6365, true, 0x4d656d6265724f665f4d657461426c6f636b5265666572656e6365⟩, ⟨0x426c6f636b506172616d65746572, 0x43494d31342e49454336313937302e44796e616d6963732e426c6f636b506172616d65746572, true, 0x4d656d6265724f665f4d657461426c6f636b5265666572656e6365⟩, ⟨0x4d657461426c6f636b506172616d657465725265666572656e6365, 0x43494d31342e49454336313937302e44796e616d6963732e4d657461426c6f636b506172616d657465725265666572656e6365, true, 0x4d656d6265724f665f4d657461426c6f636b5265666572656e6365⟩]⟩
/-- Class CIM14.IEC61970.Dynamics.MetaBlockSignal -/
def s_MetaBlockSignal : SClass := ⟨0x4d657461426c6f636b5369676e616c, 0x43494d31342e49454336313937302e44796e616d6963732e4d657461426c6f636b5369676e616c, 0x43494d31342e49454336313937302e436f72652e4964656e7469666965644f626a656374,
  [],
  [⟨0x6d657461426c6f636b5369676e616c31, 0x43494d31342e49454336313937302e44796e616d6963732e4d657461426c6f636b5369676e616c, true, 0x6d657461426c6f636b5369676e616c⟩, ⟨0x6d657461426c6f636b5369676e616c, 0x43494d31342e49454336313937302e44796e616d6963732e4d657461426c6f636b5369676e616c, true, 0x6d657461426c6f636b5369676e616c31⟩, ⟨0x4d656d6265724f665f4d657461426c6f636b, 0x43494d31342e49454336313937302e44796e616d6963732e4d657461426c6f636b, false, 0x4d657461426c6f636b5369676e616c⟩, ⟨0x46726f6d, 0x43494d31342e49454336313937302e44796e616d6963732e4d657461426c6f636b496e7075745265666572656e6365, false, 0x4d657461426c6f636b5369676e616c⟩, ⟨0x546f, 0x43494d31342e49454336313937302e44796e616d6963732e4d657461426c6f636b4f75747075745265666572656e6365, false, 0x4d657461426c6f636b5369676e616c⟩]⟩
/-- Class CIM14.IEC61970.Dynamics.MetaBlockState -/
def s_MetaBlockState : SClass := ⟨0x4d657461426c6f636b5374617465, 0x43494d31342e49454336313937302e44796e616d6963732e4d657461426c6f636b5374617465, 0x43494d31342e49454336313937302e44796e616d6963732e4d657461426c6f636b436f6e6e65637461626c65,
  [],
  [⟨0x4d656d6265724f665f4d657461426c6f636b, 0x43494d31342e49454336313937302e44796e616d6963732e4d657461426c6f636b, false, 0x4d657461426c6f636b5374617465⟩]⟩
/-- Class CIM14.IEC61970.Dynamics.MetaBlockStateReference -/
def s_MetaBlockStateReference : SClass := ⟨0x4d657461426c6f636b53746174655265666572656e6365, 0x43494d31342e49454336313937302e44796e616d6963732e4d657461426c6f636b53746174655265666572656e6365, 0x43494d31342e49454336313937302e436f72652e4964656e7469666965644f626a656374,
  [(0x706f736974697665466c6f77496e, t_EBoolean)],
  [⟨0x5374616e64617264436f6e74726f6c426c6f636b5f4d657461426c6f636b436f6e6e65637461626c65, 0x43494d31342e49454336313937302e44796e616d6963732e4d657461426c6f636b436f6e6e65637461626c65, false, 0x5374616e64617264436f6e74726f6c426c6f636b5f4d657461426c6f636b53746174655265666572656e6365⟩, ⟨0x4d657461426c6f636b436f6e6e65637461626c65, 0x43494d31342e49454336313937302e44796e616d6963732e4d657461426c6f636b436f6e6e65637461626c65, false, 0x4d657461426c6f636b53746174655265666572656e6365⟩, ⟨0x4d656d6265724f665f4d657461426c6f636b5265666572656e6365, 0x43494d31342e49454336313937302e44796e616d6963732e4d657461426c6f636b5265666572656e6365, false, 0x4d657461426c6f636b53746174655265666572656e6365⟩]⟩
/-- Class CIM14.IEC61970.Dynamics.Motors.MechLoad1 -/
def s_MechLoad1 : SClass := ⟨0x4d6563684c6f616431, 0x43494d31342e49454336313937302e44796e616d6963732e4d6f746f72732e4d6563684c6f616431, 0x43494d31342e49454336313937302e44796e616d6963732e4d6f746f72732e4d656368616e6963616c4c6f6164,
  [(0x65, t_EFloat), (0x62, t_EFloat), (0x64, t_EFloat), (0x61, t_EFloat)],
  []⟩
/-- Class CIM14.IEC61970.Dynamics.Motors.MechanicalLoad -/
def s_MechanicalLoad : SClass := ⟨0x4d656368616e6963616c4c6f6164, 0x43494d31342e49454336313937302e44796e616d6963732e4d6f746f72732e4d656368616e6963616c4c6f6164, 0x43494d31342e49454336313937302e436f72652e506f77657253797374656d5265736f75726365,
  [],
  [⟨0x726f746174696e674d616368696e6530, 0x43494d31342e49454336313937302e44796e616d6963732e526f746174696e674d616368696e65, true, 0x6d656368616e6963616c4c6f616430⟩]⟩
/-- Class CIM14.IEC61970.Dynamics.Motors.MotorAsync -/
def s_MotorAsync : SClass := ⟨0x4d6f746f724173796e63, 0x43494d31342e49454336313937302e44796e616d6963732e4d6f746f72732e4d6f746f724173796e63, 0x43494d31342e49454336313937302e44796e616d6963732e4173796e6368726f6e6f75734d616368696e65,
  [],
  []⟩
/-- Class CIM14.IEC61970.Dynamics.Motors.MotorSync -/
def s_MotorSync : SClass := ⟨0x4d6f746f7253796e63, 0x43494d31342e49454336313937302e44796e616d6963732e4d6f746f72732e4d6f746f7253796e63, 0x43494d31342e49454336313937302e57697265732e53796e6368726f6e6f75734d616368696e65,
  [(0x73796e6368726f6e6f75734d6f746f7254797065, e_SynchronousMotorType)],
  []⟩
/-- Class CIM14.IEC61970.Dynamics.PowerSystemStabilizers.PowerSystemStabilizer -/
def s_PowerSystemStabilizer : SClass := ⟨0x506f77657253797374656d53746162696c697a6572, 0x43494d31342e49454336313937302e44796e616d6963732e506f77657253797374656d53746162696c697a6572732e506f77657253797374656d53746162696c697a6572, 0x43494d31342e49454336313937302e436f72652e506f77657253797374656d5265736f75726365,
  [],
  []⟩
/-- Class CIM14.IEC61970.Dynamics.PowerSystemStabilizers.PssIEEE1A -/
def s_PssIEEE1A : SClass := ⟨0x507373494545453141, 0x43494d31342e49454336313937302e44796e616d6963732e506f77657253797374656d53746162696c697a6572732e507373494545453141, 0x43494d31342e49454336313937302e44796e616d6963732e506f77657253797374656d53746162696c697a6572732e506f77657253797374656d53746162696c697a6572,
  [],
  []⟩
/-- Class CIM14.IEC61970.Dynamics.PowerSystemStabilizers.PssIEEE2B -/
def s_PssIEEE2B : SClass := ⟨0x507373494545453242, 0x43494d31342e49454336313937302e44796e616d6963732e506f77657253797374656d53746162696c697a6572732e507373494545453242, 0x43494d31342e49454336313937302e44796e616d6963732e506f77657253797374656d53746162696c697a6572732e506f77657253797374656d53746162696c697a6572,
  [(0x743131, t_float), (0x767369316d6178, t_EFloat), (0x7433, t_float), (0x747733, t_float), (0x7673746d6178, t_EFloat), (0x7432, t_float), (0x6e, t_EInt), (0x767369316d696e, t_EFloat), (0x7439, t_float), (0x6b7332, t_EFloat), (0x7673746d696e, t_EFloat), (0x6a31, t_EInt), (0x747731, t_float), (0x7462, t_float), (0x7437, t_float), (0x767369326d6178, t_EFloat), (0x7436, t_float), (0x7431, t_float), (0x6d, t_EInt), (0x767369326d696e, t_EFloat), (0x61, t_EFloat), (0x7434, t_float), (0x747734, t_float), (0x6b7334, t_EFloat), (0x7461, t_float), (0x6b7333, t_EFloat), (0x743130, t_float), (0x747732, t_float), (0x6a32, t_EInt), (0x6b7331, t_EFloat), (0x7438, t_float)],
  []⟩
/-- Class CIM14.IEC61970.Dynamics.PowerSystemStabilizers.PssIEEE3B -/
def s_PssIEEE3B : SClass := ⟨0x507373494545453342, 0x43494d31342e49454336313937302e44796e616d6963732e506f77657253797374656d53746162696c697a6572732e507373494545453342, 0x43494d31342e49454336313937302e44796e616d6963732e506f77657253797374656d53746162696c697a6572732e506f77657253797374656d53746162696c697a6572,
  [],
  []⟩
/-- Class CIM14.IEC61970.Dynamics.PowerSystemStabilizers.PssIEEE4B -/
def s_PssIEEE4B : SClass := ⟨0x507373494545453442, 0x43494d31342e49454336313937302e44796e616d6963732e506f77657253797374656d53746162696c697a6572732e507373494545453442, 0x43494d31342e49454336313937302e44796e616d6963732e506f77657253797374656d53746162696c697a6572732e506f77657253797374656d53746162696c697a6572,
  [],
  []⟩
/-- Class CIM14.IEC61970.Dynamics.PowerSystemStabilizers.PssPTIST1 -/
def s_PssPTIST1 : SClass := ⟨0x507373505449535431, 0x43494d31342e49454336313937302e44796e616d6963732e506f77657253797374656d53746162696c697a6572732e507373505449535431, 0x43494d31342e49454336313937302e44796e616d6963732e506f77657253797374656d53746162696c697a6572732e506f77657253797374656d53746162696c697a6572,
  [],
  []⟩
/-- Class CIM14.IEC61970.Dynamics.PowerSystemStabilizers.PssPTIST3 -/
def s_PssPTIST3 : SClass := ⟨0x507373505449535433, 0x43494d31342e49454336313937302e44796e616d6963732e506f77657253797374656d53746162696c697a6572732e507373505449535433, 0x43494d31342e49454336313937302e44796e616d6963732e506f77657253797374656d53746162696c697a6572732e506f77657253797374656d53746162696c697a6572,
  [],
  []⟩
/-- Class CIM14.IEC61970.Dynamics.PowerSystemStabilizers.PssSB -/
def s_PssSB : SClass := ⟨0x5073735342, 0x43494d31342e49454336313937302e44796e616d6963732e506f77657253797374656d53746162696c697a6572732e5073735342, 0x43494d31342e49454336313937302e44796e616d6963732e506f77657253797374656d53746162696c697a6572732e506f77657253797374656d53746162696c697a6572,
  [],
  []⟩
/-- Class CIM14.IEC61970.Dynamics.PowerSystemStabilizers.PssSB4 -/
def s_PssSB4 : SClass := ⟨0x507373534234, 0x43494d31342e49454336313937302e44796e616d6963732e506f77657253797374656d53746162696c697a6572732e507373534234, 0x43494d31342e49454336313937302e44796e616d6963732e506f77657253797374656d53746162696c697a6572732e506f77657253797374656d53746162696c697a6572,
  [],
  []⟩
/-- Class CIM14.IEC61970.Dynamics.PowerSystemStabilizers.PssSH -/
def s_PssSH : SClass := ⟨0x5073735348, 0x43494d31342e49454336313937302e44796e616d6963732e506f77657253797374656d53746162696c697a6572732e5073735348, 0x43494d31342e49454336313937302e44796e616d6963732e506f77657253797374656d53746162696c697a6572732e506f77657253797374656d53746162696c697a6572,
  [],
  []⟩
/-- Class CIM14.IEC61970.Dynamics.PowerSystemStabilizers.PssSK -/
def s_PssSK : SClass := ⟨0x507373534b, 0x43494d31342e49454336313937302e44796e616d6963732e506f77657253797374656d53746162696c697a6572732e507373534b, 0x43494d31342e49454336313937302e44796e616d6963732e506f77657253797374656d53746162696c697a6572732e506f77657253797374656d53746162696c697a6572,
  [],
  []⟩
/-- Class CIM14.IEC61970.Dynamics.PowerSystemStabilizers.PssWSCC -/
def s_PssWSCC : SClass := ⟨0x50737357534343, 0x43494d31342e49454336313937302e44796e616d6963732e506f77657253797374656d53746162696c697a6572732e50737357534343, 0x43494d31342e49454336313937302e44796e616d6963732e506f77657253797374656d53746162696c697a6572732e506f77657253797374656d53746162696c697a6572,
  [],
  []⟩
/-- Class CIM14.IEC61970.Dynamics.ProtectiveDevice -/
def s_ProtectiveDevice : SClass := ⟨0x50726f74656374697665446576696365, 0x43494d31342e49454336313937302e44796e616d6963732e50726f74656374697665446576696365, 0x43494d31342e456c656d656e74,
  [],
  []⟩
/-- Class CIM14.IEC61970.Dynamics.RotatingMachine -/
def s_RotatingMachine : SClass := ⟨0x526f746174696e674d616368696e65, 0x43494d31342e49454336313937302e44796e616d6963732e526f746174696e674d616368696e65, 0x43494d31342e49454336313937302e57697265732e526567756c6174696e67436f6e644571,
  [(0x706172616d6574657273466f726d54797065, e_ParametersFormType), (0x64, t_EFloat), (0x7273, t_float), (0x68, t_float), (0x733132, t_EFloat), (0x726174656453, t_float), (0x7331, t_EFloat), (0x786c73, t_float)],
  [⟨0x6d656368616e6963616c4c6f616430, 0x43494d31342e49454336313937302e44796e616d6963732e4d6f746f72732e4d656368616e6963616c4c6f6164, true, 0x726f746174696e674d616368696e6530⟩]⟩
/-- Class CIM14.IEC61970.Dynamics.Slot -/
def s_Slot : SClass := ⟨0x536c6f74, 0x43494d31342e49454336313937302e44796e616d6963732e536c6f74, 0x43494d31342e49454336313937302e436f72652e4964656e7469666965644f626a656374,
  [],
  [⟨0x626c6f636b5479706530, 0x43494d31342e49454336313937302e44796e616d6963732e426c6f636b54797065, false, 0x736c6f7430⟩, ⟨0x736c6f745265666572656e636530, 0x43494d31342e49454336313937302e44796e616d6963732e536c6f745265666572656e6365, true, 0x736c6f7430⟩, ⟨0x736c6f744f757470757430, 0x43494d31342e49454336313937302e44796e616d6963732e536c6f744f7574707574, true, 0x736c6f7430⟩, ⟨0x636f6e6e656374696f6e4672616d6530, 0x43494d31342e49454336313937302e44796e616d6963732e436f6e6e656374696f6e4672616d65, false, 0x736c6f7430⟩, ⟨0x736c6f74496e70757430, 0x43494d31342e49454336313937302e44796e616d6963732e536c6f74496e707574, true, 0x736c6f7430⟩]⟩
/-- Class CIM14.IEC61970.Dynamics.SlotConnection -/
def s_SlotConnection : SClass := ⟨0x536c6f74436f6e6e656374696f6e, 0x43494d31342e49454336313937302e44796e616d6963732e536c6f74436f6e6e656374696f6e, 0x43494d31342e49454336313937302e436f72652e4964656e7469666965644f626a656374,
  [],
  [⟨0x636f6e6e656374696f6e4672616d6530, 0x43494d31342e49454336313937302e44796e616d6963732e436f6e6e656374696f6e4672616d65, false, 0x736c6f74436f6e6e656374696f6e30⟩, ⟨0x736c6f74496e70757430, 0x43494d31342e49454336313937302e44796e616d6963732e536c6f74496e707574, false, 0x736c6f74436f6e6e656374696f6e30⟩, ⟨0x736c6f744f757470757430, 0x43494d31342e49454336313937302e44796e616d6963732e536c6f744f7574707574, false, 0x736c6f74436f6e6e656374696f6e30⟩]⟩
/-- Class CIM14.IEC61970.Dynamics.SlotInput -/
def s_SlotInput : SClass := ⟨0x536c6f74496e707574, 0x43494d31342e49454336313937302e44796e616d6963732e536c6f74496e707574, 0x43494d31342e49454336313937302e436f72652e4964656e7469666965644f626a656374,
  [],
  [⟨0x626c6f636b496e7075745479706530, 0x43494d31342e49454336313937302e44796e616d6963732e426c6f636b496e70757454797065, false, 0x736c6f74496e70757430⟩, ⟨0x736c6f74436f6e6e656374696f6e30, 0x43494d31342e49454336313937302e44796e616d6963732e536c6f74436f6e6e656374696f6e, false, 0x736c6f74496e70757430⟩, ⟨0x736c6f7430, 0x43494d31342e49454336313937302e44796e616d6963732e536c6f74, false, 0x736c6f74496e70757430⟩]⟩
/-- Class CIM14.IEC61970.Dynamics.SlotOutput -/
def s_SlotOutput : SClass := ⟨0x536c6f744f7574707574, 0x43494d31342e49454336313937302e44796e616d6963732e536c6f744f7574707574, 0x43494d31342e49454336313937302e436f72652e4964656e7469666965644f626a656374,
  [],
  [⟨0x736c6f7430, 0x43494d31342e49454336313937302e44796e616d6963732e536c6f74, false, 0x736c6f744f757470757430⟩, ⟨0x736c6f74436f6e6e656374696f6e30, 0x43494d31342e49454336313937302e44796e616d6963732e536c6f74436f6e6e656374696f6e, true, 0x736c6f744f757470757430⟩, ⟨0x626c6f636b4f75747075745479706530, 0x43494d31342e49454336313937302e44796e616d6963732e426c6f636b4f757470757454797065, false, 0x736c6f744f757470757430⟩]⟩
/-- Class CIM14.IEC61970.Dynamics.SlotReference -/
def s_SlotReference : SClass := ⟨0x536c6f745265666572656e6365, 0x43494d31342e49454336313937302e44796e616d6963732e536c6f745265666572656e6365, 0x43494d31342e49454336313937302e436f72652e4964656e7469666965644f626a656374,
  [],
  [⟨0x736c6f7430, 0x43494d31342e49454336313937302e44796e616d6963732e536c6f74, false, 0x736c6f745265666572656e636530⟩, ⟨0x626c6f636b30, 0x43494d31342e49454336313937302e44796e616d6963732e426c6f636b, true, 0x736c6f745265666572656e636530⟩, ⟨0x636f6d706f736974654d6f64656c30, 0x43494d31342e49454336313937302e44796e616d6963732e436f6d706f736974654d6f64656c, true, 0x736c6f745265666572656e636530⟩]⟩
/-- Class CIM14.IEC61970.Dynamics.SourceModels -/
def s_SourceModels : SClass := ⟨0x536f757263654d6f64656c73, 0x43494d31342e49454336313937302e44796e616d6963732e536f757263654d6f64656c73, 0x43494d31342e456c656d656e74,
  [],
  []⟩
/-- Class CIM14.IEC61970.Dynamics.StaticVarDevice -/
def s_StaticVarDevice : SClass := ⟨0x537461746963566172446576696365, 0x43494d31342e49454336313937302e44796e616d6963732e537461746963566172446576696365, 0x43494d31342e456c656d656e74,
  [],
  []⟩
/-- Class CIM14.IEC61970.Dynamics.TieToMeasurement -/
def s_TieToMeasurement : SClass := ⟨0x546965546f4d6561737572656d656e74, 0x43494d31342e49454336313937302e44796e616d6963732e546965546f4d6561737572656d656e74, 0x43494d31342e49454336313937302e436f72652e4964656e7469666965644f626a656374,
  [],
  [⟨0x6d6561737572656d656e7430, 0x43494d31342e49454336313937302e4d6561732e4d6561737572656d656e74, false, 0x746965546f4d6561737572656d656e7430⟩, ⟨0x626c6f636b30, 0x43494d31342e49454336313937302e44796e616d6963732e426c6f636b, false, 0x746965546f4d6561737572656d656e7430⟩, ⟨0x6d657461426c6f636b496e70757430, 0x43494d31342e49454336313937302e44796e616d6963732e4d657461426c6f636b496e707574, false, 0x746965546f4d6561737572656d656e7430⟩]⟩
/-- Class CIM14.IEC61970.Dynamics.TurbineGovernors.Class1 -/
def s_Class1 : SClass := ⟨0x436c61737331, 0x43494d31342e49454336313937302e44796e616d6963732e54757262696e65476f7665726e6f72732e436c61737331, 0x43494d31342e456c656d656e74,
  [],
  []⟩
/-- Class CIM14.IEC61970.Dynamics.TurbineGovernors.GovCT1 -/
def s_GovCT1 : SClass := ⟨0x476f76435431, 0x43494d31342e49454336313937302e44796e616d6963732e54757262696e65476f7665726e6f72732e476f76435431, 0x43494d31342e49454336313937302e44796e616d6963732e54757262696e65476f7665726e6f72732e54757262696e65476f7665726e6f72,
  [(0x7464676f76, t_float), (0x7462, t_float), (0x6b64676f76, t_EFloat), (0x6462, t_EFloat), (0x766d696e, t_EFloat), (0x6b74757262, t_EFloat), (0x74656e67, t_float), (0x6d696e657272, t_EFloat), (0x61736574, t_EFloat), (0x6d6178657272, t_EFloat), (0x747361, t_float), (0x6d7762617365, t_float), (0x7766737064, t_EBoolean), (0x6b696c6f6164, t_EFloat), (0x6b70676f76, t_EFloat), (0x6c64726566, t_EFloat), (0x766d6178, t_EFloat), (0x727570, t_EFloat), (0x72, t_EFloat), (0x7470656c6563, t_float), (0x7461, t_float), (0x726f70656e, t_EFloat), (0x6b696d77, t_EFloat), (0x6b61, t_EFloat), (0x72646f776e, t_EFloat), (0x72636c6f7365, t_EFloat), (0x646d, t_EFloat), (0x747362, t_float), (0x6b69676f76, t_EFloat), (0x6b706c6f6164, t_EFloat), (0x74666c6f6164, t_float), (0x74616374, t_float), (0x7463, t_float), (0x77666e6c, t_EFloat), (0x706d77736574, t_float), (0x7273656c656374, t_EBoolean)],
  []⟩
/-- Class CIM14.IEC61970.Dynamics.TurbineGovernors.GovCT2 -/
def s_GovCT2 : SClass := ⟨0x476f76435432, 0x43494d31342e49454336313937302e44796e616d6963732e54757262696e65476f7665726e6f72732e476f76435432, 0x43494d31342e49454336313937302e44796e616d6963732e54757262696e65476f7665726e6f72732e54757262696e65476f7665726e6f72,
  [],
  []⟩
/-- Class CIM14.IEC61970.Dynamics.TurbineGovernors.GovDUM -/
def s_GovDUM : SClass := ⟨0x476f7644554d, 0x43494d31342e49454336313937302e44796e616d6963732e54757262696e65476f7665726e6f72732e476f7644554d, 0x43494d31342e49454336313937302e44796e616d6963732e54757262696e65476f7665726e6f72732e54757262696e65476f7665726e6f72,
  [],
  []⟩
/-- Class CIM14.IEC61970.Dynamics.TurbineGovernors.GovGASM -/
def s_GovGASM : SClass := ⟨0x476f764741534d, 0x43494d31342e49454336313937302e44796e616d6963732e54757262696e65476f7665726e6f72732e476f764741534d, 0x43494d31342e49454336313937302e44796e616d6963732e54757262696e65476f7665726e6f72732e54757262696e65476f7665726e6f72,
  [],
  []⟩
/-- Class CIM14.IEC61970.Dynamics.TurbineGovernors.GovGAST -/
def s_GovGAST : SClass := ⟨0x476f7647415354, 0x43494d31342e49454336313937302e44796e616d6963732e54757262696e65476f7665726e6f72732e476f7647415354, 0x43494d31342e49454336313937302e44796e616d6963732e54757262696e65476f7665726e6f72732e54757262696e65476f7665726e6f72,
  [],
  []⟩
/-- Class CIM14.IEC61970.Dynamics.TurbineGovernors.GovGAST2 -/
def s_GovGAST2 : SClass := ⟨0x476f764741535432, 0x43494d31342e49454336313937302e44796e616d6963732e54757262696e65476f7665726e6f72732e476f764741535432, 0x43494d31342e49454336313937302e44796e616d6963732e54757262696e65476f7665726e6f72732e54757262696e65476f7665726e6f72,
  [],
  []⟩
/-- Class CIM14.IEC61970.Dynamics.TurbineGovernors.GovGASTWD -/
def s_GovGASTWD : SClass := ⟨0x476f76474153545744, 0x43494d31342e49454336313937302e44796e616d6963732e54757262696e65476f7665726e6f72732e476f76474153545744, 0x43494d31342e49454336313937302e44796e616d6963732e54757262696e65476f7665726e6f72732e54757262696e65476f7665726e6f72,
  [],
  []⟩
/-- Class CIM14.IEC61970.Dynamics.TurbineGovernors.GovHydro0 -/
def s_GovHydro0 : SClass := ⟨0x476f76487964726f30, 0x43494d31342e49454336313937302e44796e616d6963732e54757262696e65476f7665726e6f72732e476f76487964726f30, 0x43494d31342e49454336313937302e44796e616d6963732e54757262696e65476f7665726e6f72732e54757262696e65476f7665726e6f72,
  [],
  []⟩
/-- Class CIM14.IEC61970.Dynamics.TurbineGovernors.GovHydro1 -/
def s_GovHydro1 : SClass := ⟨0x476f76487964726f31, 0x43494d31342e49454336313937302e44796e616d6963732e54757262696e65476f7665726e6f72732e476f76487964726f31, 0x43494d31342e49454336313937302e44796e616d6963732e54757262696e65476f7665726e6f72732e54757262696e65476f7665726e6f72,
  [(0x7466, t_float), (0x76656c6d, t_EFloat), (0x6d7762617365, t_float), (0x676d696e, t_EFloat), (0x676d6178, t_EFloat), (0x727065726d, t_EFloat), (0x7472, t_float), (0x7274656d70, t_EFloat), (0x716e6c, t_EFloat), (0x7467, t_float), (0x6474757262, t_EFloat), (0x6174, t_EFloat), (0x7477, t_float)],
  [⟨0x487964726f54757262696e65, 0x43494d31342e49454336313937302e47656e65726174696f6e2e47656e65726174696f6e44796e616d6963732e487964726f54757262696e65, false, 0x487964726f54757262696e65476f7665726e6f72⟩, ⟨0x73796e6368726f6e6f75734d616368696e6530, 0x43494d31342e49454336313937302e57697265732e53796e6368726f6e6f75734d616368696e65, true, 0x676f76487964726f3130⟩]⟩
/-- Class CIM14.IEC61970.Dynamics.TurbineGovernors.GovHydro2 -/
def s_GovHydro2 : SClass := ⟨0x476f76487964726f32, 0x43494d31342e49454336313937302e44796e616d6963732e54757262696e65476f7665726e6f72732e476f76487964726f32, 0x43494d31342e49454336313937302e44796e616d6963732e54757262696e65476f7665726e6f72732e54757262696e65476f7665726e6f72,
  [(0x7467, t_float), (0x7563, t_EFloat), (0x677631, t_EFloat), (0x646231, t_float), (0x706d6178, t_EFloat), (0x70677634, t_EFloat), (0x677635, t_EFloat), (0x756f, t_EFloat), (0x727065726d, t_EFloat), (0x646232, t_float), (0x70677635, t_EFloat), (0x7477, t_float), (0x70677632, t_EFloat), (0x677633, t_EFloat), (0x677632, t_EFloat), (0x7274656d70, t_EFloat), (0x6d7762617365, t_float), (0x6174757262, t_EFloat), (0x6b74757262, t_EFloat), (0x70677633, t_EFloat), (0x706d696e, t_EFloat), (0x7472, t_float), (0x657073, t_float), (0x677636, t_EFloat), (0x70677631, t_EFloat), (0x7470, t_float), (0x70677636, t_EFloat), (0x677634, t_EFloat), (0x6274757262, t_EFloat)],
  []⟩
/-- Class CIM14.IEC61970.Dynamics.TurbineGovernors.GovHydro3 -/
def s_GovHydro3 : SClass := ⟨0x476f76487964726f33, 0x43494d31342e49454336313937302e44796e616d6963732e54757262696e65476f7665726e6f72732e476f76487964726f33, 0x43494d31342e49454336313937302e44796e616d6963732e54757262696e65476f7665726e6f72732e54757262696e65476f7665726e6f72,
  [],
  []⟩
/-- Class CIM14.IEC61970.Dynamics.TurbineGovernors.GovHydro4 -/
def s_GovHydro4 : SClass := ⟨0x476f76487964726f34, 0x43494d31342e49454336313937302e44796e616d6963732e54757262696e65476f7665726e6f72732e476f76487964726f34, 0x43494d31342e49454336313937302e44796e616d6963732e54757262696e65476f7665726e6f72732e54757262696e65476f7665726e6f72,
  [],
  []⟩
/-- Class CIM14.IEC61970.Dynamics.TurbineGovernors.GovHydroDD -/
def s_GovHydroDD : SClass := ⟨0x476f76487964726f4444, 0x43494d31342e49454336313937302e44796e616d6963732e54757262696e65476f7665726e6f72732e476f76487964726f4444, 0x43494d31342e49454336313937302e44796e616d6963732e54757262696e65476f7665726e6f72732e54757262696e65476f7665726e6f72,
  [],
  []⟩
/-- Class CIM14.IEC61970.Dynamics.TurbineGovernors.GovHydroPID -/
def s_GovHydroPID : SClass := ⟨0x476f76487964726f504944, 0x43494d31342e49454336313937302e44796e616d6963732e54757262696e65476f7665726e6f72732e476f76487964726f504944, 0x43494d31342e49454336313937302e44796e616d6963732e54757262696e65476f7665726e6f72732e54757262696e65476f7665726e6f72,
  [],
  []⟩
/-- Class CIM14.IEC61970.Dynamics.TurbineGovernors.GovHydroPID2 -/
def s_GovHydroPID2 : SClass := ⟨0x476f76487964726f50494432, 0x43494d31342e49454336313937302e44796e616d6963732e54757262696e65476f7665726e6f72732e476f76487964726f50494432, 0x43494d31342e49454336313937302e44796e616d6963732e54757262696e65476f7665726e6f72732e54757262696e65476f7665726e6f72,
  [],
  []⟩
/-- Class CIM14.IEC61970.Dynamics.TurbineGovernors.GovHydroR -/
def s_GovHydroR : SClass := ⟨0x476f76487964726f52, 0x43494d31342e49454336313937302e44796e616d6963732e54757262696e65476f7665726e6f72732e476f76487964726f52, 0x43494d31342e49454336313937302e44796e616d6963732e54757262696e65476f7665726e6f72732e54757262696e65476f7665726e6f72,
  [],
  []⟩
/-- Class CIM14.IEC61970.Dynamics.TurbineGovernors.GovHydroWEH -/
def s_GovHydroWEH : SClass := ⟨0x476f76487964726f574548, 0x43494d31342e49454336313937302e44796e616d6963732e54757262696e65476f7665726e6f72732e476f76487964726f574548, 0x43494d31342e49454336313937302e44796e616d6963732e54757262696e65476f7665726e6f72732e54757262696e65476f7665726e6f72,
  [],
  []⟩
/-- Class CIM14.IEC61970.Dynamics.TurbineGovernors.GovHydroWPID -/
def s_GovHydroWPID : SClass := ⟨0x476f76487964726f57504944, 0x43494d31342e49454336313937302e44796e616d6963732e54757262696e65476f7665726e6f72732e476f76487964726f57504944, 0x43494d31342e49454336313937302e44796e616d6963732e54757262696e65476f7665726e6f72732e54757262696e65476f7665726e6f72,
  [],
  []⟩
/-- Class CIM14.IEC61970.Dynamics.TurbineGovernors.GovRAV -/
def s_GovRAV : SClass := ⟨0x476f76524156, 0x43494d31342e49454336313937302e44796e616d6963732e54757262696e65476f7665726e6f72732e476f76524156, 0x43494d31342e49454336313937302e44796e616d6963732e54757262696e65476f7665726e6f72732e54757262696e65476f7665726e6f72,
  [],
  []⟩
/-- Class CIM14.IEC61970.Dynamics.TurbineGovernors.GovSteam0 -/
def s_GovSteam0 : SClass := ⟨0x476f76537465616d30, 0x43494d31342e49454336313937302e44796e616d6963732e54757262696e65476f7665726e6f72732e476f76537465616d30, 0x43494d31342e49454336313937302e44796e616d6963732e54757262696e65476f7665726e6f72732e54757262696e65476f7665726e6f72,
  [(0x7432, t_float), (0x7431, t_float), (0x766d696e, t_EFloat), (0x6474, t_EFloat), (0x766d6178, t_EFloat), (0x6d7762617365, t_float), (0x72, t_EFloat), (0x7433, t_float)],
  []⟩
/-- Class CIM14.IEC61970.Dynamics.TurbineGovernors.GovSteam1 -/
def s_GovSteam1 : SClass := ⟨0x476f76537465616d31, 0x43494d31342e49454336313937302e44796e616d6963732e54757262696e65476f7665726e6f72732e476f76537465616d31, 0x43494d31342e49454336313937302e44796e616d6963732e54757262696e65476f7665726e6f72732e54757262696e65476f7665726e6f72,
  [(0x677631, t_EFloat), (0x70677633, t_EFloat), (0x756f, t_EFloat), (0x6b31, t_EFloat), (0x6d7762617365, t_float), (0x6b38, t_EFloat), (0x7563, t_EFloat), (0x677635, t_EFloat), (0x6b37, t_EFloat), (0x677634, t_EFloat), (0x6b, t_EFloat), (0x677632, t_EFloat), (0x646232, t_float), (0x70677634, t_EFloat), (0x7436, t_float), (0x6b32, t_EFloat), (0x646231, t_float), (0x7435, t_float), (0x6b35, t_EFloat), (0x70677632, t_EFloat), (0x70677631, t_EFloat), (0x7433, t_float), (0x7431, t_float), (0x6b36, t_EFloat), (0x677633, t_EFloat), (0x657073, t_float), (0x677636, t_EFloat), (0x7434, t_float), (0x70677636, t_EFloat), (0x706d696e, t_EFloat), (0x6b34, t_EFloat), (0x70677635, t_EFloat), (0x706d6178, t_EFloat), (0x7437, t_float), (0x6b33, t_EFloat), (0x7432, t_float)],
  []⟩
/-- Class CIM14.IEC61970.Dynamics.TurbineGovernors.GovSteamCC -/
def s_GovSteamCC : SClass := ⟨0x476f76537465616d4343, 0x43494d31342e49454336313937302e44796e616d6963732e54757262696e65476f7665726e6f72732e476f76537465616d4343, 0x43494d31342e49454336313937302e44796e616d6963732e54757262696e65476f7665726e6f72732e54757262696e65476f7665726e6f72,
  [],
  []⟩
/-- Class CIM14.IEC61970.Dynamics.TurbineGovernors.GovSteamEU -/
def s_GovSteamEU : SClass := ⟨0x476f76537465616d4555, 0x43494d31342e49454336313937302e44796e616d6963732e54757262696e65476f7665726e6f72732e476f76537465616d4555, 0x43494d31342e49454336313937302e44796e616d6963732e54757262696e65476f7665726e6f72732e54757262696e65476f7665726e6f72,
  [],
  []⟩
/-- Class CIM14.IEC61970.Dynamics.TurbineGovernors.GovSteamFV2 -/
def s_GovSteamFV2 : SClass := ⟨0x476f76537465616d465632, 0x43494d31342e49454336313937302e44796e616d6963732e54757262696e65476f7665726e6f72732e476f76537465616d465632, 0x43494d31342e49454336313937302e44796e616d6963732e54757262696e65476f7665726e6f72732e54757262696e65476f7665726e6f72,
  [],
  []⟩
/-- Class CIM14.IEC61970.Dynamics.TurbineGovernors.GovSteamFV3 -/
def s_GovSteamFV3 : SClass := ⟨0x476f76537465616d465633, 0x43494d31342e49454336313937302e44796e616d6963732e54757262696e65476f7665726e6f72732e476f76537465616d465633, 0x43494d31342e49454336313937302e44796e616d6963732e54757262696e65476f7665726e6f72732e54757262696e65476f7665726e6f72,
  [],
  []⟩
/-- Class CIM14.IEC61970.Dynamics.TurbineGovernors.GovSteamSGO -/
def s_GovSteamSGO : SClass := ⟨0x476f76537465616d53474f, 0x43494d31342e49454336313937302e44796e616d6963732e54757262696e65476f7665726e6f72732e476f76537465616d53474f, 0x43494d31342e49454336313937302e44796e616d6963732e54757262696e65476f7665726e6f72732e54757262696e65476f7665726e6f72,
  [],
  []⟩
/-- Class CIM14.IEC61970.Dynamics.TurbineGovernors.GovWT1P -/
def s_GovWT1P : SClass := ⟨0x476f7657543150, 0x43494d31342e49454336313937302e44796e616d6963732e54757262696e65476f7665726e6f72732e476f7657543150, 0x43494d31342e49454336313937302e44796e616d6963732e54757262696e65476f7665726e6f72732e54757262696e65476f7665726e6f72,
  [],
  []⟩
/-- Class CIM14.IEC61970.Dynamics.TurbineGovernors.GovWT1T -/
def s_GovWT1T : SClass := ⟨0x476f7657543154, 0x43494d31342e49454336313937302e44796e616d6963732e54757262696e65476f7665726e6f72732e476f7657543154, 0x43494d31342e49454336313937302e44796e616d6963732e54757262696e65476f7665726e6f72732e54757262696e65476f7665726e6f72,
  [],
  []⟩
/-- Class CIM14.IEC61970.Dynamics.TurbineGovernors.GovWT2P -/
def s_GovWT2P : SClass := ⟨0x476f7657543250, 0x43494d31342e49454336313937302e44796e616d6963732e54757262696e65476f7665726e6f72732e476f7657543250, 0x43494d31342e49454336313937302e44796e616d6963732e54757262696e65476f7665726e6f72732e54757262696e65476f7665726e6f72,
  [],
  []⟩
/-- Class CIM14.IEC61970.Dynamics.TurbineGovernors.GovWT2T -/
def s_GovWT2T : SClass := ⟨0x476f7657543254, 0x43494d31342e49454336313937302e44796e616d6963732e54757262696e65476f7665726e6f72732e476f7657543254, 0x43494d31342e49454336313937302e44796e616d6963732e54757262696e65476f7665726e6f72732e54757262696e65476f7665726e6f72,
  [],
  []⟩
/-- Class CIM14.IEC61970.Dynamics.TurbineGovernors.GovWT3P -/
def s_GovWT3P : SClass := ⟨0x476f7657543350, 0x43494d31342e49454336313937302e44796e616d6963732e54757262696e65476f7665726e6f72732e476f7657543350, 0x43494d31342e49454336313937302e44796e616d6963732e54757262696e65476f7665726e6f72732e54757262696e65476f7665726e6f72,
  [],
  []⟩
/-- Class CIM14.IEC61970.Dynamics.TurbineGovernors.GovWT3T -/
def s_GovWT3T : SClass := ⟨0x476f7657543354, 0x43494d31342e49454336313937302e44796e616d6963732e54757262696e65476f7665726e6f72732e476f7657543354, 0x43494d31342e49454336313937302e44796e616d6963732e54757262696e65476f7665726e6f72732e54757262696e65476f7665726e6f72,
  [],
  []⟩
/-- Class CIM14.IEC61970.Dynamics.TurbineGovernors.GovWT4P -/
def s_GovWT4P : SClass := ⟨0x476f7657543450, 0x43494d31342e49454336313937302e44796e616d6963732e54757262696e65476f7665726e6f72732e476f7657543450, 0x43494d31342e49454336313937302e44796e616d6963732e54757262696e65476f7665726e6f72732e54757262696e65476f7665726e6f72,
  [],
  []⟩
/-- Class CIM14.IEC61970.Dynamics.TurbineGovernors.GovWT4T -/
def s_GovWT4T : SClass := ⟨0x476f7657543454, 0x43494d31342e49454336313937302e44796e616d6963732e54757262696e65476f7665726e6f72732e476f7657543454, 0x43494d31342e49454336313937302e44796e616d6963732e54757262696e65476f7665726e6f72732e54757262696e65476f7665726e6f72,
  [],
  []⟩
/-- Class CIM14.IEC61970.Dynamics.TurbineGovernors.TLCFB1 -/
def s_TLCFB1 : SClass := ⟨0x544c43464231, 0x43494d31342e49454336313937302e44796e616d6963732e54757262696e65476f7665726e6f72732e544c43464231, 0x43494d31342e49454336313937302e44796e616d6963732e54757262696e65476f7665726e6f72732e54757262696e65476f7665726e6f72,
  [],
  []⟩
/-- Class CIM14.IEC61970.Dynamics.TurbineGovernors.TurbineGovernor -/
def s_TurbineGovernor : SClass := ⟨0x54757262696e65476f7665726e6f72, 0x43494d31342e49454336313937302e44796e616d6963732e54757262696e65476f7665726e6f72732e54757262696e65476f7665726e6f72, 0x43494d31342e49454336313937302e436f72652e506f77657253797374656d5265736f75726365,
  [],
  []⟩
/-- Class CIM14.IEC61970.Dynamics.UserBlockParameter -/
def s_UserBlockParameter : SClass := ⟨0x55736572426c6f636b506172616d65746572, 0x43494d31342e49454336313937302e44796e616d6963732e55736572426c6f636b506172616d65746572, 0x43494d31342e49454336313937302e44796e616d6963732e4d657461426c6f636b506172616d65746572,
  [],
  [⟨0x426c6f636b5573616765506172616d65746572, 0x43494d31342e49454336313937302e44796e616d6963732e426c6f636b506172616d65746572, true, 0x55736572426c6f636b506172616d65746572⟩]⟩
/-- Class CIM14.IEC61970.Dynamics.VoltageCompensator.VcompCross -/
def s_VcompCross : SClass := ⟨0x56636f6d7043726f7373, 0x43494d31342e49454336313937302e44796e616d6963732e566f6c74616765436f6d70656e7361746f722e56636f6d7043726f7373, 0x43494d31342e49454336313937302e44796e616d6963732e566f6c74616765436f6d70656e7361746f722e566f6c74616765436f6d70656e7361746f72,
  [(0x78636f6d7032, t_float), (0x72636f6d7032, t_float)],
  []⟩
/-- Class CIM14.IEC61970.Dynamics.VoltageCompensator.VcompIEEE -/
def s_VcompIEEE : SClass := ⟨0x56636f6d7049454545, 0x43494d31342e49454336313937302e44796e616d6963732e566f6c74616765436f6d70656e7361746f722e56636f6d7049454545, 0x43494d31342e49454336313937302e44796e616d6963732e566f6c74616765436f6d70656e7361746f722e566f6c74616765436f6d70656e7361746f72,
  [(0x78636f6d70, t_float), (0x72636f6d70, t_float)],
  []⟩
/-- Class CIM14.IEC61970.Dynamics.VoltageCompensator.VoltageCompensator -/
def s_VoltageCompensator : SClass := ⟨0x566f6c74616765436f6d70656e7361746f72, 0x43494d31342e49454336313937302e44796e616d6963732e566f6c74616765436f6d70656e7361746f722e566f6c74616765436f6d70656e7361746f72, 0x43494d31342e49454336313937302e436f72652e506f77657253797374656d5265736f75726365,
  [],
  []⟩
/-- Class CIM14.IEC61970.Equivalents.EquivalentBranch -/
def s_EquivalentBranch : SClass := ⟨0x4571756976616c656e744272616e6368, 0x43494d31342e49454336313937302e4571756976616c656e74732e4571756976616c656e744272616e6368, 0x43494d31342e49454336313937302e4571756976616c656e74732e4571756976616c656e7445717569706d656e74,
  [(0x78, t_float), (0x72, t_float)],
  []⟩
/-- Class CIM14.IEC61970.Equivalents.EquivalentEquipment -/
def s_EquivalentEquipment : SClass := ⟨0x4571756976616c656e7445717569706d656e74, 0x43494d31342e49454336313937302e4571756976616c656e74732e4571756976616c656e7445717569706d656e74, 0x43494d31342e49454336313937302e436f72652e436f6e64756374696e6745717569706d656e74,
  [],
  [⟨0x4571756976616c656e744e6574776f726b, 0x43494d31342e49454336313937302e4571756976616c656e74732e4571756976616c656e744e6574776f726b, false, 0x4571756976616c656e7445717569706d656e7473⟩]⟩
/-- Class CIM14.IEC61970.Equivalents.EquivalentInjection -/
def s_EquivalentInjection : SClass := ⟨0x4571756976616c656e74496e6a656374696f6e, 0x43494d31342e49454336313937302e4571756976616c656e74732e4571756976616c656e74496e6a656374696f6e, 0x43494d31342e49454336313937302e4571756976616c656e74732e4571756976616c656e7445717569706d656e74,
  [(0x6d617850, t_float), (0x726567756c6174696f6e4361706162696c697479, t_EBoolean), (0x726567756c6174696f6e546172676574, t_float), (0x6d696e50, t_float), (0x726567756c6174696f6e537461747573, t_EBoolean)],
  []⟩
/-- Class CIM14.IEC61970.Equivalents.EquivalentNetwork -/
def s_EquivalentNetwork : SClass := ⟨0x4571756976616c656e744e6574776f726b, 0x43494d31342e49454336313937302e4571756976616c656e74732e4571756976616c656e744e6574776f726b, 0x43494d31342e49454336313937302e436f72652e436f6e6e65637469766974794e6f6465436f6e7461696e6572,
  [],
  [⟨0x4571756976616c656e7445717569706d656e7473, 0x43494d31342e49454336313937302e4571756976616c656e74732e4571756976616c656e7445717569706d656e74, true, 0x4571756976616c656e744e6574776f726b⟩]⟩
/-- Class CIM14.IEC61970.Equivalents.EquivalentShunt -/
def s_EquivalentShunt : SClass := ⟨0x4571756976616c656e745368756e74, 0x43494d31342e49454336313937302e4571756976616c656e74732e4571756976616c656e745368756e74, 0x43494d31342e49454336313937302e4571756976616c656e74732e4571756976616c656e7445717569706d656e74,
  [(0x62, t_float), (0x67, t_float)],
  []⟩
/-- Class CIM14.IEC61970.Generation.GenerationDynamics.BWRSteamSupply -/
def s_BWRSteamSupply : SClass := ⟨0x425752537465616d537570706c79, 0x43494d31342e49454336313937302e47656e65726174696f6e2e47656e65726174696f6e44796e616d6963732e425752537465616d537570706c79, 0x43494d31342e49454336313937302e47656e65726174696f6e2e47656e65726174696f6e44796e616d6963732e537465616d537570706c79,
  [(0x6c6f7765724c696d6974, t_float), (0x7072657373757265536574706f696e744741, t_EFloat), (0x726641757838, t_float), (0x726641757833, t_float), (0x726641757832, t_float), (0x68696768506f7765724c696d6974, t_float), (0x726f645061747465726e, t_float), (0x726f645061747465726e436f6e7374616e74, t_EFloat), (0x696e74656772616c4761696e, t_EFloat), (0x726641757837, t_float), (0x70726f706f7274696f6e616c4761696e, t_EFloat), (0x726641757836, t_float), (0x7072657373757265536574706f696e74544332, t_float), (0x726641757831, t_float), (0x7072657373757265536574706f696e74544331, t_float), (0x696e436f7265546865726d616c5443, t_float), (0x75707065724c696d6974, t_float), (0x726641757834, t_float), (0x70726573737572654c696d6974, t_float), (0x726641757835, t_float), (0x6c6f77506f7765724c696d6974, t_float)],
  []⟩
/-- Class CIM14.IEC61970.Generation.GenerationDynamics.CTTempActivePowerCurve -/
def s_CTTempActivePowerCurve : SClass := ⟨0x435454656d70416374697665506f7765724375727665, 0x43494d31342e49454336313937302e47656e65726174696f6e2e47656e65726174696f6e44796e616d6963732e435454656d70416374697665506f7765724375727665, 0x43494d31342e49454336313937302e436f72652e4375727665,
  [],
  [⟨0x436f6d62757374696f6e54757262696e65, 0x43494d31342e49454336313937302e47656e65726174696f6e2e47656e65726174696f6e44796e616d6963732e436f6d62757374696f6e54757262696e65, false, 0x435454656d70416374697665506f7765724375727665⟩]⟩
/-- Class CIM14.IEC61970.Generation.GenerationDynamics.CombustionTurbine -/
def s_CombustionTurbine : SClass := ⟨0x436f6d62757374696f6e54757262696e65, 0x43494d31342e49454336313937302e47656e65726174696f6e2e47656e65726174696f6e44796e616d6963732e436f6d62757374696f6e54757262696e65, 0x43494d31342e49454336313937302e47656e65726174696f6e2e47656e65726174696f6e44796e616d6963732e5072696d654d6f766572,
  [(0x6361706162696c6974795665727375734672657175656e6379, t_float), (0x686561745265636f76657279466c6167, t_EBoolean), (0x74696d65436f6e7374616e74, t_float), (0x617578506f7765725665727375734672657175656e6379, t_float), (0x617578506f776572566572737573566f6c74616765, t_float), (0x7265666572656e636554656d70, t_float), (0x616d6269656e7454656d70, t_float), (0x706f776572566172696174696f6e427954656d70, t_float)],
  [⟨0x486561745265636f76657279426f696c6572, 0x43494d31342e49454336313937302e47656e65726174696f6e2e47656e65726174696f6e44796e616d6963732e486561745265636f76657279426f696c6572, false, 0x436f6d62757374696f6e54757262696e6573⟩, ⟨0x435454656d70416374697665506f7765724375727665, 0x43494d31342e49454336313937302e47656e65726174696f6e2e47656e65726174696f6e44796e616d6963732e435454656d70416374697665506f7765724375727665, false, 0x436f6d62757374696f6e54757262696e65⟩, ⟨0x416972436f6d70726573736f72, 0x43494d31342e49454336313937302e47656e65726174696f6e2e50726f64756374696f6e2e416972436f6d70726573736f72, false, 0x436f6d62757374696f6e54757262696e65⟩]⟩
/-- Class CIM14.IEC61970.Generation.GenerationDynamics.DrumBoiler -/
def s_DrumBoiler : SClass := ⟨0x4472756d426f696c6572, 0x43494d31342e49454336313937302e47656e65726174696f6e2e47656e65726174696f6e44796e616d6963732e4472756d426f696c6572, 0x43494d31342e49454336313937302e47656e65726174696f6e2e47656e65726174696f6e44796e616d6963732e466f7373696c537465616d537570706c79,
  [(0x6472756d426f696c6572526174696e67, t_EFloat)],
  []⟩
/-- Class CIM14.IEC61970.Generation.GenerationDynamics.FossilSteamSupply -/
def s_FossilSteamSupply : SClass := ⟨0x466f7373696c537465616d537570706c79, 0x43494d31342e49454336313937302e47656e65726174696f6e2e47656e65726174696f6e44796e616d6963732e466f7373696c537465616d537570706c79, 0x43494d31342e49454336313937302e47656e65726174696f6e2e47656e65726174696f6e44796e616d6963732e537465616d537570706c79,
  [(0x626f696c6572436f6e74726f6c4d6f6465, e_BoilerControlMode), (0x7375706572486561746572324361706163697479, t_EFloat), (0x617578506f7765725665727375734672657175656e6379, t_float), (0x6665656457617465724947, t_EFloat), (0x636f6e74726f6c504544, t_float), (0x7468726f74746c6550726573737572655350, t_float), (0x70726573737572654374726c4947, t_EFloat), (0x6675656c537570706c7944656c6179, t_float), (0x636f6e74726f6c504542, t_EFloat), (0x636f6e74726f6c5443, t_EFloat), (0x7072657373757265466565646261636b, t_EInt), (0x6665656457617465725047, t_EFloat), (0x636f6e74726f6c4943, t_EFloat), (0x636f6e74726f6c5043, t_EFloat), (0x6d696e4572726f725261746550, t_EFloat), (0x6675656c537570706c795443, t_float), (0x6675656c44656d616e644c696d6974, t_float), (0x6d656368506f77657253656e736f724c6167, t_float), (0x70726573737572654374726c4447, t_EFloat), (0x6d61784572726f725261746550, t_EFloat), (0x7375706572486561746572506970655044, t_EFloat), (0x636f6e74726f6c4572726f724269617350, t_EFloat), (0x6665656457617465725443, t_float), (0x7375706572486561746572314361706163697479, t_EFloat), (0x617578506f776572566572737573566f6c74616765, t_float), (0x70726573737572654374726c5047, t_EFloat)],
  []⟩
/-- Class CIM14.IEC61970.Generation.GenerationDynamics.HeatRecoveryBoiler -/
def s_HeatRecoveryBoiler : SClass := ⟨0x486561745265636f76657279426f696c6572, 0x43494d31342e49454336313937302e47656e65726174696f6e2e47656e65726174696f6e44796e616d6963732e486561745265636f76657279426f696c6572, 0x43494d31342e49454336313937302e47656e65726174696f6e2e47656e65726174696f6e44796e616d6963732e466f7373696c537465616d537570706c79,
  [(0x737465616d537570706c79526174696e6732, t_EFloat)],
  [⟨0x436f6d62757374696f6e54757262696e6573, 0x43494d31342e49454336313937302e47656e65726174696f6e2e47656e65726174696f6e44796e616d6963732e436f6d62757374696f6e54757262696e65, true, 0x486561745265636f76657279426f696c6572⟩]⟩
/-- Class CIM14.IEC61970.Generation.GenerationDynamics.HydroTurbine -/
def s_HydroTurbine : SClass := ⟨0x487964726f54757262696e65, 0x43494d31342e49454336313937302e47656e65726174696f6e2e47656e65726174696f6e44796e616d6963732e487964726f54757262696e65, 0x43494d31342e49454336313937302e47656e65726174696f6e2e47656e65726174696f6e44796e616d6963732e5072696d654d6f766572,
  [(0x74757262696e6554797065, e_TurbineType), (0x74757262696e65526174696e67, t_float), (0x6d6178486561644d617850, t_float), (0x7472616e7369656e7444726f6f7054696d65, t_float), (0x7370656564526567756c6174696f6e, t_float), (0x77617465725374617274696e6754696d65, t_float), (0x7370656564526174696e67, t_float), (0x7472616e7369656e74526567756c6174696f6e, t_float), (0x6761746555707065724c696d6974, t_float), (0x6d696e486561644d617850, t_float), (0x67617465526174654c696d6974, t_EFloat)],
  [⟨0x487964726f54757262696e65476f7665726e6f72, 0x43494d31342e49454336313937302e44796e616d6963732e54757262696e65476f7665726e6f72732e476f76487964726f31, false, 0x487964726f54757262696e65⟩]⟩
/-- Class CIM14.IEC61970.Generation.GenerationDynamics.PWRSteamSupply -/
def s_PWRSteamSupply : SClass := ⟨0x505752537465616d537570706c79, 0x43494d31342e49454336313937302e47656e65726174696f6e2e47656e65726174696f6e44796e616d6963732e505752537465616d537570706c79, 0x43494d31342e49454336313937302e47656e65726174696f6e2e47656e65726174696f6e44796e616d6963732e537465616d537570706c79,
  [(0x70726573737572654347, t_float), (0x7468726f74746c6550726573737572655350, t_float), (0x636f6c644c656746424c61675443, t_float), (0x686f744c6567537465616d4761696e, t_float), (0x636f726548544c6167544332, t_float), (0x636f726548544c6167544331, t_float), (0x636f72654e657574726f6e6963734854, t_float), (0x636f6c644c656746424c656164544331, t_float), (0x666565646261636b466163746f72, t_float), (0x636f72654e657574726f6e6963734566665443, t_float), (0x737465616d466c6f774647, t_float), (0x737465616d507265737375726544726f704c61675443, t_float), (0x737465616d50726573737572654647, t_float), (0x636f6c644c6567464731, t_float), (0x7468726f74746c655072657373757265466163746f72, t_float), (0x636f6c644c656746424c656164544332, t_float), (0x686f744c6567546f436f6c644c65674761696e, t_float), (0x636f6c644c6567464732, t_float), (0x686f744c65674c61675443, t_float), (0x636f6c644c65674c61675443, t_float)],
  []⟩
/-- Class CIM14.IEC61970.Generation.GenerationDynamics.PrimeMover -/
def s_PrimeMover : SClass := ⟨0x5072696d654d6f766572, 0x43494d31342e49454336313937302e47656e65726174696f6e2e47656e65726174696f6e44796e616d6963732e5072696d654d6f766572, 0x43494d31342e49454336313937302e436f72652e506f77657253797374656d5265736f75726365,
  [(0x7072696d654d6f766572526174696e67, t_EFloat)],
  [⟨0x53796e6368726f6e6f75734d616368696e6573, 0x43494d31342e49454336313937302e57697265732e53796e6368726f6e6f75734d616368696e65, true, 0x5072696d654d6f76657273⟩]⟩
/-- Class CIM14.IEC61970.Generation.GenerationDynamics.SteamSupply -/
def s_SteamSupply : SClass := ⟨0x537465616d537570706c79, 0x43494d31342e49454336313937302e47656e65726174696f6e2e47656e65726174696f6e44796e616d6963732e537465616d537570706c79, 0x43494d31342e49454336313937302e436f72652e506f77657253797374656d5265736f75726365,
  [(0x737465616d537570706c79526174696e67, t_EFloat)],
  [⟨0x537465616d54757262696e6573, 0x43494d31342e49454336313937302e47656e65726174696f6e2e47656e65726174696f6e44796e616d6963732e537465616d54757262696e65, true, 0x537465616d537570706c7973⟩]⟩
/-- Class CIM14.IEC61970.Generation.GenerationDynamics.SteamTurbine -/
def s_SteamTurbine : SClass := ⟨0x537465616d54757262696e65, 0x43494d31342e49454336313937302e47656e65726174696f6e2e47656e65726174696f6e44796e616d6963732e537465616d54757262696e65, 0x43494d31342e49454336313937302e47656e65726174696f6e2e47656e65726174696f6e44796e616d6963732e5072696d654d6f766572,
  [(0x7265686561746572325443, t_float), (0x736861667431506f7765724950, t_EFloat), (0x736861667431506f7765724c5032, t_EFloat), (0x7265686561746572315443, t_float), (0x737465616d43686573745443, t_float), (0x63726f73736f7665725443, t_float), (0x736861667432506f7765724850, t_EFloat), (0x736861667432506f7765724c5032, t_EFloat), (0x736861667432506f7765724950, t_EFloat), (0x736861667431506f7765724850, t_EFloat), (0x736861667431506f7765724c5031, t_EFloat), (0x736861667432506f7765724c5031, t_EFloat)],
  [⟨0x537465616d537570706c7973, 0x43494d31342e49454336313937302e47656e65726174696f6e2e47656e65726174696f6e44796e616d6963732e537465616d537570706c79, true, 0x537465616d54757262696e6573⟩]⟩
/-- Class CIM14.IEC61970.Generation.GenerationDynamics.Subcritical -/
def s_Subcritical : SClass := ⟨0x537562637269746963616c, 0x43494d31342e49454336313937302e47656e65726174696f6e2e47656e65726174696f6e44796e616d6963732e537562637269746963616c, 0x43494d31342e49454336313937302e47656e65726174696f6e2e47656e65726174696f6e44796e616d6963732e466f7373696c537465616d537570706c79,
  [],
  []⟩
/-- Class CIM14.IEC61970.Generation.GenerationDynamics.Supercritical -/
def s_Supercritical : SClass := ⟨0x5375706572637269746963616c, 0x43494d31342e49454336313937302e47656e65726174696f6e2e47656e65726174696f6e44796e616d6963732e5375706572637269746963616c, 0x43494d31342e49454336313937302e47656e65726174696f6e2e47656e65726174696f6e44796e616d6963732e466f7373696c537465616d537570706c79,
  [],
  []⟩
/-- Class CIM14.IEC61970.Generation.Production.AirCompressor -/
def s_AirCompressor : SClass := ⟨0x416972436f6d70726573736f72, 0x43494d31342e49454336313937302e47656e65726174696f6e2e50726f64756374696f6e2e416972436f6d70726573736f72, 0x43494d31342e49454336313937302e436f72652e506f77657253797374656d5265736f75726365,
  [(0x616972436f6d70726573736f72526174696e67, t_EFloat)],
  [⟨0x43414553506c616e74, 0x43494d31342e49454336313937302e47656e65726174696f6e2e50726f64756374696f6e2e43414553506c616e74, false, 0x416972436f6d70726573736f72⟩, ⟨0x436f6d62757374696f6e54757262696e65, 0x43494d31342e49454336313937302e47656e65726174696f6e2e47656e65726174696f6e44796e616d6963732e436f6d62757374696f6e54757262696e65, false, 0x416972436f6d70726573736f72⟩]⟩
/-- Class CIM14.IEC61970.Generation.Production.CAESPlant -/
def s_CAESPlant : SClass := ⟨0x43414553506c616e74, 0x43494d31342e49454336313937302e47656e65726174696f6e2e50726f64756374696f6e2e43414553506c616e74, 0x43494d31342e49454336313937302e436f72652e506f77657253797374656d5265736f75726365,
  [(0x656e6572677953746f726167654361706163697479, t_float), (0x7261746564436170616369747950, t_float)],
  [⟨0x416972436f6d70726573736f72, 0x43494d31342e49454336313937302e47656e65726174696f6e2e50726f64756374696f6e2e416972436f6d70726573736f72, false, 0x43414553506c616e74⟩, ⟨0x546865726d616c47656e65726174696e67556e6974, 0x43494d31342e49454336313937302e47656e65726174696f6e2e50726f64756374696f6e2e546865726d616c47656e65726174696e67556e6974, false, 0x43414553506c616e74⟩]⟩
/-- Class CIM14.IEC61970.Generation.Production.CogenerationPlant -/
def s_CogenerationPlant : SClass := ⟨0x436f67656e65726174696f6e506c616e74, 0x43494d31342e49454336313937302e47656e65726174696f6e2e50726f64756374696f6e2e436f67656e65726174696f6e506c616e74, 0x43494d31342e49454336313937302e436f72652e506f77657253797374656d5265736f75726365,
  [(0x636f67656e4c50537465616d526174696e67, t_EFloat), (0x636f67656e485053656e646f7574526174696e67, t_EFloat), (0x726174656450, t_float), (0x636f67656e4c5053656e646f7574526174696e67, t_EFloat), (0x636f67656e4850537465616d526174696e67, t_EFloat)],
  [⟨0x546865726d616c47656e65726174696e67556e697473, 0x43494d31342e49454336313937302e47656e65726174696f6e2e50726f64756374696f6e2e546865726d616c47656e65726174696e67556e6974, true, 0x436f67656e65726174696f6e506c616e74⟩, ⟨0x537465616d53656e646f75745363686564756c65, 0x43494d31342e49454336313937302e47656e65726174696f6e2e50726f64756374696f6e2e537465616d53656e646f75745363686564756c65, false, 0x436f67656e65726174696f6e506c616e74⟩]⟩
/-- Class CIM14.IEC61970.Generation.Production.CombinedCyclePlant -/
def s_CombinedCyclePlant : SClass := ⟨0x436f6d62696e65644379636c65506c616e74, 0x43494d31342e49454336313937302e47656e65726174696f6e2e50726f64756374696f6e2e436f6d62696e65644379636c65506c616e74, 0x43494d31342e49454336313937302e436f72652e506f77657253797374656d5265736f75726365,
  [(0x636f6d624379636c65506c616e74526174696e67, t_float)],
  [⟨0x546865726d616c47656e65726174696e67556e697473, 0x43494d31342e49454336313937302e47656e65726174696f6e2e50726f64756374696f6e2e546865726d616c47656e65726174696e67556e6974, true, 0x436f6d62696e65644379636c65506c616e74⟩]⟩
/-- Class CIM14.IEC61970.Generation.Production.EmissionAccount -/
def s_EmissionAccount : SClass := ⟨0x456d697373696f6e4163636f756e74, 0x43494d31342e49454336313937302e47656e65726174696f6e2e50726f64756374696f6e2e456d697373696f6e4163636f756e74, 0x43494d31342e49454336313937302e436f72652e4375727665,
  [(0x656d697373696f6e54797065, e_EmissionType), (0x656d697373696f6e56616c7565536f75726365, e_EmissionValueSource)],
  [⟨0x546865726d616c47656e65726174696e67556e6974, 0x43494d31342e49454336313937302e47656e65726174696f6e2e50726f64756374696f6e2e546865726d616c47656e65726174696e67556e6974, false, 0x456d6d697373696f6e4163636f756e7473⟩]⟩
/-- Class CIM14.IEC61970.Generation.Production.EmissionCurve -/
def s_EmissionCurve : SClass := ⟨0x456d697373696f6e4375727665, 0x43494d31342e49454336313937302e47656e65726174696f6e2e50726f64756374696f6e2e456d697373696f6e4375727665, 0x43494d31342e49454336313937302e436f72652e4375727665,
  [(0x656d697373696f6e54797065, e_EmissionType), (0x69734e657447726f737350, t_EBoolean), (0x656d697373696f6e436f6e74656e74, t_float)],
  [⟨0x546865726d616c47656e65726174696e67556e6974, 0x43494d31342e49454336313937302e47656e65726174696f6e2e50726f64756374696f6e2e546865726d616c47656e65726174696e67556e6974, false, 0x456d697373696f6e437572766573⟩]⟩
/-- Class CIM14.IEC61970.Generation.Production.FossilFuel -/
def s_FossilFuel : SClass := ⟨0x466f7373696c4675656c, 0x43494d31342e49454336313937302e47656e65726174696f6e2e50726f64756374696f6e2e466f7373696c4675656c, 0x43494d31342e49454336313937302e436f72652e4964656e7469666965644f626a656374,
  [(0x666f7373696c4675656c54797065, e_FuelType), (0x6675656c53756c667572, t_float), (0x6675656c4d697874757265, t_float), (0x6675656c436f7374, t_float), (0x6675656c48616e646c696e67436f7374, t_float), (0x6675656c456666466163746f72, t_float), (0x6675656c48656174436f6e74656e74, t_EFloat), (0x6675656c4469737061746368436f7374, t_float), (0x6c6f77427265616b706f696e7450, t_float), (0x68696768427265616b706f696e7450, t_float)],
  [⟨0x4675656c416c6c6f636174696f6e5363686564756c6573, 0x43494d31342e49454336313937302e47656e65726174696f6e2e50726f64756374696f6e2e4675656c416c6c6f636174696f6e5363686564756c65, true, 0x466f7373696c4675656c⟩, ⟨0x546865726d616c47656e65726174696e67556e6974, 0x43494d31342e49454336313937302e47656e65726174696f6e2e50726f64756374696f6e2e546865726d616c47656e65726174696e67556e6974, false, 0x466f7373696c4675656c73⟩]⟩
/-- Class CIM14.IEC61970.Generation.Production.FuelAllocationSchedule -/
def s_FuelAllocationSchedule : SClass := ⟨0x4675656c416c6c6f636174696f6e5363686564756c65, 0x43494d31342e49454336313937302e47656e65726174696f6e2e50726f64756374696f6e2e4675656c416c6c6f636174696f6e5363686564756c65, 0x43494d31342e49454336313937302e436f72652e4375727665,
  [(0x6675656c54797065, e_FuelType), (0x6d696e4675656c416c6c6f636174696f6e, t_EFloat), (0x6675656c416c6c6f636174696f6e537461727444617465, t_EDate), (0x6d61784675656c416c6c6f636174696f6e, t_EFloat), (0x6675656c416c6c6f636174696f6e456e6444617465, t_EDate)],
  [⟨0x466f7373696c4675656c, 0x43494d31342e49454336313937302e47656e65726174696f6e2e50726f64756374696f6e2e466f7373696c4675656c, false, 0x4675656c416c6c6f636174696f6e5363686564756c6573⟩, ⟨0x546865726d616c47656e65726174696e67556e6974, 0x43494d31342e49454336313937302e47656e65726174696f6e2e50726f64756374696f6e2e546865726d616c47656e65726174696e67556e6974, false, 0x4675656c416c6c6f636174696f6e5363686564756c6573⟩]⟩
/-- Class CIM14.IEC61970.Generation.Production.GenUnitOpCostCurve -/
def s_GenUnitOpCostCurve : SClass := ⟨0x47656e556e69744f70436f73744375727665, 0x43494d31342e49454336313937302e47656e65726174696f6e2e50726f64756374696f6e2e47656e556e69744f70436f73744375727665, 0x43494d31342e49454336313937302e436f72652e4375727665,
  [(0x69734e657447726f737350, t_EBoolean)],
  [⟨0x47656e65726174696e67556e6974, 0x43494d31342e49454336313937302e47656e65726174696f6e2e50726f64756374696f6e2e47656e65726174696e67556e6974, false, 0x47656e556e69744f70436f7374437572766573⟩]⟩
/-- Class CIM14.IEC61970.Generation.Production.GenUnitOpSchedule -/
def s_GenUnitOpSchedule : SClass := ⟨0x47656e556e69744f705363686564756c65, 0x43494d31342e49454336313937302e47656e65726174696f6e2e50726f64756374696f6e2e47656e556e69744f705363686564756c65, 0x43494d31342e49454336313937302e436f72652e526567756c6172496e74657276616c5363686564756c65,
  [],
  [⟨0x47656e65726174696e67556e6974, 0x43494d31342e49454336313937302e47656e65726174696f6e2e50726f64756374696f6e2e47656e65726174696e67556e6974, false, 0x47656e556e69744f705363686564756c65⟩]⟩
/-- Class CIM14.IEC61970.Generation.Production.GeneratingUnit -/
def s_GeneratingUnit : SClass := ⟨0x47656e65726174696e67556e6974, 0x43494d31342e49454336313937302e47656e65726174696f6e2e50726f64756374696f6e2e47656e65726174696e67556e6974, 0x43494d31342e49454336313937302e436f72652e45717569706d656e74,
  [(0x67656e436f6e74726f6c4d6f6465, e_GeneratorControlMode), (0x67656e4f7065726174696e674d6f6465, e_GeneratorOperatingMode), (0x67656e436f6e74726f6c536f75726365, e_GeneratorControlSource), (0x7374617274757054696d65, t_float), (0x6d696e696d756d4f666654696d65, t_float), (0x7370696e5265736572766552616d70, t_float), (0x636f6e74726f6c4465616462616e64, t_float), (0x6d61784f7065726174696e6750, t_float), (0x666173745374617274466c6167, t_EBoolean), (0x6c6f77436f6e74726f6c4c696d6974, t_float), (0x6261736550, t_float), (0x6d617845636f6e6f6d696350, t_float), (0x656666696369656e6379, t_float), (0x73686f72745046, t_EFloat), (0x6c6f77657252616d7052617465, t_float), (0x737465704368616e6765, t_float), (0x70656e616c7479466163746f72, t_EFloat), (0x6c6f6e675046, t_EFloat), (0x726174656447726f73734d696e50, t_float), (0x726174656447726f73734d617850, t_float), (0x6469737052657365727665466c6167, t_EBoolean), (0x7661726961626c65436f7374, t_float), (0x6d6f64656c44657461696c, t_int), (0x656e657267794d696e50, t_float), (0x6d6178696d756d416c6c6f7761626c655370696e6e696e6752657365727665, t_float), (0x6675656c5072696f72697479, t_EInt), (0x726169736552616d7052617465, t_float), (0x6e6f6d696e616c50, t_float), (0x6e6f726d616c5046, t_EFloat), (0x676f7665726e6f724d504c, t_float), (0x72617465644e65744d617850, t_float), (0x636f6e74726f6c526573706f6e736552617465, t_float), (0x7469654c696e655046, t_EFloat), (0x676f7665726e6f72534344, t_float), (0x636f6e74726f6c50756c73654c6f77, t_float), (0x68696768436f6e74726f6c4c696d6974, t_float), (0x696e697469616c50, t_float), (0x6d696e45636f6e6f6d696350, t_float), (0x6175746f436e74726c4d617267696e50, t_float), (0x616c6c6f635370696e52657350, t_float), (0x73746172747570436f7374, t_float), (0x6d696e4f7065726174696e6750, t_float), (0x636f6e74726f6c50756c736548696768, t_float)],
  [⟨0x53796e6368726f6e6f75734d616368696e6573, 0x43494d31342e49454336313937302e57697265732e53796e6368726f6e6f75734d616368696e65, true, 0x47656e65726174696e67556e6974⟩, ⟨0x47726f7373546f4e6574416374697665506f776572437572766573, 0x43494d31342e49454336313937302e47656e65726174696f6e2e50726f64756374696f6e2e47726f7373546f4e6574416374697665506f7765724375727665, true, 0x47656e65726174696e67556e6974⟩, ⟨0x47656e556e69744f70436f7374437572766573, 0x43494d31342e49454336313937302e47656e65726174696f6e2e50726f64756374696f6e2e47656e556e69744f70436f73744375727665, true, 0x47656e65726174696e67556e6974⟩, ⟨0x47656e556e69744f705363686564756c65, 0x43494d31342e49454336313937302e47656e65726174696f6e2e50726f64756374696f6e2e47656e556e69744f705363686564756c65, false, 0x47656e65726174696e67556e6974⟩, ⟨0x436f6e74726f6c4172656147656e65726174696e67556e6974, 0x43494d31342e49454336313937302e436f6e74726f6c417265612e436f6e74726f6c4172656147656e65726174696e67556e6974, true, 0x47656e65726174696e67556e6974⟩]⟩
/-- Class CIM14.IEC61970.Generation.Production.GrossToNetActivePowerCurve -/
def s_GrossToNetActivePowerCurve : SClass := ⟨0x47726f7373546f4e6574416374697665506f7765724375727665, 0x43494d31342e49454336313937302e47656e65726174696f6e2e50726f64756374696f6e2e47726f7373546f4e6574416374697665506f7765724375727665, 0x43494d31342e49454336313937302e436f72652e4375727665,
  [],
  [⟨0x47656e65726174696e67556e6974, 0x43494d31342e49454336313937302e47656e65726174696f6e2e50726f64756374696f6e2e47656e65726174696e67556e6974, false, 0x47726f7373546f4e6574416374697665506f776572437572766573⟩]⟩
/-- Class CIM14.IEC61970.Generation.Production.HeatInputCurve -/
def s_HeatInputCurve : SClass := ⟨0x48656174496e7075744375727665, 0x43494d31342e49454336313937302e47656e65726174696f6e2e50726f64756374696f6e2e48656174496e7075744375727665, 0x43494d31342e49454336313937302e436f72652e4375727665,
  [(0x68656174496e707574456666, t_float), (0x617578506f7765724d756c74, t_float), (0x68656174496e7075744f6666736574, t_float), (0x69734e657447726f737350, t_EBoolean), (0x617578506f7765724f6666736574, t_float)],
  [⟨0x546865726d616c47656e65726174696e67556e6974, 0x43494d31342e49454336313937302e47656e65726174696f6e2e50726f64756374696f6e2e546865726d616c47656e65726174696e67556e6974, false, 0x48656174496e7075744375727665⟩]⟩
/-- Class CIM14.IEC61970.Generation.Production.HeatRateCurve -/
def s_HeatRateCurve : SClass := ⟨0x48656174526174654375727665, 0x43494d31342e49454336313937302e47656e65726174696f6e2e50726f64756374696f6e2e48656174526174654375727665, 0x43494d31342e49454336313937302e436f72652e4375727665,
  [(0x69734e657447726f737350, t_EBoolean)],
  [⟨0x546865726d616c47656e65726174696e67556e6974, 0x43494d31342e49454336313937302e47656e65726174696f6e2e50726f64756374696f6e2e546865726d616c47656e65726174696e67556e6974, false, 0x48656174526174654375727665⟩]⟩
/-- Class CIM14.IEC61970.Generation.Production.HydroGeneratingEfficiencyCurve -/
def s_HydroGeneratingEfficiencyCurve : SClass := ⟨0x487964726f47656e65726174696e67456666696369656e63794375727665, 0x43494d31342e49454336313937302e47656e65726174696f6e2e50726f64756374696f6e2e487964726f47656e65726174696e67456666696369656e63794375727665, 0x43494d31342e49454336313937302e436f72652e4375727665,
  [],
  [⟨0x487964726f47656e65726174696e67556e6974, 0x43494d31342e49454336313937302e47656e65726174696f6e2e50726f64756374696f6e2e487964726f47656e65726174696e67556e6974, false, 0x487964726f47656e65726174696e67456666696369656e6379437572766573⟩]⟩
/-- Class CIM14.IEC61970.Generation.Production.HydroGeneratingUnit -/
def s_HydroGeneratingUnit : SClass := ⟨0x487964726f47656e65726174696e67556e6974, 0x43494d31342e49454336313937302e47656e65726174696f6e2e50726f64756374696f6e2e487964726f47656e65726174696e67556e6974, 0x43494d31342e49454336313937302e47656e65726174696f6e2e50726f64756374696f6e2e47656e65726174696e67556e6974,
  [(0x656e65726779436f6e76657273696f6e4361706162696c697479, e_HydroEnergyConversionKind), (0x687964726f556e69745761746572436f7374, t_EFloat)],
  [⟨0x487964726f506f776572506c616e74, 0x43494d31342e49454336313937302e47656e65726174696f6e2e50726f64756374696f6e2e487964726f506f776572506c616e74, false, 0x487964726f47656e65726174696e67556e697473⟩, ⟨0x50656e73746f636b4c6f73734375727665, 0x43494d31342e49454336313937302e47656e65726174696f6e2e50726f64756374696f6e2e50656e73746f636b4c6f73734375727665, false, 0x487964726f47656e65726174696e67556e6974⟩, ⟨0x487964726f47656e65726174696e67456666696369656e6379437572766573, 0x43494d31342e49454336313937302e47656e65726174696f6e2e50726f64756374696f6e2e487964726f47656e65726174696e67456666696369656e63794375727665, true, 0x487964726f47656e65726174696e67556e6974⟩, ⟨0x5461696c6261794c6f73734375727665, 0x43494d31342e49454336313937302e47656e65726174696f6e2e50726f64756374696f6e2e5461696c6261794c6f73734375727665, true, 0x487964726f47656e65726174696e67556e6974⟩]⟩
/-- Class CIM14.IEC61970.Generation.Production.HydroPowerPlant -/
def s_HydroPowerPlant : SClass := ⟨0x487964726f506f776572506c616e74, 0x43494d31342e49454336313937302e47656e65726174696f6e2e50726f64756374696f6e2e487964726f506f776572506c616e74, 0x43494d31342e49454336313937302e436f72652e506f77657253797374656d5265736f75726365,
  [(0x687964726f506c616e7454797065, e_HydroPlantType), (0x70656e73746f636b54797065, e_PenstockType), (0x737572676554616e6b436f6465, e_SurgeTankCode), (0x706c616e74526174656448656164, t_float), (0x706c616e744469736368617267654361706163697479, t_EFloat), (0x737572676554616e6b43726573744c6576656c, t_float), (0x64697363686172676554726176656c44656c6179, t_float), (0x70756d70526174656450, t_float), (0x67656e526174656450, t_float)],
  [⟨0x487964726f47656e65726174696e67556e697473, 0x43494d31342e49454336313937302e47656e65726174696f6e2e50726f64756374696f6e2e487964726f47656e65726174696e67556e6974, true, 0x487964726f506f776572506c616e74⟩, ⟨0x487964726f50756d7073, 0x43494d31342e49454336313937302e47656e65726174696f6e2e50726f64756374696f6e2e487964726f50756d70, true, 0x487964726f506f776572506c616e74⟩, ⟨0x5265736572766f6972, 0x43494d31342e49454336313937302e47656e65726174696f6e2e50726f64756374696f6e2e5265736572766f6972, false, 0x487964726f506f776572506c616e7473⟩, ⟨0x47656e536f7572636550756d704469736368617267655265736572766f6972, 0x43494d31342e49454336313937302e47656e65726174696f6e2e50726f64756374696f6e2e5265736572766f6972, false, 0x557073747265616d46726f6d487964726f506f776572506c616e7473⟩]⟩
/-- Class CIM14.IEC61970.Generation.Production.HydroPump -/
def s_HydroPump : SClass := ⟨0x487964726f50756d70, 0x43494d31342e49454336313937302e47656e65726174696f6e2e50726f64756374696f6e2e487964726f50756d70, 0x43494d31342e49454336313937302e436f72652e506f77657253797374656d5265736f75726365,
  [(0x70756d70506f77657241744d617848656164, t_float), (0x70756d70506f77657241744d696e48656164, t_float), (0x70756d70446973636841744d696e48656164, t_EFloat), (0x70756d70446973636841744d617848656164, t_EFloat)],
  [⟨0x53796e6368726f6e6f75734d616368696e65, 0x43494d31342e49454336313937302e57697265732e53796e6368726f6e6f75734d616368696e65, false, 0x487964726f50756d70⟩, ⟨0x487964726f50756d704f705363686564756c65, 0x43494d31342e49454336313937302e47656e65726174696f6e2e50726f64756374696f6e2e487964726f50756d704f705363686564756c65, false, 0x487964726f50756d70⟩, ⟨0x487964726f506f776572506c616e74, 0x43494d31342e49454336313937302e47656e65726174696f6e2e50726f64756374696f6e2e487964726f506f776572506c616e74, false, 0x487964726f50756d7073⟩]⟩
/-- Class CIM14.IEC61970.Generation.Production.HydroPumpOpSchedule -/
def s_HydroPumpOpSchedule : SClass := ⟨0x487964726f50756d704f705363686564756c65, 0x43494d31342e49454336313937302e47656e65726174696f6e2e50726f64756374696f6e2e487964726f50756d704f705363686564756c65, 0x43494d31342e49454336313937302e436f72652e526567756c6172496e74657276616c5363686564756c65,
  [],
  [⟨0x487964726f50756d70, 0x43494d31342e49454336313937302e47656e65726174696f6e2e50726f64756374696f6e2e487964726f50756d70, false, 0x487964726f50756d704f705363686564756c65⟩]⟩
/-- Class CIM14.IEC61970.Generation.Production.IncrementalHeatRateCurve -/
def s_IncrementalHeatRateCurve : SClass := ⟨0x496e6372656d656e74616c48656174526174654375727665, 0x43494d31342e49454336313937302e47656e65726174696f6e2e50726f64756374696f6e2e496e6372656d656e74616c48656174526174654375727665, 0x43494d31342e49454336313937302e436f72652e4375727665,
  [(0x69734e657447726f737350, t_EBoolean)],
  [⟨0x546865726d616c47656e65726174696e67556e6974, 0x43494d31342e49454336313937302e47656e65726174696f6e2e50726f64756374696f6e2e546865726d616c47656e65726174696e67556e6974, false, 0x496e6372656d656e74616c48656174526174654375727665⟩]⟩
/-- Class CIM14.IEC61970.Generation.Production.InflowForecast -/
def s_InflowForecast : SClass := ⟨0x496e666c6f77466f726563617374, 0x43494d31342e49454336313937302e47656e65726174696f6e2e50726f64756374696f6e2e496e666c6f77466f726563617374, 0x43494d31342e49454336313937302e436f72652e526567756c6172496e74657276616c5363686564756c65,
  [],
  [⟨0x5265736572766f6972, 0x43494d31342e49454336313937302e47656e65726174696f6e2e50726f64756374696f6e2e5265736572766f6972, false, 0x496e666c6f77466f72656361737473⟩]⟩
/-- Class CIM14.IEC61970.Generation.Production.LevelVsVolumeCurve -/
def s_LevelVsVolumeCurve : SClass := ⟨0x4c6576656c5673566f6c756d654375727665, 0x43494d31342e49454336313937302e47656e65726174696f6e2e50726f64756374696f6e2e4c6576656c5673566f6c756d654375727665, 0x43494d31342e49454336313937302e436f72652e4375727665,
  [],
  [⟨0x5265736572766f6972, 0x43494d31342e49454336313937302e47656e65726174696f6e2e50726f64756374696f6e2e5265736572766f6972, false, 0x4c6576656c5673566f6c756d65437572766573⟩]⟩
/-- Class CIM14.IEC61970.Generation.Production.NuclearGeneratingUnit -/
def s_NuclearGeneratingUnit : SClass := ⟨0x4e75636c65617247656e65726174696e67556e6974, 0x43494d31342e49454336313937302e47656e65726174696f6e2e50726f64756374696f6e2e4e75636c65617247656e65726174696e67556e6974, 0x43494d31342e49454336313937302e47656e65726174696f6e2e50726f64756374696f6e2e47656e65726174696e67556e6974,
  [],
  []⟩
/-- Class CIM14.IEC61970.Generation.Production.PenstockLossCurve -/
def s_PenstockLossCurve : SClass := ⟨0x50656e73746f636b4c6f73734375727665, 0x43494d31342e49454336313937302e47656e65726174696f6e2e50726f64756374696f6e2e50656e73746f636b4c6f73734375727665, 0x43494d31342e49454336313937302e436f72652e4375727665,
  [],
  [⟨0x487964726f47656e65726174696e67556e6974, 0x43494d31342e49454336313937302e47656e65726174696f6e2e50726f64756374696f6e2e487964726f47656e65726174696e67556e6974, false, 0x50656e73746f636b4c6f73734375727665⟩]⟩
/-- Class CIM14.IEC61970.Generation.Production.Reservoir -/
def s_Reservoir : SClass := ⟨0x5265736572766f6972, 0x43494d31342e49454336313937302e47656e65726174696f6e2e50726f64756374696f6e2e5265736572766f6972, 0x43494d31342e49454336313937302e436f72652e506f77657253797374656d5265736f75726365,
  [(0x7370696c6c5761794761746554797065, e_SpillwayGateType), (0x66756c6c537570706c794c6576656c, t_float), (0x7370696c6c54726176656c44656c6179, t_float), (0x7370696c6c77617943726573744c656e677468, t_float), (0x67726f73734361706163697479, t_float), (0x72697665724f75746c6574576f726b73, t_EString), (0x7370696c6c7761794361706163697479, t_EFloat), (0x7370696c6c77617943726573744c6576656c, t_float), (0x6e6f726d616c4d696e4f7065726174654c6576656c, t_float), (0x656e6572677953746f72616765526174696e67, t_EFloat), (0x61637469766553746f726167654361706163697479, t_float)],
  [⟨0x4c6576656c5673566f6c756d65437572766573, 0x43494d31342e49454336313937302e47656e65726174696f6e2e50726f64756374696f6e2e4c6576656c5673566f6c756d654375727665, true, 0x5265736572766f6972⟩, ⟨0x496e666c6f77466f72656361737473, 0x43494d31342e49454336313937302e47656e65726174696f6e2e50726f64756374696f6e2e496e666c6f77466f726563617374, true, 0x5265736572766f6972⟩, ⟨0x5461726765744c6576656c5363686564756c65, 0x43494d31342e49454336313937302e47656e65726174696f6e2e50726f64756374696f6e2e5461726765744c6576656c5363686564756c65, false, 0x5265736572766f6972⟩, ⟨0x487964726f506f776572506c616e7473, 0x43494d31342e49454336313937302e47656e65726174696f6e2e50726f64756374696f6e2e487964726f506f776572506c616e74, true, 0x5265736572766f6972⟩, ⟨0x557073747265616d46726f6d487964726f506f776572506c616e7473, 0x43494d31342e49454336313937302e47656e65726174696f6e2e50726f64756374696f6e2e487964726f506f776572506c616e74, true, 0x47656e536f7572636550756d704469736368617267655265736572766f6972⟩, ⟨0x5370696c6c7346726f6d5265736572766f6972, 0x43494d31342e49454336313937302e47656e65726174696f6e2e50726f64756374696f6e2e5265736572766f6972, false, 0x5370696c6c73496e746f5265736572766f697273⟩, ⟨0x5370696c6c73496e746f5265736572766f697273, 0x43494d31342e49454336313937302e47656e65726174696f6e2e50726f64756374696f6e2e5265736572766f6972, true, 0x5370696c6c7346726f6d5265736572766f6972⟩]⟩
/-- Class CIM14.IEC61970.Generation.Production.ShutdownCurve -/
def s_ShutdownCurve : SClass := ⟨0x53687574646f776e4375727665, 0x43494d31342e49454336313937302e47656e65726174696f6e2e50726f64756374696f6e2e53687574646f776e4375727665, 0x43494d31342e49454336313937302e436f72652e4375727665,
  [(0x73687574646f776e436f7374, t_float), (0x73687574646f776e44617465, t_EDate)],
  [⟨0x546865726d616c47656e65726174696e67556e6974, 0x43494d31342e49454336313937302e47656e65726174696f6e2e50726f64756374696f6e2e546865726d616c47656e65726174696e67556e6974, false, 0x53687574646f776e4375727665⟩]⟩
/-- Class CIM14.IEC61970.Generation.Production.StartIgnFuelCurve -/
def s_StartIgnFuelCurve : SClass := ⟨0x537461727449676e4675656c4375727665, 0x43494d31342e49454336313937302e47656e65726174696f6e2e50726f64756374696f6e2e537461727449676e4675656c4375727665, 0x43494d31342e49454336313937302e436f72652e4375727665,
  [(0x69676e6974696f6e4675656c54797065, e_FuelType)],
  [⟨0x537461727475704d6f64656c, 0x43494d31342e49454336313937302e47656e65726174696f6e2e50726f64756374696f6e2e537461727475704d6f64656c, false, 0x537461727449676e4675656c4375727665⟩]⟩
/-- Class CIM14.IEC61970.Generation.Production.StartMainFuelCurve -/
def s_StartMainFuelCurve : SClass := ⟨0x53746172744d61696e4675656c4375727665, 0x43494d31342e49454336313937302e47656e65726174696f6e2e50726f64756374696f6e2e53746172744d61696e4675656c4375727665, 0x43494d31342e49454336313937302e436f72652e4375727665,
  [(0x6d61696e4675656c54797065, e_FuelType)],
  [⟨0x537461727475704d6f64656c, 0x43494d31342e49454336313937302e47656e65726174696f6e2e50726f64756374696f6e2e537461727475704d6f64656c, false, 0x53746172744d61696e4675656c4375727665⟩]⟩
/-- Class CIM14.IEC61970.Generation.Production.StartRampCurve -/
def s_StartRampCurve : SClass := ⟨0x537461727452616d704375727665, 0x43494d31342e49454336313937302e47656e65726174696f6e2e50726f64756374696f6e2e537461727452616d704375727665, 0x43494d31342e49454336313937302e436f72652e4375727665,
  [(0x686f745374616e64627952616d70, t_float)],
  [⟨0x537461727475704d6f64656c, 0x43494d31342e49454336313937302e47656e65726174696f6e2e50726f64756374696f6e2e537461727475704d6f64656c, false, 0x537461727452616d704375727665⟩]⟩
/-- Class CIM14.IEC61970.Generation.Production.StartupModel -/
def s_StartupModel : SClass := ⟨0x537461727475704d6f64656c, 0x43494d31342e49454336313937302e47656e65726174696f6e2e50726f64756374696f6e2e537461727475704d6f64656c, 0x43494d31342e49454336313937302e436f72652e4964656e7469666965644f626a656374,
  [(0x7374627941757850, t_float), (0x696e6372656d656e74616c4d61696e74436f7374, t_float), (0x686f745374616e64627948656174, t_float), (0x737461727475705072696f72697479, t_EInt), (0x66697865644d61696e74436f7374, t_float), (0x7374617274757044617465, t_EDate), (0x6d696e696d756d52756e54696d65, t_float), (0x73746172747570436f7374, t_float), (0x7269736b466163746f72436f7374, t_float), (0x6d696e696d756d446f776e54696d65, t_float)],
  [⟨0x546865726d616c47656e65726174696e67556e6974, 0x43494d31342e49454336313937302e47656e65726174696f6e2e50726f64756374696f6e2e546865726d616c47656e65726174696e67556e6974, false, 0x537461727475704d6f64656c⟩, ⟨0x537461727452616d704375727665, 0x43494d31342e49454336313937302e47656e65726174696f6e2e50726f64756374696f6e2e537461727452616d704375727665, false, 0x537461727475704d6f64656c⟩, ⟨0x53746172744d61696e4675656c4375727665, 0x43494d31342e49454336313937302e47656e65726174696f6e2e50726f64756374696f6e2e53746172744d61696e4675656c4375727665, false, 0x537461727475704d6f64656c⟩, ⟨0x537461727449676e4675656c4375727665, 0x43494d31342e49454336313937302e47656e65726174696f6e2e50726f64756374696f6e2e537461727449676e4675656c4375727665, false, 0x537461727475704d6f64656c⟩]⟩
/-- Class CIM14.IEC61970.Generation.Production.SteamSendoutSchedule -/
def s_SteamSendoutSchedule : SClass := ⟨0x537465616d53656e646f75745363686564756c65, 0x43494d31342e49454336313937302e47656e65726174696f6e2e50726f64756374696f6e2e537465616d53656e646f75745363686564756c65, 0x43494d31342e49454336313937302e436f72652e526567756c6172496e74657276616c5363686564756c65,
  [],
  [⟨0x436f67656e65726174696f6e506c616e74, 0x43494d31342e49454336313937302e47656e65726174696f6e2e50726f64756374696f6e2e436f67656e65726174696f6e506c616e74, false, 0x537465616d53656e646f75745363686564756c65⟩]⟩
/-- Class CIM14.IEC61970.Generation.Production.TailbayLossCurve -/
def s_TailbayLossCurve : SClass := ⟨0x5461696c6261794c6f73734375727665, 0x43494d31342e49454336313937302e47656e65726174696f6e2e50726f64756374696f6e2e5461696c6261794c6f73734375727665, 0x43494d31342e49454336313937302e436f72652e4375727665,
  [],
  [⟨0x487964726f47656e65726174696e67556e6974, 0x43494d31342e49454336313937302e47656e65726174696f6e2e50726f64756374696f6e2e487964726f47656e65726174696e67556e6974, false, 0x5461696c6261794c6f73734375727665⟩]⟩
/-- Class CIM14.IEC61970.Generation.Production.TargetLevelSchedule -/
def s_TargetLevelSchedule : SClass := ⟨0x5461726765744c6576656c5363686564756c65, 0x43494d31342e49454336313937302e47656e65726174696f6e2e50726f64756374696f6e2e5461726765744c6576656c5363686564756c65, 0x43494d31342e49454336313937302e436f72652e4375727665,
  [(0x686967684c6576656c4c696d6974, t_float), (0x6c6f774c6576656c4c696d6974, t_float)],
  [⟨0x5265736572766f6972, 0x43494d31342e49454336313937302e47656e65726174696f6e2e50726f64756374696f6e2e5265736572766f6972, false, 0x5461726765744c6576656c5363686564756c65⟩]⟩
/-- Class CIM14.IEC61970.Generation.Production.ThermalGeneratingUnit -/
def s_ThermalGeneratingUnit : SClass := ⟨0x546865726d616c47656e65726174696e67556e6974, 0x43494d31342e49454336313937302e47656e65726174696f6e2e50726f64756374696f6e2e546865726d616c47656e65726174696e67556e6974, 0x43494d31342e49454336313937302e47656e65726174696f6e2e50726f64756374696f6e2e47656e65726174696e67556e6974,
  [(0x6f4d436f7374, t_float)],
  [⟨0x537461727475704d6f64656c, 0x43494d31342e49454336313937302e47656e65726174696f6e2e50726f64756374696f6e2e537461727475704d6f64656c, false, 0x546865726d616c47656e65726174696e67556e6974⟩, ⟨0x456d6d697373696f6e4163636f756e7473, 0x43494d31342e49454336313937302e47656e65726174696f6e2e50726f64756374696f6e2e456d697373696f6e4163636f756e74, true, 0x546865726d616c47656e65726174696e67556e6974⟩, ⟨0x436f6d62696e65644379636c65506c616e74, 0x43494d31342e49454336313937302e47656e65726174696f6e2e50726f64756374696f6e2e436f6d62696e65644379636c65506c616e74, false, 0x546865726d616c47656e65726174696e67556e697473⟩, ⟨0x436f67656e65726174696f6e506c616e74, 0x43494d31342e49454336313937302e47656e65726174696f6e2e50726f64756374696f6e2e436f67656e65726174696f6e506c616e74, false, 0x546865726d616c47656e65726174696e67556e697473⟩, ⟨0x456d697373696f6e437572766573, 0x43494d31342e49454336313937302e47656e65726174696f6e2e50726f64756374696f6e2e456d697373696f6e4375727665, true, 0x546865726d616c47656e65726174696e67556e6974⟩, ⟨0x48656174526174654375727665, 0x43494d31342e49454336313937302e47656e65726174696f6e2e50726f64756374696f6e2e48656174526174654375727665, false, 0x546865726d616c47656e65726174696e67556e6974⟩, ⟨0x53687574646f776e4375727665, 0x43494d31342e49454336313937302e47656e65726174696f6e2e50726f64756374696f6e2e53687574646f776e4375727665, false, 0x546865726d616c47656e65726174696e67556e6974⟩, ⟨0x496e6372656d656e74616c48656174526174654375727665, 0x43494d31342e49454336313937302e47656e65726174696f6e2e50726f64756374696f6e2e496e6372656d656e74616c48656174526174654375727665, false, 0x546865726d616c47656e65726174696e67556e6974⟩, ⟨0x4675656c416c6c6f636174696f6e5363686564756c6573, 0x43494d31342e49454336313937302e47656e65726174696f6e2e50726f64756374696f6e2e4675656c416c6c6f636174696f6e5363686564756c65, true, 0x546865726d616c47656e65726174696e67556e6974⟩, ⟨0x466f7373696c4675656c73, 0x43494d31342e49454336313937302e47656e65726174696f6e2e50726f64756374696f6e2e466f7373696c4675656c, true, 0x546865726d616c47656e65726174696e67556e6974⟩, ⟨0x48656174496e7075744375727665, 0x43494d31342e49454336313937302e47656e65726174696f6e2e50726f64756374696f6e2e48656174496e7075744375727665, false, 0x546865726d616c47656e65726174696e67556e6974⟩, ⟨0x43414553506c616e74, 0x43494d31342e49454336313937302e47656e65726174696f6e2e50726f64756374696f6e2e43414553506c616e74, false, 0x546865726d616c47656e65726174696e67556e6974⟩]⟩
/-- Class CIM14.IEC61970.Generation.Production.WindGeneratingUnit -/
def s_WindGeneratingUnit : SClass := ⟨0x57696e6447656e65726174696e67556e6974, 0x43494d31342e49454336313937302e47656e65726174696f6e2e50726f64756374696f6e2e57696e6447656e65726174696e67556e6974, 0x43494d31342e49454336313937302e47656e65726174696f6e2e50726f64756374696f6e2e47656e65726174696e67556e6974,
  [],
  []⟩
/-- Class CIM14.IEC61970.IEC61970CIMVersion -/
def s_IEC61970CIMVersion : SClass := ⟨0x494543363139373043494d56657273696f6e, 0x43494d31342e49454336313937302e494543363139373043494d56657273696f6e, 0x43494d31342e456c656d656e74,
  [(0x76657273696f6e, t_EString), (0x64617465, t_EDate)],
  []⟩
/-- Class CIM14.IEC61970.Informative.InfCore.ModelingAuthority -/
def s_ModelingAuthority : SClass := ⟨0x4d6f64656c696e67417574686f72697479, 0x43494d31342e49454336313937302e496e666f726d61746976652e496e66436f72652e4d6f64656c696e67417574686f72697479, 0x43494d31342e49454336313937302e436f72652e4964656e7469666965644f626a656374,
  [],
  [⟨0x4d6f64656c696e67417574686f7269747953657473, 0x43494d31342e49454336313937302e496e666f726d61746976652e496e66436f72652e4d6f64656c696e67417574686f72697479536574, true, 0x4d6f64656c696e67417574686f72697479⟩]⟩
/-- Class CIM14.IEC61970.Informative.InfCore.ModelingAuthoritySet -/
def s_ModelingAuthoritySet : SClass := ⟨0x4d6f64656c696e67417574686f72697479536574, 0x43494d31342e49454336313937302e496e666f726d61746976652e496e66436f72652e4d6f64656c696e67417574686f72697479536574, 0x43494d31342e49454336313937302e436f72652e4964656e7469666965644f626a656374,
  [],
  [⟨0x4d6f64656c696e67417574686f72697479, 0x43494d31342e49454336313937302e496e666f726d61746976652e496e66436f72652e4d6f64656c696e67417574686f72697479, false, 0x4d6f64656c696e67417574686f7269747953657473⟩, ⟨0x4964656e7469666965644f626a65637473, 0x43494d31342e49454336313937302e436f72652e4964656e7469666965644f626a656374, true, 0x4d6f64656c696e67417574686f72697479536574⟩]⟩
/-- Class CIM14.IEC61970.LoadModel.ConformLoad -/
def s_ConformLoad : SClass := ⟨0x436f6e666f726d4c6f6164, 0x43494d31342e49454336313937302e4c6f61644d6f64656c2e436f6e666f726d4c6f6164, 0x43494d31342e49454336313937302e57697265732e456e65726779436f6e73756d6572,
  [],
  [⟨0x4c6f616447726f7570, 0x43494d31342e49454336313937302e4c6f61644d6f64656c2e436f6e666f726d4c6f616447726f7570, false, 0x456e65726779436f6e73756d657273⟩]⟩
/-- Class CIM14.IEC61970.LoadModel.ConformLoadGroup -/
def s_ConformLoadGroup : SClass := ⟨0x436f6e666f726d4c6f616447726f7570, 0x43494d31342e49454336313937302e4c6f61644d6f64656c2e436f6e666f726d4c6f616447726f7570, 0x43494d31342e49454336313937302e4c6f61644d6f64656c2e4c6f616447726f7570,
  [],
  [⟨0x436f6e666f726d4c6f61645363686564756c6573, 0x43494d31342e49454336313937302e4c6f61644d6f64656c2e436f6e666f726d4c6f61645363686564756c65, true, 0x436f6e666f726d4c6f616447726f7570⟩, ⟨0x456e65726779436f6e73756d657273, 0x43494d31342e49454336313937302e4c6f61644d6f64656c2e436f6e666f726d4c6f6164, true, 0x4c6f616447726f7570⟩]⟩
/-- Class CIM14.IEC61970.LoadModel.ConformLoadSchedule -/
def s_ConformLoadSchedule : SClass := ⟨0x436f6e666f726d4c6f61645363686564756c65, 0x43494d31342e49454336313937302e4c6f61644d6f64656c2e436f6e666f726d4c6f61645363686564756c65, 0x43494d31342e49454336313937302e4c6f61644d6f64656c2e536561736f6e446179547970655363686564756c65,
  [],
  [⟨0x436f6e666f726d4c6f616447726f7570, 0x43494d31342e49454336313937302e4c6f61644d6f64656c2e436f6e666f726d4c6f616447726f7570, false, 0x436f6e666f726d4c6f61645363686564756c6573⟩]⟩
/-- Class CIM14.IEC61970.LoadModel.DayType -/
def s_DayType : SClass := ⟨0x44617954797065, 0x43494d31342e49454336313937302e4c6f61644d6f64656c2e44617954797065, 0x43494d31342e49454336313937302e436f72652e4964656e7469666965644f626a656374,
  [],
  [⟨0x536561736f6e446179547970655363686564756c6573, 0x43494d31342e49454336313937302e4c6f61644d6f64656c2e536561736f6e446179547970655363686564756c65, true, 0x44617954797065⟩]⟩
/-- Class CIM14.IEC61970.LoadModel.EnergyArea -/
def s_EnergyArea : SClass := ⟨0x456e6572677941726561, 0x43494d31342e49454336313937302e4c6f61644d6f64656c2e456e6572677941726561, 0x43494d31342e49454336313937302e436f72652e4964656e7469666965644f626a656374,
  [],
  [⟨0x436f6e74726f6c41726561, 0x43494d31342e49454336313937302e436f6e74726f6c417265612e436f6e74726f6c41726561, false, 0x456e6572677941726561⟩]⟩
/-- Class CIM14.IEC61970.LoadModel.LoadArea -/
def s_LoadArea : SClass := ⟨0x4c6f616441726561, 0x43494d31342e49454336313937302e4c6f61644d6f64656c2e4c6f616441726561, 0x43494d31342e49454336313937302e4c6f61644d6f64656c2e456e6572677941726561,
  [],
  [⟨0x5375624c6f61644172656173, 0x43494d31342e49454336313937302e4c6f61644d6f64656c2e5375624c6f616441726561, true, 0x4c6f616441726561⟩]⟩
/-- Class CIM14.IEC61970.LoadModel.LoadGroup -/
def s_LoadGroup : SClass := ⟨0x4c6f616447726f7570, 0x43494d31342e49454336313937302e4c6f61644d6f64656c2e4c6f616447726f7570, 0x43494d31342e49454336313937302e436f72652e4964656e7469666965644f626a656374,
  [],
  [⟨0x5375624c6f616441726561, 0x43494d31342e49454336313937302e4c6f61644d6f64656c2e5375624c6f616441726561, false, 0x4c6f616447726f757073⟩]⟩
/-- Class CIM14.IEC61970.LoadModel.LoadResponseCharacteristic -/
def s_LoadResponseCharacteristic : SClass := ⟨0x4c6f6164526573706f6e73654368617261637465726973746963, 0x43494d31342e49454336313937302e4c6f61644d6f64656c2e4c6f6164526573706f6e73654368617261637465726973746963, 0x43494d31342e49454336313937302e436f72652e4964656e7469666965644f626a656374,
  [(0x704672657175656e63794578706f6e656e74, t_EFloat), (0x714672657175656e63794578706f6e656e74, t_EFloat), (0x70436f6e7374616e74506f776572, t_EFloat), (0x70436f6e7374616e7443757272656e74, t_EFloat), (0x70566f6c746167654578706f6e656e74, t_EFloat), (0x70436f6e7374616e74496d706564616e6365, t_EFloat), (0x71436f6e7374616e74496d706564616e6365, t_EFloat), (0x71436f6e7374616e74506f776572, t_EFloat), (0x71566f6c746167654578706f6e656e74, t_EFloat), (0x6578706f6e656e744d6f64656c, t_EBoolean), (0x71436f6e7374616e7443757272656e74, t_EFloat)],
  [⟨0x456e65726779436f6e73756d6572, 0x43494d31342e49454336313937302e57697265732e456e65726779436f6e73756d6572, true, 0x4c6f6164526573706f6e7365⟩]⟩
/-- Class CIM14.IEC61970.LoadModel.NonConformLoad -/
def s_NonConformLoad : SClass := ⟨0x4e6f6e436f6e666f726d4c6f6164, 0x43494d31342e49454336313937302e4c6f61644d6f64656c2e4e6f6e436f6e666f726d4c6f6164, 0x43494d31342e49454336313937302e57697265732e456e65726779436f6e73756d6572,
  [],
  [⟨0x4c6f616447726f7570, 0x43494d31342e49454336313937302e4c6f61644d6f64656c2e4e6f6e436f6e666f726d4c6f616447726f7570, false, 0x456e65726779436f6e73756d657273⟩]⟩
/-- Class CIM14.IEC61970.LoadModel.NonConformLoadGroup -/
def s_NonConformLoadGroup : SClass := ⟨0x4e6f6e436f6e666f726d4c6f616447726f7570, 0x43494d31342e49454336313937302e4c6f61644d6f64656c2e4e6f6e436f6e666f726d4c6f616447726f7570, 0x43494d31342e49454336313937302e4c6f61644d6f64656c2e4c6f616447726f7570,
  [],
  [⟨0x456e65726779436f6e73756d657273, 0x43494d31342e49454336313937302e4c6f61644d6f64656c2e4e6f6e436f6e666f726d4c6f6164, true, 0x4c6f616447726f7570⟩, ⟨0x4e6f6e436f6e666f726d4c6f61645363686564756c6573, 0x43494d31342e49454336313937302e4c6f61644d6f64656c2e4e6f6e436f6e666f726d4c6f61645363686564756c65, true, 0x4e6f6e436f6e666f726d4c6f616447726f7570⟩]⟩
/-- Class CIM14.IEC61970.LoadModel.NonConformLoadSchedule -/
def s_NonConformLoadSchedule : SClass := ⟨0x4e6f6e436f6e666f726d4c6f61645363686564756c65, 0x43494d31342e49454336313937302e4c6f61644d6f64656c2e4e6f6e436f6e666f726d4c6f61645363686564756c65, 0x43494d31342e49454336313937302e4c6f61644d6f64656c2e536561736f6e446179547970655363686564756c65,
  [],
  [⟨0x4e6f6e436f6e666f726d4c6f616447726f7570, 0x43494d31342e49454336313937302e4c6f61644d6f64656c2e4e6f6e436f6e666f726d4c6f616447726f7570, false, 0x4e6f6e436f6e666f726d4c6f61645363686564756c6573⟩]⟩
/-- Class CIM14.IEC61970.LoadModel.PowerCutZone -/
def s_PowerCutZone : SClass := ⟨0x506f7765724375745a6f6e65, 0x43494d31342e49454336313937302e4c6f61644d6f64656c2e506f7765724375745a6f6e65, 0x43494d31342e49454336313937302e436f72652e506f77657253797374656d5265736f75726365,
  [(0x6375744c6576656c31, t_float), (0x6375744c6576656c32, t_float)],
  [⟨0x456e65726779436f6e73756d657273, 0x43494d31342e49454336313937302e57697265732e456e65726779436f6e73756d6572, true, 0x506f7765724375745a6f6e65⟩]⟩
/-- Class CIM14.IEC61970.LoadModel.Season -/
def s_Season : SClass := ⟨0x536561736f6e, 0x43494d31342e49454336313937302e4c6f61644d6f64656c2e536561736f6e, 0x43494d31342e456c656d656e74,
  [(0x6e616d65, e_SeasonName), (0x737461727444617465, t_EDate), (0x656e6444617465, t_EDate)],
  [⟨0x536561736f6e446179547970655363686564756c6573, 0x43494d31342e49454336313937302e4c6f61644d6f64656c2e536561736f6e446179547970655363686564756c65, true, 0x536561736f6e⟩]⟩
/-- Class CIM14.IEC61970.LoadModel.SeasonDayTypeSchedule -/
def s_SeasonDayTypeSchedule : SClass := ⟨0x536561736f6e446179547970655363686564756c65, 0x43494d31342e49454336313937302e4c6f61644d6f64656c2e536561736f6e446179547970655363686564756c65, 0x43494d31342e49454336313937302e436f72652e526567756c6172496e74657276616c5363686564756c65,
  [],
  [⟨0x536561736f6e, 0x43494d31342e49454336313937302e4c6f61644d6f64656c2e536561736f6e, false, 0x536561736f6e446179547970655363686564756c6573⟩, ⟨0x44617954797065, 0x43494d31342e49454336313937302e4c6f61644d6f64656c2e44617954797065, false, 0x536561736f6e446179547970655363686564756c6573⟩]⟩
/-- Class CIM14.IEC61970.LoadModel.StationSupply -/
def s_StationSupply : SClass := ⟨0x53746174696f6e537570706c79, 0x43494d31342e49454336313937302e4c6f61644d6f64656c2e53746174696f6e537570706c79, 0x43494d31342e49454336313937302e57697265732e456e65726779436f6e73756d6572,
  [],
  []⟩
/-- Class CIM14.IEC61970.LoadModel.SubLoadArea -/
def s_SubLoadArea : SClass := ⟨0x5375624c6f616441726561, 0x43494d31342e49454336313937302e4c6f61644d6f64656c2e5375624c6f616441726561, 0x43494d31342e49454336313937302e4c6f61644d6f64656c2e456e6572677941726561,
  [],
  [⟨0x4c6f616447726f757073, 0x43494d31342e49454336313937302e4c6f61644d6f64656c2e4c6f616447726f7570, true, 0x5375624c6f616441726561⟩, ⟨0x4c6f616441726561, 0x43494d31342e49454336313937302e4c6f61644d6f64656c2e4c6f616441726561, false, 0x5375624c6f61644172656173⟩]⟩
/-- Class CIM14.IEC61970.Meas.Accumulator -/
def s_Accumulator : SClass := ⟨0x416363756d756c61746f72, 0x43494d31342e49454336313937302e4d6561732e416363756d756c61746f72, 0x43494d31342e49454336313937302e4d6561732e4d6561737572656d656e74,
  [(0x6d617856616c7565, t_EInt)],
  [⟨0x4c696d697453657473, 0x43494d31342e49454336313937302e4d6561732e416363756d756c61746f724c696d6974536574, true, 0x4d6561737572656d656e7473⟩, ⟨0x416363756d756c61746f7256616c756573, 0x43494d31342e49454336313937302e4d6561732e416363756d756c61746f7256616c7565, true, 0x416363756d756c61746f72⟩]⟩
/-- Class CIM14.IEC61970.Meas.AccumulatorLimit -/
def s_AccumulatorLimit : SClass := ⟨0x416363756d756c61746f724c696d6974, 0x43494d31342e49454336313937302e4d6561732e416363756d756c61746f724c696d6974, 0x43494d31342e49454336313937302e4d6561732e4c696d6974,
  [(0x76616c7565, t_EInt)],
  [⟨0x4c696d6974536574, 0x43494d31342e49454336313937302e4d6561732e416363756d756c61746f724c696d6974536574, false, 0x4c696d697473⟩]⟩
/-- Class CIM14.IEC61970.Meas.AccumulatorLimitSet -/
def s_AccumulatorLimitSet : SClass := ⟨0x416363756d756c61746f724c696d6974536574, 0x43494d31342e49454336313937302e4d6561732e416363756d756c61746f724c696d6974536574, 0x43494d31342e49454336313937302e4d6561732e4c696d6974536574,
  [],
  [⟨0x4d6561737572656d656e7473, 0x43494d31342e49454336313937302e4d6561732e416363756d756c61746f72, true, 0x4c696d697453657473⟩, ⟨0x4c696d697473, 0x43494d31342e49454336313937302e4d6561732e416363756d756c61746f724c696d6974, true, 0x4c696d6974536574⟩]⟩
/-- Class CIM14.IEC61970.Meas.AccumulatorValue -/
def s_AccumulatorValue : SClass := ⟨0x416363756d756c61746f7256616c7565, 0x43494d31342e49454336313937302e4d6561732e416363756d756c61746f7256616c7565, 0x43494d31342e49454336313937302e4d6561732e4d6561737572656d656e7456616c7565,
  [(0x76616c7565, t_EInt)],
  [⟨0x416363756d756c61746f72, 0x43494d31342e49454336313937302e4d6561732e416363756d756c61746f72, false, 0x416363756d756c61746f7256616c756573⟩]⟩
/-- Class CIM14.IEC61970.Meas.Analog -/
def s_Analog : SClass := ⟨0x416e616c6f67, 0x43494d31342e49454336313937302e4d6561732e416e616c6f67, 0x43494d31342e49454336313937302e4d6561732e4d6561737572656d656e74,
  [(0x706f736974697665466c6f77496e, t_EBoolean), (0x6d696e56616c7565, t_EFloat), (0x6d617856616c7565, t_EFloat), (0x6e6f726d616c56616c7565, t_EFloat)],
  [⟨0x4c696d697453657473, 0x43494d31342e49454336313937302e4d6561732e416e616c6f674c696d6974536574, true, 0x4d6561737572656d656e7473⟩, ⟨0x536574506f696e74, 0x43494d31342e49454336313937302e4d6561732e536574506f696e74, false, 0x416e616c6f67⟩, ⟨0x416e616c6f6756616c756573, 0x43494d31342e49454336313937302e4d6561732e416e616c6f6756616c7565, true, 0x416e616c6f67⟩]⟩
/-- Class CIM14.IEC61970.Meas.AnalogLimit -/
def s_AnalogLimit : SClass := ⟨0x416e616c6f674c696d6974, 0x43494d31342e49454336313937302e4d6561732e416e616c6f674c696d6974, 0x43494d31342e49454336313937302e4d6561732e4c696d6974,
  [(0x76616c7565, t_EFloat)],
  [⟨0x4c696d6974536574, 0x43494d31342e49454336313937302e4d6561732e416e616c6f674c696d6974536574, false, 0x4c696d697473⟩]⟩
/-- Class CIM14.IEC61970.Meas.AnalogLimitSet -/
def s_AnalogLimitSet : SClass := ⟨0x416e616c6f674c696d6974536574, 0x43494d31342e49454336313937302e4d6561732e416e616c6f674c696d6974536574, 0x43494d31342e49454336313937302e4d6561732e4c696d6974536574,
  [],
  [⟨0x4d6561737572656d656e7473, 0x43494d31342e49454336313937302e4d6561732e416e616c6f67, true, 0x4c696d697453657473⟩, ⟨0x4c696d697473, 0x43494d31342e49454336313937302e4d6561732e416e616c6f674c696d6974, true, 0x4c696d6974536574⟩]⟩
/-- Class CIM14.IEC61970.Meas.AnalogValue -/
def s_AnalogValue : SClass := ⟨0x416e616c6f6756616c7565, 0x43494d31342e49454336313937302e4d6561732e416e616c6f6756616c7565, 0x43494d31342e49454336313937302e4d6561732e4d6561737572656d656e7456616c7565,
  [(0x76616c7565, t_EFloat)],
  [⟨0x416c745469654d656173, 0x43494d31342e49454336313937302e436f6e74726f6c417265612e416c745469654d656173, true, 0x416e616c6f6756616c7565⟩, ⟨0x416e616c6f67, 0x43494d31342e49454336313937302e4d6561732e416e616c6f67, false, 0x416e616c6f6756616c756573⟩, ⟨0x416c7447656e65726174696e67556e6974, 0x43494d31342e49454336313937302e436f6e74726f6c417265612e416c7447656e65726174696e67556e69744d656173, true, 0x416e616c6f6756616c7565⟩]⟩
/-- Class CIM14.IEC61970.Meas.Command -/
def s_Command : SClass := ⟨0x436f6d6d616e64, 0x43494d31342e49454336313937302e4d6561732e436f6d6d616e64, 0x43494d31342e49454336313937302e4d6561732e436f6e74726f6c,
  [(0x76616c7565, t_EInt), (0x6e6f726d616c56616c7565, t_EInt)],
  [⟨0x56616c7565416c696173536574, 0x43494d31342e49454336313937302e4d6561732e56616c7565416c696173536574, false, 0x436f6d6d616e6473⟩, ⟨0x4469736372657465, 0x43494d31342e49454336313937302e4d6561732e4469736372657465, false, 0x436f6d6d616e64⟩]⟩
/-- Class CIM14.IEC61970.Meas.Control -/
def s_Control : SClass := ⟨0x436f6e74726f6c, 0x43494d31342e49454336313937302e4d6561732e436f6e74726f6c, 0x43494d31342e49454336313937302e436f72652e4964656e7469666965644f626a656374,
  [(0x74696d655374616d70, t_EDate), (0x6f7065726174696f6e496e50726f6772657373, t_EBoolean)],
  [⟨0x556e6974, 0x43494d31342e49454336313937302e436f72652e556e6974, false, 0x436f6e74726f6c73⟩, ⟨0x526567756c6174696e67436f6e644571, 0x43494d31342e49454336313937302e57697265732e526567756c6174696e67436f6e644571, false, 0x436f6e74726f6c73⟩, ⟨0x436f6e74726f6c54797065, 0x43494d31342e49454336313937302e4d6561732e436f6e74726f6c54797065, false, 0x436f6e74726f6c73⟩, ⟨0x52656d6f7465436f6e74726f6c, 0x43494d31342e49454336313937302e53434144412e52656d6f7465436f6e74726f6c, false, 0x436f6e74726f6c⟩]⟩
/-- Class CIM14.IEC61970.Meas.ControlType -/
def s_ControlType : SClass := ⟨0x436f6e74726f6c54797065, 0x43494d31342e49454336313937302e4d6561732e436f6e74726f6c54797065, 0x43494d31342e49454336313937302e436f72652e4964656e7469666965644f626a656374,
  [],
  [⟨0x436f6e74726f6c73, 0x43494d31342e49454336313937302e4d6561732e436f6e74726f6c, true, 0x436f6e74726f6c54797065⟩]⟩
/-- Class CIM14.IEC61970.Meas.CurrentTransformer -/
def s_CurrentTransformer : SClass := ⟨0x43757272656e745472616e73666f726d6572, 0x43494d31342e49454336313937302e4d6561732e43757272656e745472616e73666f726d6572, 0x43494d31342e49454336313937302e436f72652e45717569706d656e74,
  [(0x6d6178526174696f, t_EFloat), (0x6163637572616379436c617373, t_EString), (0x636f7265436f756e74, t_EInt), (0x6374436c617373, t_EString), (0x7573616765, t_EString), (0x61636375726163794c696d6974, t_EString)],
  []⟩
/-- Class CIM14.IEC61970.Meas.Discrete -/
def s_Discrete : SClass := ⟨0x4469736372657465, 0x43494d31342e49454336313937302e4d6561732e4469736372657465, 0x43494d31342e49454336313937302e4d6561732e4d6561737572656d656e74,
  [(0x6e6f726d616c56616c7565, t_EInt), (0x6d696e56616c7565, t_EInt), (0x6d617856616c7565, t_EInt)],
  [⟨0x436f6d6d616e64, 0x43494d31342e49454336313937302e4d6561732e436f6d6d616e64, false, 0x4469736372657465⟩, ⟨0x446973637265746556616c756573, 0x43494d31342e49454336313937302e4d6561732e446973637265746556616c7565, true, 0x4469736372657465⟩, ⟨0x56616c7565416c696173536574, 0x43494d31342e49454336313937302e4d6561732e56616c7565416c696173536574, false, 0x446973637265746573⟩]⟩
/-- Class CIM14.IEC61970.Meas.DiscreteValue -/
def s_DiscreteValue : SClass := ⟨0x446973637265746556616c7565, 0x43494d31342e49454336313937302e4d6561732e446973637265746556616c7565, 0x43494d31342e49454336313937302e4d6561732e4d6561737572656d656e7456616c7565,
  [(0x76616c7565, t_EInt)],
  [⟨0x4469736372657465, 0x43494d31342e49454336313937302e4d6561732e4469736372657465, false, 0x446973637265746556616c756573⟩]⟩
/-- Class CIM14.IEC61970.Meas.Limit -/
def s_Limit : SClass := ⟨0x4c696d6974, 0x43494d31342e49454336313937302e4d6561732e4c696d6974, 0x43494d31342e49454336313937302e436f72652e4964656e7469666965644f626a656374,
  [],
  []⟩
/-- Class CIM14.IEC61970.Meas.LimitSet -/
def s_LimitSet : SClass := ⟨0x4c696d6974536574, 0x43494d31342e49454336313937302e4d6561732e4c696d6974536574, 0x43494d31342e49454336313937302e436f72652e4964656e7469666965644f626a656374,
  [(0x697350657263656e746167654c696d697473, t_EBoolean)],
  []⟩
/-- Class CIM14.IEC61970.Meas.Measurement -/
def s_Measurement : SClass := ⟨0x4d6561737572656d656e74, 0x43494d31342e49454336313937302e4d6561732e4d6561737572656d656e74, 0x43494d31342e49454336313937302e436f72652e4964656e7469666965644f626a656374,
  [(0x6d6561737572656d656e7454797065, t_EString)],
  [⟨0x506f77657253797374656d5265736f75726365, 0x43494d31342e49454336313937302e436f72652e506f77657253797374656d5265736f75726365, false, 0x4d6561737572656d656e7473⟩, ⟨0x4c6f636174696f6e73, 0x43494d31342e49454336313936382e436f6d6d6f6e2e4c6f636174696f6e, true, 0x4d6561737572656d656e7473⟩, ⟨0x5465726d696e616c, 0x43494d31342e49454336313937302e436f72652e5465726d696e616c, false, 0x4d6561737572656d656e7473⟩, ⟨0x556e6974, 0x43494d31342e49454336313937302e436f72652e556e6974, false, 0x4d6561737572656d656e7473⟩, ⟨0x746965546f4d6561737572656d656e7430, 0x43494d31342e49454336313937302e44796e616d6963732e546965546f4d6561737572656d656e74, true, 0x6d6561737572656d656e7430⟩, ⟨0x4173736574, 0x43494d31342e49454336313936382e4173736574732e4173736574, false, 0x4d6561737572656d656e7473⟩, ⟨0x446f63756d656e7473, 0x43494d31342e49454336313936382e436f6d6d6f6e2e446f63756d656e74, true, 0x4d6561737572656d656e7473⟩]⟩
/-- Class CIM14.IEC61970.Meas.MeasurementValue -/
def s_MeasurementValue : SClass := ⟨0x4d6561737572656d656e7456616c7565, 0x43494d31342e49454336313937302e4d6561732e4d6561737572656d656e7456616c7565, 0x43494d31342e49454336313937302e436f72652e4964656e7469666965644f626a656374,
  [(0x73656e736f724163637572616379, t_float), (0x74696d655374616d70, t_EDate)],
  [⟨0x4d6561737572656d656e7456616c7565536f75726365, 0x43494d31342e49454336313937302e4d6561732e4d6561737572656d656e7456616c7565536f75726365, false, 0x4d6561737572656d656e7456616c756573⟩, ⟨0x52656d6f7465536f75726365, 0x43494d31342e49454336313937302e53434144412e52656d6f7465536f75726365, false, 0x4d6561737572656d656e7456616c7565⟩, ⟨0x4d6561737572656d656e7456616c75655175616c697479, 0x43494d31342e49454336313937302e4d6561732e4d6561737572656d656e7456616c75655175616c697479, false, 0x4d6561737572656d656e7456616c7565⟩]⟩
/-- Class CIM14.IEC61970.Meas.MeasurementValueQuality -/
def s_MeasurementValueQuality : SClass := ⟨0x4d6561737572656d656e7456616c75655175616c697479, 0x43494d31342e49454336313937302e4d6561732e4d6561737572656d656e7456616c75655175616c697479, 0x43494d31342e49454336313937302e4d6561732e5175616c6974793631383530,
  [],
  [⟨0x4d6561737572656d656e7456616c7565, 0x43494d31342e49454336313937302e4d6561732e4d6561737572656d656e7456616c7565, false, 0x4d6561737572656d656e7456616c75655175616c697479⟩]⟩
/-- Class CIM14.IEC61970.Meas.MeasurementValueSource -/
def s_MeasurementValueSource : SClass := ⟨0x4d6561737572656d656e7456616c7565536f75726365, 0x43494d31342e49454336313937302e4d6561732e4d6561737572656d656e7456616c7565536f75726365, 0x43494d31342e49454336313937302e436f72652e4964656e7469666965644f626a656374,
  [],
  [⟨0x4d6561737572656d656e7456616c756573, 0x43494d31342e49454336313937302e4d6561732e4d6561737572656d656e7456616c7565, true, 0x4d6561737572656d656e7456616c7565536f75726365⟩]⟩
/-- Class CIM14.IEC61970.Meas.PotentialTransformer -/
def s_PotentialTransformer : SClass := ⟨0x506f74656e7469616c5472616e73666f726d6572, 0x43494d31342e49454336313937302e4d6561732e506f74656e7469616c5472616e73666f726d6572, 0x43494d31342e49454336313937302e436f72652e45717569706d656e74,
  [(0x7074436c617373, t_EString), (0x6163637572616379436c617373, t_EString), (0x6e6f6d696e616c526174696f, t_EFloat)],
  []⟩
/-- Class CIM14.IEC61970.Meas.Quality61850 -/
def s_Quality61850 : SClass := ⟨0x5175616c6974793631383530, 0x43494d31342e49454336313937302e4d6561732e5175616c6974793631383530, 0x43494d31342e456c656d656e74,
  [(0x76616c6964697479, e_Validity), (0x736f75726365, e_Source), (0x6661696c757265, t_EBoolean), (0x73757370656374, t_EBoolean), (0x6f6c6444617461, t_EBoolean), (0x6261645265666572656e6365, t_EBoolean), (0x74657374, t_EBoolean), (0x6f75744f6652616e6765, t_EBoolean), (0x657374696d61746f725265706c61636564, t_EBoolean), (0x6f7363696c6c61746f7279, t_EBoolean), (0x6f70657261746f72426c6f636b6564, t_EBoolean), (0x6f766572466c6f77, t_EBoolean)],
  []⟩
/-- Class CIM14.IEC61970.Meas.SetPoint -/
def s_SetPoint : SClass := ⟨0x536574506f696e74, 0x43494d31342e49454336313937302e4d6561732e536574506f696e74, 0x43494d31342e49454336313937302e4d6561732e436f6e74726f6c,
  [(0x6d696e56616c7565, t_EFloat), (0x76616c7565, t_EFloat), (0x6d617856616c7565, t_EFloat), (0x6e6f726d616c56616c7565, t_EFloat)],
  [⟨0x416e616c6f67, 0x43494d31342e49454336313937302e4d6561732e416e616c6f67, false, 0x536574506f696e74⟩]⟩
/-- Class CIM14.IEC61970.Meas.StringMeasurement -/
def s_StringMeasurement : SClass := ⟨0x537472696e674d6561737572656d656e74, 0x43494d31342e49454336313937302e4d6561732e537472696e674d6561737572656d656e74, 0x43494d31342e49454336313937302e4d6561732e4d6561737572656d656e74,
  [],
  [⟨0x537472696e674d6561737572656d656e7456616c756573, 0x43494d31342e49454336313937302e4d6561732e537472696e674d6561737572656d656e7456616c7565, true, 0x537472696e674d6561737572656d656e74⟩]⟩
/-- Class CIM14.IEC61970.Meas.StringMeasurementValue -/
def s_StringMeasurementValue : SClass := ⟨0x537472696e674d6561737572656d656e7456616c7565, 0x43494d31342e49454336313937302e4d6561732e537472696e674d6561737572656d656e7456616c7565, 0x43494d31342e49454336313937302e4d6561732e4d6561737572656d656e7456616c7565,
  [(0x76616c7565, t_EString)],
  [⟨0x537472696e674d6561737572656d656e74, 0x43494d31342e49454336313937302e4d6561732e537472696e674d6561737572656d656e74, false, 0x537472696e674d6561737572656d656e7456616c756573⟩]⟩
/-- Class CIM14.IEC61970.Meas.ValueAliasSet -/
def s_ValueAliasSet : SClass := ⟨0x56616c7565416c696173536574, 0x43494d31342e49454336313937302e4d6561732e56616c7565416c696173536574, 0x43494d31342e49454336313937302e436f72652e4964656e7469666965644f626a656374,
  [],
  [⟨0x436f6d6d616e6473, 0x43494d31342e49454336313937302e4d6561732e436f6d6d616e64, true, 0x56616c7565416c696173536574⟩, ⟨0x56616c756573, 0x43494d31342e49454336313937302e4d6561732e56616c7565546f416c696173, true, 0x56616c7565416c696173536574⟩, ⟨0x446973637265746573, 0x43494d31342e49454336313937302e4d6561732e4469736372657465, true, 0x56616c7565416c696173536574⟩]⟩
/-- Class CIM14.IEC61970.Meas.ValueToAlias -/
def s_ValueToAlias : SClass := ⟨0x56616c7565546f416c696173, 0x43494d31342e49454336313937302e4d6561732e56616c7565546f416c696173, 0x43494d31342e49454336313937302e436f72652e4964656e7469666965644f626a656374,
  [(0x76616c7565, t_EInt)],
  [⟨0x56616c7565416c696173536574, 0x43494d31342e49454336313937302e4d6561732e56616c7565416c696173536574, false, 0x56616c756573⟩]⟩
/-- Class CIM14.IEC61970.OperationalLimits.ActivePowerLimit -/
def s_ActivePowerLimit : SClass := ⟨0x416374697665506f7765724c696d6974, 0x43494d31342e49454336313937302e4f7065726174696f6e616c4c696d6974732e416374697665506f7765724c696d6974, 0x43494d31342e49454336313937302e4f7065726174696f6e616c4c696d6974732e4f7065726174696f6e616c4c696d6974,
  [(0x76616c7565, t_float)],
  []⟩
/-- Class CIM14.IEC61970.OperationalLimits.ApparentPowerLimit -/
def s_ApparentPowerLimit : SClass := ⟨0x4170706172656e74506f7765724c696d6974, 0x43494d31342e49454336313937302e4f7065726174696f6e616c4c696d6974732e4170706172656e74506f7765724c696d6974, 0x43494d31342e49454336313937302e4f7065726174696f6e616c4c696d6974732e4f7065726174696f6e616c4c696d6974,
  [(0x76616c7565, t_float)],
  []⟩
/-- Class CIM14.IEC61970.OperationalLimits.BranchGroup -/
def s_BranchGroup : SClass := ⟨0x4272616e636847726f7570, 0x43494d31342e49454336313937302e4f7065726174696f6e616c4c696d6974732e4272616e636847726f7570, 0x43494d31342e49454336313937302e436f72652e4964656e7469666965644f626a656374,
  [(0x6d696e696d756d5265616374697665506f776572, t_float), (0x6d6f6e69746f72416374697665506f776572, t_EBoolean), (0x6d696e696d756d416374697665506f776572, t_float), (0x6d6178696d756d5265616374697665506f776572, t_float), (0x6d6178696d756d416374697665506f776572, t_float), (0x6d6f6e69746f725265616374697665506f776572, t_EBoolean)],
  [⟨0x4272616e636847726f75705465726d696e616c, 0x43494d31342e49454336313937302e4f7065726174696f6e616c4c696d6974732e4272616e636847726f75705465726d696e616c, true, 0x4272616e636847726f7570⟩]⟩
/-- Class CIM14.IEC61970.OperationalLimits.BranchGroupTerminal -/
def s_BranchGroupTerminal : SClass := ⟨0x4272616e636847726f75705465726d696e616c, 0x43494d31342e49454336313937302e4f7065726174696f6e616c4c696d6974732e4272616e636847726f75705465726d696e616c, 0x43494d31342e456c656d656e74,
  [(0x706f736974697665466c6f77496e, t_EBoolean)],
  [⟨0x4272616e636847726f7570, 0x43494d31342e49454336313937302e4f7065726174696f6e616c4c696d6974732e4272616e636847726f7570, false, 0x4272616e636847726f75705465726d696e616c⟩, ⟨0x5465726d696e616c, 0x43494d31342e49454336313937302e436f72652e5465726d696e616c, false, 0x4272616e636847726f75705465726d696e616c⟩]⟩
/-- Class CIM14.IEC61970.OperationalLimits.CurrentLimit -/
def s_CurrentLimit : SClass := ⟨0x43757272656e744c696d6974, 0x43494d31342e49454336313937302e4f7065726174696f6e616c4c696d6974732e43757272656e744c696d6974, 0x43494d31342e49454336313937302e4f7065726174696f6e616c4c696d6974732e4f7065726174696f6e616c4c696d6974,
  [(0x76616c7565, t_float)],
  []⟩
/-- Class CIM14.IEC61970.OperationalLimits.OperationalLimit -/
def s_OperationalLimit : SClass := ⟨0x4f7065726174696f6e616c4c696d6974, 0x43494d31342e49454336313937302e4f7065726174696f6e616c4c696d6974732e4f7065726174696f6e616c4c696d6974, 0x43494d31342e49454336313937302e436f72652e4964656e7469666965644f626a656374,
  [(0x74797065, t_EString)],
  [⟨0x4f7065726174696f6e616c4c696d697454797065, 0x43494d31342e49454336313937302e4f7065726174696f6e616c4c696d6974732e4f7065726174696f6e616c4c696d697454797065, false, 0x4f7065726174696f6e616c4c696d6974⟩, ⟨0x4f7065726174696f6e616c4c696d6974536574, 0x43494d31342e49454336313937302e4f7065726174696f6e616c4c696d6974732e4f7065726174696f6e616c4c696d6974536574, false, 0x4f7065726174696f6e616c4c696d697456616c7565⟩]⟩
/-- Class CIM14.IEC61970.OperationalLimits.OperationalLimitSet -/
def s_OperationalLimitSet : SClass := ⟨0x4f7065726174696f6e616c4c696d6974536574, 0x43494d31342e49454336313937302e4f7065726174696f6e616c4c696d6974732e4f7065726174696f6e616c4c696d6974536574, 0x43494d31342e49454336313937302e436f72652e4964656e7469666965644f626a656374,
  [],
  [⟨0x45717569706d656e74, 0x43494d31342e49454336313937302e436f72652e45717569706d656e74, false, 0x4f7065726174696f6e616c4c696d6974536574⟩, ⟨0x5465726d696e616c, 0x43494d31342e49454336313937302e436f72652e5465726d696e616c, false, 0x4f7065726174696f6e616c4c696d6974536574⟩, ⟨0x4f7065726174696f6e616c4c696d697456616c7565, 0x43494d31342e49454336313937302e4f7065726174696f6e616c4c696d6974732e4f7065726174696f6e616c4c696d6974, true, 0x4f7065726174696f6e616c4c696d6974536574⟩]⟩
/-- Class CIM14.IEC61970.OperationalLimits.OperationalLimitType -/
def s_OperationalLimitType : SClass := ⟨0x4f7065726174696f6e616c4c696d697454797065, 0x43494d31342e49454336313937302e4f7065726174696f6e616c4c696d6974732e4f7065726174696f6e616c4c696d697454797065, 0x43494d31342e49454336313937302e436f72652e4964656e7469666965644f626a656374,
  [(0x646972656374696f6e, e_OperationalLimitDirectionKind), (0x61636365707461626c654475726174696f6e, t_float)],
  [⟨0x4f7065726174696f6e616c4c696d6974, 0x43494d31342e49454336313937302e4f7065726174696f6e616c4c696d6974732e4f7065726174696f6e616c4c696d6974, true, 0x4f7065726174696f6e616c4c696d697454797065⟩]⟩
/-- Class CIM14.IEC61970.OperationalLimits.VoltageLimit -/
def s_VoltageLimit : SClass := ⟨0x566f6c746167654c696d6974, 0x43494d31342e49454336313937302e4f7065726174696f6e616c4c696d6974732e566f6c746167654c696d6974, 0x43494d31342e49454336313937302e4f7065726174696f6e616c4c696d6974732e4f7065726174696f6e616c4c696d6974,
  [(0x76616c7565, t_float)],
  []⟩
/-- Class CIM14.IEC61970.Outage.ClearanceTag -/
def s_ClearanceTag : SClass := ⟨0x436c656172616e6365546167, 0x43494d31342e49454336313937302e4f75746167652e436c656172616e6365546167, 0x43494d31342e49454336313937302e436f72652e4964656e7469666965644f626a656374,
  [(0x776f726b537461727454696d65, t_EDate), (0x776f726b4465736372697074696f6e, t_EString), (0x776f726b456e6454696d65, t_EDate), (0x617574686f726974794e616d65, t_EString), (0x6465656e657267697a65526571466c6167, t_EBoolean), (0x67726f756e64526571466c6167, t_EBoolean), (0x746167497373756554696d65, t_EDate), (0x7068617365436865636b526571466c6167, t_EBoolean)],
  [⟨0x436c656172616e636554616754797065, 0x43494d31342e49454336313937302e4f75746167652e436c656172616e636554616754797065, false, 0x436c656172616e636554616773⟩, ⟨0x436f6e64756374696e6745717569706d656e74, 0x43494d31342e49454336313937302e436f72652e436f6e64756374696e6745717569706d656e74, false, 0x436c656172616e636554616773⟩]⟩
/-- Class CIM14.IEC61970.Outage.ClearanceTagType -/
def s_ClearanceTagType : SClass := ⟨0x436c656172616e636554616754797065, 0x43494d31342e49454336313937302e4f75746167652e436c656172616e636554616754797065, 0x43494d31342e49454336313937302e436f72652e4964656e7469666965644f626a656374,
  [],
  [⟨0x436c656172616e636554616773, 0x43494d31342e49454336313937302e4f75746167652e436c656172616e6365546167, true, 0x436c656172616e636554616754797065⟩]⟩
/-- Class CIM14.IEC61970.Outage.OutageSchedule -/
def s_OutageSchedule : SClass := ⟨0x4f75746167655363686564756c65, 0x43494d31342e49454336313937302e4f75746167652e4f75746167655363686564756c65, 0x43494d31342e49454336313937302e436f72652e4972726567756c6172496e74657276616c5363686564756c65,
  [],
  [⟨0x537769746368696e674f7065726174696f6e73, 0x43494d31342e49454336313937302e4f75746167652e537769746368696e674f7065726174696f6e, true, 0x4f75746167655363686564756c65⟩, ⟨0x506f77657253797374656d5265736f75726365, 0x43494d31342e49454336313937302e436f72652e506f77657253797374656d5265736f75726365, false, 0x4f75746167655363686564756c65⟩]⟩
/-- Class CIM14.IEC61970.Outage.SwitchingOperation -/
def s_SwitchingOperation : SClass := ⟨0x537769746368696e674f7065726174696f6e, 0x43494d31342e49454336313937302e4f75746167652e537769746368696e674f7065726174696f6e, 0x43494d31342e49454336313937302e436f72652e4964656e7469666965644f626a656374,
  [(0x6e65775374617465, e_SwitchState), (0x6f7065726174696f6e54696d65, t_EDate)],
  [⟨0x5377697463686573, 0x43494d31342e49454336313937302e57697265732e537769746368, true, 0x537769746368696e674f7065726174696f6e73⟩, ⟨0x4f75746167655363686564756c65, 0x43494d31342e49454336313937302e4f75746167652e4f75746167655363686564756c65, false, 0x537769746368696e674f7065726174696f6e73⟩]⟩
/-- Class CIM14.IEC61970.Protection.CurrentRelay -/
def s_CurrentRelay : SClass := ⟨0x43757272656e7452656c6179, 0x43494d31342e49454336313937302e50726f74656374696f6e2e43757272656e7452656c6179, 0x43494d31342e49454336313937302e50726f74656374696f6e2e50726f74656374696f6e45717569706d656e74,
  [(0x63757272656e744c696d697431, t_float), (0x74696d6544656c617933, t_float), (0x74696d6544656c617932, t_float), (0x63757272656e744c696d697433, t_float), (0x63757272656e744c696d697432, t_float), (0x696e766572736554696d65466c6167, t_EBoolean), (0x74696d6544656c617931, t_float)],
  []⟩
/-- Class CIM14.IEC61970.Protection.FaultIndicator -/
def s_FaultIndicator : SClass := ⟨0x4661756c74496e64696361746f72, 0x43494d31342e49454336313937302e50726f74656374696f6e2e4661756c74496e64696361746f72, 0x43494d31342e49454336313937302e436f72652e45717569706d656e74,
  [],
  []⟩
/-- Class CIM14.IEC61970.Protection.ProtectionEquipment -/
def s_ProtectionEquipment : SClass := ⟨0x50726f74656374696f6e45717569706d656e74, 0x43494d31342e49454336313937302e50726f74656374696f6e2e50726f74656374696f6e45717569706d656e74, 0x43494d31342e49454336313937302e436f72652e45717569706d656e74,
  [(0x6c6f774c696d6974, t_EFloat), (0x706f776572446972656374696f6e466c6167, t_EBoolean), (0x686967684c696d6974, t_EFloat), (0x72656c617944656c617954696d65, t_float)],
  [⟨0x50726f7465637465645377697463686573, 0x43494d31342e49454336313937302e57697265732e50726f746563746564537769746368, true, 0⟩, ⟨0x556e6974, 0x43494d31342e49454336313937302e436f72652e556e6974, false, 0x50726f74656374696f6e45717569706d656e7473⟩, ⟨0x436f6e64756374696e6745717569706d656e7473, 0x43494d31342e49454336313937302e436f72652e436f6e64756374696e6745717569706d656e74, true, 0x50726f74656374696f6e45717569706d656e7473⟩]⟩
/-- Class CIM14.IEC61970.Protection.RecloseSequence -/
def s_RecloseSequence : SClass := ⟨0x5265636c6f736553657175656e6365, 0x43494d31342e49454336313937302e50726f74656374696f6e2e5265636c6f736553657175656e6365, 0x43494d31342e49454336313937302e436f72652e4964656e7469666965644f626a656374,
  [(0x7265636c6f736544656c6179, t_float), (0x7265636c6f736553746570, t_EInt)],
  [⟨0x50726f746563746564537769746368, 0x43494d31342e49454336313937302e57697265732e50726f746563746564537769746368, false, 0x5265636c6f736553657175656e636573⟩]⟩
/-- Class CIM14.IEC61970.Protection.SurgeProtector -/
def s_SurgeProtector : SClass := ⟨0x537572676550726f746563746f72, 0x43494d31342e49454336313937302e50726f74656374696f6e2e537572676550726f746563746f72, 0x43494d31342e49454336313937302e436f72652e45717569706d656e74,
  [],
  []⟩
/-- Class CIM14.IEC61970.Protection.SynchrocheckRelay -/
def s_SynchrocheckRelay : SClass := ⟨0x53796e6368726f636865636b52656c6179, 0x43494d31342e49454336313937302e50726f74656374696f6e2e53796e6368726f636865636b52656c6179, 0x43494d31342e49454336313937302e50726f74656374696f6e2e50726f74656374696f6e45717569706d656e74,
  [(0x6d61784672657144696666, t_float), (0x6d6178566f6c7444696666, t_float), (0x6d6178416e676c6544696666, t_float)],
  []⟩
/-- Class CIM14.IEC61970.SCADA.CommunicationLink -/
def s_CommunicationLink : SClass := ⟨0x436f6d6d756e69636174696f6e4c696e6b, 0x43494d31342e49454336313937302e53434144412e436f6d6d756e69636174696f6e4c696e6b, 0x43494d31342e49454336313937302e436f72652e506f77657253797374656d5265736f75726365,
  [],
  [⟨0x52656d6f7465556e697473, 0x43494d31342e49454336313937302e53434144412e52656d6f7465556e6974, true, 0x436f6d6d756e69636174696f6e4c696e6b73⟩]⟩
/-- Class CIM14.IEC61970.SCADA.RemoteControl -/
def s_RemoteControl : SClass := ⟨0x52656d6f7465436f6e74726f6c, 0x43494d31342e49454336313937302e53434144412e52656d6f7465436f6e74726f6c, 0x43494d31342e49454336313937302e53434144412e52656d6f7465506f696e74,
  [(0x6163747561746f724d696e696d756d, t_EFloat), (0x72656d6f7465436f6e74726f6c6c6564, t_EBoolean), (0x6163747561746f724d6178696d756d, t_EFloat)],
  [⟨0x436f6e74726f6c, 0x43494d31342e49454336313937302e4d6561732e436f6e74726f6c, false, 0x52656d6f7465436f6e74726f6c⟩]⟩
/-- Class CIM14.IEC61970.SCADA.RemotePoint -/
def s_RemotePoint : SClass := ⟨0x52656d6f7465506f696e74, 0x43494d31342e49454336313937302e53434144412e52656d6f7465506f696e74, 0x43494d31342e49454336313937302e436f72652e4964656e7469666965644f626a656374,
  [],
  [⟨0x52656d6f7465556e6974, 0x43494d31342e49454336313937302e53434144412e52656d6f7465556e6974, false, 0x52656d6f7465506f696e7473⟩]⟩
/-- Class CIM14.IEC61970.SCADA.RemoteSource -/
def s_RemoteSource : SClass := ⟨0x52656d6f7465536f75726365, 0x43494d31342e49454336313937302e53434144412e52656d6f7465536f75726365, 0x43494d31342e49454336313937302e53434144412e52656d6f7465506f696e74,
  [(0x7363616e496e74657276616c, t_float), (0x73656e736f724d6178696d756d, t_EFloat), (0x6465616462616e64, t_EFloat), (0x73656e736f724d696e696d756d, t_EFloat)],
  [⟨0x4d6561737572656d656e7456616c7565, 0x43494d31342e49454336313937302e4d6561732e4d6561737572656d656e7456616c7565, false, 0x52656d6f7465536f75726365⟩]⟩
/-- Class CIM14.IEC61970.SCADA.RemoteUnit -/
def s_RemoteUnit : SClass := ⟨0x52656d6f7465556e6974, 0x43494d31342e49454336313937302e53434144412e52656d6f7465556e6974, 0x43494d31342e49454336313937302e436f72652e506f77657253797374656d5265736f75726365,
  [(0x72656d6f7465556e697454797065, e_RemoteUnitType)],
  [⟨0x436f6d6d756e69636174696f6e4c696e6b73, 0x43494d31342e49454336313937302e53434144412e436f6d6d756e69636174696f6e4c696e6b, true, 0x52656d6f7465556e697473⟩, ⟨0x52656d6f7465506f696e7473, 0x43494d31342e49454336313937302e53434144412e52656d6f7465506f696e74, true, 0x52656d6f7465556e6974⟩]⟩
/-- Class CIM14.IEC61970.StateVariables.StateVariable -/
def s_StateVariable : SClass := ⟨0x53746174655661726961626c65, 0x43494d31342e49454336313937302e53746174655661726961626c65732e53746174655661726961626c65, 0x43494d31342e456c656d656e74,
  [],
  []⟩
/-- Class CIM14.IEC61970.StateVariables.SvInjection -/
def s_SvInjection : SClass := ⟨0x5376496e6a656374696f6e, 0x43494d31342e49454336313937302e53746174655661726961626c65732e5376496e6a656374696f6e, 0x43494d31342e49454336313937302e53746174655661726961626c65732e53746174655661726961626c65,
  [(0x704e6574496e6a656374696f6e, t_float), (0x714e6574496e6a656374696f6e, t_float)],
  [⟨0x546f706f6c6f676963616c4e6f6465, 0x43494d31342e49454336313937302e546f706f6c6f67792e546f706f6c6f676963616c4e6f6465, false, 0x5376496e6a656374696f6e⟩]⟩
/-- Class CIM14.IEC61970.StateVariables.SvPowerFlow -/
def s_SvPowerFlow : SClass := ⟨0x5376506f776572466c6f77, 0x43494d31342e49454336313937302e53746174655661726961626c65732e5376506f776572466c6f77, 0x43494d31342e49454336313937302e53746174655661726961626c65732e53746174655661726961626c65,
  [(0x71, t_float), (0x70, t_float)],
  [⟨0x5465726d696e616c, 0x43494d31342e49454336313937302e436f72652e5465726d696e616c, false, 0x5376506f776572466c6f77⟩]⟩
/-- Class CIM14.IEC61970.StateVariables.SvShortCircuit -/
def s_SvShortCircuit : SClass := ⟨0x537653686f727443697263756974, 0x43494d31342e49454336313937302e53746174655661726961626c65732e537653686f727443697263756974, 0x43494d31342e49454336313937302e53746174655661726961626c65732e53746174655661726961626c65,
  [(0x783050657258, t_EFloat), (0x7353686f727443697263756974, t_float), (0x723050657252, t_EFloat), (0x7850657252, t_EFloat)],
  [⟨0x546f706f6c6f676963616c4e6f6465, 0x43494d31342e49454336313937302e546f706f6c6f67792e546f706f6c6f676963616c4e6f6465, false, 0x537653686f727443697263756974⟩]⟩
/-- Class CIM14.IEC61970.StateVariables.SvShuntCompensatorSections -/
def s_SvShuntCompensatorSections : SClass := ⟨0x53765368756e74436f6d70656e7361746f7253656374696f6e73, 0x43494d31342e49454336313937302e53746174655661726961626c65732e53765368756e74436f6d70656e7361746f7253656374696f6e73, 0x43494d31342e49454336313937302e53746174655661726961626c65732e53746174655661726961626c65,
  [(0x636f6e74696e756f757353656374696f6e73, t_EFloat), (0x73656374696f6e73, t_EInt)],
  [⟨0x5368756e74436f6d70656e7361746f72, 0x43494d31342e49454336313937302e57697265732e5368756e74436f6d70656e7361746f72, false, 0x53765368756e74436f6d70656e7361746f7253656374696f6e73⟩]⟩
/-- Class CIM14.IEC61970.StateVariables.SvStatus -/
def s_SvStatus : SClass := ⟨0x5376537461747573, 0x43494d31342e49454336313937302e53746174655661726961626c65732e5376537461747573, 0x43494d31342e49454336313937302e53746174655661726961626c65732e53746174655661726961626c65,
  [(0x696e53657276696365, t_EBoolean)],
  [⟨0x436f6e64756374696e6745717569706d656e74, 0x43494d31342e49454336313937302e436f72652e436f6e64756374696e6745717569706d656e74, false, 0x5376537461747573⟩]⟩
/-- Class CIM14.IEC61970.StateVariables.SvTapStep -/
def s_SvTapStep : SClass := ⟨0x537654617053746570, 0x43494d31342e49454336313937302e53746174655661726961626c65732e537654617053746570, 0x43494d31342e49454336313937302e53746174655661726961626c65732e53746174655661726961626c65,
  [(0x636f6e74696e756f7573506f736974696f6e, t_EFloat), (0x706f736974696f6e, t_EInt)],
  [⟨0x5461704368616e676572, 0x43494d31342e49454336313937302e57697265732e5461704368616e676572, false, 0x537654617053746570⟩]⟩
/-- Class CIM14.IEC61970.StateVariables.SvVoltage -/
def s_SvVoltage : SClass := ⟨0x5376566f6c74616765, 0x43494d31342e49454336313937302e53746174655661726961626c65732e5376566f6c74616765, 0x43494d31342e49454336313937302e53746174655661726961626c65732e53746174655661726961626c65,
  [(0x616e676c65, t_float), (0x76, t_float)],
  [⟨0x546f706f6c6f676963616c4e6f6465, 0x43494d31342e49454336313937302e546f706f6c6f67792e546f706f6c6f676963616c4e6f6465, false, 0x5376566f6c74616765⟩]⟩
/-- Class CIM14.IEC61970.StateVariables.TopologicalIsland -/
def s_TopologicalIsland : SClass := ⟨0x546f706f6c6f676963616c49736c616e64, 0x43494d31342e49454336313937302e53746174655661726961626c65732e546f706f6c6f676963616c49736c616e64, 0x43494d31342e49454336313937302e436f72652e4964656e7469666965644f626a656374,
  [],
  [⟨0x546f706f6c6f676963616c4e6f646573, 0x43494d31342e49454336313937302e546f706f6c6f67792e546f706f6c6f676963616c4e6f6465, true, 0x546f706f6c6f676963616c49736c616e64⟩, ⟨0x416e676c655265665f546f706f6c6f676963616c4e6f6465, 0x43494d31342e49454336313937302e546f706f6c6f67792e546f706f6c6f676963616c4e6f6465, false, 0x416e676c655265665f546f706f6c6f676963616c49736c616e64⟩]⟩
/-- Class CIM14.IEC61970.Topology.BusNameMarker -/
def s_BusNameMarker : SClass := ⟨0x4275734e616d654d61726b6572, 0x43494d31342e49454336313937302e546f706f6c6f67792e4275734e616d654d61726b6572, 0x43494d31342e49454336313937302e436f72652e4964656e7469666965644f626a656374,
  [],
  [⟨0x5265706f7274696e6747726f7570, 0x43494d31342e49454336313937302e436f72652e5265706f7274696e6747726f7570, false, 0x4275734e616d654d61726b6572⟩, ⟨0x436f6e6e65637469766974794e6f6465, 0x43494d31342e49454336313937302e436f72652e436f6e6e65637469766974794e6f6465, true, 0x4275734e616d654d61726b6572⟩]⟩
/-- Class CIM14.IEC61970.Topology.TopologicalNode -/
def s_TopologicalNode : SClass := ⟨0x546f706f6c6f676963616c4e6f6465, 0x43494d31342e49454336313937302e546f706f6c6f67792e546f706f6c6f676963616c4e6f6465, 0x43494d31342e49454336313937302e436f72652e4964656e7469666965644f626a656374,
  [],
  [⟨0x5465726d696e616c, 0x43494d31342e49454336313937302e436f72652e5465726d696e616c, true, 0x546f706f6c6f676963616c4e6f6465⟩, ⟨0x546f706f6c6f676963616c49736c616e64, 0x43494d31342e49454336313937302e53746174655661726961626c65732e546f706f6c6f676963616c49736c616e64, false, 0x546f706f6c6f676963616c4e6f646573⟩, ⟨0x5265706f7274696e6747726f7570, 0x43494d31342e49454336313937302e436f72652e5265706f7274696e6747726f7570, false, 0x546f706f6c6f676963616c4e6f6465⟩, ⟨0x436f6e6e65637469766974794e6f646573, 0x43494d31342e49454336313937302e436f72652e436f6e6e65637469766974794e6f6465, true, 0x546f706f6c6f676963616c4e6f6465⟩, ⟨0x5376496e6a656374696f6e, 0x43494d31342e49454336313937302e53746174655661726961626c65732e5376496e6a656374696f6e, false, 0x546f706f6c6f676963616c4e6f6465⟩, ⟨0x5376566f6c74616765, 0x43494d31342e49454336313937302e53746174655661726961626c65732e5376566f6c74616765, false, 0x546f706f6c6f676963616c4e6f6465⟩, ⟨0x537653686f727443697263756974, 0x43494d31342e49454336313937302e53746174655661726961626c65732e537653686f727443697263756974, false, 0x546f706f6c6f676963616c4e6f6465⟩, ⟨0x42617365566f6c74616765, 0x43494d31342e49454336313937302e436f72652e42617365566f6c74616765, false, 0x546f706f6c6f676963616c4e6f6465⟩, ⟨0x436f6e6e65637469766974794e6f6465436f6e7461696e6572, 0x43494d31342e49454336313937302e436f72652e436f6e6e65637469766974794e6f6465436f6e7461696e6572, false, 0x546f706f6c6f676963616c4e6f6465⟩, ⟨0x416e676c655265665f546f706f6c6f676963616c49736c616e64, 0x43494d31342e49454336313937302e53746174655661726961626c65732e546f706f6c6f676963616c49736c616e64, false, 0x416e676c655265665f546f706f6c6f676963616c4e6f6465⟩]⟩
/-- Class CIM14.IEC61970.Wires.ACLineSegment -/
def s_ACLineSegment : SClass := ⟨0x41434c696e655365676d656e74, 0x43494d31342e49454336313937302e57697265732e41434c696e655365676d656e74, 0x43494d31342e49454336313937302e57697265732e436f6e647563746f72,
  [(0x676368, t_float), (0x72, t_float), (0x7830, t_float), (0x626368, t_float), (0x78, t_float), (0x7230, t_float), (0x67306368, t_float), (0x62306368, t_float)],
  []⟩
/-- Class CIM14.IEC61970.Wires.Breaker -/
def s_Breaker : SClass := ⟨0x427265616b6572, 0x43494d31342e49454336313937302e57697265732e427265616b6572, 0x43494d31342e49454336313937302e57697265732e50726f746563746564537769746368,
  [(0x696e5472616e73697454696d65, t_float), (0x726174656443757272656e74, t_float)],
  []⟩
/-- Class CIM14.IEC61970.Wires.BusbarSection -/
def s_BusbarSection : SClass := ⟨0x42757362617253656374696f6e, 0x43494d31342e49454336313937302e57697265732e42757362617253656374696f6e, 0x43494d31342e49454336313937302e57697265732e436f6e6e6563746f72,
  [],
  [⟨0x566f6c74616765436f6e74726f6c5a6f6e65, 0x43494d31342e49454336313937302e57697265732e566f6c74616765436f6e74726f6c5a6f6e65, false, 0x42757362617253656374696f6e⟩]⟩
/-- Class CIM14.IEC61970.Wires.CompositeSwitch -/
def s_CompositeSwitch : SClass := ⟨0x436f6d706f73697465537769746368, 0x43494d31342e49454336313937302e57697265732e436f6d706f73697465537769746368, 0x43494d31342e49454336313937302e436f72652e45717569706d656e74,
  [(0x636f6d706f7369746553776974636854797065, t_java_lang_String)],
  [⟨0x5377697463686573, 0x43494d31342e49454336313937302e57697265732e537769746368, true, 0x436f6d706f73697465537769746368⟩]⟩
/-- Class CIM14.IEC61970.Wires.Conductor -/
def s_Conductor : SClass := ⟨0x436f6e647563746f72, 0x43494d31342e49454336313937302e57697265732e436f6e647563746f72, 0x43494d31342e49454336313937302e436f72652e436f6e64756374696e6745717569706d656e74,
  [(0x6c656e677468, t_float)],
  []⟩
/-- Class CIM14.IEC61970.Wires.Connector -/
def s_Connector : SClass := ⟨0x436f6e6e6563746f72, 0x43494d31342e49454336313937302e57697265732e436f6e6e6563746f72, 0x43494d31342e49454336313937302e436f72652e436f6e64756374696e6745717569706d656e74,
  [],
  []⟩
/-- Class CIM14.IEC61970.Wires.DCLineSegment -/
def s_DCLineSegment : SClass := ⟨0x44434c696e655365676d656e74, 0x43494d31342e49454336313937302e57697265732e44434c696e655365676d656e74, 0x43494d31342e49454336313937302e57697265732e436f6e647563746f72,
  [(0x64635365676d656e74496e64756374616e6365, t_float), (0x64635365676d656e74526573697374616e6365, t_float)],
  []⟩
/-- Class CIM14.IEC61970.Wires.Disconnector -/
def s_Disconnector : SClass := ⟨0x446973636f6e6e6563746f72, 0x43494d31342e49454336313937302e57697265732e446973636f6e6e6563746f72, 0x43494d31342e49454336313937302e57697265732e537769746368,
  [],
  []⟩
/-- Class CIM14.IEC61970.Wires.EnergyConsumer -/
def s_EnergyConsumer : SClass := ⟨0x456e65726779436f6e73756d6572, 0x43494d31342e49454336313937302e57697265732e456e65726779436f6e73756d6572, 0x43494d31342e49454336313937302e436f72652e436f6e64756374696e6745717569706d656e74,
  [(0x637573746f6d6572436f756e74, t_EInt), (0x716669786564506374, t_float), (0x706669786564, t_float), (0x706669786564506374, t_float), (0x716669786564, t_float)],
  [⟨0x6167677265676174654c6f616430, 0x43494d31342e49454336313937302e44796e616d6963732e4c6f6164732e4167677265676174654c6f6164, true, 0x656e65726779436f6e73756d657230⟩, ⟨0x506f7765724375745a6f6e65, 0x43494d31342e49454336313937302e4c6f61644d6f64656c2e506f7765724375745a6f6e65, false, 0x456e65726779436f6e73756d657273⟩, ⟨0x5365727669636544656c6976657279506f696e7473, 0x43494d31342e49454336313936382e4d65746572696e672e5365727669636544656c6976657279506f696e74, true, 0x456e65726779436f6e73756d6572⟩, ⟨0x4c6f6164526573706f6e7365, 0x43494d31342e49454336313937302e4c6f61644d6f64656c2e4c6f6164526573706f6e73654368617261637465726973746963, false, 0x456e65726779436f6e73756d6572⟩]⟩
/-- Class CIM14.IEC61970.Wires.EnergySource -/
def s_EnergySource : SClass := ⟨0x456e65726779536f75726365, 0x43494d31342e49454336313937302e57697265732e456e65726779536f75726365, 0x43494d31342e49454336313937302e436f72652e436f6e64756374696e6745717569706d656e74,
  [(0x78, t_float), (0x616374697665506f776572, t_float), (0x72, t_float), (0x6e6f6d696e616c566f6c74616765, t_float), (0x766f6c746167654d61676e6974756465, t_float), (0x786e, t_float), (0x7830, t_float), (0x726e, t_float), (0x766f6c74616765416e676c65, t_float), (0x7230, t_float)],
  []⟩
/-- Class CIM14.IEC61970.Wires.FrequencyConverter -/
def s_FrequencyConverter : SClass := ⟨0x4672657175656e6379436f6e766572746572, 0x43494d31342e49454336313937302e57697265732e4672657175656e6379436f6e766572746572, 0x43494d31342e49454336313937302e57697265732e526567756c6174696e67436f6e644571,
  [(0x6d696e55, t_float), (0x6d617855, t_float), (0x6d617850, t_float), (0x6d696e50, t_float), (0x6672657175656e6379, t_float), (0x6f7065726174696e674d6f6465, t_java_lang_String)],
  []⟩
/-- Class CIM14.IEC61970.Wires.Fuse -/
def s_Fuse : SClass := ⟨0x46757365, 0x43494d31342e49454336313937302e57697265732e46757365, 0x43494d31342e49454336313937302e57697265732e537769746368,
  [(0x726174696e6743757272656e74, t_float)],
  []⟩
/-- Class CIM14.IEC61970.Wires.Ground -/
def s_Ground : SClass := ⟨0x47726f756e64, 0x43494d31342e49454336313937302e57697265732e47726f756e64, 0x43494d31342e49454336313937302e436f72652e436f6e64756374696e6745717569706d656e74,
  [],
  []⟩
/-- Class CIM14.IEC61970.Wires.GroundDisconnector -/
def s_GroundDisconnector : SClass := ⟨0x47726f756e64446973636f6e6e6563746f72, 0x43494d31342e49454336313937302e57697265732e47726f756e64446973636f6e6e6563746f72, 0x43494d31342e49454336313937302e57697265732e537769746368,
  [],
  []⟩
/-- Class CIM14.IEC61970.Wires.HeatExchanger -/
def s_HeatExchanger : SClass := ⟨0x4865617445786368616e676572, 0x43494d31342e49454336313937302e57697265732e4865617445786368616e676572, 0x43494d31342e49454336313937302e436f72652e45717569706d656e74,
  [],
  [⟨0x506f7765725472616e73666f726d6572, 0x43494d31342e49454336313937302e57697265732e506f7765725472616e73666f726d6572, false, 0x4865617445786368616e676572⟩]⟩
/-- Class CIM14.IEC61970.Wires.ImpedanceVariationCurve -/
def s_ImpedanceVariationCurve : SClass := ⟨0x496d706564616e6365566172696174696f6e4375727665, 0x43494d31342e49454336313937302e57697265732e496d706564616e6365566172696174696f6e4375727665, 0x43494d31342e49454336313937302e436f72652e4375727665,
  [],
  [⟨0x5461704368616e676572, 0x43494d31342e49454336313937302e57697265732e5461704368616e676572, false, 0x496d706564616e6365566172696174696f6e4375727665⟩]⟩
/-- Class CIM14.IEC61970.Wires.Jumper -/
def s_Jumper : SClass := ⟨0x4a756d706572, 0x43494d31342e49454336313937302e57697265732e4a756d706572, 0x43494d31342e49454336313937302e57697265732e537769746368,
  [],
  []⟩
/-- Class CIM14.IEC61970.Wires.Junction -/
def s_Junction : SClass := ⟨0x4a756e6374696f6e, 0x43494d31342e49454336313937302e57697265732e4a756e6374696f6e, 0x43494d31342e49454336313937302e57697265732e436f6e6e6563746f72,
  [],
  []⟩
/-- Class CIM14.IEC61970.Wires.Line -/
def s_Line : SClass := ⟨0x4c696e65, 0x43494d31342e49454336313937302e57697265732e4c696e65, 0x43494d31342e49454336313937302e436f72652e45717569706d656e74436f6e7461696e6572,
  [],
  [⟨0x526567696f6e, 0x43494d31342e49454336313937302e436f72652e53756247656f67726170686963616c526567696f6e, false, 0x4c696e6573⟩]⟩
/-- Class CIM14.IEC61970.Wires.LoadBreakSwitch -/
def s_LoadBreakSwitch : SClass := ⟨0x4c6f6164427265616b537769746368, 0x43494d31342e49454336313937302e57697265732e4c6f6164427265616b537769746368, 0x43494d31342e49454336313937302e57697265732e50726f746563746564537769746368,
  [(0x726174656443757272656e74, t_float)],
  []⟩
/-- Class CIM14.IEC61970.Wires.MutualCoupling -/
def s_MutualCoupling : SClass := ⟨0x4d757475616c436f75706c696e67, 0x43494d31342e49454336313937302e57697265732e4d757475616c436f75706c696e67, 0x43494d31342e49454336313937302e436f72652e4964656e7469666965644f626a656374,
  [(0x64697374616e63653232, t_float), (0x67306368, t_float), (0x64697374616e63653132, t_float), (0x64697374616e63653231, t_float), (0x7830, t_float), (0x62306368, t_float), (0x7230, t_float), (0x64697374616e63653131, t_float)],
  [⟨0x5365636f6e645f5465726d696e616c, 0x43494d31342e49454336313937302e436f72652e5465726d696e616c, false, 0x4861735365636f6e645f4d757475616c436f75706c696e67⟩, ⟨0x46697273745f5465726d696e616c, 0x43494d31342e49454336313937302e436f72652e5465726d696e616c, false, 0x48617346697273745f4d757475616c436f75706c696e67⟩]⟩
/-- Class CIM14.IEC61970.Wires.PhaseTapChanger -/
def s_PhaseTapChanger : SClass := ⟨0x50686173655461704368616e676572, 0x43494d31342e49454336313937302e57697265732e50686173655461704368616e676572, 0x43494d31342e49454336313937302e57697265732e5461704368616e676572,
  [(0x70686173655461704368616e67657254797065, e_PhaseTapChangerKind), (0x6e6f6d696e616c566f6c746167654f75744f665068617365, t_float), (0x78537465704d696e, t_float), (0x7374657050686173655368696674496e6372656d656e74, t_float), (0x77696e64696e67436f6e6e656374696f6e416e676c65, t_float), (0x78537465704d6178, t_float), (0x766f6c7461676553746570496e6372656d656e744f75744f665068617365, t_float)],
  [⟨0x5068617365566172696174696f6e4375727665, 0x43494d31342e49454336313937302e57697265732e5068617365566172696174696f6e4375727665, false, 0x50686173655461704368616e676572⟩, ⟨0x57696e64696e67, 0x43494d31342e49454336313936382e57697265734578742e446973747269627574696f6e5472616e73666f726d657257696e64696e67, false, 0x50686173655461704368616e676572⟩, ⟨0x5472616e73666f726d657257696e64696e67, 0x43494d31342e49454336313937302e57697265732e5472616e73666f726d657257696e64696e67, false, 0x50686173655461704368616e676572⟩]⟩
/-- Class CIM14.IEC61970.Wires.PhaseVariationCurve -/
def s_PhaseVariationCurve : SClass := ⟨0x5068617365566172696174696f6e4375727665, 0x43494d31342e49454336313937302e57697265732e5068617365566172696174696f6e4375727665, 0x43494d31342e49454336313937302e436f72652e4375727665,
  [],
  [⟨0x50686173655461704368616e676572, 0x43494d31342e49454336313937302e57697265732e50686173655461704368616e676572, false, 0x5068617365566172696174696f6e4375727665⟩]⟩
/-- Class CIM14.IEC61970.Wires.Plant -/
def s_Plant : SClass := ⟨0x506c616e74, 0x43494d31342e49454336313937302e57697265732e506c616e74, 0x43494d31342e49454336313937302e436f72652e45717569706d656e74436f6e7461696e6572,
  [],
  []⟩
/-- Class CIM14.IEC61970.Wires.PowerTransformer -/
def s_PowerTransformer : SClass := ⟨0x506f7765725472616e73666f726d6572, 0x43494d31342e49454336313937302e57697265732e506f7765725472616e73666f726d6572, 0x43494d31342e49454336313937302e436f72652e45717569706d656e74,
  [(0x6d6167536174466c7578, t_float), (0x6d61674261736555, t_float), (0x626d6167536174, t_float)],
  [⟨0x5472616e73666f726d657257696e64696e6773, 0x43494d31342e49454336313937302e57697265732e5472616e73666f726d657257696e64696e67, true, 0x506f7765725472616e73666f726d6572⟩, ⟨0x4865617445786368616e676572, 0x43494d31342e49454336313937302e57697265732e4865617445786368616e676572, false, 0x506f7765725472616e73666f726d6572⟩]⟩
/-- Class CIM14.IEC61970.Wires.ProtectedSwitch -/
def s_ProtectedSwitch : SClass := ⟨0x50726f746563746564537769746368, 0x43494d31342e49454336313937302e57697265732e50726f746563746564537769746368, 0x43494d31342e49454336313937302e57697265732e537769746368,
  [],
  [⟨0x5265636c6f736553657175656e636573, 0x43494d31342e49454336313937302e50726f74656374696f6e2e5265636c6f736553657175656e6365, true, 0x50726f746563746564537769746368⟩]⟩
/-- Class CIM14.IEC61970.Wires.RatioTapChanger -/
def s_RatioTapChanger : SClass := ⟨0x526174696f5461704368616e676572, 0x43494d31342e49454336313937302e57697265732e526174696f5461704368616e676572, 0x43494d31342e49454336313937302e57697265732e5461704368616e676572,
  [(0x7463756c436f6e74726f6c4d6f6465, e_TransformerControlMode)],
  [⟨0x57696e64696e67, 0x43494d31342e49454336313936382e57697265734578742e446973747269627574696f6e5472616e73666f726d657257696e64696e67, false, 0x526174696f5461704368616e676572⟩, ⟨0x5472616e73666f726d657257696e64696e67, 0x43494d31342e49454336313937302e57697265732e5472616e73666f726d657257696e64696e67, false, 0x526174696f5461704368616e676572⟩, ⟨0x526174696f566172696174696f6e4375727665, 0x43494d31342e49454336313937302e57697265732e526174696f566172696174696f6e4375727665, false, 0x526174696f5461704368616e676572⟩]⟩
/-- Class CIM14.IEC61970.Wires.RatioVariationCurve -/
def s_RatioVariationCurve : SClass := ⟨0x526174696f566172696174696f6e4375727665, 0x43494d31342e49454336313937302e57697265732e526174696f566172696174696f6e4375727665, 0x43494d31342e49454336313937302e436f72652e4375727665,
  [],
  [⟨0x526174696f5461704368616e676572, 0x43494d31342e49454336313937302e57697265732e526174696f5461704368616e676572, false, 0x526174696f566172696174696f6e4375727665⟩]⟩
/-- Class CIM14.IEC61970.Wires.ReactiveCapabilityCurve -/
def s_ReactiveCapabilityCurve : SClass := ⟨0x52656163746976654361706162696c6974794375727665, 0x43494d31342e49454336313937302e57697265732e52656163746976654361706162696c6974794375727665, 0x43494d31342e49454336313937302e436f72652e4375727665,
  [(0x636f6f6c616e7454656d7065726174757265, t_float), (0x687964726f67656e5072657373757265, t_float)],
  [⟨0x496e697469616c6c7955736564427953796e6368726f6e6f75734d616368696e6573, 0x43494d31342e49454336313937302e57697265732e53796e6368726f6e6f75734d616368696e65, true, 0x496e697469616c52656163746976654361706162696c6974794375727665⟩, ⟨0x53796e6368726f6e6f75734d616368696e6573, 0x43494d31342e49454336313937302e57697265732e53796e6368726f6e6f75734d616368696e65, true, 0x52656163746976654361706162696c697479437572766573⟩]⟩
/-- Class CIM14.IEC61970.Wires.RectifierInverter -/
def s_RectifierInverter : SClass := ⟨0x526563746966696572496e766572746572, 0x43494d31342e49454336313937302e57697265732e526563746966696572496e766572746572, 0x43494d31342e49454336313937302e436f72652e436f6e64756374696e6745717569706d656e74,
  [(0x726174656455, t_float), (0x636f6d706f756e64526573697374616e6365, t_float), (0x6672657175656e6379, t_float), (0x6d696e436f6d706f756e64566f6c74616765, t_float), (0x6d696e50, t_float), (0x6d617850, t_float), (0x6f7065726174696e674d6f6465, t_java_lang_String), (0x636f6d6d75746174696e67526573697374616e6365, t_float), (0x62726964676573, t_EInt), (0x6d617855, t_float), (0x636f6d6d75746174696e675265616374616e6365, t_float), (0x6d696e55, t_float)],
  []⟩
/-- Class CIM14.IEC61970.Wires.RegulatingCondEq -/
def s_RegulatingCondEq : SClass := ⟨0x526567756c6174696e67436f6e644571, 0x43494d31342e49454336313937302e57697265732e526567756c6174696e67436f6e644571, 0x43494d31342e49454336313937302e436f72652e436f6e64756374696e6745717569706d656e74,
  [],
  [⟨0x436f6e74726f6c73, 0x43494d31342e49454336313937302e4d6561732e436f6e74726f6c, true, 0x526567756c6174696e67436f6e644571⟩, ⟨0x526567756c6174696e67436f6e74726f6c, 0x43494d31342e49454336313937302e57697265732e526567756c6174696e67436f6e74726f6c, false, 0x526567756c6174696e67436f6e644571⟩]⟩
/-- Class CIM14.IEC61970.Wires.RegulatingControl -/
def s_RegulatingControl : SClass := ⟨0x526567756c6174696e67436f6e74726f6c, 0x43494d31342e49454336313937302e57697265732e526567756c6174696e67436f6e74726f6c, 0x43494d31342e49454336313937302e436f72652e506f77657253797374656d5265736f75726365,
  [(0x6d6f6465, e_RegulatingControlModeKind), (0x74617267657452616e6765, t_EFloat), (0x6469736372657465, t_EBoolean), (0x74617267657456616c7565, t_EFloat)],
  [⟨0x526567756c6174696f6e5363686564756c65, 0x43494d31342e49454336313937302e57697265732e526567756c6174696f6e5363686564756c65, true, 0x526567756c6174696e67436f6e74726f6c⟩, ⟨0x5465726d696e616c, 0x43494d31342e49454336313937302e436f72652e5465726d696e616c, false, 0x526567756c6174696e67436f6e74726f6c⟩, ⟨0x5461704368616e676572, 0x43494d31342e49454336313937302e57697265732e5461704368616e676572, true, 0x526567756c6174696e67436f6e74726f6c⟩, ⟨0x526567756c6174696e67436f6e644571, 0x43494d31342e49454336313937302e57697265732e526567756c6174696e67436f6e644571, true, 0x526567756c6174696e67436f6e74726f6c⟩]⟩
/-- Class CIM14.IEC61970.Wires.RegulationSchedule -/
def s_RegulationSchedule : SClass := ⟨0x526567756c6174696f6e5363686564756c65, 0x43494d31342e49454336313937302e57697265732e526567756c6174696f6e5363686564756c65, 0x43494d31342e49454336313937302e4c6f61644d6f64656c2e536561736f6e446179547970655363686564756c65,
  [(0x6c696e6544726f7058, t_float), (0x6c696e6544726f7052, t_float), (0x6c696e6544726f70436f6d70656e736174696f6e, t_EBoolean)],
  [⟨0x526567756c6174696e67436f6e74726f6c, 0x43494d31342e49454336313937302e57697265732e526567756c6174696e67436f6e74726f6c, false, 0x526567756c6174696f6e5363686564756c65⟩, ⟨0x566f6c74616765436f6e74726f6c5a6f6e6573, 0x43494d31342e49454336313937302e57697265732e566f6c74616765436f6e74726f6c5a6f6e65, true, 0x526567756c6174696f6e5363686564756c65⟩]⟩
/-- Class CIM14.IEC61970.Wires.Resistor -/
def s_Resistor : SClass := ⟨0x5265736973746f72, 0x43494d31342e49454336313937302e57697265732e5265736973746f72, 0x43494d31342e49454336313937302e436f72652e436f6e64756374696e6745717569706d656e74,
  [],
  []⟩
/-- Class CIM14.IEC61970.Wires.SeriesCompensator -/
def s_SeriesCompensator : SClass := ⟨0x536572696573436f6d70656e7361746f72, 0x43494d31342e49454336313937302e57697265732e536572696573436f6d70656e7361746f72, 0x43494d31342e49454336313937302e436f72652e436f6e64756374696e6745717569706d656e74,
  [(0x72, t_float), (0x78, t_float)],
  []⟩
/-- Class CIM14.IEC61970.Wires.ShuntCompensator -/
def s_ShuntCompensator : SClass := ⟨0x5368756e74436f6d70656e7361746f72, 0x43494d31342e49454336313937302e57697265732e5368756e74436f6d70656e7361746f72, 0x43494d31342e49454336313937302e57697265732e526567756c6174696e67436f6e644571,
  [(0x6d617855, t_float), (0x726561637469766550657253656374696f6e, t_float), (0x61565244656c6179, t_float), (0x766f6c7461676553656e7369746976697479, t_float), (0x6e6f726d616c53656374696f6e73, t_EInt), (0x673050657253656374696f6e, t_float), (0x6d6178696d756d53656374696f6e73, t_EInt), (0x6250657253656374696f6e, t_float), (0x6e6f6d51, t_float), (0x7377697463684f6e436f756e74, t_EInt), (0x6d696e55, t_float), (0x623050657253656374696f6e, t_float), (0x7377697463684f6e44617465, t_EDate), (0x6e6f6d55, t_float), (0x6750657253656374696f6e, t_float)],
  [⟨0x53765368756e74436f6d70656e7361746f7253656374696f6e73, 0x43494d31342e49454336313937302e53746174655661726961626c65732e53765368756e74436f6d70656e7361746f7253656374696f6e73, false, 0x5368756e74436f6d70656e7361746f72⟩]⟩
/-- Class CIM14.IEC61970.Wires.StaticVarCompensator -/
def s_StaticVarCompensator : SClass := ⟨0x537461746963566172436f6d70656e7361746f72, 0x43494d31342e49454336313937302e57697265732e537461746963566172436f6d70656e7361746f72, 0x43494d31342e49454336313937302e57697265732e526567756c6174696e67436f6e644571,
  [(0x735643436f6e74726f6c4d6f6465, e_SVCControlMode), (0x766f6c74616765536574506f696e74, t_float), (0x63617061636974697665526174696e67, t_float), (0x696e64756374697665526174696e67, t_float), (0x736c6f7065, t_float)],
  []⟩
/-- Class CIM14.IEC61970.Wires.Switch -/
def s_Switch : SClass := ⟨0x537769746368, 0x43494d31342e49454336313937302e57697265732e537769746368, 0x43494d31342e49454336313937302e436f72652e436f6e64756374696e6745717569706d656e74,
  [(0x7377697463684f6e436f756e74, t_EInt), (0x7377697463684f6e44617465, t_EDate), (0x72657461696e6564, t_EBoolean), (0x6e6f726d616c4f70656e, t_EBoolean)],
  [⟨0x537769746368696e674f7065726174696f6e73, 0x43494d31342e49454336313937302e4f75746167652e537769746368696e674f7065726174696f6e, true, 0x5377697463686573⟩, ⟨0x436f6d706f73697465537769746368, 0x43494d31342e49454336313937302e57697265732e436f6d706f73697465537769746368, false, 0x5377697463686573⟩, ⟨0x436f6e6e656374446973636f6e6e65637446756e6374696f6e73, 0x43494d31342e49454336313936382e4c6f6164436f6e74726f6c2e436f6e6e656374446973636f6e6e65637446756e6374696f6e, true, 0x5377697463686573⟩, ⟨0x5377697463685363686564756c6573, 0x43494d31342e49454336313937302e57697265732e5377697463685363686564756c65, true, 0x537769746368⟩]⟩
/-- Class CIM14.IEC61970.Wires.SwitchSchedule -/
def s_SwitchSchedule : SClass := ⟨0x5377697463685363686564756c65, 0x43494d31342e49454336313937302e57697265732e5377697463685363686564756c65, 0x43494d31342e49454336313937302e4c6f61644d6f64656c2e536561736f6e446179547970655363686564756c65,
  [],
  [⟨0x537769746368, 0x43494d31342e49454336313937302e57697265732e537769746368, false, 0x5377697463685363686564756c6573⟩]⟩
/-- Class CIM14.IEC61970.Wires.SynchronousMachine -/
def s_SynchronousMachine : SClass := ⟨0x53796e6368726f6e6f75734d616368696e65, 0x43494d31342e49454336313937302e57697265732e53796e6368726f6e6f75734d616368696e65, 0x43494d31342e49454336313937302e44796e616d6963732e526f746174696e674d616368696e65,
  [(0x6f7065726174696e674d6f6465, e_SynchronousMachineOperatingMode), (0x74797065, e_SynchronousMachineType), (0x636f6f6c616e7454797065, e_CoolantType), (0x78517561645472616e73, t_float), (0x636f6e64656e73657250, t_float), (0x7265666572656e63655072696f72697479, t_EInt), (0x64616d70696e67, t_float), (0x7830, t_float), (0x7232, t_float), (0x6d696e51, t_float), (0x7844697265637453796e63, t_float), (0x6d617851, t_float), (0x7230, t_float), (0x615652546f4d616e75616c4c656164, t_float), (0x78, t_float), (0x696e6572746961, t_float), (0x636f6f6c616e74436f6e646974696f6e, t_EFloat), (0x6d616e75616c546f415652, t_float), (0x72, t_float), (0x6d617855, t_float), (0x785175616453796e63, t_float), (0x7150657263656e74, t_float), (0x78517561645375627472616e73, t_float), (0x6d696e55, t_float), (0x615652546f4d616e75616c4c6167, t_float), (0x6261736551, t_float), (0x784469726563745472616e73, t_float), (0x7832, t_float), (0x784469726563745375627472616e73, t_float)],
  [⟨0x67656e4c6f616430, 0x43494d31342e49454336313937302e44796e616d6963732e47656e657261746f72732e47656e4c6f6164, true, 0x73796e6368726f6e6f75734d616368696e6530⟩, ⟨0x487964726f50756d70, 0x43494d31342e49454336313937302e47656e65726174696f6e2e50726f64756374696f6e2e487964726f50756d70, false, 0x53796e6368726f6e6f75734d616368696e65⟩, ⟨0x47656e65726174696e67556e6974, 0x43494d31342e49454336313937302e47656e65726174696f6e2e50726f64756374696f6e2e47656e65726174696e67556e6974, false, 0x53796e6368726f6e6f75734d616368696e6573⟩, ⟨0x676f76487964726f3130, 0x43494d31342e49454336313937302e44796e616d6963732e54757262696e65476f7665726e6f72732e476f76487964726f31, true, 0x73796e6368726f6e6f75734d616368696e6530⟩, ⟨0x5072696d654d6f76657273, 0x43494d31342e49454336313937302e47656e65726174696f6e2e47656e65726174696f6e44796e616d6963732e5072696d654d6f766572, true, 0x53796e6368726f6e6f75734d616368696e6573⟩, ⟨0x496e697469616c52656163746976654361706162696c6974794375727665, 0x43494d31342e49454336313937302e57697265732e52656163746976654361706162696c6974794375727665, false, 0x496e697469616c6c7955736564427953796e6368726f6e6f75734d616368696e6573⟩, ⟨0x67656e457175697630, 0x43494d31342e49454336313937302e44796e616d6963732e47656e657261746f72732e47656e4571756976, true, 0x73796e6368726f6e6f75734d616368696e6530⟩, ⟨0x52656163746976654361706162696c697479437572766573, 0x43494d31342e49454336313937302e57697265732e52656163746976654361706162696c6974794375727665, true, 0x53796e6368726f6e6f75734d616368696e6573⟩]⟩
/-- Class CIM14.IEC61970.Wires.TapChanger -/
def s_TapChanger : SClass := ⟨0x5461704368616e676572, 0x43494d31342e49454336313937302e57697265732e5461704368616e676572, 0x43494d31342e49454336313937302e436f72652e506f77657253797374656d5265736f75726365,
  [(0x73746570566f6c74616765496e6372656d656e74, t_float), (0x6e6f726d616c53746570, t_EInt), (0x6e65757472616c53746570, t_EInt), (0x73756273657175656e7444656c6179, t_float), (0x726567756c6174696f6e537461747573, t_EBoolean), (0x6c7463466c6167, t_EBoolean), (0x6869676853746570, t_EInt), (0x696e697469616c44656c6179, t_float), (0x6c6f7753746570, t_EInt), (0x6e65757472616c55, t_float)],
  [⟨0x537654617053746570, 0x43494d31342e49454336313937302e53746174655661726961626c65732e537654617053746570, false, 0x5461704368616e676572⟩, ⟨0x496d706564616e6365566172696174696f6e4375727665, 0x43494d31342e49454336313937302e57697265732e496d706564616e6365566172696174696f6e4375727665, false, 0x5461704368616e676572⟩, ⟨0x5461705363686564756c6573, 0x43494d31342e49454336313937302e57697265732e5461705363686564756c65, true, 0x5461704368616e676572⟩, ⟨0x526567756c6174696e67436f6e74726f6c, 0x43494d31342e49454336313937302e57697265732e526567756c6174696e67436f6e74726f6c, false, 0x5461704368616e676572⟩]⟩
/-- Class CIM14.IEC61970.Wires.TapSchedule -/
def s_TapSchedule : SClass := ⟨0x5461705363686564756c65, 0x43494d31342e49454336313937302e57697265732e5461705363686564756c65, 0x43494d31342e49454336313937302e4c6f61644d6f64656c2e536561736f6e446179547970655363686564756c65,
  [(0x6c696e6544726f70436f6d70656e736174696f6e, t_EBoolean), (0x6c696e6544726f7052, t_float), (0x6c696e6544726f7058, t_float)],
  [⟨0x5461704368616e676572, 0x43494d31342e49454336313937302e57697265732e5461704368616e676572, false, 0x5461705363686564756c6573⟩]⟩
/-- Class CIM14.IEC61970.Wires.TransformerWinding -/
def s_TransformerWinding : SClass := ⟨0x5472616e73666f726d657257696e64696e67, 0x43494d31342e49454336313937302e57697265732e5472616e73666f726d657257696e64696e67, 0x43494d31342e49454336313937302e436f72652e436f6e64756374696e6745717569706d656e74,
  [(0x636f6e6e656374696f6e54797065, e_WindingConnection), (0x77696e64696e6754797065, e_WindingType), (0x78, t_float), (0x67726f756e646564, t_EBoolean), (0x67, t_float), (0x72, t_float), (0x7830, t_float), (0x726174656455, t_float), (0x726174656453, t_float), (0x656d657267656e637953, t_float), (0x7267726f756e64, t_float), (0x73686f72745465726d53, t_float), (0x7230, t_float), (0x6730, t_float), (0x696e73756c6174696f6e55, t_float), (0x62, t_float), (0x6230, t_float), (0x7867726f756e64, t_float)],
  [⟨0x46726f6d5f57696e64696e6754657374, 0x43494d31342e49454336313937302e57697265732e57696e64696e6754657374, true, 0x46726f6d5f5472616e73666f726d657257696e64696e67⟩, ⟨0x546f5f57696e64696e6754657374, 0x43494d31342e49454336313937302e57697265732e57696e64696e6754657374, true, 0x546f5f5472616e73666f726d657257696e64696e67⟩, ⟨0x526174696f5461704368616e676572, 0x43494d31342e49454336313937302e57697265732e526174696f5461704368616e676572, false, 0x5472616e73666f726d657257696e64696e67⟩, ⟨0x506f7765725472616e73666f726d6572, 0x43494d31342e49454336313937302e57697265732e506f7765725472616e73666f726d6572, false, 0x5472616e73666f726d657257696e64696e6773⟩, ⟨0x50686173655461704368616e676572, 0x43494d31342e49454336313937302e57697265732e50686173655461704368616e676572, false, 0x5472616e73666f726d657257696e64696e67⟩]⟩
/-- Class CIM14.IEC61970.Wires.VoltageControlZone -/
def s_VoltageControlZone : SClass := ⟨0x566f6c74616765436f6e74726f6c5a6f6e65, 0x43494d31342e49454336313937302e57697265732e566f6c74616765436f6e74726f6c5a6f6e65, 0x43494d31342e49454336313937302e436f72652e506f77657253797374656d5265736f75726365,
  [],
  [⟨0x526567756c6174696f6e5363686564756c65, 0x43494d31342e49454336313937302e57697265732e526567756c6174696f6e5363686564756c65, false, 0x566f6c74616765436f6e74726f6c5a6f6e6573⟩, ⟨0x42757362617253656374696f6e, 0x43494d31342e49454336313937302e57697265732e42757362617253656374696f6e, false, 0x566f6c74616765436f6e74726f6c5a6f6e65⟩]⟩
/-- Class CIM14.IEC61970.Wires.WindingTest -/
def s_WindingTest : SClass := ⟨0x57696e64696e6754657374, 0x43494d31342e49454336313937302e57697265732e57696e64696e6754657374, 0x43494d31342e49454336313937302e436f72652e4964656e7469666965644f626a656374,
  [(0x66726f6d54617053746570, t_EInt), (0x6c65616b616765496d706564616e6365, t_float), (0x6e6f4c6f61644c6f7373, t_float), (0x70686173655368696674, t_float), (0x6578636974696e6743757272656e74, t_float), (0x6c6f61644c6f7373, t_float), (0x746f54617053746570, t_EInt), (0x766f6c74616765, t_float)],
  [⟨0x46726f6d5f5472616e73666f726d657257696e64696e67, 0x43494d31342e49454336313937302e57697265732e5472616e73666f726d657257696e64696e67, false, 0x46726f6d5f57696e64696e6754657374⟩, ⟨0x546f5f5472616e73666f726d657257696e64696e67, 0x43494d31342e49454336313937302e57697265732e5472616e73666f726d657257696e64696e67, false, 0x546f5f57696e64696e6754657374⟩]⟩

def schema : Schema := [
  s_CombinedVersion,
  s_Element,
  s_AssetModel,
  s_CableInfo,
  s_ConcentricNeutralCableInfo,
  s_ConductorInfo,
  s_DistributionWindingTest,
  s_EndDeviceModel,
  s_OpenCircuitTest,
  s_OverheadConductorInfo,
  s_ShortCircuitTest,
  s_TapeShieldCableInfo,
  s_ToWindingSpec,
  s_TransformerInfo,
  s_WindingInfo,
  s_WireArrangement,
  s_WireType,
  s_AcceptanceTest,
  s_Asset,
  s_AssetContainer,
  s_AssetFunction,
  s_ComMediaAsset,
  s_Seal,
  s_ActivityRecord,
  s_Agreement,
  s_CoordinateSystem,
  s_DateTimeInterval,
  s_Document,
  s_ElectronicAddress,
  s_Location,
  s_Organisation,
  s_PositionPoint,
  s_PostalAddress,
  s_Status,
  s_StreetAddress,
  s_StreetDetail,
  s_TelephoneNumber,
  s_TimePoint,
  s_TimeSchedule,
  s_TownDetail,
  s_UserAttribute,
  s_Customer,
  s_CustomerAccount,
  s_CustomerAgreement,
  s_PricingStructure,
  s_ServiceCategory,
  s_ServiceLocation,
  s_Tariff,
  s_IEC61968CIMVersion,
  s_ConnectDisconnectFunction,
  s_RemoteConnectDisconnectInfo,
  s_ComFunction,
  s_DemandResponseProgram,
  s_DeviceFunction,
  s_DynamicDemand,
  s_ElectricMeteringFunction,
  s_EndDeviceAsset,
  s_EndDeviceControl,
  s_EndDeviceEvent,
  s_EndDeviceGroup,
  s_IntervalBlock,
  s_IntervalReading,
  s_MeterAsset,
  s_MeterReading,
  s_MeterServiceWork,
  s_Pending,
  s_Reading,
  s_ReadingQuality,
  s_ReadingType,
  s_Register,
  s_SDPLocation,
  s_ServiceDeliveryPoint,
  s_AccountMovement,
  s_AccountingUnit,
  s_AuxiliaryAccount,
  s_AuxiliaryAgreement,
  s_BankAccountDetail,
  s_Card,
  s_Cashier,
  s_CashierShift,
  s_Charge,
  s_Cheque,
  s_ConsumptionTariffInterval,
  s_Due,
  s_LineDetail,
  s_MerchantAccount,
  s_MerchantAgreement,
  s_PointOfSale,
  s_Receipt,
  s_ServiceSupplier,
  s_Shift,
  s_TariffProfile,
  s_Tender,
  s_TimeTariffInterval,
  s_Transaction,
  s_Transactor,
  s_Vendor,
  s_VendorShift,
  s_DistributionLineSegment,
  s_DistributionTapChanger,
  s_DistributionTransformer,
  s_DistributionTransformerWinding,
  s_PerLengthPhaseImpedance,
  s_PerLengthSequenceImpedance,
  s_PhaseImpedanceData,
  s_TransformerBank,
  s_WindingPiImpedance,
  s_Work,
  s_Contingency,
  s_ContingencyElement,
  s_ContingencyEquipment,
  s_AltGeneratingUnitMeas,
  s_AltTieMeas,
  s_ControlArea,
  s_ControlAreaGeneratingUnit,
  s_TieFlow,
  s_BasePower,
  s_BaseVoltage,
  s_BasicIntervalSchedule,
  s_Bay,
  s_ConductingEquipment,
  s_ConnectivityNode,
  s_ConnectivityNodeContainer,
  s_Curve,
  s_CurveData,
  s_Equipment,
  s_EquipmentContainer,
  s_GeographicalRegion,
  s_IdentifiedObject,
  s_IrregularIntervalSchedule,
  s_IrregularTimePoint,
  s_OperatingParticipant,
  s_OperatingShare,
  s_PSRType,
  s_PowerSystemResource,
  s_PsrList,
  s_RegularIntervalSchedule,
  s_RegularTimePoint,
  s_ReportingGroup,
  s_ReportingSuperGroup,
  s_SubGeographicalRegion,
  s_Substation,
  s_Terminal,
  s_Unit,
  s_VoltageLevel,
  s_AsynchronousMachine,
  s_AttributeBlockParameter,
  s_Block,
  s_BlockConnection,
  s_BlockConnectivity,
  s_BlockConstant,
  s_BlockInputReference,
  s_BlockInputType,
  s_BlockOutputReference,
  s_BlockOutputType,
  s_BlockParameter,
  s_BlockType,
  s_BlockUsageInputReference,
  s_BlockUsageOutputReference,
  s_CompositeModel,
  s_ConnectionFrame,
  s_ExcitationSystemLimiter,
  s_ExcAC1A,
  s_ExcAC2A,
  s_ExcAC3A,
  s_ExcAC4A,
  s_ExcAC5A,
  s_ExcAC6A,
  s_ExcAC7B,
  s_ExcAC8B,
  s_ExcBAS,
  s_ExcBBC,
  s_ExcCZ,
  s_ExcDC1A,
  s_ExcDC2A,
  s_ExcDC3A,
  s_ExcDC4B,
  s_ExcELIN1,
  s_ExcELIN2,
  s_ExcHU,
  s_ExcPIC,
  s_ExcREXS,
  s_ExcSCRX,
  s_ExcSEXS,
  s_ExcSK,
  s_ExcSK2,
  s_ExcST1A,
  s_ExcST2A,
  s_ExcST3A,
  s_ExcST4B,
  s_ExcST5B,
  s_ExcST6B,
  s_ExcST7B,
  s_ExcWT2E,
  s_ExcWT3E,
  s_ExcWT4E,
  s_ExcitationSystem,
  s_GenAsync,
  s_GenEquiv,
  s_GenLoad,
  s_AggregateLoad,
  s_LoadMotor,
  s_LoadStatic,
  s_LoadStaticArea,
  s_LoadStaticBus,
  s_LoadStaticOwner,
  s_LoadStaticSystem,
  s_LoadStaticZone,
  s_MetaBlock,
  s_MetaBlockConInput,
  s_MetaBlockConOutput,
  s_MetaBlockConSignal,
  s_MetaBlockConnectable,
  s_MetaBlockConnection,
  s_MetaBlockConnectivity,
  s_MetaBlockInput,
  s_MetaBlockInputReference,
  s_MetaBlockOutput,
  s_MetaBlockOutputReference,
  s_MetaBlockParameter,
  s_MetaBlockParameterReference,
  s_MetaBlockReference,
  s_MetaBlockSignal,
  s_MetaBlockState,
  s_MetaBlockStateReference,
  s_MechLoad1,
  s_MechanicalLoad,
  s_MotorAsync,
  s_MotorSync,
  s_PowerSystemStabilizer,
  s_PssIEEE1A,
  s_PssIEEE2B,
  s_PssIEEE3B,
  s_PssIEEE4B,
  s_PssPTIST1,
  s_PssPTIST3,
  s_PssSB,
  s_PssSB4,
  s_PssSH,
  s_PssSK,
  s_PssWSCC,
  s_ProtectiveDevice,
  s_RotatingMachine,
  s_Slot,
  s_SlotConnection,
  s_SlotInput,
  s_SlotOutput,
  s_SlotReference,
  s_SourceModels,
  s_StaticVarDevice,
  s_TieToMeasurement,
  s_Class1,
  s_GovCT1,
  s_GovCT2,
  s_GovDUM,
  s_GovGASM,
  s_GovGAST,
  s_GovGAST2,
  s_GovGASTWD,
  s_GovHydro0,
  s_GovHydro1,
  s_GovHydro2,
  s_GovHydro3,
  s_GovHydro4,
  s_GovHydroDD,
  s_GovHydroPID,
  s_GovHydroPID2,
  s_GovHydroR,
  s_GovHydroWEH,
  s_GovHydroWPID,
  s_GovRAV,
  s_GovSteam0,
  s_GovSteam1,
  s_GovSteamCC,
  s_GovSteamEU,
  s_GovSteamFV2,
  s_GovSteamFV3,
  s_GovSteamSGO,
  s_GovWT1P,
  s_GovWT1T,
  s_GovWT2P,
  s_GovWT2T,
  s_GovWT3P,
  s_GovWT3T,
  s_GovWT4P,
  s_GovWT4T,
  s_TLCFB1,
  s_TurbineGovernor,
  s_UserBlockParameter,
  s_VcompCross,
  s_VcompIEEE,
  s_VoltageCompensator,
  s_EquivalentBranch,
  s_EquivalentEquipment,
  s_EquivalentInjection,
  s_EquivalentNetwork,
  s_EquivalentShunt,
  s_BWRSteamSupply,
  s_CTTempActivePowerCurve,
  s_CombustionTurbine,
  s_DrumBoiler,
  s_FossilSteamSupply,
  s_HeatRecoveryBoiler,
  s_HydroTurbine,
  s_PWRSteamSupply,
  s_PrimeMover,
  s_SteamSupply,
  s_SteamTurbine,
  s_Subcritical,
  s_Supercritical,
  s_AirCompressor,
  s_CAESPlant,
  s_CogenerationPlant,
  s_CombinedCyclePlant,
  s_EmissionAccount,
  s_EmissionCurve,
  s_FossilFuel,
  s_FuelAllocationSchedule,
  s_GenUnitOpCostCurve,
  s_GenUnitOpSchedule,
  s_GeneratingUnit,
  s_GrossToNetActivePowerCurve,
  s_HeatInputCurve,
  s_HeatRateCurve,
  s_HydroGeneratingEfficiencyCurve,
  s_HydroGeneratingUnit,
  s_HydroPowerPlant,
  s_HydroPump,
  s_HydroPumpOpSchedule,
  s_IncrementalHeatRateCurve,
  s_InflowForecast,
  s_LevelVsVolumeCurve,
  s_NuclearGeneratingUnit,
  s_PenstockLossCurve,
  s_Reservoir,
  s_ShutdownCurve,
  s_StartIgnFuelCurve,
  s_StartMainFuelCurve,
  s_StartRampCurve,
  s_StartupModel,
  s_SteamSendoutSchedule,
  s_TailbayLossCurve,
  s_TargetLevelSchedule,
  s_ThermalGeneratingUnit,
  s_WindGeneratingUnit,
  s_IEC61970CIMVersion,
  s_ModelingAuthority,
  s_ModelingAuthoritySet,
  s_ConformLoad,
  s_ConformLoadGroup,
  s_ConformLoadSchedule,
  s_DayType,
  s_EnergyArea,
  s_LoadArea,
  s_LoadGroup,
  s_LoadResponseCharacteristic,
  s_NonConformLoad,
  s_NonConformLoadGroup,
  s_NonConformLoadSchedule,
  s_PowerCutZone,
  s_Season,
  s_SeasonDayTypeSchedule,
  s_StationSupply,
  s_SubLoadArea,
  s_Accumulator,
  s_AccumulatorLimit,
  s_AccumulatorLimitSet,
  s_AccumulatorValue,
  s_Analog,
  s_AnalogLimit,
  s_AnalogLimitSet,
  s_AnalogValue,
  s_Command,
  s_Control,
  s_ControlType,
  s_CurrentTransformer,
  s_Discrete,
  s_DiscreteValue,
  s_Limit,
  s_LimitSet,
  s_Measurement,
  s_MeasurementValue,
  s_MeasurementValueQuality,
  s_MeasurementValueSource,
  s_PotentialTransformer,
  s_Quality61850,
  s_SetPoint,
  s_StringMeasurement,
  s_StringMeasurementValue,
  s_ValueAliasSet,
  s_ValueToAlias,
  s_ActivePowerLimit,
  s_ApparentPowerLimit,
  s_BranchGroup,
  s_BranchGroupTerminal,
  s_CurrentLimit,
  s_OperationalLimit,
  s_OperationalLimitSet,
  s_OperationalLimitType,
  s_VoltageLimit,
  s_ClearanceTag,
  s_ClearanceTagType,
  s_OutageSchedule,
  s_SwitchingOperation,
  s_CurrentRelay,
  s_FaultIndicator,
  s_ProtectionEquipment,
  s_RecloseSequence,
  s_SurgeProtector,
  s_SynchrocheckRelay,
  s_CommunicationLink,
  s_RemoteControl,
  s_RemotePoint,
  s_RemoteSource,
  s_RemoteUnit,
  s_StateVariable,
  s_SvInjection,
  s_SvPowerFlow,
  s_SvShortCircuit,
  s_SvShuntCompensatorSections,
  s_SvStatus,
  s_SvTapStep,
  s_SvVoltage,
  s_TopologicalIsland,
  s_BusNameMarker,
  s_TopologicalNode,
  s_ACLineSegment,
  s_Breaker,
  s_BusbarSection,
  s_CompositeSwitch,
  s_Conductor,
  s_Connector,
  s_DCLineSegment,
  s_Disconnector,
  s_EnergyConsumer,
  s_EnergySource,
  s_FrequencyConverter,
  s_Fuse,
  s_Ground,
  s_GroundDisconnector,
  s_HeatExchanger,
  s_ImpedanceVariationCurve,
  s_Jumper,
  s_Junction,
  s_Line,
  s_LoadBreakSwitch,
  s_MutualCoupling,
  s_PhaseTapChanger,
  s_PhaseVariationCurve,
  s_Plant,
  s_PowerTransformer,
  s_ProtectedSwitch,
  s_RatioTapChanger,
  s_RatioVariationCurve,
  s_ReactiveCapabilityCurve,
  s_RectifierInverter,
  s_RegulatingCondEq,
  s_RegulatingControl,
  s_RegulationSchedule,
  s_Resistor,
  s_SeriesCompensator,
  s_ShuntCompensator,
  s_StaticVarCompensator,
  s_Switch,
  s_SwitchSchedule,
  s_SynchronousMachine,
  s_TapChanger,
  s_TapSchedule,
  s_TransformerWinding,
  s_VoltageControlZone,
  s_WindingTest]

end Verif.Gen.Model_CIM14
