import Verif.Spec.Schema
/-! Generated by tools/ecore.py from /repo/Model/CIM15/CIM15.ecore: do not edit. -/
namespace Verif.Gen.Model_CIM15
open Spec
set_option maxRecDepth 10000

/-- Enumeration CIM15.IEC61968.AssetModels.CableConstructionKind -/
def e_CableConstructionKind : SType := .enum 0x4361626c65436f6e737472756374696f6e4b696e64 [0x736563746f72, 0x6f74686572, 0x736f6c6964, 0x636f6d706163746564, 0x737472616e646564, 0x7365676d656e74616c, 0x636f6d70726573736564]
/-- Enumeration CIM15.IEC61968.AssetModels.CableOuterJacketKind -/
def e_CableOuterJacketKind : SType := .enum 0x4361626c654f757465724a61636b65744b696e64 [0x707663, 0x6c696e6561724c6f7744656e73697479506f6c79657468796c656e65, 0x6e6f6e65, 0x696e73756c6174696e67, 0x6f74686572, 0x706f6c79657468796c656e65, 0x73656d69636f6e64756374696e67]
/-- Enumeration CIM15.IEC61968.AssetModels.CableShieldMaterialKind -/
def e_CableShieldMaterialKind : SType := .enum 0x4361626c65536869656c644d6174657269616c4b696e64 [0x6c656164, 0x616c756d696e756d, 0x6f74686572, 0x636f70706572, 0x737465656c]
/-- Enumeration CIM15.IEC61968.AssetModels.ConductorInsulationKind -/
def e_ConductorInsulationKind : SType := .enum 0x436f6e647563746f72496e73756c6174696f6e4b696e64 [0x74726565526574617264616e7443726f73736c696e6b6564506f6c79657468796c656e65, 0x627574796c, 0x686967685072657373757265466c75696446696c6c6564, 0x6f74686572, 0x7661726e697368656443616d62726963436c6f7468, 0x73696c69636f6e527562626572, 0x62656c74656450696c63, 0x63726f73736c696e6b6564506f6c79657468796c656e65, 0x6f696c5061706572, 0x6c6f7743617061636974616e6365527562626572, 0x6173626573746f73416e645661726e697368656443616d62726963, 0x74726565526573697374616e74486967684d6f6c6563756c6172576569676874506f6c79657468796c656e65, 0x756e62656c74656450696c63, 0x6f7a6f6e65526573697374616e74527562626572, 0x657468796c656e6550726f70796c656e65527562626572, 0x686967684d6f6c6563756c6172576569676874506f6c79657468796c656e65, 0x7661726e6973686564446163726f6e476c617373, 0x727562626572]
/-- Enumeration CIM15.IEC61968.AssetModels.ConductorMaterialKind -/
def e_ConductorMaterialKind : SType := .enum 0x436f6e647563746f724d6174657269616c4b696e64 [0x616c756d696e756d, 0x636f70706572, 0x6f74686572, 0x737465656c, 0x61637372]
/-- Enumeration CIM15.IEC61968.AssetModels.ConductorUsageKind -/
def e_ConductorUsageKind : SType := .enum 0x436f6e647563746f7255736167654b696e64 [0x7365636f6e64617279, 0x6f74686572, 0x646973747269627574696f6e, 0x7472616e736d697373696f6e]
/-- Enumeration CIM15.IEC61968.Assets.AssetModelUsageKind -/
def e_AssetModelUsageKind : SType := .enum 0x41737365744d6f64656c55736167654b696e64 [0x637573746f6d657253756273746174696f6e, 0x7472616e736d697373696f6e, 0x6f74686572, 0x73756273746174696f6e, 0x756e6b6e6f776e, 0x646973747269627574696f6e4f76657268656164, 0x646973747269627574696f6e556e64657267726f756e64, 0x7374726565746c69676874]
/-- Enumeration CIM15.IEC61968.Assets.CorporateStandardKind -/
def e_CorporateStandardKind : SType := .enum 0x436f72706f726174655374616e646172644b696e64 [0x7374616e64617264, 0x756e6465724576616c756174696f6e, 0x6f74686572, 0x6578706572696d656e74616c]
/-- Enumeration CIM15.IEC61968.Assets.SealConditionKind -/
def e_SealConditionKind : SType := .enum 0x5365616c436f6e646974696f6e4b696e64 [0x6f70656e, 0x62726f6b656e, 0x6f74686572, 0x6d697373696e67, 0x6c6f636b6564]
/-- Enumeration CIM15.IEC61968.Assets.SealKind -/
def e_SealKind : SType := .enum 0x5365616c4b696e64 [0x6c656164, 0x6f74686572, 0x737465656c, 0x6c6f636b]
/-- Enumeration CIM15.IEC61968.Customers.CustomerKind -/
def e_CustomerKind : SType := .enum 0x437573746f6d65724b696e64 [0x77696e644d616368696e65, 0x7265736964656e7469616c416e64436f6d6d65726369616c, 0x696e7465726e616c557365, 0x656e65726779536572766963655363686564756c6572, 0x7265736964656e7469616c416e645374726565746c69676874, 0x7265736964656e7469616c, 0x70756d70696e674c6f6164, 0x6f74686572, 0x636f6d6d65726369616c496e647573747269616c, 0x656e6572677953657276696365537570706c696572, 0x7265736964656e7469616c5374726565746c696768744f7468657273, 0x7265736964656e7469616c4661726d53657276696365]
/-- Enumeration CIM15.IEC61968.Customers.RevenueKind -/
def e_RevenueKind : SType := .enum 0x526576656e75654b696e64 [0x69727269676174696f6e, 0x7265736964656e7469616c, 0x6e6f6e5265736964656e7469616c, 0x696e647573747269616c, 0x6f74686572, 0x636f6d6d65726369616c, 0x7374726565744c69676874]
/-- Enumeration CIM15.IEC61968.Customers.ServiceKind -/
def e_ServiceKind : SType := .enum 0x536572766963654b696e64 [0x6f74686572, 0x726566757365, 0x7365776572616765, 0x656c656374726963697479, 0x68656174, 0x696e7465726e6574, 0x7261746573, 0x74696d65, 0x7761746572, 0x676173, 0x74764c6963656e6365]
/-- Enumeration CIM15.IEC61968.Metering.DemandKind -/
def e_DemandKind : SType := .enum 0x44656d616e644b696e64 [0x6669786564426c6f636b, 0x726f6c6c696e67426c6f636b, 0x6c6f6761726974686d6963]
/-- Enumeration CIM15.IEC61968.Metering.EndDeviceFunctionKind -/
def e_EndDeviceFunctionKind : SType := .enum 0x456e6444657669636546756e6374696f6e4b696e64 [0x6f6e5265717565737452656164, 0x72656c61797350726f6772616d6d696e67, 0x64656d616e64526573706f6e7365, 0x6d6574726f6c6f6779, 0x6f7574616765486973746f7279, 0x6175746f6e6f6d6f7573447374, 0x72657665727365466c6f77]
/-- Enumeration CIM15.IEC61968.Metering.ReadingKind -/
def e_ReadingKind : SType := .enum 0x52656164696e674b696e64 [0x7068617365416e676c65, 0x766f6c756d65, 0x6672657175656e6379, 0x656e65726779, 0x63757272656e74416e676c65, 0x706f776572466163746f72, 0x64617465, 0x6f74686572, 0x64656d616e64, 0x706f776572, 0x7072657373757265, 0x766f6c74616765, 0x766f6c74616765416e676c65, 0x74696d65, 0x63757272656e74]
/-- Enumeration CIM15.IEC61968.PaymentMetering.ChargeKind -/
def e_ChargeKind : SType := .enum 0x4368617267654b696e64 [0x6f74686572, 0x64656d616e64436861726765, 0x636f6e73756d7074696f6e436861726765, 0x617578696c69617279436861726765, 0x746178436861726765]
/-- Enumeration CIM15.IEC61968.PaymentMetering.ChequeKind -/
def e_ChequeKind : SType := .enum 0x4368657175654b696e64 [0x6f74686572, 0x706f7374616c4f72646572, 0x62616e6b4f72646572]
/-- Enumeration CIM15.IEC61968.PaymentMetering.SupplierKind -/
def e_SupplierKind : SType := .enum 0x537570706c6965724b696e64 [0x6f74686572, 0x72657461696c6572, 0x7574696c697479]
/-- Enumeration CIM15.IEC61968.PaymentMetering.TenderKind -/
def e_TenderKind : SType := .enum 0x54656e6465724b696e64 [0x756e737065636966696564, 0x636865717565, 0x6f74686572, 0x63617368, 0x63617264]
/-- Enumeration CIM15.IEC61968.PaymentMetering.TransactionKind -/
def e_TransactionKind : SType := .enum 0x5472616e73616374696f6e4b696e64 [0x6f74686572, 0x736572766963654368617267655061796d656e74, 0x6163636f756e745061796d656e74, 0x746f6b656e53616c655061796d656e74, 0x746f6b656e43616e63656c6c6174696f6e, 0x7461784368617267655061796d656e74, 0x746f6b656e45786368616e6765, 0x746f6b656e4772616e74, 0x646976657273655061796d656e74, 0x617578696c696172794368617267655061796d656e74, 0x6d65746572436f6e66696775726174696f6e546f6b656e, 0x746f6b656e467265654973737565, 0x7472616e73616374696f6e526576657273616c]
/-- Enumeration CIM15.IEC61968.Work.WorkKind -/
def e_WorkKind : SType := .enum 0x576f726b4b696e64 [0x646973636f6e6e656374, 0x6f74686572, 0x7265636f6e6e656374, 0x636f6e737472756374696f6e, 0x73657276696365, 0x6d65746572, 0x696e7370656374696f6e, 0x6d61696e74656e616e6365]
/-- Enumeration CIM15.IEC61970.Contingency.ContingencyEquipmentStatusKind -/
def e_ContingencyEquipmentStatusKind : SType := .enum 0x436f6e74696e67656e637945717569706d656e745374617475734b696e64 [0x6f75744f6653657276696365, 0x696e53657276696365]
/-- Enumeration CIM15.IEC61970.ControlArea.ControlAreaTypeKind -/
def e_ControlAreaTypeKind : SType := .enum 0x436f6e74726f6c41726561547970654b696e64 [0x466f726563617374, 0x414743, 0x496e7465726368616e6765]
/-- Enumeration CIM15.IEC61970.Core.BreakerConfiguration -/
def e_BreakerConfiguration : SType := .enum 0x427265616b6572436f6e66696775726174696f6e [0x627265616b6572416e644148616c66, 0x6e6f427265616b6572, 0x73696e676c65427265616b6572, 0x646f75626c65427265616b6572]
/-- Enumeration CIM15.IEC61970.Core.BusbarConfiguration -/
def e_BusbarConfiguration : SType := .enum 0x427573626172436f6e66696775726174696f6e [0x646f75626c65427573, 0x72696e67427573, 0x73696e676c65427573, 0x6d61696e576974685472616e73666572]
/-- Enumeration CIM15.IEC61970.Core.CompanyType -/
def e_CompanyType : SType := .enum 0x436f6d70616e7954797065 [0x6d756e69636970616c, 0x697350726976617465, 0x706f6f6c]
/-- Enumeration CIM15.IEC61970.Core.CurveStyle -/
def e_CurveStyle : SType := .enum 0x43757276655374796c65 [0x666f726d756c61, 0x636f6e7374616e745956616c7565, 0x73747261696768744c696e655956616c756573, 0x72616d705956616c7565]
/-- Enumeration CIM15.IEC61970.Core.PhaseCode -/
def e_PhaseCode : SType := .enum 0x5068617365436f6465 [0x7331324e, 0x424e, 0x4243, 0x41424e, 0x73324e, 0x4e, 0x41434e, 0x42434e, 0x4142434e, 0x4143, 0x73314e, 0x414e, 0x42, 0x4142, 0x43, 0x41, 0x434e, 0x414243]
/-- Enumeration CIM15.IEC61970.Domain.Currency -/
def e_Currency : SType := .enum 0x43757272656e6379 [0x434144, 0x455552, 0x434846, 0x494e52, 0x415544, 0x555344, 0x525552, 0x474250, 0x434e59, 0x53454b, 0x4a5059, 0x6f74686572, 0x4e4f4b, 0x444b4b]
/-- Enumeration CIM15.IEC61970.Domain.UnitMultiplier -/
def e_UnitMultiplier : SType := .enum 0x556e69744d756c7469706c696572 [0x4d, 0x47, 0x64, 0x6d6963726f, 0x63, 0x70, 0x6e, 0x54, 0x6b, 0x6d, 0x6e6f6e65]
/-- Enumeration CIM15.IEC61970.Domain.UnitSymbol -/
def e_UnitSymbol : SType := .enum 0x556e697453796d626f6c [0x4e, 0x41, 0x726164, 0x564168, 0x5061, 0x4a, 0x68, 0x487a, 0x56417268, 0x6f686d, 0x48, 0x6d33, 0, 0x56, 0x43, 0x46, 0x5768, 0x73, 0x67, 0x6d696e, 0x53, 0x6e6f6e65, 0x57, 0x564172, 0x6d32, 0x6d, 0x5641]
/-- Enumeration CIM15.IEC61970.Generation.GenerationDynamics.BoilerControlMode -/
def e_BoilerControlMode : SType := .enum 0x426f696c6572436f6e74726f6c4d6f6465 [0x666f6c6c6f77696e67, 0x636f6f7264696e61746564]
/-- Enumeration CIM15.IEC61970.Generation.GenerationDynamics.TurbineType -/
def e_TurbineType : SType := .enum 0x54757262696e6554797065 [0x70656c746f6e, 0x6b61706c616e, 0x6672616e636973]
/-- Enumeration CIM15.IEC61970.Generation.Production.EmissionType -/
def e_EmissionType : SType := .enum 0x456d697373696f6e54797065 [0x636172626f6e446973756c66696465, 0x73756c66757244696f78696465, 0x687964726f67656e53756c66696465, 0x63686c6f72696e65, 0x636172626f6e44696f78696465, 0x6e6974726f67656e4f78696465]
/-- Enumeration CIM15.IEC61970.Generation.Production.EmissionValueSource -/
def e_EmissionValueSource : SType := .enum 0x456d697373696f6e56616c7565536f75726365 [0x63616c63756c61746564, 0x6d65617375726564]
/-- Enumeration CIM15.IEC61970.Generation.Production.FuelType -/
def e_FuelType : SType := .enum 0x4675656c54797065 [0x6f696c, 0x636f616c, 0x6c69676e697465, 0x676173]
/-- Enumeration CIM15.IEC61970.Generation.Production.GeneratorControlMode -/
def e_GeneratorControlMode : SType := .enum 0x47656e657261746f72436f6e74726f6c4d6f6465 [0x736574706f696e74, 0x70756c7365]
/-- Enumeration CIM15.IEC61970.Generation.Production.GeneratorControlSource -/
def e_GeneratorControlSource : SType := .enum 0x47656e657261746f72436f6e74726f6c536f75726365 [0x706c616e74436f6e74726f6c, 0x6f6666414743, 0x756e617661696c61626c65, 0x6f6e414743]
/-- Enumeration CIM15.IEC61970.Generation.Production.GeneratorOperatingMode -/
def e_GeneratorOperatingMode : SType := .enum 0x47656e657261746f724f7065726174696e674d6f6465 [0x4d524e, 0x454443, 0x4c4643, 0x6669786564, 0x524547, 0x414743, 0x6d616e75616c, 0x6f6666]
/-- Enumeration CIM15.IEC61970.Generation.Production.HydroEnergyConversionKind -/
def e_HydroEnergyConversionKind : SType := .enum 0x487964726f456e65726779436f6e76657273696f6e4b696e64 [0x67656e657261746f72, 0x70756d70416e6447656e657261746f72]
/-- Enumeration CIM15.IEC61970.Generation.Production.HydroPlantType -/
def e_HydroPlantType : SType := .enum 0x487964726f506c616e7454797065 [0x70756d70656453746f72616765, 0x72756e4f665269766572, 0x6d696e6f7253746f72616765, 0x6d616a6f7253746f72616765]
/-- Enumeration CIM15.IEC61970.Generation.Production.PenstockType -/
def e_PenstockType : SType := .enum 0x50656e73746f636b54797065 []
/-- Enumeration CIM15.IEC61970.Generation.Production.SpillwayGateType -/
def e_SpillwayGateType : SType := .enum 0x5370696c6c7761794761746554797065 []
/-- Enumeration CIM15.IEC61970.Generation.Production.SurgeTankCode -/
def e_SurgeTankCode : SType := .enum 0x537572676554616e6b436f6465 []
/-- Enumeration CIM15.IEC61970.Graphics.OrientationKind -/
def e_OrientationKind : SType := .enum 0x4f7269656e746174696f6e4b696e64 [0x6e65676174697665, 0x706f736974697665]
/-- Enumeration CIM15.IEC61970.Informative.InfAssetModels.OilPreservationKind -/
def e_OilPreservationKind : SType := .enum 0x4f696c507265736572766174696f6e4b696e64 [0x6f74686572, 0x636f6e7365727661746f72, 0x66726565427265617468696e67, 0x6e6974726f67656e426c616e6b6574]
/-- Enumeration CIM15.IEC61970.Informative.InfAssetModels.TransformerConstructionKind -/
def e_TransformerConstructionKind : SType := .enum 0x5472616e73666f726d6572436f6e737472756374696f6e4b696e64 [0x64727954797065, 0x7661756c7454687265655068617365, 0x6e6574776f726b, 0x7061646d6f756e746564, 0x7061646d6f756e744c6f6f705468726f756768, 0x7661756c74, 0x6f6e655068617365, 0x7061646d6f756e74466565645468726f756768, 0x61657269616c, 0x74687265655068617365, 0x756e6b6e6f776e, 0x6f76657268656164, 0x7061646d6f756e744465616446726f6e74, 0x756e64657267726f756e64, 0x7061646d6f756e744c69766546726f6e74, 0x737562776179]
/-- Enumeration CIM15.IEC61970.Informative.InfAssetModels.TransformerCoreKind -/
def e_TransformerCoreKind : SType := .enum 0x5472616e73666f726d6572436f72654b696e64 [0x7368656c6c, 0x636f7265]
/-- Enumeration CIM15.IEC61970.Informative.InfAssetModels.TransformerFunctionKind -/
def e_TransformerFunctionKind : SType := .enum 0x5472616e73666f726d657246756e6374696f6e4b696e64 [0x6175746f7472616e73666f726d6572, 0x7365636f6e646172795472616e73666f726d6572, 0x6f74686572, 0x706f7765725472616e73666f726d6572, 0x766f6c74616765526567756c61746f72]
/-- Enumeration CIM15.IEC61970.Informative.InfAssetModels.WindingInsulationKind -/
def e_WindingInsulationKind : SType := .enum 0x57696e64696e67496e73756c6174696f6e4b696e64 [0x746865726d616c6c7955706772616465645061706572, 0x6f74686572, 0x6e6f6d6578, 0x7061706572]
/-- Enumeration CIM15.IEC61970.Informative.InfAssets.AnchorKind -/
def e_AnchorKind : SType := .enum 0x416e63686f724b696e64 [0x636f6e6372657465, 0x68656c6978, 0x756e6b6e6f776e, 0x6d756c746948656c6978, 0x7363726577, 0x726f64, 0x6f74686572]
/-- Enumeration CIM15.IEC61970.Informative.InfAssets.BushingInsulationKind -/
def e_BushingInsulationKind : SType := .enum 0x42757368696e67496e73756c6174696f6e4b696e64 [0x736f6c6964506f7263656c61696e, 0x636f6d706f756e64, 0x6f74686572, 0x70617065726f696c]
/-- Enumeration CIM15.IEC61970.Informative.InfAssets.BushingInsulationPfTestKind -/
def e_BushingInsulationPfTestKind : SType := .enum 0x42757368696e67496e73756c6174696f6e5066546573744b696e64 [0x6332, 0x6331]
/-- Enumeration CIM15.IEC61970.Informative.InfAssets.CompositeSwitchKind -/
def e_CompositeSwitchKind : SType := .enum 0x436f6d706f736974655377697463684b696e64 [0x7468726f774f766572, 0x726567756c61746f72427970617373, 0x6573636f5468726f774f766572, 0x72616c, 0x6f74686572, 0x6772616c, 0x75674d756c7469537769746368]
/-- Enumeration CIM15.IEC61970.Informative.InfAssets.CoolingKind -/
def e_CoolingKind : SType := .enum 0x436f6f6c696e674b696e64 [0x666f72636564416972, 0x73656c66436f6f6c696e67, 0x666f726365644f696c416e64416972, 0x6f74686572]
/-- Enumeration CIM15.IEC61970.Informative.InfAssets.FACTSDeviceKind -/
def e_FACTSDeviceKind : SType := .enum 0x46414354534465766963654b696e64 [0x7463706172, 0x74737363, 0x74736272, 0x737663, 0x74637363, 0x7463766c, 0x73746174636f6d, 0x75706663]
/-- Enumeration CIM15.IEC61970.Informative.InfAssets.FacilityKind -/
def e_FacilityKind : SType := .enum 0x466163696c6974794b696e64 [0x706c616e74, 0x6275696c64696e67, 0x73746f72616765, 0x737769746368696e67, 0x67656e65726174696f6e]
/-- Enumeration CIM15.IEC61970.Informative.InfAssets.FailureIsolationMethodKind -/
def e_FailureIsolationMethodKind : SType := .enum 0x4661696c75726549736f6c6174696f6e4d6574686f644b696e64 [0x66757365, 0x6d616e75616c6c7949736f6c61746564, 0x627265616b65724f7065726174696f6e, 0x6f74686572, 0x6275726e6564496e546865436c656172]
/-- Enumeration CIM15.IEC61970.Informative.InfAssets.FaultIndicatorResetKind -/
def e_FaultIndicatorResetKind : SType := .enum 0x4661756c74496e64696361746f7252657365744b696e64 [0x6175746f6d61746963, 0x6f74686572, 0x72656d6f7465, 0x6d616e75616c]
/-- Enumeration CIM15.IEC61970.Informative.InfAssets.JointConfigurationKind -/
def e_JointConfigurationKind : SType := .enum 0x4a6f696e74436f6e66696775726174696f6e4b696e64 [0x6f74686572, 0x776972657332746f31, 0x776972657333746f31, 0x776972657331746f31]
/-- Enumeration CIM15.IEC61970.Informative.InfAssets.JointFillKind -/
def e_JointFillKind : SType := .enum 0x4a6f696e7446696c6c4b696e64 [0x65706f7879, 0x6e6f46696c6c507265666162, 0x6169724e6f46696c6c696e67, 0x6f74686572, 0x61737068616c746963, 0x696e736f6c757365616c, 0x6f696c, 0x6e6f566f6964, 0x706574726f6c6174756d, 0x626c756566696c6c323534]
/-- Enumeration CIM15.IEC61970.Informative.InfAssets.MediumKind -/
def e_MediumKind : SType := .enum 0x4d656469756d4b696e64 [0x676173, 0x6c6971756964, 0x736f6c6964]
/-- Enumeration CIM15.IEC61970.Informative.InfAssets.PoleBaseKind -/
def e_PoleBaseKind : SType := .enum 0x506f6c65426173654b696e64 [0x64697274, 0x61737068616c74, 0x756e6b6e6f776e, 0x63656d656e74, 0x6f74686572]
/-- Enumeration CIM15.IEC61970.Informative.InfAssets.PolePreservativeKind -/
def e_PolePreservativeKind : SType := .enum 0x506f6c655072657365727661746976654b696e64 [0x70656e7461, 0x756e6b6e6f776e, 0x6368656d6f6e697465, 0x6f74686572, 0x6e6170687468656e61, 0x6372656f736f7465, 0x63656c6c6f6e]
/-- Enumeration CIM15.IEC61970.Informative.InfAssets.PoleTreatmentKind -/
def e_PoleTreatmentKind : SType := .enum 0x506f6c6554726561746d656e744b696e64 [0x756e6b6e6f776e, 0x6e61747572616c, 0x67726179537461696e, 0x677265656e537461696e, 0x70656e7461, 0x62757474, 0x6f74686572, 0x66756c6c]
/-- Enumeration CIM15.IEC61970.Informative.InfAssets.ProcedureKind -/
def e_ProcedureKind : SType := .enum 0x50726f6365647572654b696e64 [0x74657374, 0x6d61696e74656e616e6365, 0x6f74686572, 0x696e7370656374696f6e, 0x646961676e6f736973]
/-- Enumeration CIM15.IEC61970.Informative.InfAssets.RegulationBranchKind -/
def e_RegulationBranchKind : SType := .enum 0x526567756c6174696f6e4272616e63684b696e64 [0x7265636c6f736572, 0x7472616e73666f726d6572, 0x627265616b6572, 0x66757365, 0x737769746368, 0x73656374696f6e6e6572, 0x6f74686572, 0x6c696e65]
/-- Enumeration CIM15.IEC61970.Informative.InfAssets.ShuntImpedanceControlKind -/
def e_ShuntImpedanceControlKind : SType := .enum 0x5368756e74496d706564616e6365436f6e74726f6c4b696e64 [0x72656d6f74654f6e6c79, 0x72656d6f7465576974684c6f63616c4f76657272696465, 0x6c6f63616c4f6e6c79, 0x6669786564]
/-- Enumeration CIM15.IEC61970.Informative.InfAssets.ShuntImpedanceLocalControlKind -/
def e_ShuntImpedanceLocalControlKind : SType := .enum 0x5368756e74496d706564616e63654c6f63616c436f6e74726f6c4b696e64 [0x6e6f6e65, 0x74656d7065726174757265, 0x706f776572466163746f72, 0x766f6c74616765, 0x7265616374697665506f776572, 0x74696d65, 0x63757272656e74]
/-- Enumeration CIM15.IEC61970.Informative.InfAssets.StreetlightLampKind -/
def e_StreetlightLampKind : SType := .enum 0x5374726565746c696768744c616d704b696e64 [0x6d6574616c48616c696465, 0x686967685072657373757265536f6469756d, 0x6f74686572, 0x6d6572637572795661706f72]
/-- Enumeration CIM15.IEC61970.Informative.InfAssets.StructureMaterialKind -/
def e_StructureMaterialKind : SType := .enum 0x5374727563747572654d6174657269616c4b696e64 [0x776f6f64, 0x636f6e6372657465, 0x737465656c, 0x6f74686572]
/-- Enumeration CIM15.IEC61970.Informative.InfAssets.StructureSupportKind -/
def e_StructureSupportKind : SType := .enum 0x537472756374757265537570706f72744b696e64 [0x677579, 0x616e63686f72]
/-- Enumeration CIM15.IEC61970.Informative.InfAssets.SubstationFunctionKind -/
def e_SubstationFunctionKind : SType := .enum 0x53756273746174696f6e46756e6374696f6e4b696e64 [0x7472616e736d697373696f6e, 0x646973747269627574696f6e, 0x6f74686572, 0x67656e65726174696f6e, 0x7375625472616e736d697373696f6e, 0x696e647573747269616c]
/-- Enumeration CIM15.IEC61970.Informative.InfAssets.TowerConstructionKind -/
def e_TowerConstructionKind : SType := .enum 0x546f776572436f6e737472756374696f6e4b696e64 [0x73757370656e73696f6e, 0x74656e73696f6e]
/-- Enumeration CIM15.IEC61970.Informative.InfAssets.UndergroundStructureKind -/
def e_UndergroundStructureKind : SType := .enum 0x556e64657267726f756e645374727563747572654b696e64 [0x7472656e6368, 0x70756c6c626f78, 0x7661756c74, 0x62757264, 0x73756273757266616365456e636c6f73757265, 0x68616e64686f6c65, 0x656e636c6f73757265, 0x74756e6e656c, 0x6d616e686f6c65, 0x706164]
/-- Enumeration CIM15.IEC61970.Informative.InfAssets.VehicleUsageKind -/
def e_VehicleUsageKind : SType := .enum 0x56656869636c6555736167654b696e64 [0x63726577, 0x636f6e74726163746f72, 0x75736572, 0x6f74686572]
/-- Enumeration CIM15.IEC61970.Informative.InfCommon.SkillLevelKind -/
def e_SkillLevelKind : SType := .enum 0x536b696c6c4c6576656c4b696e64 [0x61707072656e74696365, 0x6f74686572, 0x6d6173746572, 0x7374616e64617264]
/-- Enumeration CIM15.IEC61970.Informative.InfCustomers.CustomerBillingKind -/
def e_CustomerBillingKind : SType := .enum 0x437573746f6d657242696c6c696e674b696e64 [0x636f6e736f6c696461746564556463, 0x6f74686572, 0x7365706172617465457373556463, 0x636f6e736f6c696461746564457373]
/-- Enumeration CIM15.IEC61970.Informative.InfERPSupport.BillMediaKind -/
def e_BillMediaKind : SType := .enum 0x42696c6c4d656469614b696e64 [0x6f74686572, 0x7061706572, 0x656c656374726f6e6963]
/-- Enumeration CIM15.IEC61970.Informative.InfERPSupport.ErpAccountKind -/
def e_ErpAccountKind : SType := .enum 0x4572704163636f756e744b696e64 [0x6e6f726d616c, 0x657374696d617465, 0x737461746973746963616c, 0x726576657273616c]
/-- Enumeration CIM15.IEC61970.Informative.InfERPSupport.ErpInvoiceKind -/
def e_ErpInvoiceKind : SType := .enum 0x457270496e766f6963654b696e64 [0x73616c6573, 0x7075726368617365]
/-- Enumeration CIM15.IEC61970.Informative.InfERPSupport.ErpInvoiceLineItemKind -/
def e_ErpInvoiceLineItemKind : SType := .enum 0x457270496e766f6963654c696e654974656d4b696e64 [0x6f74686572, 0x726563616c63756c6174696f6e, 0x696e697469616c]
/-- Enumeration CIM15.IEC61970.Informative.InfGMLSupport.DiagramKind -/
def e_DiagramKind : SType := .enum 0x4469616772616d4b696e64 [0x6f74686572, 0x67656f67726170686963, 0x696e7465726e616c56696577, 0x64657369676e536b65746368, 0x736368656d61746963]
/-- Enumeration CIM15.IEC61970.Informative.InfGMLSupport.QueryGrammarKind -/
def e_QueryGrammarKind : SType := .enum 0x51756572794772616d6d61724b696e64 [0x6f74686572, 0x7870617468, 0x787175657279]
/-- Enumeration CIM15.IEC61970.Informative.InfLoadControl.LoadMgmtKind -/
def e_LoadMgmtKind : SType := .enum 0x4c6f61644d676d744b696e64 [0x72656d6f7465436f6e74726f6c, 0x74696d654261736564, 0x7461726966664261736564, 0x6d616e75616c436f6e74726f6c]
/-- Enumeration CIM15.IEC61970.Informative.InfLoadControl.LoadStateKind -/
def e_LoadStateKind : SType := .enum 0x4c6f616453746174654b696e64 [0x6c696d697465644c6f6164, 0x6e6f4c6f6164, 0x66756c6c4c6f6164]
/-- Enumeration CIM15.IEC61970.Informative.InfLocations.DemographicKind -/
def e_DemographicKind : SType := .enum 0x44656d6f677261706869634b696e64 [0x6f74686572, 0x757262616e, 0x727572616c]
/-- Enumeration CIM15.IEC61970.Informative.InfLocations.LandPropertyKind -/
def e_LandPropertyKind : SType := .enum 0x4c616e6450726f70657274794b696e64 [0x73746f7265, 0x637573746f6d65725072656d697365, 0x6275696c64696e67, 0x65787465726e616c, 0x67726964537570706c79506f696e74, 0x73756273746174696f6e, 0x6465706f74]
/-- Enumeration CIM15.IEC61970.Informative.InfLocations.ZoneKind -/
def e_ZoneKind : SType := .enum 0x5a6f6e654b696e64 [0x776561746865725a6f6e65, 0x6f74686572, 0x7370656369616c5265737472696374696f6e4c616e64, 0x656c656374726963616c4e6574776f726b]
/-- Enumeration CIM15.IEC61970.Informative.InfOperations.ChangeItemKind -/
def e_ChangeItemKind : SType := .enum 0x4368616e67654974656d4b696e64 [0x616464, 0x6d6f64696679, 0x64656c657465]
/-- Enumeration CIM15.IEC61970.Informative.InfOperations.CircuitConnectionKind -/
def e_CircuitConnectionKind : SType := .enum 0x43697263756974436f6e6e656374696f6e4b696e64 [0x656c656374726963616c6c79436f6e6e6563746564, 0x6e6f6d696e616c6c79436f6e6e6563746564, 0x61734275696c74, 0x6f74686572]
/-- Enumeration CIM15.IEC61970.Informative.InfOperations.OutageKind -/
def e_OutageKind : SType := .enum 0x4f75746167654b696e64 [0x6669786564, 0x666c657869626c65, 0x666f72636564]
/-- Enumeration CIM15.IEC61970.Informative.InfOperations.PSREventKind -/
def e_PSREventKind : SType := .enum 0x5053524576656e744b696e64 [0x70656e64696e6752656d6f7665, 0x70656e64696e675265706c616365, 0x6f75744f6653657276696365, 0x70656e64696e67416464, 0x756e6b6e6f776e, 0x696e53657276696365, 0x6f74686572]
/-- Enumeration CIM15.IEC61970.Informative.InfOperations.SwitchingStepStatusKind -/
def e_SwitchingStepStatusKind : SType := .enum 0x537769746368696e67537465705374617475734b696e64 [0x696e7374727563746564, 0x636f6e6669726d6564, 0x70726f706f736564, 0x61626f72746564, 0x736b6970706564]
/-- Enumeration CIM15.IEC61970.Informative.InfOperations.TroubleReportingKind -/
def e_TroubleReportingKind : SType := .enum 0x54726f75626c655265706f7274696e674b696e64 [0x656d61696c, 0x63616c6c, 0x6c6574746572, 0x6f74686572]
/-- Enumeration CIM15.IEC61970.Informative.InfWork.ConditionFactorKind -/
def e_ConditionFactorKind : SType := .enum 0x436f6e646974696f6e466163746f724b696e64 [0x6d6174657269616c, 0x74726176656c, 0x6163636f756e74416c6c6f636174696f6e, 0x6c61626f72, 0x6f74686572]
/-- Enumeration CIM15.IEC61970.Informative.InfWork.DesignKind -/
def e_DesignKind : SType := .enum 0x44657369676e4b696e64 [0x61734275696c74, 0x6f74686572, 0x657374696d61746564]
/-- Enumeration CIM15.IEC61970.Informative.InfWork.WorkActionKind -/
def e_WorkActionKind : SType := .enum 0x576f726b416374696f6e4b696e64 [0x696e7374616c6c, 0x72656d6f7665, 0x7472616e73666572, 0x6162616e646f6e]
/-- Enumeration CIM15.IEC61970.LoadModel.SeasonName -/
def e_SeasonName : SType := .enum 0x536561736f6e4e616d65 [0x77696e746572, 0x73756d6d6572, 0x66616c6c, 0x737072696e67]
/-- Enumeration CIM15.IEC61970.Meas.Validity -/
def e_Validity : SType := .enum 0x56616c6964697479 [0x5155455354494f4e41424c45, 0x494e56414c4944, 0x474f4f44]
/-- Enumeration CIM15.IEC61970.OperationalLimits.OperationalLimitDirectionKind -/
def e_OperationalLimitDirectionKind : SType := .enum 0x4f7065726174696f6e616c4c696d6974446972656374696f6e4b696e64 [0x6c6f77, 0x68696768, 0x6162736f6c75746556616c7565]
/-- Enumeration CIM15.IEC61970.Outage.SwitchState -/
def e_SwitchState : SType := .enum 0x5377697463685374617465 [0x6f70656e, 0x636c6f7365]
/-- Enumeration CIM15.IEC61970.SCADA.RemoteUnitType -/
def e_RemoteUnitType : SType := .enum 0x52656d6f7465556e697454797065 [0x53756273746174696f6e436f6e74726f6c53797374656d, 0x494544, 0x436f6e74726f6c43656e746572, 0x525455]
/-- Enumeration CIM15.IEC61970.SCADA.Source -/
def e_Source : SType := .enum 0x536f75726365 [0x5355425354495455544544, 0x44454641554c544544, 0x50524f43455353]
/-- Enumeration CIM15.IEC61970.Wires.CoolantType -/
def e_CoolantType : SType := .enum 0x436f6f6c616e7454797065 [0x616972, 0x687964726f67656e476173, 0x7761746572]
/-- Enumeration CIM15.IEC61970.Wires.PhaseTapChangerKind -/
def e_PhaseTapChangerKind : SType := .enum 0x50686173655461704368616e6765724b696e64 [0x756e6b6e6f776e, 0x6173796d6d6574726963616c, 0x73796d6d6574726963616c]
/-- Enumeration CIM15.IEC61970.Wires.RegulatingControlModeKind -/
def e_RegulatingControlModeKind : SType := .enum 0x526567756c6174696e67436f6e74726f6c4d6f64654b696e64 [0x6669786564, 0x74696d655363686564756c6564, 0x766f6c74616765, 0x61646d697474616e6365, 0x7265616374697665506f776572, 0x706f776572466163746f72, 0x63757272656e74466c6f77, 0x616374697665506f776572, 0x74656d7065726174757265]
/-- Enumeration CIM15.IEC61970.Wires.SVCControlMode -/
def e_SVCControlMode : SType := .enum 0x535643436f6e74726f6c4d6f6465 [0x6f6666, 0x766f6c74616765, 0x7265616374697665506f776572]
/-- Enumeration CIM15.IEC61970.Wires.SynchronousMachineOperatingMode -/
def e_SynchronousMachineOperatingMode : SType := .enum 0x53796e6368726f6e6f75734d616368696e654f7065726174696e674d6f6465 [0x636f6e64656e736572, 0x67656e657261746f72]
/-- Enumeration CIM15.IEC61970.Wires.SynchronousMachineType -/
def e_SynchronousMachineType : SType := .enum 0x53796e6368726f6e6f75734d616368696e6554797065 [0x636f6e64656e736572, 0x67656e657261746f725f6f725f636f6e64656e736572, 0x67656e657261746f72]
/-- Enumeration CIM15.IEC61970.Wires.TapChangerKind -/
def e_TapChangerKind : SType := .enum 0x5461704368616e6765724b696e64 [0x766f6c74616765416e645068617365436f6e74726f6c, 0x7068617365436f6e74726f6c, 0x6669786564, 0x766f6c74616765436f6e74726f6c]
/-- Enumeration CIM15.IEC61970.Wires.TransformerControlMode -/
def e_TransformerControlMode : SType := .enum 0x5472616e73666f726d6572436f6e74726f6c4d6f6465 [0x7265616374697665, 0x766f6c74]
/-- Enumeration CIM15.IEC61970.Wires.WindingConnection -/
def e_WindingConnection : SType := .enum 0x57696e64696e67436f6e6e656374696f6e [0x5a, 0x41, 0x596e, 0x59, 0x5a6e, 0x44, 0x49]
/-- Enumeration CIM15.IEC61970.Wires.WindingType -/
def e_WindingType : SType := .enum 0x57696e64696e6754797065 [0x7465727469617279, 0x7072696d617279, 0x7365636f6e64617279, 0x7175617465726e617279]
/-- Enumeration CIM15.IEC61970.WiresPhaseModel.SinglePhaseKind -/
def e_SinglePhaseKind : SType := .enum 0x53696e676c6550686173654b696e64 [0x43, 0x4e, 0x7331, 0x42, 0x7332, 0x41]
/-- Enumeration CIM15.IEC62325.MarketRoleKind -/
def e_MarketRoleKind : SType := .enum 0x4d61726b6574526f6c654b696e64 [0x7472616e736d697373696f6e4f70657261746f72, 0x636f6d706c69616e63654d6f6e69746f72, 0x7374616e6461726473446576656c6f706572, 0x696e7465726368616e6765417574686f72697479, 0x656e6572677953657276696365436f6e73756d6572, 0x706c616e6e696e67417574686f72697479, 0x6f74686572, 0x70757263686173696e6753656c6c696e67456e74697479, 0x636f6d706574697469766552657461696c6572, 0x7472616e736d697373696f6e4f776e6572, 0x7472616e736d697373696f6e5365727669636550726f7669646572, 0x67656e657261746f724f70657261746f72, 0x62616c616e63696e67417574686f72697479, 0x6c6f616453657276696e67456e74697479, 0x7472616e736d697373696f6e506c616e6e6572, 0x646973747269627574696f6e50726f7669646572, 0x72656c696162696c697479417574686f72697479, 0x7265736f75726365506c616e6e6572, 0x67656e657261746f724f776e6572]
/-- Data type with values of EBoolean -/
def t_EBoolean : SType := .prim 0x45426f6f6c65616e
/-- Data type with values of EFloat -/
def t_EFloat : SType := .prim 0x45466c6f6174
/-- Data type with values of EInt -/
def t_EInt : SType := .prim 0x45496e74
/-- Data type with values of EString -/
def t_EString : SType := .prim 0x45537472696e67
/-- Data type with values of float -/
def t_float : SType := .prim 0x666c6f6174
/-- Data type with values of java.lang.String -/
def t_java_lang_String : SType := .prim 0x6a6176612e6c616e672e537472696e67
/-- Data type with values of java.math.BigInteger -/
def t_java_math_BigInteger : SType := .prim 0x6a6176612e6d6174682e426967496e7465676572
/-- Data type with values of java.util.Date -/
def t_java_util_Date : SType := .prim 0x6a6176612e7574696c2e44617465

/-- Class CIM15.CombinedVersion -/
def s_CombinedVersion : SClass := ⟨0x436f6d62696e656456657273696f6e, 0x43494d31352e436f6d62696e656456657273696f6e, 0x43494d31352e456c656d656e74,
  [(0x64617465, t_java_lang_String), (0x76657273696f6e, t_EString)],
  []⟩
/-- Class CIM15.Element -/
def s_Element : SClass := ⟨0x456c656d656e74, 0x43494d31352e456c656d656e74, 0,
  [(0x55554944, t_EString)],
  []⟩
/-- Class CIM15.IEC61968.AssetModels.CableInfo -/
def s_CableInfo : SClass := ⟨0x4361626c65496e666f, 0x43494d31352e49454336313936382e41737365744d6f64656c732e4361626c65496e666f, 0x43494d31352e49454336313936382e41737365744d6f64656c732e436f6e647563746f72496e666f,
  [(0x6f757465724a61636b65744b696e64, e_CableOuterJacketKind), (0x73686561746841734e65757472616c, t_EBoolean), (0x6973537472616e6446696c6c, t_EBoolean), (0x6e6f6d696e616c54656d7065726174757265, t_float), (0x636f6e737472756374696f6e4b696e64, e_CableConstructionKind), (0x6469616d657465724f7665724a61636b6574, t_float), (0x6469616d657465724f766572496e73756c6174696f6e, t_float), (0x6469616d657465724f76657253637265656e, t_float), (0x736869656c644d6174657269616c, e_CableShieldMaterialKind), (0x6469616d657465724f766572436f7265, t_float)],
  [⟨0x4475637442616e6b496e666f, 0x43494d31352e49454336313937302e496e666f726d61746976652e496e664173736574732e44756374, false, 0x4361626c65496e666f73⟩]⟩
/-- Class CIM15.IEC61968.AssetModels.ConcentricNeutralCableInfo -/
def s_ConcentricNeutralCableInfo : SClass := ⟨0x436f6e63656e747269634e65757472616c4361626c65496e666f, 0x43494d31352e49454336313936382e41737365744d6f64656c732e436f6e63656e747269634e65757472616c4361626c65496e666f, 0x43494d31352e49454336313936382e41737365744d6f64656c732e4361626c65496e666f,
  [(0x6e65757472616c537472616e64436f756e74, t_EInt), (0x6469616d657465724f7665724e65757472616c, t_float)],
  [⟨0x5769726554797065, 0x43494d31352e49454336313936382e41737365744d6f64656c732e5769726554797065, false, 0x436f6e63656e747269634e65757472616c4361626c65496e666f73⟩]⟩
/-- Class CIM15.IEC61968.AssetModels.ConductorInfo -/
def s_ConductorInfo : SClass := ⟨0x436f6e647563746f72496e666f, 0x43494d31352e49454336313936382e41737365744d6f64656c732e436f6e647563746f72496e666f, 0x43494d31352e49454336313936382e4173736574732e4173736574496e666f,
  [(0x696e73756c61746564, t_EBoolean), (0x7573616765, e_ConductorUsageKind), (0x696e73756c6174696f6e4d6174657269616c, e_ConductorInsulationKind), (0x7068617365436f756e74, t_EInt), (0x696e73756c6174696f6e546869636b6e657373, t_float)],
  [⟨0x57697265417272616e67656d656e7473, 0x43494d31352e49454336313936382e41737365744d6f64656c732e57697265417272616e67656d656e74, true, 0x436f6e647563746f72496e666f⟩, ⟨0x4c696e655365676d656e7473, 0x43494d31352e49454336313937302e57697265732e41434c696e655365676d656e74, true, 0x436f6e647563746f72496e666f⟩]⟩
/-- Class CIM15.IEC61968.AssetModels.EndDeviceInfo -/
def s_EndDeviceInfo : SClass := ⟨0x456e64446576696365496e666f, 0x43494d31352e49454336313936382e41737365744d6f64656c732e456e64446576696365496e666f, 0x43494d31352e49454336313936382e4173736574732e4173736574496e666f,
  [(0x7068617365436f756e74, t_EInt), (0x726174656443757272656e74, t_float), (0x7261746564566f6c74616765, t_float)],
  [⟨0x456e6444657669636573, 0x43494d31352e49454336313936382e4d65746572696e672e456e64446576696365, true, 0x456e64446576696365496e666f⟩]⟩
/-- Class CIM15.IEC61968.AssetModels.NoLoadTest -/
def s_NoLoadTest : SClass := ⟨0x4e6f4c6f616454657374, 0x43494d31352e49454336313936382e41737365744d6f64656c732e4e6f4c6f616454657374, 0x43494d31352e49454336313936382e41737365744d6f64656c732e5472616e73666f726d657254657374,
  [(0x6578636974696e6743757272656e74, t_float), (0x6c6f73735a65726f, t_float), (0x6578636974696e6743757272656e745a65726f, t_float), (0x656e65726769736564456e64566f6c74616765, t_float), (0x6c6f7373, t_float)],
  [⟨0x456e65726769736564456e64, 0x43494d31352e49454336313936382e41737365744d6f64656c732e5472616e73666f726d6572456e64496e666f, false, 0x456e65726769736564456e644e6f4c6f616454657374⟩]⟩
/-- Class CIM15.IEC61968.AssetModels.OpenCircuitTest -/
def s_OpenCircuitTest : SClass := ⟨0x4f70656e4369726375697454657374, 0x43494d31352e49454336313936382e41737365744d6f64656c732e4f70656e4369726375697454657374, 0x43494d31352e49454336313936382e41737365744d6f64656c732e5472616e73666f726d657254657374,
  [(0x656e65726769736564456e6453746570, t_EInt), (0x6f70656e456e64566f6c74616765, t_float), (0x6f70656e456e6453746570, t_EInt), (0x656e65726769736564456e64566f6c74616765, t_float), (0x70686173655368696674, t_float)],
  [⟨0x4f70656e456e64, 0x43494d31352e49454336313936382e41737365744d6f64656c732e5472616e73666f726d6572456e64496e666f, false, 0x4f70656e456e644f70656e436972637569745465737473⟩, ⟨0x456e65726769736564456e64, 0x43494d31352e49454336313936382e41737365744d6f64656c732e5472616e73666f726d6572456e64496e666f, false, 0x456e65726769736564456e644f70656e436972637569745465737473⟩]⟩
/-- Class CIM15.IEC61968.AssetModels.OverheadConductorInfo -/
def s_OverheadConductorInfo : SClass := ⟨0x4f76657268656164436f6e647563746f72496e666f, 0x43494d31352e49454336313936382e41737365744d6f64656c732e4f76657268656164436f6e647563746f72496e666f, 0x43494d31352e49454336313936382e41737365744d6f64656c732e436f6e647563746f72496e666f,
  [(0x6e65757472616c496e73756c6174696f6e546869636b6e657373, t_float), (0x7068617365436f6e647563746f7253706163696e67, t_float), (0x7068617365436f6e647563746f72436f756e74, t_EInt)],
  [⟨0x4d6f756e74696e67506f696e74, 0x43494d31352e49454336313937302e496e666f726d61746976652e496e664173736574732e4d6f756e74696e67506f696e74, false, 0x4f76657268656164436f6e647563746f7273⟩]⟩
/-- Class CIM15.IEC61968.AssetModels.PowerTransformerInfo -/
def s_PowerTransformerInfo : SClass := ⟨0x506f7765725472616e73666f726d6572496e666f, 0x43494d31352e49454336313936382e41737365744d6f64656c732e506f7765725472616e73666f726d6572496e666f, 0x43494d31352e49454336313936382e4173736574732e4173736574496e666f,
  [],
  [⟨0x5472616e73666f726d657254616e6b496e666f, 0x43494d31352e49454336313936382e41737365744d6f64656c732e5472616e73666f726d657254616e6b496e666f, true, 0x506f7765725472616e73666f726d6572496e666f⟩, ⟨0x506f7765725472616e73666f726d657273, 0x43494d31352e49454336313937302e57697265732e506f7765725472616e73666f726d6572, true, 0x506f7765725472616e73666f726d6572496e666f⟩]⟩
/-- Class CIM15.IEC61968.AssetModels.ShortCircuitTest -/
def s_ShortCircuitTest : SClass := ⟨0x53686f72744369726375697454657374, 0x43494d31352e49454336313936382e41737365744d6f64656c732e53686f72744369726375697454657374, 0x43494d31352e49454336313936382e41737365744d6f64656c732e5472616e73666f726d657254657374,
  [(0x6c6f73735a65726f, t_float), (0x6c65616b616765496d706564616e6365, t_float), (0x6c6f7373, t_float), (0x67726f756e646564456e6453746570, t_EInt), (0x6c65616b616765496d706564616e63655a65726f, t_float), (0x656e65726769736564456e6453746570, t_EInt)],
  [⟨0x47726f756e646564456e6473, 0x43494d31352e49454336313936382e41737365744d6f64656c732e5472616e73666f726d6572456e64496e666f, true, 0x47726f756e646564456e6453686f7274436972637569745465737473⟩, ⟨0x456e65726769736564456e64, 0x43494d31352e49454336313936382e41737365744d6f64656c732e5472616e73666f726d6572456e64496e666f, false, 0x456e65726769736564456e6453686f7274436972637569745465737473⟩]⟩
/-- Class CIM15.IEC61968.AssetModels.TapChangerInfo -/
def s_TapChangerInfo : SClass := ⟨0x5461704368616e676572496e666f, 0x43494d31352e49454336313936382e41737365744d6f64656c732e5461704368616e676572496e666f, 0x43494d31352e49454336313936382e4173736574732e4173736574496e666f,
  [(0x6374526174696e67, t_float), (0x737465705068617365496e6372656d656e74, t_float), (0x72617465644170706172656e74506f776572, t_float), (0x6672657175656e6379, t_float), (0x6e65757472616c55, t_float), (0x6374526174696f, t_EFloat), (0x73746570566f6c74616765496e6372656d656e74, t_float), (0x69735463756c, t_EBoolean), (0x6e65757472616c53746570, t_EInt), (0x726174656443757272656e74, t_float), (0x6c6f7753746570, t_EInt), (0x7261746564566f6c74616765, t_float), (0x6869676853746570, t_EInt), (0x7074526174696f, t_EFloat), (0x62696c, t_float)],
  [⟨0x5461704368616e67657273, 0x43494d31352e49454336313937302e57697265732e5461704368616e676572, true, 0x5461704368616e676572496e666f⟩]⟩
/-- Class CIM15.IEC61968.AssetModels.TapeShieldCableInfo -/
def s_TapeShieldCableInfo : SClass := ⟨0x54617065536869656c644361626c65496e666f, 0x43494d31352e49454336313936382e41737365744d6f64656c732e54617065536869656c644361626c65496e666f, 0x43494d31352e49454336313936382e41737365744d6f64656c732e4361626c65496e666f,
  [(0x746170654c6170, t_float), (0x74617065546869636b6e657373, t_float)],
  []⟩
/-- Class CIM15.IEC61968.AssetModels.TransformerEndInfo -/
def s_TransformerEndInfo : SClass := ⟨0x5472616e73666f726d6572456e64496e666f, 0x43494d31352e49454336313936382e41737365744d6f64656c732e5472616e73666f726d6572456e64496e666f, 0x43494d31352e49454336313936382e4173736574732e4173736574496e666f,
  [(0x72, t_float), (0x696e73756c6174696f6e55, t_float), (0x656d657267656e637953, t_float), (0x73686f72745465726d53, t_float), (0x636f6e6e656374696f6e4b696e64, e_WindingConnection), (0x656e644e756d626572, t_EInt), (0x726174656453, t_float), (0x726174656455, t_float), (0x7068617365416e676c65436c6f636b, t_EInt)],
  [⟨0x46726f6d4d657368496d706564616e6365, 0x43494d31352e49454336313937302e57697265732e5472616e73666f726d65724d657368496d706564616e6365, true, 0x46726f6d5472616e73666f726d6572456e64496e666f⟩, ⟨0x456e65726769736564456e644e6f4c6f616454657374, 0x43494d31352e49454336313936382e41737365744d6f64656c732e4e6f4c6f616454657374, true, 0x456e65726769736564456e64⟩, ⟨0x4f70656e456e644f70656e436972637569745465737473, 0x43494d31352e49454336313936382e41737365744d6f64656c732e4f70656e4369726375697454657374, true, 0x4f70656e456e64⟩, ⟨0x546f4d657368496d706564616e6365, 0x43494d31352e49454336313937302e57697265732e5472616e73666f726d65724d657368496d706564616e6365, true, 0x546f5472616e73666f726d6572456e64496e666f⟩, ⟨0x5472616e73666f726d6572456e64, 0x43494d31352e49454336313937302e57697265732e5472616e73666f726d6572456e64, true, 0x5472616e73666f726d6572456e64496e666f⟩, ⟨0x5472616e73666f726d657254616e6b496e666f, 0x43494d31352e49454336313936382e41737365744d6f64656c732e5472616e73666f726d657254616e6b496e666f, false, 0x5472616e73666f726d6572456e64496e666f73⟩, ⟨0x456e65726769736564456e644f70656e436972637569745465737473, 0x43494d31352e49454336313936382e41737365744d6f64656c732e4f70656e4369726375697454657374, true, 0x456e65726769736564456e64⟩, ⟨0x47726f756e646564456e6453686f7274436972637569745465737473, 0x43494d31352e49454336313936382e41737365744d6f64656c732e53686f72744369726375697454657374, true, 0x47726f756e646564456e6473⟩, ⟨0x456e65726769736564456e6453686f7274436972637569745465737473, 0x43494d31352e49454336313936382e41737365744d6f64656c732e53686f72744369726375697454657374, true, 0x456e65726769736564456e64⟩, ⟨0x436f726541646d697474616e6365, 0x43494d31352e49454336313937302e57697265732e5472616e73666f726d6572436f726541646d697474616e6365, false, 0x5472616e73666f726d6572456e64496e666f⟩]⟩
/-- Class CIM15.IEC61968.AssetModels.TransformerTankInfo -/
def s_TransformerTankInfo : SClass := ⟨0x5472616e73666f726d657254616e6b496e666f, 0x43494d31352e49454336313936382e41737365744d6f64656c732e5472616e73666f726d657254616e6b496e666f, 0x43494d31352e49454336313936382e4173736574732e4173736574496e666f,
  [],
  [⟨0x5472616e73666f726d6572417373657473, 0x43494d31352e49454336313937302e496e666f726d61746976652e496e664173736574732e5472616e73666f726d65724173736574, true, 0x5472616e73666f726d6572496e666f⟩, ⟨0x5472616e73666f726d6572456e64496e666f73, 0x43494d31352e49454336313936382e41737365744d6f64656c732e5472616e73666f726d6572456e64496e666f, true, 0x5472616e73666f726d657254616e6b496e666f⟩, ⟨0x506f7765725472616e73666f726d6572496e666f, 0x43494d31352e49454336313936382e41737365744d6f64656c732e506f7765725472616e73666f726d6572496e666f, false, 0x5472616e73666f726d657254616e6b496e666f⟩, ⟨0x5472616e73666f726d657241737365744d6f64656c73, 0x43494d31352e49454336313937302e496e666f726d61746976652e496e6641737365744d6f64656c732e5472616e73666f726d657241737365744d6f64656c, true, 0x5472616e73666f726d6572496e666f⟩, ⟨0x5472616e73666f726d657254616e6b73, 0x43494d31352e49454336313937302e57697265732e5472616e73666f726d657254616e6b, true, 0x5472616e73666f726d657254616e6b496e666f⟩]⟩
/-- Class CIM15.IEC61968.AssetModels.TransformerTest -/
def s_TransformerTest : SClass := ⟨0x5472616e73666f726d657254657374, 0x43494d31352e49454336313936382e41737365744d6f64656c732e5472616e73666f726d657254657374, 0x43494d31352e49454336313937302e436f72652e4964656e7469666965644f626a656374,
  [(0x62617365506f776572, t_float), (0x74656d7065726174757265, t_float)],
  []⟩
/-- Class CIM15.IEC61968.AssetModels.WireArrangement -/
def s_WireArrangement : SClass := ⟨0x57697265417272616e67656d656e74, 0x43494d31352e49454336313936382e41737365744d6f64656c732e57697265417272616e67656d656e74, 0x43494d31352e49454336313937302e436f72652e4964656e7469666965644f626a656374,
  [(0x6d6f756e74696e67506f696e7459, t_float), (0x6d6f756e74696e67506f696e7458, t_float), (0x706f736974696f6e, t_EInt)],
  [⟨0x436f6e647563746f72496e666f, 0x43494d31352e49454336313936382e41737365744d6f64656c732e436f6e647563746f72496e666f, false, 0x57697265417272616e67656d656e7473⟩, ⟨0x5769726554797065, 0x43494d31352e49454336313936382e41737365744d6f64656c732e5769726554797065, false, 0x57697265417272616e67656d656e7473⟩]⟩
/-- Class CIM15.IEC61968.AssetModels.WireType -/
def s_WireType : SClass := ⟨0x5769726554797065, 0x43494d31352e49454336313936382e41737365744d6f64656c732e5769726554797065, 0x43494d31352e49454336313937302e436f72652e4964656e7469666965644f626a656374,
  [(0x636f7265526164697573, t_float), (0x7241433530, t_float), (0x636f7265537472616e64436f756e74, t_EInt), (0x726164697573, t_float), (0x6d6174657269616c, e_ConductorMaterialKind), (0x7244433230, t_float), (0x73697a654465736372697074696f6e, t_EString), (0x7241433735, t_float), (0x676d72, t_float), (0x726174656443757272656e74, t_float), (0x737472616e64436f756e74, t_EInt), (0x7241433235, t_float)],
  [⟨0x57697265417272616e67656d656e7473, 0x43494d31352e49454336313936382e41737365744d6f64656c732e57697265417272616e67656d656e74, true, 0x5769726554797065⟩, ⟨0x436f6e63656e747269634e65757472616c4361626c65496e666f73, 0x43494d31352e49454336313936382e41737365744d6f64656c732e436f6e63656e747269634e65757472616c4361626c65496e666f, true, 0x5769726554797065⟩]⟩
/-- Class CIM15.IEC61968.Assets.AcceptanceTest -/
def s_AcceptanceTest : SClass := ⟨0x416363657074616e636554657374, 0x43494d31352e49454336313936382e4173736574732e416363657074616e636554657374, 0,
  [(0x73756363657373, t_EBoolean), (0x6461746554696d65, t_java_util_Date), (0x74797065, t_EString)],
  []⟩
/-- Class CIM15.IEC61968.Assets.Asset -/
def s_Asset : SClass := ⟨0x4173736574, 0x43494d31352e49454336313936382e4173736574732e4173736574, 0x43494d31352e49454336313937302e436f72652e4964656e7469666965644f626a656374,
  [(0x636f72706f72617465436f6465, t_EString), (0x7574634e756d626572, t_EString), (0x696e697469616c436f6e646974696f6e, t_EString), (0x63617465676f7279, t_EString), (0x73657269616c4e756d626572, t_EString), (0x637269746963616c, t_EBoolean), (0x6170706c69636174696f6e, t_EString), (0x70757263686173655072696365, t_float), (0x696e697469616c4c6f73734f664c696665, t_float), (0x6d616e75666163747572656444617465, t_java_lang_String), (0x696e7374616c6c6174696f6e44617465, t_java_lang_String), (0x6c6f744e756d626572, t_EString)],
  [⟨0x446f63756d656e74526f6c6573, 0x43494d31352e49454336313937302e496e666f726d61746976652e496e664173736574732e446f634173736574526f6c65, true, 0x4173736574⟩, ⟨0x4d656469756d73, 0x43494d31352e49454336313937302e496e666f726d61746976652e496e664173736574732e4d656469756d, true, 0x417373657473⟩, ⟨0x45727052656344656c69766572794974656d73, 0x43494d31352e49454336313937302e496e666f726d61746976652e496e66455250537570706f72742e45727052656344656c764c696e654974656d, true, 0x417373657473⟩, ⟨0x526174696e6773, 0x43494d31352e49454336313936382e436f6d6d6f6e2e55736572417474726962757465, true, 0x526174696e67417373657473⟩, ⟨0x546f4173736574526f6c6573, 0x43494d31352e49454336313937302e496e666f726d61746976652e496e664173736574732e41737365744173736574526f6c65, true, 0x46726f6d4173736574⟩, ⟨0x656c656374726f6e696341646472657373, 0x43494d31352e49454336313936382e436f6d6d6f6e2e456c656374726f6e696341646472657373, false, 0⟩, ⟨0x46726f6d4173736574526f6c6573, 0x43494d31352e49454336313937302e496e666f726d61746976652e496e664173736574732e41737365744173736574526f6c65, true, 0x546f4173736574⟩, ⟨0x417373657446756e6374696f6e73, 0x43494d31352e49454336313936382e4173736574732e417373657446756e6374696f6e, true, 0x4173736574⟩, ⟨0x4572704974656d4d6173746572, 0x43494d31352e49454336313937302e496e666f726d61746976652e496e66455250537570706f72742e4572704974656d4d6173746572, false, 0x4173736574⟩, ⟨0x457270496e76656e746f7279, 0x43494d31352e49454336313937302e496e666f726d61746976652e496e66455250537570706f72742e457270496e76656e746f7279, false, 0x4173736574⟩, ⟨0x52656c696162696c697479496e666f73, 0x43494d31352e49454336313937302e496e666f726d61746976652e496e664173736574732e52656c696162696c697479496e666f, true, 0x417373657473⟩, ⟨0x4173736574496e666f, 0x43494d31352e49454336313936382e4173736574732e4173736574496e666f, false, 0x417373657473⟩, ⟨0x576f726b5461736b, 0x43494d31352e49454336313937302e496e666f726d61746976652e496e66576f726b2e576f726b5461736b, false, 0x417373657473⟩, ⟨0x616363657074616e636554657374, 0x43494d31352e49454336313936382e4173736574732e416363657074616e636554657374, false, 0⟩, ⟨0x4572704f7267616e69736174696f6e526f6c6573, 0x43494d31352e49454336313937302e496e666f726d61746976652e496e664173736574732e4f72674173736574526f6c65, true, 0x4173736574⟩, ⟨0x5363686564756c65644576656e7473, 0x43494d31352e49454336313937302e496e666f726d61746976652e496e66436f6d6d6f6e2e5363686564756c65644576656e74, true, 0x417373657473⟩, ⟨0x4173736574436f6e7461696e6572, 0x43494d31352e49454336313936382e4173736574732e4173736574436f6e7461696e6572, false, 0x417373657473⟩, ⟨0x417373657450726f7065727479437572766573, 0x43494d31352e49454336313937302e496e666f726d61746976652e496e664173736574732e417373657450726f70657274794375727665, true, 0x417373657473⟩, ⟨0x4368616e67654974656d73, 0x43494d31352e49454336313937302e496e666f726d61746976652e496e664f7065726174696f6e732e4368616e67654974656d, true, 0x4173736574⟩, ⟨0x41637469766974795265636f726473, 0x43494d31352e49454336313936382e436f6d6d6f6e2e41637469766974795265636f7264, true, 0x417373657473⟩, ⟨0x4c6f636174696f6e, 0x43494d31352e49454336313936382e436f6d6d6f6e2e4c6f636174696f6e, false, 0x417373657473⟩, ⟨0x737461747573, 0x43494d31352e49454336313936382e436f6d6d6f6e2e537461747573, false, 0⟩, ⟨0x506f77657253797374656d5265736f7572636573, 0x43494d31352e49454336313937302e436f72652e506f77657253797374656d5265736f75726365, true, 0x417373657473⟩, ⟨0x46696e616e6369616c496e666f, 0x43494d31352e49454336313937302e496e666f726d61746976652e496e664173736574732e46696e616e6369616c496e666f, false, 0x4173736574⟩, ⟨0x50726f70657274696573, 0x43494d31352e49454336313936382e436f6d6d6f6e2e55736572417474726962757465, true, 0x50726f7065727479417373657473⟩, ⟨0x4d6561737572656d656e7473, 0x43494d31352e49454336313937302e4d6561732e4d6561737572656d656e74, true, 0x4173736574⟩]⟩
/-- Class CIM15.IEC61968.Assets.AssetContainer -/
def s_AssetContainer : SClass := ⟨0x4173736574436f6e7461696e6572, 0x43494d31352e49454336313936382e4173736574732e4173736574436f6e7461696e6572, 0x43494d31352e49454336313936382e4173736574732e4173736574,
  [],
  [⟨0x5365616c73, 0x43494d31352e49454336313936382e4173736574732e5365616c, true, 0x4173736574436f6e7461696e6572⟩, ⟨0x417373657473, 0x43494d31352e49454336313936382e4173736574732e4173736574, true, 0x4173736574436f6e7461696e6572⟩, ⟨0x4c616e6450726f70657274696573, 0x43494d31352e49454336313937302e496e666f726d61746976652e496e664c6f636174696f6e732e4c616e6450726f7065727479, true, 0x4173736574436f6e7461696e657273⟩]⟩
/-- Class CIM15.IEC61968.Assets.AssetFunction -/
def s_AssetFunction : SClass := ⟨0x417373657446756e6374696f6e, 0x43494d31352e49454336313936382e4173736574732e417373657446756e6374696f6e, 0x43494d31352e49454336313937302e436f72652e4964656e7469666965644f626a656374,
  [(0x70617373776f7264, t_EString), (0x68617264776172654944, t_EString), (0x6669726d776172654944, t_EString), (0x70726f6772616d4944, t_EString), (0x636f6e6669674944, t_EString)],
  [⟨0x4173736574, 0x43494d31352e49454336313936382e4173736574732e4173736574, false, 0x417373657446756e6374696f6e73⟩]⟩
/-- Class CIM15.IEC61968.Assets.AssetInfo -/
def s_AssetInfo : SClass := ⟨0x4173736574496e666f, 0x43494d31352e49454336313936382e4173736574732e4173736574496e666f, 0x43494d31352e49454336313937302e436f72652e4964656e7469666965644f626a656374,
  [],
  [⟨0x417373657473, 0x43494d31352e49454336313936382e4173736574732e4173736574, false, 0x4173736574496e666f⟩, ⟨0x44696d656e73696f6e73496e666f, 0x43494d31352e49454336313937302e496e666f726d61746976652e496e664173736574732e44696d656e73696f6e73496e666f, false, 0x4173736574496e666f73⟩, ⟨0x41737365744d6f64656c, 0x43494d31352e49454336313936382e4173736574732e41737365744d6f64656c, false, 0x4173736574496e666f⟩]⟩
/-- Class CIM15.IEC61968.Assets.AssetModel -/
def s_AssetModel : SClass := ⟨0x41737365744d6f64656c, 0x43494d31352e49454336313936382e4173736574732e41737365744d6f64656c, 0x43494d31352e49454336313937302e436f72652e4964656e7469666965644f626a656374,
  [],
  [⟨0x4173736574496e666f, 0x43494d31352e49454336313936382e4173736574732e4173736574496e666f, false, 0x41737365744d6f64656c⟩, ⟨0x457270496e76656e746f7279436f756e7473, 0x43494d31352e49454336313937302e496e666f726d61746976652e496e66455250537570706f72742e457270496e76656e746f7279436f756e74, true, 0x41737365744d6f64656c⟩]⟩
/-- Class CIM15.IEC61968.Assets.ComMedia -/
def s_ComMedia : SClass := ⟨0x436f6d4d65646961, 0x43494d31352e49454336313936382e4173736574732e436f6d4d65646961, 0x43494d31352e49454336313936382e4173736574732e4173736574,
  [],
  []⟩
/-- Class CIM15.IEC61968.Assets.ProductAssetModel -/
def s_ProductAssetModel : SClass := ⟨0x50726f6475637441737365744d6f64656c, 0x43494d31352e49454336313936382e4173736574732e50726f6475637441737365744d6f64656c, 0x43494d31352e49454336313936382e4173736574732e41737365744d6f64656c,
  [(0x6d6f64656c56657273696f6e, t_EString), (0x75736167654b696e64, e_AssetModelUsageKind), (0x636f72706f726174655374616e646172644b696e64, e_CorporateStandardKind), (0x6d6f64656c4e756d626572, t_EString), (0x776569676874546f74616c, t_float)],
  [⟨0x47656e6572696341737365744d6f64656c4f724d6174657269616c, 0x43494d31352e49454336313937302e496e666f726d61746976652e496e664173736574732e47656e6572696341737365744d6f64656c4f724d6174657269616c, false, 0x50726f6475637441737365744d6f64656c73⟩, ⟨0x41737365744d6f64656c436174616c6f6775654974656d73, 0x43494d31352e49454336313937302e496e666f726d61746976652e496e6641737365744d6f64656c732e41737365744d6f64656c436174616c6f6775654974656d, true, 0x41737365744d6f64656c⟩]⟩
/-- Class CIM15.IEC61968.Assets.Seal -/
def s_Seal : SClass := ⟨0x5365616c, 0x43494d31352e49454336313936382e4173736574732e5365616c, 0x43494d31352e49454336313937302e436f72652e4964656e7469666965644f626a656374,
  [(0x6170706c6965644461746554696d65, t_java_util_Date), (0x7365616c4e756d626572, t_EString), (0x6b696e64, e_SealKind), (0x636f6e646974696f6e, e_SealConditionKind)],
  [⟨0x4173736574436f6e7461696e6572, 0x43494d31352e49454336313936382e4173736574732e4173736574436f6e7461696e6572, false, 0x5365616c73⟩]⟩
/-- Class CIM15.IEC61968.Common.ActivityRecord -/
def s_ActivityRecord : SClass := ⟨0x41637469766974795265636f7264, 0x43494d31352e49454336313936382e436f6d6d6f6e2e41637469766974795265636f7264, 0x43494d31352e49454336313937302e436f72652e4964656e7469666965644f626a656374,
  [(0x7365766572697479, t_EString), (0x637265617465644461746554696d65, t_java_util_Date), (0x726561736f6e, t_EString), (0x63617465676f7279, t_EString)],
  [⟨0x457270506572736f6e73, 0x43494d31352e49454336313937302e496e666f726d61746976652e496e66455250537570706f72742e457270506572736f6e, true, 0x41637469766974795265636f726473⟩, ⟨0x4f7267616e69736174696f6e73, 0x43494d31352e49454336313937302e496e666f726d61746976652e496e66455250537570706f72742e4572704f7267616e69736174696f6e, true, 0x41637469766974795265636f726473⟩, ⟨0x446f63756d656e7473, 0x43494d31352e49454336313936382e436f6d6d6f6e2e446f63756d656e74, true, 0x41637469766974795265636f726473⟩, ⟨0x417373657473, 0x43494d31352e49454336313936382e4173736574732e4173736574, true, 0x41637469766974795265636f726473⟩, ⟨0x737461747573, 0x43494d31352e49454336313936382e436f6d6d6f6e2e537461747573, false, 0⟩, ⟨0x5363686564756c65644576656e74, 0x43494d31352e49454336313937302e496e666f726d61746976652e496e66436f6d6d6f6e2e5363686564756c65644576656e74, false, 0x41637469766974795265636f7264⟩]⟩
/-- Class CIM15.IEC61968.Common.Agreement -/
def s_Agreement : SClass := ⟨0x41677265656d656e74, 0x43494d31352e49454336313936382e436f6d6d6f6e2e41677265656d656e74, 0x43494d31352e49454336313936382e436f6d6d6f6e2e446f63756d656e74,
  [(0x7369676e44617465, t_java_lang_String)],
  [⟨0x76616c6964697479496e74657276616c, 0x43494d31352e49454336313937302e446f6d61696e2e4461746554696d65496e74657276616c, false, 0⟩]⟩
/-- Class CIM15.IEC61968.Common.CoordinateSystem -/
def s_CoordinateSystem : SClass := ⟨0x436f6f7264696e61746553797374656d, 0x43494d31352e49454336313936382e436f6d6d6f6e2e436f6f7264696e61746553797374656d, 0x43494d31352e49454336313937302e436f72652e4964656e7469666965644f626a656374,
  [(0x63727355726e, t_EString)],
  [⟨0x4469616772616d73, 0x43494d31352e49454336313937302e496e666f726d61746976652e496e66474d4c537570706f72742e4469616772616d, true, 0x436f6f7264696e61746553797374656d⟩, ⟨0x4c6f636174696f6e, 0x43494d31352e49454336313936382e436f6d6d6f6e2e4c6f636174696f6e, true, 0x436f6f7264696e61746553797374656d⟩, ⟨0x476d6c4469616772616d4f626a65637473, 0x43494d31352e49454336313937302e496e666f726d61746976652e496e66474d4c537570706f72742e476d6c4469616772616d4f626a656374, true, 0x436f6f7264696e61746553797374656d73⟩]⟩
/-- Class CIM15.IEC61968.Common.Document -/
def s_Document : SClass := ⟨0x446f63756d656e74, 0x43494d31352e49454336313936382e436f6d6d6f6e2e446f63756d656e74, 0x43494d31352e49454336313937302e436f72652e4964656e7469666965644f626a656374,
  [(0x7265766973696f6e4e756d626572, t_EString), (0x637265617465644461746554696d65, t_java_util_Date), (0x6c6173744d6f6469666965644461746554696d65, t_java_util_Date), (0x7375626a656374, t_EString), (0x7469746c65, t_EString), (0x63617465676f7279, t_EString)],
  [⟨0x4368616e67654974656d73, 0x43494d31352e49454336313937302e496e666f726d61746976652e496e664f7065726174696f6e732e4368616e67654974656d, true, 0x446f63756d656e74⟩, ⟨0x546f446f63756d656e74526f6c6573, 0x43494d31352e49454336313937302e496e666f726d61746976652e496e66436f6d6d6f6e2e446f63446f63526f6c65, true, 0x46726f6d446f63756d656e74⟩, ⟨0x656c656374726f6e696341646472657373, 0x43494d31352e49454336313936382e436f6d6d6f6e2e456c656374726f6e696341646472657373, false, 0⟩, ⟨0x4e6574776f726b4461746153657473, 0x43494d31352e49454336313937302e496e666f726d61746976652e496e664f7065726174696f6e732e4e6574776f726b44617461536574, true, 0x446f63756d656e7473⟩, ⟨0x46726f6d446f63756d656e74526f6c6573, 0x43494d31352e49454336313937302e496e666f726d61746976652e496e66436f6d6d6f6e2e446f63446f63526f6c65, true, 0x546f446f63756d656e74⟩, ⟨0x5363686564756c65506172616d65746572496e666f73, 0x43494d31352e49454336313937302e496e666f726d61746976652e496e66436f6d6d6f6e2e5363686564756c65506172616d65746572496e666f, true, 0x446f63756d656e7473⟩, ⟨0x4572704f7267616e69736174696f6e526f6c6573, 0x43494d31352e49454336313937302e496e666f726d61746976652e496e66455250537570706f72742e446f634f7267526f6c65, true, 0x446f63756d656e74⟩, ⟨0x4d6561737572656d656e7473, 0x43494d31352e49454336313937302e4d6561732e4d6561737572656d656e74, true, 0x446f63756d656e7473⟩, ⟨0x41637469766974795265636f726473, 0x43494d31352e49454336313936382e436f6d6d6f6e2e41637469766974795265636f7264, true, 0x446f63756d656e7473⟩, ⟨0x4368616e676553657473, 0x43494d31352e49454336313937302e496e666f726d61746976652e496e664f7065726174696f6e732e4368616e6765536574, true, 0x446f63756d656e7473⟩, ⟨0x457270506572736f6e526f6c6573, 0x43494d31352e49454336313937302e496e666f726d61746976652e496e66455250537570706f72742e446f63457270506572736f6e526f6c65, true, 0x446f63756d656e74⟩, ⟨0x5363686564756c65644576656e7473, 0x43494d31352e49454336313937302e496e666f726d61746976652e496e66436f6d6d6f6e2e5363686564756c65644576656e74, true, 0x446f63756d656e74⟩, ⟨0x646f63537461747573, 0x43494d31352e49454336313936382e436f6d6d6f6e2e537461747573, false, 0⟩, ⟨0x4173736574526f6c6573, 0x43494d31352e49454336313937302e496e666f726d61746976652e496e664173736574732e446f634173736574526f6c65, true, 0x446f63756d656e74⟩, ⟨0x737461747573, 0x43494d31352e49454336313936382e436f6d6d6f6e2e537461747573, false, 0⟩, ⟨0x506f77657253797374656d5265736f75726365526f6c6573, 0x43494d31352e49454336313937302e496e666f726d61746976652e496e66436f6d6d6f6e2e446f63507372526f6c65, true, 0x446f63756d656e74⟩]⟩
/-- Class CIM15.IEC61968.Common.ElectronicAddress -/
def s_ElectronicAddress : SClass := ⟨0x456c656374726f6e696341646472657373, 0x43494d31352e49454336313936382e436f6d6d6f6e2e456c656374726f6e696341646472657373, 0,
  [(0x726164696f, t_EString), (0x70617373776f7264, t_EString), (0x6c616e, t_EString), (0x757365724944, t_EString), (0x656d61696c, t_EString), (0x776562, t_EString)],
  [⟨0x737461747573, 0x43494d31352e49454336313936382e436f6d6d6f6e2e537461747573, false, 0⟩]⟩
/-- Class CIM15.IEC61968.Common.Location -/
def s_Location : SClass := ⟨0x4c6f636174696f6e, 0x43494d31352e49454336313936382e436f6d6d6f6e2e4c6f636174696f6e, 0x43494d31352e49454336313937302e436f72652e4964656e7469666965644f626a656374,
  [(0x63617465676f7279, t_EString), (0x67656f496e666f5265666572656e6365, t_EString), (0x636f72706f72617465436f6465, t_EString), (0x646972656374696f6e, t_EString)],
  [⟨0x6d61696e41646472657373, 0x43494d31352e49454336313936382e436f6d6d6f6e2e53747265657441646472657373, false, 0⟩, ⟨0x70686f6e6531, 0x43494d31352e49454336313936382e436f6d6d6f6e2e54656c6570686f6e654e756d626572, false, 0⟩, ⟨0x70686f6e6532, 0x43494d31352e49454336313936382e436f6d6d6f6e2e54656c6570686f6e654e756d626572, false, 0⟩, ⟨0x506f77657253797374656d5265736f7572636573, 0x43494d31352e49454336313937302e436f72652e506f77657253797374656d5265736f75726365, true, 0x4c6f636174696f6e⟩, ⟨0x7365636f6e6461727941646472657373, 0x43494d31352e49454336313936382e436f6d6d6f6e2e53747265657441646472657373, false, 0⟩, ⟨0x4368616e67654974656d73, 0x43494d31352e49454336313937302e496e666f726d61746976652e496e664f7065726174696f6e732e4368616e67654974656d, true, 0x4c6f636174696f6e⟩, ⟨0x5265644c696e6573, 0x43494d31352e49454336313937302e496e666f726d61746976652e496e664c6f636174696f6e732e5265644c696e65, true, 0x4c6f636174696f6e73⟩, ⟨0x44696d656e73696f6e73496e666f, 0x43494d31352e49454336313937302e496e666f726d61746976652e496e664173736574732e44696d656e73696f6e73496e666f, false, 0x4c6f636174696f6e73⟩, ⟨0x4c616e6450726f70657274696573, 0x43494d31352e49454336313937302e496e666f726d61746976652e496e664c6f636174696f6e732e4c616e6450726f7065727479, true, 0x4c6f636174696f6e73⟩, ⟨0x417373657473, 0x43494d31352e49454336313936382e4173736574732e4173736574, true, 0x4c6f636174696f6e⟩, ⟨0x48617a61726473, 0x43494d31352e49454336313937302e496e666f726d61746976652e496e664c6f636174696f6e732e48617a617264, true, 0x4c6f636174696f6e73⟩, ⟨0x737461747573, 0x43494d31352e49454336313936382e436f6d6d6f6e2e537461747573, false, 0⟩, ⟨0x4372657773, 0x43494d31352e49454336313937302e496e666f726d61746976652e496e66576f726b2e43726577, true, 0x4c6f636174696f6e73⟩, ⟨0x506f736974696f6e506f696e7473, 0x43494d31352e49454336313936382e436f6d6d6f6e2e506f736974696f6e506f696e74, true, 0x4c6f636174696f6e⟩, ⟨0x656c656374726f6e696341646472657373, 0x43494d31352e49454336313936382e436f6d6d6f6e2e456c656374726f6e696341646472657373, false, 0⟩, ⟨0x446972656374696f6e73, 0x43494d31352e49454336313937302e496e666f726d61746976652e496e664c6f636174696f6e732e446972656374696f6e, true, 0x4c6f636174696f6e⟩, ⟨0x4d6561737572656d656e7473, 0x43494d31352e49454336313937302e4d6561732e4d6561737572656d656e74, true, 0x4c6f636174696f6e73⟩, ⟨0x526f75746573, 0x43494d31352e49454336313937302e496e666f726d61746976652e496e664c6f636174696f6e732e526f757465, true, 0x4c6f636174696f6e73⟩, ⟨0x436f6f7264696e61746553797374656d, 0x43494d31352e49454336313936382e436f6d6d6f6e2e436f6f7264696e61746553797374656d, false, 0x4c6f636174696f6e⟩, ⟨0x4572704f7267616e69736174696f6e73, 0x43494d31352e49454336313937302e496e666f726d61746976652e496e66455250537570706f72742e4572704f7267616e69736174696f6e, true, 0x4c6f636174696f6e73⟩]⟩
/-- Class CIM15.IEC61968.Common.Organisation -/
def s_Organisation : SClass := ⟨0x4f7267616e69736174696f6e, 0x43494d31352e49454336313936382e436f6d6d6f6e2e4f7267616e69736174696f6e, 0x43494d31352e49454336313937302e436f72652e4964656e7469666965644f626a656374,
  [],
  [⟨0x70686f6e6532, 0x43494d31352e49454336313936382e436f6d6d6f6e2e54656c6570686f6e654e756d626572, false, 0⟩, ⟨0x70686f6e6531, 0x43494d31352e49454336313936382e436f6d6d6f6e2e54656c6570686f6e654e756d626572, false, 0⟩, ⟨0x73747265657441646472657373, 0x43494d31352e49454336313936382e436f6d6d6f6e2e53747265657441646472657373, false, 0⟩, ⟨0x706f7374616c41646472657373, 0x43494d31352e49454336313936382e436f6d6d6f6e2e506f7374616c41646472657373, false, 0⟩, ⟨0x656c656374726f6e696341646472657373, 0x43494d31352e49454336313936382e436f6d6d6f6e2e456c656374726f6e696341646472657373, false, 0⟩, ⟨0x427573696e657373526f6c6573, 0x43494d31352e49454336313937302e496e666f726d61746976652e496e66436f6d6d6f6e2e427573696e657373526f6c65, true, 0x4f7267616e69736174696f6e73⟩]⟩
/-- Class CIM15.IEC61968.Common.PositionPoint -/
def s_PositionPoint : SClass := ⟨0x506f736974696f6e506f696e74, 0x43494d31352e49454336313936382e436f6d6d6f6e2e506f736974696f6e506f696e74, 0x43494d31352e456c656d656e74,
  [(0x78506f736974696f6e, t_EString), (0x7a506f736974696f6e, t_EString), (0x73657175656e63654e756d626572, t_EInt), (0x79506f736974696f6e, t_EString)],
  [⟨0x4c6f636174696f6e, 0x43494d31352e49454336313936382e436f6d6d6f6e2e4c6f636174696f6e, false, 0x506f736974696f6e506f696e7473⟩]⟩
/-- Class CIM15.IEC61968.Common.PostalAddress -/
def s_PostalAddress : SClass := ⟨0x506f7374616c41646472657373, 0x43494d31352e49454336313936382e436f6d6d6f6e2e506f7374616c41646472657373, 0,
  [(0x706f426f78, t_EString), (0x706f7374616c436f6465, t_EString)],
  [⟨0x73747265657444657461696c, 0x43494d31352e49454336313936382e436f6d6d6f6e2e53747265657444657461696c, false, 0⟩, ⟨0x746f776e44657461696c, 0x43494d31352e49454336313936382e436f6d6d6f6e2e546f776e44657461696c, false, 0⟩]⟩
/-- Class CIM15.IEC61968.Common.Status -/
def s_Status : SClass := ⟨0x537461747573, 0x43494d31352e49454336313936382e436f6d6d6f6e2e537461747573, 0,
  [(0x726561736f6e, t_EString), (0x6461746554696d65, t_java_util_Date), (0x76616c7565, t_EString), (0x72656d61726b, t_EString)],
  []⟩
/-- Class CIM15.IEC61968.Common.StreetAddress -/
def s_StreetAddress : SClass := ⟨0x53747265657441646472657373, 0x43494d31352e49454336313936382e436f6d6d6f6e2e53747265657441646472657373, 0,
  [],
  [⟨0x737461747573, 0x43494d31352e49454336313936382e436f6d6d6f6e2e537461747573, false, 0⟩, ⟨0x73747265657444657461696c, 0x43494d31352e49454336313936382e436f6d6d6f6e2e53747265657444657461696c, false, 0⟩, ⟨0x746f776e44657461696c, 0x43494d31352e49454336313936382e436f6d6d6f6e2e546f776e44657461696c, false, 0⟩]⟩
/-- Class CIM15.IEC61968.Common.StreetDetail -/
def s_StreetDetail : SClass := ⟨0x53747265657444657461696c, 0x43494d31352e49454336313936382e436f6d6d6f6e2e53747265657444657461696c, 0,
  [(0x77697468696e546f776e4c696d697473, t_EBoolean), (0x6e616d65, t_EString), (0x74797065, t_EString), (0x707265666978, t_EString), (0x6275696c64696e674e616d65, t_EString), (0x73756974654e756d626572, t_EString), (0x737566666978, t_EString), (0x6164647265737347656e6572616c, t_EString), (0x636f6465, t_EString), (0x6e756d626572, t_EString)],
  []⟩
/-- Class CIM15.IEC61968.Common.TelephoneNumber -/
def s_TelephoneNumber : SClass := ⟨0x54656c6570686f6e654e756d626572, 0x43494d31352e49454336313936382e436f6d6d6f6e2e54656c6570686f6e654e756d626572, 0,
  [(0x63697479436f6465, t_EString), (0x6c6f63616c4e756d626572, t_EString), (0x657874656e73696f6e, t_EString), (0x61726561436f6465, t_EString), (0x636f756e747279436f6465, t_EString)],
  []⟩
/-- Class CIM15.IEC61968.Common.TimePoint -/
def s_TimePoint : SClass := ⟨0x54696d65506f696e74, 0x43494d31352e49454336313936382e436f6d6d6f6e2e54696d65506f696e74, 0x43494d31352e49454336313937302e436f72652e4964656e7469666965644f626a656374,
  [(0x6461746554696d65, t_java_util_Date), (0x73657175656e63654e756d626572, t_EInt), (0x72656c617469766554696d65496e74657276616c, t_float)],
  [⟨0x737461747573, 0x43494d31352e49454336313936382e436f6d6d6f6e2e537461747573, false, 0⟩, ⟨0x77696e646f77, 0x43494d31352e49454336313937302e446f6d61696e2e4461746554696d65496e74657276616c, false, 0⟩, ⟨0x54696d655363686564756c65, 0x43494d31352e49454336313936382e436f6d6d6f6e2e54696d655363686564756c65, false, 0x54696d65506f696e7473⟩, ⟨0x5363686564756c65644576656e7473, 0x43494d31352e49454336313937302e496e666f726d61746976652e496e66436f6d6d6f6e2e5363686564756c65644576656e74, true, 0x54696d65506f696e74⟩]⟩
/-- Class CIM15.IEC61968.Common.TimeSchedule -/
def s_TimeSchedule : SClass := ⟨0x54696d655363686564756c65, 0x43494d31352e49454336313936382e436f6d6d6f6e2e54696d655363686564756c65, 0x43494d31352e49454336313936382e436f6d6d6f6e2e446f63756d656e74,
  [(0x726563757272656e6365506572696f64, t_float), (0x64697361626c6564, t_EBoolean), (0x6f6666736574, t_float), (0x726563757272656e63655061747465726e, t_EString)],
  [⟨0x54696d65506f696e7473, 0x43494d31352e49454336313936382e436f6d6d6f6e2e54696d65506f696e74, true, 0x54696d655363686564756c65⟩, ⟨0x7363686564756c65496e74657276616c, 0x43494d31352e49454336313937302e446f6d61696e2e4461746554696d65496e74657276616c, false, 0⟩]⟩
/-- Class CIM15.IEC61968.Common.TownDetail -/
def s_TownDetail : SClass := ⟨0x546f776e44657461696c, 0x43494d31352e49454336313936382e436f6d6d6f6e2e546f776e44657461696c, 0,
  [(0x6e616d65, t_EString), (0x73746174654f7250726f76696e6365, t_EString), (0x73656374696f6e, t_EString), (0x636f6465, t_EString), (0x636f756e747279, t_EString)],
  []⟩
/-- Class CIM15.IEC61968.Common.UserAttribute -/
def s_UserAttribute : SClass := ⟨0x55736572417474726962757465, 0x43494d31352e49454336313936382e436f6d6d6f6e2e55736572417474726962757465, 0x43494d31352e456c656d656e74,
  [(0x6e616d65, t_EString), (0x76616c7565, t_java_lang_String), (0x73657175656e63654e756d626572, t_EInt)],
  [⟨0x4572704c6564676572456e7472696573, 0x43494d31352e49454336313937302e496e666f726d61746976652e496e66455250537570706f72742e4572704c6564676572456e747279, true, 0x5573657241747472696275746573⟩, ⟨0x50726f6365647572654461746153657473, 0x43494d31352e49454336313937302e496e666f726d61746976652e496e664173736574732e50726f63656475726544617461536574, true, 0x50726f70657274696573⟩, ⟨0x5472616e73616374696f6e, 0x43494d31352e49454336313936382e5061796d656e744d65746572696e672e5472616e73616374696f6e, false, 0x5573657241747472696275746573⟩, ⟨0x50726f706572747953706563696669636174696f6e, 0x43494d31352e49454336313937302e496e666f726d61746976652e496e664173736574732e53706563696669636174696f6e, false, 0x417373657450726f70657269746573⟩, ⟨0x50726f636564757265, 0x43494d31352e49454336313937302e496e666f726d61746976652e496e664173736574732e50726f636564757265, false, 0x50726f63656475726556616c756573⟩, ⟨0x50726f7065727479417373657473, 0x43494d31352e49454336313936382e4173736574732e4173736574, true, 0x50726f70657274696573⟩, ⟨0x526174696e6753706563696669636174696f6e, 0x43494d31352e49454336313937302e496e666f726d61746976652e496e664173736574732e53706563696669636174696f6e, false, 0x526174696e6773⟩, ⟨0x457270496e766f6963654c696e654974656d73, 0x43494d31352e49454336313937302e496e666f726d61746976652e496e66455250537570706f72742e457270496e766f6963654c696e654974656d, true, 0x5573657241747472696275746573⟩, ⟨0x526174696e67417373657473, 0x43494d31352e49454336313936382e4173736574732e4173736574, true, 0x526174696e6773⟩]⟩
/-- Class CIM15.IEC61968.Customers.Customer -/
def s_Customer : SClass := ⟨0x437573746f6d6572, 0x43494d31352e49454336313936382e437573746f6d6572732e437573746f6d6572, 0x43494d31352e49454336313936382e436f6d6d6f6e2e4f7267616e69736174696f6e,
  [(0x766970, t_EBoolean), (0x7075634e756d626572, t_EString), (0x7370656369616c4e656564, t_EString), (0x6b696e64, e_CustomerKind)],
  [⟨0x437573746f6d657241677265656d656e7473, 0x43494d31352e49454336313936382e437573746f6d6572732e437573746f6d657241677265656d656e74, true, 0x437573746f6d6572⟩, ⟨0x457270506572736f6e73, 0x43494d31352e49454336313937302e496e666f726d61746976652e496e66455250537570706f72742e457270506572736f6e, true, 0x437573746f6d657244617461⟩, ⟨0x456e6444657669636573, 0x43494d31352e49454336313936382e4d65746572696e672e456e64446576696365, true, 0x437573746f6d6572⟩, ⟨0x576f726b73, 0x43494d31352e49454336313936382e576f726b2e576f726b, true, 0x437573746f6d657273⟩, ⟨0x737461747573, 0x43494d31352e49454336313936382e436f6d6d6f6e2e537461747573, false, 0⟩, ⟨0x506c616e6e65644f7574616765, 0x43494d31352e49454336313937302e496e666f726d61746976652e496e664f7065726174696f6e732e506c616e6e65644f7574616765, false, 0x437573746f6d65724461746173⟩, ⟨0x4f75746167654e6f74696669636174696f6e73, 0x43494d31352e49454336313937302e496e666f726d61746976652e496e664f7065726174696f6e732e4f75746167654e6f74696669636174696f6e, true, 0x437573746f6d65724461746173⟩, ⟨0x54726f75626c655469636b657473, 0x43494d31352e49454336313937302e496e666f726d61746976652e496e664f7065726174696f6e732e54726f75626c655469636b6574, true, 0x437573746f6d657244617461⟩]⟩
/-- Class CIM15.IEC61968.Customers.CustomerAccount -/
def s_CustomerAccount : SClass := ⟨0x437573746f6d65724163636f756e74, 0x43494d31352e49454336313936382e437573746f6d6572732e437573746f6d65724163636f756e74, 0x43494d31352e49454336313936382e436f6d6d6f6e2e446f63756d656e74,
  [],
  [⟨0x576f726b42696c6c696e67496e666f73, 0x43494d31352e49454336313937302e496e666f726d61746976652e496e66437573746f6d6572732e576f726b42696c6c696e67496e666f, true, 0x437573746f6d65724163636f756e74⟩, ⟨0x437573746f6d657241677265656d656e7473, 0x43494d31352e49454336313936382e437573746f6d6572732e437573746f6d657241677265656d656e74, true, 0x437573746f6d65724163636f756e74⟩, ⟨0x457270496e766f6963656573, 0x43494d31352e49454336313937302e496e666f726d61746976652e496e66455250537570706f72742e457270496e766f696365, true, 0x437573746f6d65724163636f756e74⟩, ⟨0x5061796d656e745472616e73616374696f6e73, 0x43494d31352e49454336313936382e5061796d656e744d65746572696e672e5472616e73616374696f6e, true, 0x437573746f6d65724163636f756e74⟩, ⟨0x437573746f6d657242696c6c696e67496e666f73, 0x43494d31352e49454336313937302e496e666f726d61746976652e496e66437573746f6d6572732e437573746f6d657242696c6c696e67496e666f, true, 0x437573746f6d65724163636f756e74⟩]⟩
/-- Class CIM15.IEC61968.Customers.CustomerAgreement -/
def s_CustomerAgreement : SClass := ⟨0x437573746f6d657241677265656d656e74, 0x43494d31352e49454336313936382e437573746f6d6572732e437573746f6d657241677265656d656e74, 0x43494d31352e49454336313936382e436f6d6d6f6e2e41677265656d656e74,
  [(0x62696c6c696e674379636c65, t_EString), (0x6c6f61644d676d74, t_EString), (0x62756467657442696c6c, t_EString)],
  [⟨0x50726963696e6753747275637475726573, 0x43494d31352e49454336313936382e437573746f6d6572732e50726963696e67537472756374757265, true, 0x437573746f6d657241677265656d656e7473⟩, ⟨0x437573746f6d65724163636f756e74, 0x43494d31352e49454336313936382e437573746f6d6572732e437573746f6d65724163636f756e74, false, 0x437573746f6d657241677265656d656e7473⟩, ⟨0x5374616e64617264496e647573747279436f6465, 0x43494d31352e49454336313937302e496e666f726d61746976652e496e66437573746f6d6572732e5374616e64617264496e647573747279436f6465, false, 0x437573746f6d657241677265656d656e7473⟩, ⟨0x417578696c6961727941677265656d656e7473, 0x43494d31352e49454336313936382e5061796d656e744d65746572696e672e417578696c6961727941677265656d656e74, true, 0x437573746f6d657241677265656d656e74⟩, ⟨0x4d6574657252656164696e6773, 0x43494d31352e49454336313936382e4d65746572696e672e4d6574657252656164696e67, true, 0x437573746f6d657241677265656d656e74⟩, ⟨0x45717569706d656e7473, 0x43494d31352e49454336313937302e436f72652e45717569706d656e74, true, 0x437573746f6d657241677265656d656e7473⟩, ⟨0x53657276696365537570706c696572, 0x43494d31352e49454336313936382e5061796d656e744d65746572696e672e53657276696365537570706c696572, false, 0x437573746f6d657241677265656d656e7473⟩, ⟨0x536572766963654c6f636174696f6e73, 0x43494d31352e49454336313936382e437573746f6d6572732e536572766963654c6f636174696f6e, true, 0x437573746f6d657241677265656d656e7473⟩, ⟨0x44656d616e64526573706f6e736550726f6772616d, 0x43494d31352e49454336313936382e4d65746572696e672e44656d616e64526573706f6e736550726f6772616d, false, 0x437573746f6d657241677265656d656e7473⟩, ⟨0x5365727669636544656c6976657279506f696e7473, 0x43494d31352e49454336313936382e4d65746572696e672e5365727669636544656c6976657279506f696e74, true, 0x437573746f6d657241677265656d656e74⟩, ⟨0x437573746f6d6572, 0x43494d31352e49454336313936382e437573746f6d6572732e437573746f6d6572, false, 0x437573746f6d657241677265656d656e7473⟩, ⟨0x456e64446576696365436f6e74726f6c73, 0x43494d31352e49454336313936382e4d65746572696e672e456e64446576696365436f6e74726f6c, true, 0x437573746f6d657241677265656d656e74⟩]⟩
/-- Class CIM15.IEC61968.Customers.PricingStructure -/
def s_PricingStructure : SClass := ⟨0x50726963696e67537472756374757265, 0x43494d31352e49454336313936382e437573746f6d6572732e50726963696e67537472756374757265, 0x43494d31352e49454336313936382e436f6d6d6f6e2e446f63756d656e74,
  [(0x6461696c79466c6f6f725573616765, t_EInt), (0x6461696c794365696c696e675573616765, t_EInt), (0x7461784578656d7074696f6e, t_EBoolean), (0x636f6465, t_EString), (0x6461696c79457374696d617465645573616765, t_EInt), (0x726576656e75654b696e64, e_RevenueKind)],
  [⟨0x5365727669636543617465676f7279, 0x43494d31352e49454336313936382e437573746f6d6572732e5365727669636543617465676f7279, false, 0x50726963696e6753747275637475726573⟩, ⟨0x437573746f6d657241677265656d656e7473, 0x43494d31352e49454336313936382e437573746f6d6572732e437573746f6d657241677265656d656e74, true, 0x50726963696e6753747275637475726573⟩, ⟨0x5365727669636544656c6976657279506f696e7473, 0x43494d31352e49454336313936382e4d65746572696e672e5365727669636544656c6976657279506f696e74, true, 0x50726963696e6753747275637475726573⟩, ⟨0x54617269666673, 0x43494d31352e49454336313936382e437573746f6d6572732e546172696666, true, 0x50726963696e6753747275637475726573⟩, ⟨0x5472616e73616374696f6e73, 0x43494d31352e49454336313936382e5061796d656e744d65746572696e672e5472616e73616374696f6e, true, 0x50726963696e67537472756374757265⟩]⟩
/-- Class CIM15.IEC61968.Customers.ServiceCategory -/
def s_ServiceCategory : SClass := ⟨0x5365727669636543617465676f7279, 0x43494d31352e49454336313936382e437573746f6d6572732e5365727669636543617465676f7279, 0x43494d31352e49454336313937302e436f72652e4964656e7469666965644f626a656374,
  [(0x6b696e64, e_ServiceKind)],
  [⟨0x50726963696e6753747275637475726573, 0x43494d31352e49454336313936382e437573746f6d6572732e50726963696e67537472756374757265, true, 0x5365727669636543617465676f7279⟩, ⟨0x5365727669636544656c6976657279506f696e7473, 0x43494d31352e49454336313936382e4d65746572696e672e5365727669636544656c6976657279506f696e74, true, 0x5365727669636543617465676f7279⟩]⟩
/-- Class CIM15.IEC61968.Customers.ServiceLocation -/
def s_ServiceLocation : SClass := ⟨0x536572766963654c6f636174696f6e, 0x43494d31352e49454336313936382e437573746f6d6572732e536572766963654c6f636174696f6e, 0x43494d31352e49454336313936382e436f6d6d6f6e2e4c6f636174696f6e,
  [(0x7369746541636365737350726f626c656d, t_EString), (0x6163636573734d6574686f64, t_EString), (0x6e65656473496e7370656374696f6e, t_EBoolean)],
  [⟨0x456e6444657669636573, 0x43494d31352e49454336313936382e4d65746572696e672e456e64446576696365, true, 0x536572766963654c6f636174696f6e⟩, ⟨0x457270506572736f6e73, 0x43494d31352e49454336313937302e496e666f726d61746976652e496e66455250537570706f72742e457270506572736f6e, true, 0x536572766963654c6f636174696f6e⟩, ⟨0x5365727669636544656c6976657279506f696e7473, 0x43494d31352e49454336313936382e4d65746572696e672e5365727669636544656c6976657279506f696e74, true, 0x536572766963654c6f636174696f6e⟩, ⟨0x437573746f6d657241677265656d656e7473, 0x43494d31352e49454336313936382e437573746f6d6572732e437573746f6d657241677265656d656e74, true, 0x536572766963654c6f636174696f6e73⟩]⟩
/-- Class CIM15.IEC61968.Customers.Tariff -/
def s_Tariff : SClass := ⟨0x546172696666, 0x43494d31352e49454336313936382e437573746f6d6572732e546172696666, 0x43494d31352e49454336313936382e436f6d6d6f6e2e446f63756d656e74,
  [(0x737461727444617465, t_java_lang_String), (0x656e6444617465, t_java_lang_String)],
  [⟨0x50726963696e6753747275637475726573, 0x43494d31352e49454336313936382e437573746f6d6572732e50726963696e67537472756374757265, true, 0x54617269666673⟩, ⟨0x54617269666650726f66696c6573, 0x43494d31352e49454336313936382e5061796d656e744d65746572696e672e54617269666650726f66696c65, true, 0x54617269666673⟩]⟩
/-- Class CIM15.IEC61968.IEC61968CIMVersion -/
def s_IEC61968CIMVersion : SClass := ⟨0x494543363139363843494d56657273696f6e, 0x43494d31352e49454336313936382e494543363139363843494d56657273696f6e, 0x43494d31352e456c656d656e74,
  [(0x76657273696f6e, t_EString), (0x64617465, t_java_lang_String)],
  []⟩
/-- Class CIM15.IEC61968.LoadControl.ConnectDisconnectFunction -/
def s_ConnectDisconnectFunction : SClass := ⟨0x436f6e6e656374446973636f6e6e65637446756e6374696f6e, 0x43494d31352e49454336313936382e4c6f6164436f6e74726f6c2e436f6e6e656374446973636f6e6e65637446756e6374696f6e, 0x43494d31352e49454336313936382e4d65746572696e672e456e6444657669636546756e6374696f6e,
  [(0x697344656c61796564446973636f6e, t_EBoolean), (0x6576656e74436f756e74, t_EInt), (0x697352656d6f74654175746f5265636f6e4f70, t_EBoolean), (0x697352656d6f74654175746f446973636f6e4f70, t_EBoolean), (0x69734c6f63616c4175746f446973636f6e4f70, t_EBoolean), (0x69734c6f63616c4175746f5265636f6e4f70, t_EBoolean), (0x6973436f6e6e6563746564, t_EBoolean)],
  [⟨0x726364496e666f, 0x43494d31352e49454336313936382e4c6f6164436f6e74726f6c2e52656d6f7465436f6e6e656374446973636f6e6e656374496e666f, false, 0⟩, ⟨0x5377697463686573, 0x43494d31352e49454336313937302e57697265732e537769746368, true, 0x436f6e6e656374446973636f6e6e65637446756e6374696f6e73⟩]⟩
/-- Class CIM15.IEC61968.LoadControl.RemoteConnectDisconnectInfo -/
def s_RemoteConnectDisconnectInfo : SClass := ⟨0x52656d6f7465436f6e6e656374446973636f6e6e656374496e666f, 0x43494d31352e49454336313936382e4c6f6164436f6e74726f6c2e52656d6f7465436f6e6e656374446973636f6e6e656374496e666f, 0,
  [(0x697341726d436f6e6e656374, t_EBoolean), (0x656e6572677955736167655761726e696e67, t_float), (0x6e65656473566f6c746167654c696d6974436865636b, t_EBoolean), (0x637573746f6d6572566f6c746167654c696d6974, t_float), (0x697341726d446973636f6e6e656374, t_EBoolean), (0x6973456e657267794c696d6974696e67, t_EBoolean), (0x61726d656454696d656f7574, t_float), (0x706f7765724c696d6974, t_float), (0x6e65656473506f7765724c696d6974436865636b, t_EBoolean), (0x75736550757368627574746f6e, t_EBoolean), (0x656e657267794c696d6974, t_float), (0x656e65726779557361676553746172744461746554696d65, t_java_util_Date)],
  []⟩
/-- Class CIM15.IEC61968.Metering.ComFunction -/
def s_ComFunction : SClass := ⟨0x436f6d46756e6374696f6e, 0x43494d31352e49454336313936382e4d65746572696e672e436f6d46756e6374696f6e, 0x43494d31352e49454336313936382e4d65746572696e672e456e6444657669636546756e6374696f6e,
  [(0x616d72526f75746572, t_EString), (0x616d7241646472657373, t_EString), (0x74776f576179, t_EBoolean)],
  []⟩
/-- Class CIM15.IEC61968.Metering.DemandResponseProgram -/
def s_DemandResponseProgram : SClass := ⟨0x44656d616e64526573706f6e736550726f6772616d, 0x43494d31352e49454336313936382e4d65746572696e672e44656d616e64526573706f6e736550726f6772616d, 0x43494d31352e49454336313937302e436f72652e4964656e7469666965644f626a656374,
  [(0x74797065, t_EString)],
  [⟨0x456e64446576696365436f6e74726f6c73, 0x43494d31352e49454336313936382e4d65746572696e672e456e64446576696365436f6e74726f6c, true, 0x44656d616e64526573706f6e736550726f6772616d⟩, ⟨0x76616c6964697479496e74657276616c, 0x43494d31352e49454336313937302e446f6d61696e2e4461746554696d65496e74657276616c, false, 0⟩, ⟨0x437573746f6d657241677265656d656e7473, 0x43494d31352e49454336313936382e437573746f6d6572732e437573746f6d657241677265656d656e74, true, 0x44656d616e64526573706f6e736550726f6772616d⟩, ⟨0x456e6444657669636547726f757073, 0x43494d31352e49454336313936382e4d65746572696e672e456e6444657669636547726f7570, true, 0x44656d616e64526573706f6e736550726f6772616d⟩]⟩
/-- Class CIM15.IEC61968.Metering.DynamicDemand -/
def s_DynamicDemand : SClass := ⟨0x44796e616d696344656d616e64, 0x43494d31352e49454336313936382e4d65746572696e672e44796e616d696344656d616e64, 0,
  [(0x737562496e74657276616c, t_float), (0x696e74657276616c, t_float), (0x6b696e64, e_DemandKind)],
  []⟩
/-- Class CIM15.IEC61968.Metering.ElectricMeteringFunction -/
def s_ElectricMeteringFunction : SClass := ⟨0x456c6563747269634d65746572696e6746756e6374696f6e, 0x43494d31352e49454336313936382e4d65746572696e672e456c6563747269634d65746572696e6746756e6374696f6e, 0x43494d31352e49454336313936382e4d65746572696e672e456e6444657669636546756e6374696f6e,
  [(0x6b574d756c7469706c696572, t_EInt), (0x6b57684d756c7469706c696572, t_EInt)],
  [⟨0x6374526174696f4d756c7469706c696572, 0x43494d31352e49454336313936382e4d65746572696e672e52656164696e674d756c7469706c696572, false, 0⟩, ⟨0x62696c6c696e674d756c7469706c696572, 0x43494d31352e49454336313936382e4d65746572696e672e52656164696e674d756c7469706c696572, false, 0⟩, ⟨0x7674526174696f4d756c7469706c696572, 0x43494d31352e49454336313936382e4d65746572696e672e52656164696e674d756c7469706c696572, false, 0⟩, ⟨0x64656d616e644d756c7469706c696572, 0x43494d31352e49454336313936382e4d65746572696e672e52656164696e674d756c7469706c696572, false, 0⟩]⟩
/-- Class CIM15.IEC61968.Metering.EndDevice -/
def s_EndDevice : SClass := ⟨0x456e64446576696365, 0x43494d31352e49454336313936382e4d65746572696e672e456e64446576696365, 0x43494d31352e49454336313936382e4173736574732e4173736574436f6e7461696e6572,
  [(0x74696d655a6f6e654f6666736574, t_float), (0x616d7253797374656d, t_EString)],
  [⟨0x456e64446576696365496e666f, 0x43494d31352e49454336313936382e41737365744d6f64656c732e456e64446576696365496e666f, false, 0x456e6444657669636573⟩, ⟨0x5365727669636544656c6976657279506f696e74, 0x43494d31352e49454336313936382e4d65746572696e672e5365727669636544656c6976657279506f696e74, false, 0x456e6444657669636573⟩, ⟨0x536572766963654c6f636174696f6e, 0x43494d31352e49454336313936382e437573746f6d6572732e536572766963654c6f636174696f6e, false, 0x456e6444657669636573⟩, ⟨0x456e6444657669636546756e6374696f6e73, 0x43494d31352e49454336313936382e4d65746572696e672e456e6444657669636546756e6374696f6e, true, 0x456e64446576696365⟩, ⟨0x456e64446576696365436f6e74726f6c73, 0x43494d31352e49454336313936382e4d65746572696e672e456e64446576696365436f6e74726f6c, true, 0x456e64446576696365⟩, ⟨0x437573746f6d6572, 0x43494d31352e49454336313936382e437573746f6d6572732e437573746f6d6572, false, 0x456e6444657669636573⟩, ⟨0x456e6444657669636547726f757073, 0x43494d31352e49454336313936382e4d65746572696e672e456e6444657669636547726f7570, true, 0x456e6444657669636573⟩]⟩
/-- Class CIM15.IEC61968.Metering.EndDeviceControl -/
def s_EndDeviceControl : SClass := ⟨0x456e64446576696365436f6e74726f6c, 0x43494d31352e49454336313936382e4d65746572696e672e456e64446576696365436f6e74726f6c, 0x43494d31352e49454336313937302e436f72652e4964656e7469666965644f626a656374,
  [(0x647250726f6772616d4c6576656c, t_EInt), (0x647250726f6772616d4d616e6461746f7279, t_EBoolean), (0x74797065, t_EString), (0x70726963655369676e616c, t_float)],
  [⟨0x44656d616e64526573706f6e736550726f6772616d, 0x43494d31352e49454336313936382e4d65746572696e672e44656d616e64526573706f6e736550726f6772616d, false, 0x456e64446576696365436f6e74726f6c73⟩, ⟨0x437573746f6d657241677265656d656e74, 0x43494d31352e49454336313936382e437573746f6d6572732e437573746f6d657241677265656d656e74, false, 0x456e64446576696365436f6e74726f6c73⟩, ⟨0x7363686564756c6564496e74657276616c, 0x43494d31352e49454336313937302e446f6d61696e2e4461746554696d65496e74657276616c, false, 0⟩, ⟨0x456e6444657669636547726f7570, 0x43494d31352e49454336313936382e4d65746572696e672e456e6444657669636547726f7570, false, 0x456e64446576696365436f6e74726f6c73⟩, ⟨0x456e64446576696365, 0x43494d31352e49454336313936382e4d65746572696e672e456e64446576696365, false, 0x456e64446576696365436f6e74726f6c73⟩]⟩
/-- Class CIM15.IEC61968.Metering.EndDeviceEvent -/
def s_EndDeviceEvent : SClass := ⟨0x456e644465766963654576656e74, 0x43494d31352e49454336313936382e4d65746572696e672e456e644465766963654576656e74, 0x43494d31352e49454336313936382e436f6d6d6f6e2e41637469766974795265636f7264,
  [(0x757365724944, t_EString)],
  [⟨0x456e6444657669636546756e6374696f6e, 0x43494d31352e49454336313936382e4d65746572696e672e456e6444657669636546756e6374696f6e, false, 0x456e644465766963654576656e7473⟩, ⟨0x4d6574657252656164696e67, 0x43494d31352e49454336313936382e4d65746572696e672e4d6574657252656164696e67, false, 0x456e644465766963654576656e7473⟩]⟩
/-- Class CIM15.IEC61968.Metering.EndDeviceFunction -/
def s_EndDeviceFunction : SClass := ⟨0x456e6444657669636546756e6374696f6e, 0x43494d31352e49454336313936382e4d65746572696e672e456e6444657669636546756e6374696f6e, 0x43494d31352e49454336313936382e4173736574732e417373657446756e6374696f6e,
  [(0x656e61626c6564, t_EBoolean), (0x737570706f72746564, t_EBoolean)],
  [⟨0x526567697374657273, 0x43494d31352e49454336313936382e4d65746572696e672e5265676973746572, true, 0x456e6444657669636546756e6374696f6e⟩, ⟨0x436f6d45717569706d656e74, 0x43494d31352e49454336313937302e496e666f726d61746976652e496e664173736574732e436f6d45717569706d656e74, false, 0x456e6444657669636546756e6374696f6e73⟩, ⟨0x456e644465766963654576656e7473, 0x43494d31352e49454336313936382e4d65746572696e672e456e644465766963654576656e74, true, 0x456e6444657669636546756e6374696f6e⟩, ⟨0x456e64446576696365, 0x43494d31352e49454336313936382e4d65746572696e672e456e64446576696365, false, 0x456e6444657669636546756e6374696f6e73⟩]⟩
/-- Class CIM15.IEC61968.Metering.EndDeviceGroup -/
def s_EndDeviceGroup : SClass := ⟨0x456e6444657669636547726f7570, 0x43494d31352e49454336313936382e4d65746572696e672e456e6444657669636547726f7570, 0x43494d31352e49454336313937302e436f72652e4964656e7469666965644f626a656374,
  [(0x67726f757041646472657373, t_EInt)],
  [⟨0x456e64446576696365436f6e74726f6c73, 0x43494d31352e49454336313936382e4d65746572696e672e456e64446576696365436f6e74726f6c, true, 0x456e6444657669636547726f7570⟩, ⟨0x456e6444657669636573, 0x43494d31352e49454336313936382e4d65746572696e672e456e64446576696365, true, 0x456e6444657669636547726f757073⟩, ⟨0x44656d616e64526573706f6e736550726f6772616d, 0x43494d31352e49454336313936382e4d65746572696e672e44656d616e64526573706f6e736550726f6772616d, false, 0x456e6444657669636547726f757073⟩]⟩
/-- Class CIM15.IEC61968.Metering.IntervalBlock -/
def s_IntervalBlock : SClass := ⟨0x496e74657276616c426c6f636b, 0x43494d31352e49454336313936382e4d65746572696e672e496e74657276616c426c6f636b, 0x43494d31352e456c656d656e74,
  [],
  [⟨0x52656164696e6754797065, 0x43494d31352e49454336313936382e4d65746572696e672e52656164696e6754797065, false, 0x496e74657276616c426c6f636b73⟩, ⟨0x496e74657276616c52656164696e6773, 0x43494d31352e49454336313936382e4d65746572696e672e496e74657276616c52656164696e67, true, 0x496e74657276616c426c6f636b73⟩, ⟨0x4d6574657252656164696e67, 0x43494d31352e49454336313936382e4d65746572696e672e4d6574657252656164696e67, false, 0x496e74657276616c426c6f636b73⟩, ⟨0x50656e64696e6743616c63756c6174696f6e, 0x43494d31352e49454336313936382e4d65746572696e672e50656e64696e6743616c63756c6174696f6e, false, 0x496e74657276616c426c6f636b73⟩]⟩
/-- Class CIM15.IEC61968.Metering.IntervalReading -/
def s_IntervalReading : SClass := ⟨0x496e74657276616c52656164696e67, 0x43494d31352e49454336313936382e4d65746572696e672e496e74657276616c52656164696e67, 0x43494d31352e49454336313937302e4d6561732e4d6561737572656d656e7456616c7565,
  [(0x76616c7565, t_EFloat)],
  [⟨0x496e74657276616c426c6f636b73, 0x43494d31352e49454336313936382e4d65746572696e672e496e74657276616c426c6f636b, true, 0x496e74657276616c52656164696e6773⟩, ⟨0x52656164696e675175616c6974696573, 0x43494d31352e49454336313936382e4d65746572696e672e52656164696e675175616c697479, true, 0x496e74657276616c52656164696e67⟩]⟩
/-- Class CIM15.IEC61968.Metering.Meter -/
def s_Meter : SClass := ⟨0x4d65746572, 0x43494d31352e49454336313936382e4d65746572696e672e4d65746572, 0x43494d31352e49454336313936382e4d65746572696e672e456e64446576696365,
  [(0x6b52, t_EFloat), (0x6b48, t_EFloat), (0x666f726d4e756d626572, t_EString)],
  [⟨0x4d657465725265706c6163656d656e74576f726b73, 0x43494d31352e49454336313936382e4d65746572696e672e4d6574657253657276696365576f726b, true, 0x4f6c644d65746572⟩, ⟨0x4d6574657252656164696e6773, 0x43494d31352e49454336313936382e4d65746572696e672e4d6574657252656164696e67, true, 0x4d65746572⟩, ⟨0x4d6574657253657276696365576f726b73, 0x43494d31352e49454336313936382e4d65746572696e672e4d6574657253657276696365576f726b, true, 0x4d65746572⟩, ⟨0x56656e64696e675472616e73616374696f6e73, 0x43494d31352e49454336313936382e5061796d656e744d65746572696e672e5472616e73616374696f6e, true, 0x4d65746572⟩]⟩
/-- Class CIM15.IEC61968.Metering.MeterReading -/
def s_MeterReading : SClass := ⟨0x4d6574657252656164696e67, 0x43494d31352e49454336313936382e4d65746572696e672e4d6574657252656164696e67, 0x43494d31352e49454336313937302e436f72652e4964656e7469666965644f626a656374,
  [],
  [⟨0x5365727669636544656c6976657279506f696e74, 0x43494d31352e49454336313936382e4d65746572696e672e5365727669636544656c6976657279506f696e74, false, 0x4d6574657252656164696e6773⟩, ⟨0x76616c756573496e74657276616c, 0x43494d31352e49454336313937302e446f6d61696e2e4461746554696d65496e74657276616c, false, 0⟩, ⟨0x456e644465766963654576656e7473, 0x43494d31352e49454336313936382e4d65746572696e672e456e644465766963654576656e74, true, 0x4d6574657252656164696e67⟩, ⟨0x52656164696e6773, 0x43494d31352e49454336313936382e4d65746572696e672e52656164696e67, true, 0x4d6574657252656164696e6773⟩, ⟨0x437573746f6d657241677265656d656e74, 0x43494d31352e49454336313936382e437573746f6d6572732e437573746f6d657241677265656d656e74, false, 0x4d6574657252656164696e6773⟩, ⟨0x4d65746572, 0x43494d31352e49454336313936382e4d65746572696e672e4d65746572, false, 0x4d6574657252656164696e6773⟩, ⟨0x496e74657276616c426c6f636b73, 0x43494d31352e49454336313936382e4d65746572696e672e496e74657276616c426c6f636b, true, 0x4d6574657252656164696e67⟩]⟩
/-- Class CIM15.IEC61968.Metering.MeterServiceWork -/
def s_MeterServiceWork : SClass := ⟨0x4d6574657253657276696365576f726b, 0x43494d31352e49454336313936382e4d65746572696e672e4d6574657253657276696365576f726b, 0x43494d31352e49454336313936382e576f726b2e576f726b,
  [],
  [⟨0x4f6c644d65746572, 0x43494d31352e49454336313936382e4d65746572696e672e4d65746572, false, 0x4d657465725265706c6163656d656e74576f726b73⟩, ⟨0x4d65746572, 0x43494d31352e49454336313936382e4d65746572696e672e4d65746572, false, 0x4d6574657253657276696365576f726b73⟩]⟩
/-- Class CIM15.IEC61968.Metering.PendingCalculation -/
def s_PendingCalculation : SClass := ⟨0x50656e64696e6743616c63756c6174696f6e, 0x43494d31352e49454336313936382e4d65746572696e672e50656e64696e6743616c63756c6174696f6e, 0x43494d31352e456c656d656e74,
  [(0x7363616c61724e756d657261746f72, t_EInt), (0x6d756c7469706c794265666f7265416464, t_EBoolean), (0x7363616c617244656e6f6d696e61746f72, t_EInt), (0x7363616c6172466c6f6174, t_EFloat), (0x6f6666736574, t_EInt)],
  [⟨0x496e74657276616c426c6f636b73, 0x43494d31352e49454336313936382e4d65746572696e672e496e74657276616c426c6f636b, true, 0x50656e64696e6743616c63756c6174696f6e⟩, ⟨0x52656164696e6754797065, 0x43494d31352e49454336313936382e4d65746572696e672e52656164696e6754797065, false, 0x50656e64696e6743616c63756c6174696f6e⟩]⟩
/-- Class CIM15.IEC61968.Metering.Reading -/
def s_Reading : SClass := ⟨0x52656164696e67, 0x43494d31352e49454336313936382e4d65746572696e672e52656164696e67, 0x43494d31352e49454336313937302e4d6561732e4d6561737572656d656e7456616c7565,
  [(0x76616c7565, t_EFloat)],
  [⟨0x52656164696e6754797065, 0x43494d31352e49454336313936382e4d65746572696e672e52656164696e6754797065, false, 0x52656164696e6773⟩, ⟨0x4d6574657252656164696e6773, 0x43494d31352e49454336313936382e4d65746572696e672e4d6574657252656164696e67, true, 0x52656164696e6773⟩, ⟨0x52656164696e675175616c6974696573, 0x43494d31352e49454336313936382e4d65746572696e672e52656164696e675175616c697479, true, 0x52656164696e67⟩]⟩
/-- Class CIM15.IEC61968.Metering.ReadingMultiplier -/
def s_ReadingMultiplier : SClass := ⟨0x52656164696e674d756c7469706c696572, 0x43494d31352e49454336313936382e4d65746572696e672e52656164696e674d756c7469706c696572, 0,
  [(0x76616c7565, t_EFloat), (0x69734170706c696564, t_EBoolean)],
  []⟩
/-- Class CIM15.IEC61968.Metering.ReadingQuality -/
def s_ReadingQuality : SClass := ⟨0x52656164696e675175616c697479, 0x43494d31352e49454336313936382e4d65746572696e672e52656164696e675175616c697479, 0x43494d31352e456c656d656e74,
  [(0x7175616c697479, t_EString)],
  [⟨0x52656164696e67, 0x43494d31352e49454336313936382e4d65746572696e672e52656164696e67, false, 0x52656164696e675175616c6974696573⟩, ⟨0x496e74657276616c52656164696e67, 0x43494d31352e49454336313936382e4d65746572696e672e496e74657276616c52656164696e67, false, 0x52656164696e675175616c6974696573⟩]⟩
/-- Class CIM15.IEC61968.Metering.ReadingType -/
def s_ReadingType : SClass := ⟨0x52656164696e6754797065, 0x43494d31352e49454336313936382e4d65746572696e672e52656164696e6754797065, 0x43494d31352e49454336313937302e436f72652e4964656e7469666965644f626a656374,
  [(0x6d756c7469706c696572, e_UnitMultiplier), (0x756e6974, e_UnitSymbol), (0x6b696e64, e_ReadingKind), (0x726576657273654368726f6e6f6c6f6779, t_EBoolean), (0x64656661756c745175616c697479, t_EString), (0x696e74657276616c4c656e677468, t_float), (0x6368616e6e656c4e756d626572, t_EInt), (0x64656661756c7456616c75654461746154797065, t_EString)],
  [⟨0x496e74657276616c426c6f636b73, 0x43494d31352e49454336313936382e4d65746572696e672e496e74657276616c426c6f636b, true, 0x52656164696e6754797065⟩, ⟨0x64796e616d6963436f6e66696775726174696f6e, 0x43494d31352e49454336313936382e4d65746572696e672e44796e616d696344656d616e64, false, 0⟩, ⟨0x52656164696e6773, 0x43494d31352e49454336313936382e4d65746572696e672e52656164696e67, true, 0x52656164696e6754797065⟩, ⟨0x5265676973746572, 0x43494d31352e49454336313936382e4d65746572696e672e5265676973746572, false, 0x52656164696e6754797065⟩, ⟨0x50656e64696e6743616c63756c6174696f6e, 0x43494d31352e49454336313936382e4d65746572696e672e50656e64696e6743616c63756c6174696f6e, false, 0x52656164696e6754797065⟩]⟩
/-- Class CIM15.IEC61968.Metering.Register -/
def s_Register : SClass := ⟨0x5265676973746572, 0x43494d31352e49454336313936382e4d65746572696e672e5265676973746572, 0x43494d31352e49454336313937302e436f72652e4964656e7469666965644f626a656374,
  [(0x6c6566744469676974436f756e74, t_EInt), (0x72696768744469676974436f756e74, t_EInt)],
  [⟨0x52656164696e6754797065, 0x43494d31352e49454336313936382e4d65746572696e672e52656164696e6754797065, false, 0x5265676973746572⟩, ⟨0x456e6444657669636546756e6374696f6e, 0x43494d31352e49454336313936382e4d65746572696e672e456e6444657669636546756e6374696f6e, false, 0x526567697374657273⟩]⟩
/-- Class CIM15.IEC61968.Metering.SDPLocation -/
def s_SDPLocation : SClass := ⟨0x5344504c6f636174696f6e, 0x43494d31352e49454336313936382e4d65746572696e672e5344504c6f636174696f6e, 0x43494d31352e49454336313936382e436f6d6d6f6e2e4c6f636174696f6e,
  [(0x6163636573734d6574686f64, t_EString), (0x72656d61726b, t_EString), (0x7369746541636365737350726f626c656d, t_EString), (0x6f63637570616e637944617465, t_java_lang_String)],
  [⟨0x5365727669636544656c6976657279506f696e7473, 0x43494d31352e49454336313936382e4d65746572696e672e5365727669636544656c6976657279506f696e74, true, 0x5344504c6f636174696f6e73⟩]⟩
/-- Class CIM15.IEC61968.Metering.ServiceDeliveryPoint -/
def s_ServiceDeliveryPoint : SClass := ⟨0x5365727669636544656c6976657279506f696e74, 0x43494d31352e49454336313936382e4d65746572696e672e5365727669636544656c6976657279506f696e74, 0x43494d31352e49454336313937302e436f72652e4964656e7469666965644f626a656374,
  [(0x636865636b42696c6c696e67, t_EBoolean), (0x657374696d617465644c6f6164, t_float), (0x7261746564506f776572, t_float), (0x736572766963655072696f72697479, t_EString), (0x67726f756e646564, t_EBoolean), (0x7365727669636544656c697665727952656d61726b, t_EString), (0x7068617365436f6465, e_PhaseCode), (0x637470745265666572656e6365, t_EInt), (0x726174656443757272656e74, t_float), (0x7261746564566f6c74616765, t_float)],
  [⟨0x5344504c6f636174696f6e73, 0x43494d31352e49454336313936382e4d65746572696e672e5344504c6f636174696f6e, true, 0x5365727669636544656c6976657279506f696e7473⟩, ⟨0x536572766963654c6f636174696f6e, 0x43494d31352e49454336313936382e437573746f6d6572732e536572766963654c6f636174696f6e, false, 0x5365727669636544656c6976657279506f696e7473⟩, ⟨0x456e6444657669636573, 0x43494d31352e49454336313936382e4d65746572696e672e456e64446576696365, true, 0x5365727669636544656c6976657279506f696e74⟩, ⟨0x4d6574657252656164696e6773, 0x43494d31352e49454336313936382e4d65746572696e672e4d6574657252656164696e67, true, 0x5365727669636544656c6976657279506f696e74⟩, ⟨0x5365727669636543617465676f7279, 0x43494d31352e49454336313936382e437573746f6d6572732e5365727669636543617465676f7279, false, 0x5365727669636544656c6976657279506f696e7473⟩, ⟨0x50726963696e6753747275637475726573, 0x43494d31352e49454336313936382e437573746f6d6572732e50726963696e67537472756374757265, true, 0x5365727669636544656c6976657279506f696e7473⟩, ⟨0x456e65726779436f6e73756d6572, 0x43494d31352e49454336313937302e57697265732e456e65726779436f6e73756d6572, false, 0x5365727669636544656c6976657279506f696e7473⟩, ⟨0x53657276696365537570706c696572, 0x43494d31352e49454336313936382e5061796d656e744d65746572696e672e53657276696365537570706c696572, false, 0x5365727669636544656c6976657279506f696e7473⟩, ⟨0x437573746f6d657241677265656d656e74, 0x43494d31352e49454336313936382e437573746f6d6572732e437573746f6d657241677265656d656e74, false, 0x5365727669636544656c6976657279506f696e7473⟩, ⟨0x5472616e73666f726d657254616e6b73, 0x43494d31352e49454336313937302e57697265732e5472616e73666f726d657254616e6b, false, 0x5365727669636544656c6976657279506f696e7473⟩]⟩
/-- Class CIM15.IEC61968.Metering.SimpleEndDeviceFunction -/
def s_SimpleEndDeviceFunction : SClass := ⟨0x53696d706c65456e6444657669636546756e6374696f6e, 0x43494d31352e49454336313936382e4d65746572696e672e53696d706c65456e6444657669636546756e6374696f6e, 0x43494d31352e49454336313936382e4d65746572696e672e456e6444657669636546756e6374696f6e,
  [(0x6b696e64, e_EndDeviceFunctionKind)],
  []⟩
/-- Class CIM15.IEC61968.PaymentMetering.AccountMovement -/
def s_AccountMovement : SClass := ⟨0x4163636f756e744d6f76656d656e74, 0x43494d31352e49454336313936382e5061796d656e744d65746572696e672e4163636f756e744d6f76656d656e74, 0,
  [(0x6461746554696d65, t_java_util_Date), (0x726561736f6e, t_EString), (0x616d6f756e74, t_float)],
  []⟩
/-- Class CIM15.IEC61968.PaymentMetering.AccountingUnit -/
def s_AccountingUnit : SClass := ⟨0x4163636f756e74696e67556e6974, 0x43494d31352e49454336313936382e5061796d656e744d65746572696e672e4163636f756e74696e67556e6974, 0,
  [(0x6d756c7469706c696572, e_UnitMultiplier), (0x656e65726779556e6974, t_float), (0x6d6f6e6574617279556e6974, e_Currency), (0x76616c7565, t_EFloat)],
  []⟩
/-- Class CIM15.IEC61968.PaymentMetering.AuxiliaryAccount -/
def s_AuxiliaryAccount : SClass := ⟨0x417578696c696172794163636f756e74, 0x43494d31352e49454336313936382e5061796d656e744d65746572696e672e417578696c696172794163636f756e74, 0x43494d31352e49454336313936382e436f6d6d6f6e2e446f63756d656e74,
  [(0x7072696e6369706c65416d6f756e74, t_float), (0x62616c616e6365, t_float)],
  [⟨0x6c6173744465626974, 0x43494d31352e49454336313936382e5061796d656e744d65746572696e672e4163636f756e744d6f76656d656e74, false, 0⟩, ⟨0x5061796d656e745472616e73616374696f6e73, 0x43494d31352e49454336313936382e5061796d656e744d65746572696e672e5472616e73616374696f6e, true, 0x417578696c696172794163636f756e74⟩, ⟨0x43686172676573, 0x43494d31352e49454336313936382e5061796d656e744d65746572696e672e436861726765, true, 0x417578696c696172794163636f756e7473⟩, ⟨0x6c617374437265646974, 0x43494d31352e49454336313936382e5061796d656e744d65746572696e672e4163636f756e744d6f76656d656e74, false, 0⟩, ⟨0x417578696c6961727941677265656d656e74, 0x43494d31352e49454336313936382e5061796d656e744d65746572696e672e417578696c6961727941677265656d656e74, false, 0x417578696c696172794163636f756e7473⟩, ⟨0x647565, 0x43494d31352e49454336313936382e5061796d656e744d65746572696e672e447565, false, 0⟩]⟩
/-- Class CIM15.IEC61968.PaymentMetering.AuxiliaryAgreement -/
def s_AuxiliaryAgreement : SClass := ⟨0x417578696c6961727941677265656d656e74, 0x43494d31352e49454336313936382e5061796d656e744d65746572696e672e417578696c6961727941677265656d656e74, 0x43494d31352e49454336313936382e436f6d6d6f6e2e41677265656d656e74,
  [(0x76656e64506f7274696f6e417272656172, t_float), (0x617578526566, t_EString), (0x7061794379636c65, t_EString), (0x61727265617273496e746572657374, t_float), (0x6669786564416d6f756e74, t_float), (0x76656e64506f7274696f6e, t_float), (0x73756243617465676f7279, t_EString), (0x6175784379636c65, t_EString), (0x6175785072696f72697479436f6465, t_EString), (0x6d696e416d6f756e74, t_float)],
  [⟨0x437573746f6d657241677265656d656e74, 0x43494d31352e49454336313936382e437573746f6d6572732e437573746f6d657241677265656d656e74, false, 0x417578696c6961727941677265656d656e7473⟩, ⟨0x417578696c696172794163636f756e7473, 0x43494d31352e49454336313936382e5061796d656e744d65746572696e672e417578696c696172794163636f756e74, true, 0x417578696c6961727941677265656d656e74⟩]⟩
/-- Class CIM15.IEC61968.PaymentMetering.BankAccountDetail -/
def s_BankAccountDetail : SClass := ⟨0x42616e6b4163636f756e7444657461696c, 0x43494d31352e49454336313936382e5061796d656e744d65746572696e672e42616e6b4163636f756e7444657461696c, 0,
  [(0x686f6c6465724944, t_EString), (0x686f6c6465724e616d65, t_EString), (0x62616e6b4e616d65, t_EString), (0x6272616e6368436f6465, t_EString), (0x6163636f756e744e756d626572, t_EString)],
  []⟩
/-- Class CIM15.IEC61968.PaymentMetering.Card -/
def s_Card : SClass := ⟨0x43617264, 0x43494d31352e49454336313936382e5061796d656e744d65746572696e672e43617264, 0x43494d31352e456c656d656e74,
  [(0x63764e756d626572, t_EString), (0x65787069727944617465, t_java_lang_String), (0x70616e, t_EString), (0x6163636f756e74486f6c6465724e616d65, t_EString)],
  [⟨0x54656e646572, 0x43494d31352e49454336313936382e5061796d656e744d65746572696e672e54656e646572, false, 0x43617264⟩]⟩
/-- Class CIM15.IEC61968.PaymentMetering.Cashier -/
def s_Cashier : SClass := ⟨0x43617368696572, 0x43494d31352e49454336313936382e5061796d656e744d65746572696e672e43617368696572, 0x43494d31352e49454336313937302e436f72652e4964656e7469666965644f626a656374,
  [],
  [⟨0x656c656374726f6e696341646472657373, 0x43494d31352e49454336313936382e436f6d6d6f6e2e456c656374726f6e696341646472657373, false, 0⟩, ⟨0x43617368696572536869667473, 0x43494d31352e49454336313936382e5061796d656e744d65746572696e672e436173686965725368696674, true, 0x43617368696572⟩]⟩
/-- Class CIM15.IEC61968.PaymentMetering.CashierShift -/
def s_CashierShift : SClass := ⟨0x436173686965725368696674, 0x43494d31352e49454336313936382e5061796d656e744d65746572696e672e436173686965725368696674, 0x43494d31352e49454336313936382e5061796d656e744d65746572696e672e5368696674,
  [(0x63617368466c6f6174, t_float)],
  [⟨0x5472616e73616374696f6e73, 0x43494d31352e49454336313936382e5061796d656e744d65746572696e672e5472616e73616374696f6e, true, 0x436173686965725368696674⟩, ⟨0x506f696e744f6653616c65, 0x43494d31352e49454336313936382e5061796d656e744d65746572696e672e506f696e744f6653616c65, false, 0x43617368696572536869667473⟩, ⟨0x5265636569707473, 0x43494d31352e49454336313936382e5061796d656e744d65746572696e672e52656365697074, true, 0x436173686965725368696674⟩, ⟨0x43617368696572, 0x43494d31352e49454336313936382e5061796d656e744d65746572696e672e43617368696572, false, 0x43617368696572536869667473⟩]⟩
/-- Class CIM15.IEC61968.PaymentMetering.Charge -/
def s_Charge : SClass := ⟨0x436861726765, 0x43494d31352e49454336313936382e5061796d656e744d65746572696e672e436861726765, 0x43494d31352e49454336313937302e436f72652e4964656e7469666965644f626a656374,
  [(0x7661726961626c65506f7274696f6e, t_float), (0x6b696e64, e_ChargeKind)],
  [⟨0x436f6e73756d7074696f6e546172696666496e74657276616c73, 0x43494d31352e49454336313936382e5061796d656e744d65746572696e672e436f6e73756d7074696f6e546172696666496e74657276616c, true, 0x43686172676573⟩, ⟨0x54696d65546172696666496e74657276616c73, 0x43494d31352e49454336313936382e5061796d656e744d65746572696e672e54696d65546172696666496e74657276616c, true, 0x43686172676573⟩, ⟨0x417578696c696172794163636f756e7473, 0x43494d31352e49454336313936382e5061796d656e744d65746572696e672e417578696c696172794163636f756e74, true, 0x43686172676573⟩, ⟨0x4368696c6443686172676573, 0x43494d31352e49454336313936382e5061796d656e744d65746572696e672e436861726765, true, 0x506172656e74436861726765⟩, ⟨0x6669786564506f7274696f6e, 0x43494d31352e49454336313936382e5061796d656e744d65746572696e672e4163636f756e74696e67556e6974, false, 0⟩, ⟨0x506172656e74436861726765, 0x43494d31352e49454336313936382e5061796d656e744d65746572696e672e436861726765, false, 0x4368696c6443686172676573⟩]⟩
/-- Class CIM15.IEC61968.PaymentMetering.Cheque -/
def s_Cheque : SClass := ⟨0x436865717565, 0x43494d31352e49454336313936382e5061796d656e744d65746572696e672e436865717565, 0x43494d31352e456c656d656e74,
  [(0x6d6963724e756d626572, t_EString), (0x6368657175654e756d626572, t_EString), (0x64617465, t_java_lang_String), (0x6b696e64, e_ChequeKind)],
  [⟨0x54656e646572, 0x43494d31352e49454336313936382e5061796d656e744d65746572696e672e54656e646572, false, 0x436865717565⟩, ⟨0x62616e6b4163636f756e7444657461696c, 0x43494d31352e49454336313936382e5061796d656e744d65746572696e672e42616e6b4163636f756e7444657461696c, false, 0⟩]⟩
/-- Class CIM15.IEC61968.PaymentMetering.ConsumptionTariffInterval -/
def s_ConsumptionTariffInterval : SClass := ⟨0x436f6e73756d7074696f6e546172696666496e74657276616c, 0x43494d31352e49454336313936382e5061796d656e744d65746572696e672e436f6e73756d7074696f6e546172696666496e74657276616c, 0x43494d31352e456c656d656e74,
  [(0x737461727456616c7565, t_float), (0x73657175656e63654e756d626572, t_EInt)],
  [⟨0x43686172676573, 0x43494d31352e49454336313936382e5061796d656e744d65746572696e672e436861726765, true, 0x436f6e73756d7074696f6e546172696666496e74657276616c73⟩, ⟨0x54617269666650726f66696c6573, 0x43494d31352e49454336313936382e5061796d656e744d65746572696e672e54617269666650726f66696c65, true, 0x436f6e73756d7074696f6e546172696666496e74657276616c73⟩, ⟨0x546f75546172696666496e74657276616c73, 0x43494d31352e49454336313936382e5061796d656e744d65746572696e672e54696d65546172696666496e74657276616c, true, 0x436f6e73756d7074696f6e546172696666496e74657276616c73⟩]⟩
/-- Class CIM15.IEC61968.PaymentMetering.Due -/
def s_Due : SClass := ⟨0x447565, 0x43494d31352e49454336313936382e5061796d656e744d65746572696e672e447565, 0,
  [(0x696e746572657374, t_float), (0x63686172676573, t_float), (0x7072696e6369706c65, t_float), (0x63757272656e74, t_float), (0x61727265617273, t_float)],
  []⟩
/-- Class CIM15.IEC61968.PaymentMetering.LineDetail -/
def s_LineDetail : SClass := ⟨0x4c696e6544657461696c, 0x43494d31352e49454336313936382e5061796d656e744d65746572696e672e4c696e6544657461696c, 0,
  [(0x616d6f756e74, t_float), (0x726f756e64696e67, t_float), (0x6461746554696d65, t_java_util_Date), (0x6e6f7465, t_EString)],
  []⟩
/-- Class CIM15.IEC61968.PaymentMetering.MerchantAccount -/
def s_MerchantAccount : SClass := ⟨0x4d65726368616e744163636f756e74, 0x43494d31352e49454336313936382e5061796d656e744d65746572696e672e4d65726368616e744163636f756e74, 0x43494d31352e49454336313936382e436f6d6d6f6e2e446f63756d656e74,
  [(0x63757272656e7442616c616e6365, t_float), (0x70726f766973696f6e616c42616c616e6365, t_float)],
  [⟨0x4d65726368616e7441677265656d656e74, 0x43494d31352e49454336313936382e5061796d656e744d65746572696e672e4d65726368616e7441677265656d656e74, false, 0x4d65726368616e744163636f756e7473⟩, ⟨0x5472616e736163746f7273, 0x43494d31352e49454336313936382e5061796d656e744d65746572696e672e5472616e736163746f72, true, 0x4d65726368616e744163636f756e7473⟩, ⟨0x56656e646f72536869667473, 0x43494d31352e49454336313936382e5061796d656e744d65746572696e672e56656e646f725368696674, true, 0x4d65726368616e744163636f756e74⟩]⟩
/-- Class CIM15.IEC61968.PaymentMetering.MerchantAgreement -/
def s_MerchantAgreement : SClass := ⟨0x4d65726368616e7441677265656d656e74, 0x43494d31352e49454336313936382e5061796d656e744d65746572696e672e4d65726368616e7441677265656d656e74, 0x43494d31352e49454336313936382e436f6d6d6f6e2e41677265656d656e74,
  [],
  [⟨0x4d65726368616e744163636f756e7473, 0x43494d31352e49454336313936382e5061796d656e744d65746572696e672e4d65726368616e744163636f756e74, true, 0x4d65726368616e7441677265656d656e74⟩]⟩
/-- Class CIM15.IEC61968.PaymentMetering.PointOfSale -/
def s_PointOfSale : SClass := ⟨0x506f696e744f6653616c65, 0x43494d31352e49454336313936382e5061796d656e744d65746572696e672e506f696e744f6653616c65, 0x43494d31352e49454336313937302e436f72652e4964656e7469666965644f626a656374,
  [(0x6c6f636174696f6e, t_EString)],
  [⟨0x43617368696572536869667473, 0x43494d31352e49454336313936382e5061796d656e744d65746572696e672e436173686965725368696674, true, 0x506f696e744f6653616c65⟩]⟩
/-- Class CIM15.IEC61968.PaymentMetering.Receipt -/
def s_Receipt : SClass := ⟨0x52656365697074, 0x43494d31352e49454336313936382e5061796d656e744d65746572696e672e52656365697074, 0x43494d31352e49454336313937302e436f72652e4964656e7469666965644f626a656374,
  [(0x697342616e6b61626c65, t_EBoolean)],
  [⟨0x56656e646f725368696674, 0x43494d31352e49454336313936382e5061796d656e744d65746572696e672e56656e646f725368696674, false, 0x5265636569707473⟩, ⟨0x6c696e65, 0x43494d31352e49454336313936382e5061796d656e744d65746572696e672e4c696e6544657461696c, false, 0⟩, ⟨0x436173686965725368696674, 0x43494d31352e49454336313936382e5061796d656e744d65746572696e672e436173686965725368696674, false, 0x5265636569707473⟩, ⟨0x54656e64657273, 0x43494d31352e49454336313936382e5061796d656e744d65746572696e672e54656e646572, true, 0x52656365697074⟩, ⟨0x5472616e73616374696f6e73, 0x43494d31352e49454336313936382e5061796d656e744d65746572696e672e5472616e73616374696f6e, true, 0x52656365697074⟩]⟩
/-- Class CIM15.IEC61968.PaymentMetering.ServiceSupplier -/
def s_ServiceSupplier : SClass := ⟨0x53657276696365537570706c696572, 0x43494d31352e49454336313936382e5061796d656e744d65746572696e672e53657276696365537570706c696572, 0x43494d31352e49454336313936382e436f6d6d6f6e2e4f7267616e69736174696f6e,
  [(0x6973737565724964656e74696669636174696f6e4e756d626572, t_EString), (0x6b696e64, e_SupplierKind)],
  [⟨0x42616e6b4163636f756e7473, 0x43494d31352e49454336313937302e496e666f726d61746976652e496e66436f6d6d6f6e2e42616e6b4163636f756e74, true, 0x53657276696365537570706c696572⟩, ⟨0x5365727669636544656c6976657279506f696e7473, 0x43494d31352e49454336313936382e4d65746572696e672e5365727669636544656c6976657279506f696e74, true, 0x53657276696365537570706c696572⟩, ⟨0x437573746f6d657241677265656d656e7473, 0x43494d31352e49454336313936382e437573746f6d6572732e437573746f6d657241677265656d656e74, true, 0x53657276696365537570706c696572⟩]⟩
/-- Class CIM15.IEC61968.PaymentMetering.Shift -/
def s_Shift : SClass := ⟨0x5368696674, 0x43494d31352e49454336313936382e5061796d656e744d65746572696e672e5368696674, 0x43494d31352e49454336313937302e436f72652e4964656e7469666965644f626a656374,
  [(0x7472616e73616374696f6e734772616e64546f74616c, t_float), (0x72656365697074734772616e64546f74616c42616e6b61626c65, t_float), (0x72656365697074734772616e64546f74616c526f756e64696e67, t_float), (0x7472616e73616374696f6e734772616e64546f74616c526f756e64696e67, t_float), (0x72656365697074734772616e64546f74616c4e6f6e42616e6b61626c65, t_float)],
  [⟨0x6163746976697479496e74657276616c, 0x43494d31352e49454336313937302e446f6d61696e2e4461746554696d65496e74657276616c, false, 0⟩]⟩
/-- Class CIM15.IEC61968.PaymentMetering.TariffProfile -/
def s_TariffProfile : SClass := ⟨0x54617269666650726f66696c65, 0x43494d31352e49454336313936382e5061796d656e744d65746572696e672e54617269666650726f66696c65, 0x43494d31352e49454336313936382e436f6d6d6f6e2e446f63756d656e74,
  [(0x7461726966664379636c65, t_EString)],
  [⟨0x54617269666673, 0x43494d31352e49454336313936382e437573746f6d6572732e546172696666, true, 0x54617269666650726f66696c6573⟩, ⟨0x436f6e73756d7074696f6e546172696666496e74657276616c73, 0x43494d31352e49454336313936382e5061796d656e744d65746572696e672e436f6e73756d7074696f6e546172696666496e74657276616c, true, 0x54617269666650726f66696c6573⟩, ⟨0x54696d65546172696666496e74657276616c73, 0x43494d31352e49454336313936382e5061796d656e744d65746572696e672e54696d65546172696666496e74657276616c, true, 0x54617269666650726f66696c6573⟩]⟩
/-- Class CIM15.IEC61968.PaymentMetering.Tender -/
def s_Tender : SClass := ⟨0x54656e646572, 0x43494d31352e49454336313936382e5061796d656e744d65746572696e672e54656e646572, 0x43494d31352e49454336313937302e436f72652e4964656e7469666965644f626a656374,
  [(0x6b696e64, e_TenderKind), (0x6368616e6765, t_float), (0x616d6f756e74, t_float)],
  [⟨0x43617264, 0x43494d31352e49454336313936382e5061796d656e744d65746572696e672e43617264, false, 0x54656e646572⟩, ⟨0x52656365697074, 0x43494d31352e49454336313936382e5061796d656e744d65746572696e672e52656365697074, false, 0x54656e64657273⟩, ⟨0x436865717565, 0x43494d31352e49454336313936382e5061796d656e744d65746572696e672e436865717565, false, 0x54656e646572⟩]⟩
/-- Class CIM15.IEC61968.PaymentMetering.TimeTariffInterval -/
def s_TimeTariffInterval : SClass := ⟨0x54696d65546172696666496e74657276616c, 0x43494d31352e49454336313936382e5061796d656e744d65746572696e672e54696d65546172696666496e74657276616c, 0x43494d31352e456c656d656e74,
  [(0x73746172744461746554696d65, t_java_util_Date), (0x73657175656e63654e756d626572, t_EInt)],
  [⟨0x436f6e73756d7074696f6e546172696666496e74657276616c73, 0x43494d31352e49454336313936382e5061796d656e744d65746572696e672e436f6e73756d7074696f6e546172696666496e74657276616c, true, 0x546f75546172696666496e74657276616c73⟩, ⟨0x54617269666650726f66696c6573, 0x43494d31352e49454336313936382e5061796d656e744d65746572696e672e54617269666650726f66696c65, true, 0x54696d65546172696666496e74657276616c73⟩, ⟨0x43686172676573, 0x43494d31352e49454336313936382e5061796d656e744d65746572696e672e436861726765, true, 0x54696d65546172696666496e74657276616c73⟩]⟩
/-- Class CIM15.IEC61968.PaymentMetering.Transaction -/
def s_Transaction : SClass := ⟨0x5472616e73616374696f6e, 0x43494d31352e49454336313936382e5061796d656e744d65746572696e672e5472616e73616374696f6e, 0x43494d31352e49454336313937302e436f72652e4964656e7469666965644f626a656374,
  [(0x646f6e6f725265666572656e6365, t_EString), (0x6b696e64, e_TransactionKind), (0x72656365697665725265666572656e6365, t_EString), (0x73657276696365556e6974734572726f72, t_float), (0x646976657273655265666572656e6365, t_EString), (0x73657276696365556e697473456e65726779, t_float), (0x72657665727365644964, t_EString)],
  [⟨0x50726963696e67537472756374757265, 0x43494d31352e49454336313936382e437573746f6d6572732e50726963696e67537472756374757265, false, 0x5472616e73616374696f6e73⟩, ⟨0x6c696e65, 0x43494d31352e49454336313936382e5061796d656e744d65746572696e672e4c696e6544657461696c, false, 0⟩, ⟨0x5573657241747472696275746573, 0x43494d31352e49454336313936382e436f6d6d6f6e2e55736572417474726962757465, true, 0x5472616e73616374696f6e⟩, ⟨0x417578696c696172794163636f756e74, 0x43494d31352e49454336313936382e5061796d656e744d65746572696e672e417578696c696172794163636f756e74, false, 0x5061796d656e745472616e73616374696f6e73⟩, ⟨0x56656e646f725368696674, 0x43494d31352e49454336313936382e5061796d656e744d65746572696e672e56656e646f725368696674, false, 0x5472616e73616374696f6e73⟩, ⟨0x52656365697074, 0x43494d31352e49454336313936382e5061796d656e744d65746572696e672e52656365697074, false, 0x5472616e73616374696f6e73⟩, ⟨0x4d65746572, 0x43494d31352e49454336313936382e4d65746572696e672e4d65746572, false, 0x56656e64696e675472616e73616374696f6e73⟩, ⟨0x437573746f6d65724163636f756e74, 0x43494d31352e49454336313936382e437573746f6d6572732e437573746f6d65724163636f756e74, false, 0x5061796d656e745472616e73616374696f6e73⟩, ⟨0x436173686965725368696674, 0x43494d31352e49454336313936382e5061796d656e744d65746572696e672e436173686965725368696674, false, 0x5472616e73616374696f6e73⟩]⟩
/-- Class CIM15.IEC61968.PaymentMetering.Transactor -/
def s_Transactor : SClass := ⟨0x5472616e736163746f72, 0x43494d31352e49454336313936382e5061796d656e744d65746572696e672e5472616e736163746f72, 0x43494d31352e49454336313937302e436f72652e4964656e7469666965644f626a656374,
  [],
  [⟨0x4d65726368616e744163636f756e7473, 0x43494d31352e49454336313936382e5061796d656e744d65746572696e672e4d65726368616e744163636f756e74, true, 0x5472616e736163746f7273⟩]⟩
/-- Class CIM15.IEC61968.PaymentMetering.Vendor -/
def s_Vendor : SClass := ⟨0x56656e646f72, 0x43494d31352e49454336313936382e5061796d656e744d65746572696e672e56656e646f72, 0x43494d31352e49454336313937302e436f72652e4964656e7469666965644f626a656374,
  [],
  [⟨0x56656e646f72536869667473, 0x43494d31352e49454336313936382e5061796d656e744d65746572696e672e56656e646f725368696674, true, 0x56656e646f72⟩]⟩
/-- Class CIM15.IEC61968.PaymentMetering.VendorShift -/
def s_VendorShift : SClass := ⟨0x56656e646f725368696674, 0x43494d31352e49454336313936382e5061796d656e744d65746572696e672e56656e646f725368696674, 0x43494d31352e49454336313936382e5061796d656e744d65746572696e672e5368696674,
  [(0x6d65726368616e744465626974416d6f756e74, t_float), (0x706f73746564, t_EBoolean)],
  [⟨0x56656e646f72, 0x43494d31352e49454336313936382e5061796d656e744d65746572696e672e56656e646f72, false, 0x56656e646f72536869667473⟩, ⟨0x5265636569707473, 0x43494d31352e49454336313936382e5061796d656e744d65746572696e672e52656365697074, true, 0x56656e646f725368696674⟩, ⟨0x4d65726368616e744163636f756e74, 0x43494d31352e49454336313936382e5061796d656e744d65746572696e672e4d65726368616e744163636f756e74, false, 0x56656e646f72536869667473⟩, ⟨0x5472616e73616374696f6e73, 0x43494d31352e49454336313936382e5061796d656e744d65746572696e672e5472616e73616374696f6e, true, 0x56656e646f725368696674⟩]⟩
/-- Class CIM15.IEC61968.Work.Work -/
def s_Work : SClass := ⟨0x576f726b, 0x43494d31352e49454336313936382e576f726b2e576f726b, 0x43494d31352e49454336313936382e436f6d6d6f6e2e446f63756d656e74,
  [(0x6b696e64, e_WorkKind), (0x7072696f72697479, t_EString), (0x726571756573744461746554696d65, t_java_util_Date)],
  [⟨0x44657369676e73, 0x43494d31352e49454336313937302e496e666f726d61746976652e496e66576f726b2e44657369676e, true, 0x576f726b⟩, ⟨0x576f726b436f737444657461696c73, 0x43494d31352e49454336313937302e496e666f726d61746976652e496e66576f726b2e576f726b436f737444657461696c, true, 0x576f726b73⟩, ⟨0x45727050726f6a6563744163636f756e74696e67, 0x43494d31352e49454336313937302e496e666f726d61746976652e496e66455250537570706f72742e45727050726f6a6563744163636f756e74696e67, false, 0x576f726b73⟩, ⟨0x50726f6a656374, 0x43494d31352e49454336313937302e496e666f726d61746976652e496e66576f726b2e50726f6a656374, false, 0x576f726b73⟩, ⟨0x576f726b466c6f775374657073, 0x43494d31352e49454336313937302e496e666f726d61746976652e496e66576f726b2e576f726b466c6f7753746570, true, 0x576f726b⟩, ⟨0x576f726b5461736b73, 0x43494d31352e49454336313937302e496e666f726d61746976652e496e66576f726b2e576f726b5461736b, true, 0x576f726b⟩, ⟨0x427573696e65737343617365, 0x43494d31352e49454336313937302e496e666f726d61746976652e496e66576f726b2e427573696e65737343617365, false, 0x576f726b73⟩, ⟨0x576f726b42696c6c696e67496e666f, 0x43494d31352e49454336313937302e496e666f726d61746976652e496e66437573746f6d6572732e576f726b42696c6c696e67496e666f, false, 0x576f726b73⟩, ⟨0x52657175657374, 0x43494d31352e49454336313937302e496e666f726d61746976652e496e66576f726b2e52657175657374, false, 0x576f726b73⟩, ⟨0x437573746f6d657273, 0x43494d31352e49454336313936382e437573746f6d6572732e437573746f6d6572, true, 0x576f726b73⟩]⟩
/-- Class CIM15.IEC61970.AuxiliaryEquipment.AuxiliaryEquipment -/
def s_AuxiliaryEquipment : SClass := ⟨0x417578696c6961727945717569706d656e74, 0x43494d31352e49454336313937302e417578696c6961727945717569706d656e742e417578696c6961727945717569706d656e74, 0x43494d31352e49454336313937302e436f72652e45717569706d656e74,
  [],
  [⟨0x5465726d696e616c, 0x43494d31352e49454336313937302e436f72652e5465726d696e616c, false, 0x417578696c6961727945717569706d656e74⟩]⟩
/-- Class CIM15.IEC61970.AuxiliaryEquipment.CurrentTransformer -/
def s_CurrentTransformer : SClass := ⟨0x43757272656e745472616e73666f726d6572, 0x43494d31352e49454336313937302e417578696c6961727945717569706d656e742e43757272656e745472616e73666f726d6572, 0x43494d31352e49454336313937302e417578696c6961727945717569706d656e742e53656e736f72,
  [(0x6374436c617373, t_EString), (0x61636375726163794c696d6974, t_EString), (0x7573616765, t_EString), (0x6163637572616379436c617373, t_EString), (0x636f7265436f756e74, t_EInt), (0x6d6178526174696f, t_EFloat)],
  [⟨0x4354496e666f, 0x43494d31352e49454336313937302e496e666f726d61746976652e496e664173736574732e43757272656e745472616e73666f726d6572496e666f, false, 0x435473⟩]⟩
/-- Class CIM15.IEC61970.AuxiliaryEquipment.FaultIndicator -/
def s_FaultIndicator : SClass := ⟨0x4661756c74496e64696361746f72, 0x43494d31352e49454336313937302e417578696c6961727945717569706d656e742e4661756c74496e64696361746f72, 0x43494d31352e49454336313937302e417578696c6961727945717569706d656e742e417578696c6961727945717569706d656e74,
  [],
  [⟨0x4661756c74496e64696361746f72496e666f, 0x43494d31352e49454336313937302e496e666f726d61746976652e496e664173736574732e4661756c74496e64696361746f72496e666f, false, 0x4661756c74496e64696361746f7273⟩]⟩
/-- Class CIM15.IEC61970.AuxiliaryEquipment.PotentialTransformer -/
def s_PotentialTransformer : SClass := ⟨0x506f74656e7469616c5472616e73666f726d6572, 0x43494d31352e49454336313937302e417578696c6961727945717569706d656e742e506f74656e7469616c5472616e73666f726d6572, 0x43494d31352e49454336313937302e417578696c6961727945717569706d656e742e53656e736f72,
  [(0x6e6f6d696e616c526174696f, t_EFloat), (0x6163637572616379436c617373, t_EString), (0x7074436c617373, t_EString)],
  [⟨0x5054496e666f, 0x43494d31352e49454336313937302e496e666f726d61746976652e496e664173736574732e506f74656e7469616c5472616e73666f726d6572496e666f, false, 0x505473⟩]⟩
/-- Class CIM15.IEC61970.AuxiliaryEquipment.Sensor -/
def s_Sensor : SClass := ⟨0x53656e736f72, 0x43494d31352e49454336313937302e417578696c6961727945717569706d656e742e53656e736f72, 0x43494d31352e49454336313937302e417578696c6961727945717569706d656e742e417578696c6961727945717569706d656e74,
  [],
  []⟩
/-- Class CIM15.IEC61970.AuxiliaryEquipment.SurgeProtector -/
def s_SurgeProtector : SClass := ⟨0x537572676550726f746563746f72, 0x43494d31352e49454336313937302e417578696c6961727945717569706d656e742e537572676550726f746563746f72, 0x43494d31352e49454336313937302e417578696c6961727945717569706d656e742e417578696c6961727945717569706d656e74,
  [],
  [⟨0x537572676550726f746563746f72496e666f, 0x43494d31352e49454336313937302e496e666f726d61746976652e496e664173736574732e537572676550726f746563746f72496e666f, false, 0x537572676550726f746563746f7273⟩]⟩
/-- Class CIM15.IEC61970.Contingency.Contingency -/
def s_Contingency : SClass := ⟨0x436f6e74696e67656e6379, 0x43494d31352e49454336313937302e436f6e74696e67656e63792e436f6e74696e67656e6379, 0x43494d31352e49454336313937302e436f72652e4964656e7469666965644f626a656374,
  [(0x6d7573745374756479, t_EBoolean)],
  [⟨0x436f6e74696e67656e6379456c656d656e74, 0x43494d31352e49454336313937302e436f6e74696e67656e63792e436f6e74696e67656e6379456c656d656e74, true, 0x436f6e74696e67656e6379⟩]⟩
/-- Class CIM15.IEC61970.Contingency.ContingencyElement -/
def s_ContingencyElement : SClass := ⟨0x436f6e74696e67656e6379456c656d656e74, 0x43494d31352e49454336313937302e436f6e74696e67656e63792e436f6e74696e67656e6379456c656d656e74, 0x43494d31352e49454336313937302e436f72652e4964656e7469666965644f626a656374,
  [],
  [⟨0x436f6e74696e67656e6379, 0x43494d31352e49454336313937302e436f6e74696e67656e63792e436f6e74696e67656e6379, false, 0x436f6e74696e67656e6379456c656d656e74⟩]⟩
/-- Class CIM15.IEC61970.Contingency.ContingencyEquipment -/
def s_ContingencyEquipment : SClass := ⟨0x436f6e74696e67656e637945717569706d656e74, 0x43494d31352e49454336313937302e436f6e74696e67656e63792e436f6e74696e67656e637945717569706d656e74, 0x43494d31352e49454336313937302e436f6e74696e67656e63792e436f6e74696e67656e6379456c656d656e74,
  [(0x636f6e74696e67656e74537461747573, e_ContingencyEquipmentStatusKind)],
  [⟨0x45717569706d656e74, 0x43494d31352e49454336313937302e436f72652e45717569706d656e74, false, 0x436f6e74696e67656e637945717569706d656e74⟩]⟩
/-- Class CIM15.IEC61970.ControlArea.AltGeneratingUnitMeas -/
def s_AltGeneratingUnitMeas : SClass := ⟨0x416c7447656e65726174696e67556e69744d656173, 0x43494d31352e49454336313937302e436f6e74726f6c417265612e416c7447656e65726174696e67556e69744d656173, 0x43494d31352e456c656d656e74,
  [(0x7072696f72697479, t_EInt)],
  [⟨0x416e616c6f6756616c7565, 0x43494d31352e49454336313937302e4d6561732e416e616c6f6756616c7565, false, 0x416c7447656e65726174696e67556e6974⟩, ⟨0x436f6e74726f6c4172656147656e65726174696e67556e6974, 0x43494d31352e49454336313937302e436f6e74726f6c417265612e436f6e74726f6c4172656147656e65726174696e67556e6974, false, 0x416c7447656e65726174696e67556e69744d656173⟩]⟩
/-- Class CIM15.IEC61970.ControlArea.AltTieMeas -/
def s_AltTieMeas : SClass := ⟨0x416c745469654d656173, 0x43494d31352e49454336313937302e436f6e74726f6c417265612e416c745469654d656173, 0x43494d31352e456c656d656e74,
  [(0x7072696f72697479, t_EInt)],
  [⟨0x416e616c6f6756616c7565, 0x43494d31352e49454336313937302e4d6561732e416e616c6f6756616c7565, false, 0x416c745469654d656173⟩, ⟨0x546965466c6f77, 0x43494d31352e49454336313937302e436f6e74726f6c417265612e546965466c6f77, false, 0x416c745469654d656173⟩]⟩
/-- Class CIM15.IEC61970.ControlArea.ControlArea -/
def s_ControlArea : SClass := ⟨0x436f6e74726f6c41726561, 0x43494d31352e49454336313937302e436f6e74726f6c417265612e436f6e74726f6c41726561, 0x43494d31352e49454336313937302e436f72652e506f77657253797374656d5265736f75726365,
  [(0x74797065, e_ControlAreaTypeKind), (0x70546f6c6572616e6365, t_float), (0x6e6574496e7465726368616e6765, t_float)],
  [⟨0x436f6e74726f6c4172656147656e65726174696e67556e6974, 0x43494d31352e49454336313937302e436f6e74726f6c417265612e436f6e74726f6c4172656147656e65726174696e67556e6974, true, 0x436f6e74726f6c41726561⟩, ⟨0x546965466c6f77, 0x43494d31352e49454336313937302e436f6e74726f6c417265612e546965466c6f77, true, 0x436f6e74726f6c41726561⟩, ⟨0x456e6572677941726561, 0x43494d31352e49454336313937302e4c6f61644d6f64656c2e456e6572677941726561, false, 0x436f6e74726f6c41726561⟩]⟩
/-- Class CIM15.IEC61970.ControlArea.ControlAreaGeneratingUnit -/
def s_ControlAreaGeneratingUnit : SClass := ⟨0x436f6e74726f6c4172656147656e65726174696e67556e6974, 0x43494d31352e49454336313937302e436f6e74726f6c417265612e436f6e74726f6c4172656147656e65726174696e67556e6974, 0x43494d31352e456c656d656e74,
  [],
  [⟨0x416c7447656e65726174696e67556e69744d656173, 0x43494d31352e49454336313937302e436f6e74726f6c417265612e416c7447656e65726174696e67556e69744d656173, true, 0x436f6e74726f6c4172656147656e65726174696e67556e6974⟩, ⟨0x47656e65726174696e67556e6974, 0x43494d31352e49454336313937302e47656e65726174696f6e2e50726f64756374696f6e2e47656e65726174696e67556e6974, false, 0x436f6e74726f6c4172656147656e65726174696e67556e6974⟩, ⟨0x436f6e74726f6c41726561, 0x43494d31352e49454336313937302e436f6e74726f6c417265612e436f6e74726f6c41726561, false, 0x436f6e74726f6c4172656147656e65726174696e67556e6974⟩]⟩
/-- Class CIM15.IEC61970.ControlArea.TieFlow -/
def s_TieFlow : SClass := ⟨0x546965466c6f77, 0x43494d31352e49454336313937302e436f6e74726f6c417265612e546965466c6f77, 0x43494d31352e456c656d656e74,
  [(0x706f736974697665466c6f77496e, t_EBoolean)],
  [⟨0x416c745469654d656173, 0x43494d31352e49454336313937302e436f6e74726f6c417265612e416c745469654d656173, true, 0x546965466c6f77⟩, ⟨0x5465726d696e616c, 0x43494d31352e49454336313937302e436f72652e5465726d696e616c, false, 0x546965466c6f77⟩, ⟨0x436f6e74726f6c41726561, 0x43494d31352e49454336313937302e436f6e74726f6c417265612e436f6e74726f6c41726561, false, 0x546965466c6f77⟩]⟩
/-- Class CIM15.IEC61970.Core.BasePower -/
def s_BasePower : SClass := ⟨0x42617365506f776572, 0x43494d31352e49454336313937302e436f72652e42617365506f776572, 0x43494d31352e49454336313937302e436f72652e4964656e7469666965644f626a656374,
  [(0x62617365506f776572, t_float)],
  []⟩
/-- Class CIM15.IEC61970.Core.BaseVoltage -/
def s_BaseVoltage : SClass := ⟨0x42617365566f6c74616765, 0x43494d31352e49454336313937302e436f72652e42617365566f6c74616765, 0x43494d31352e49454336313937302e436f72652e4964656e7469666965644f626a656374,
  [(0x6e6f6d696e616c566f6c74616765, t_float), (0x69734443, t_EBoolean)],
  [⟨0x546f706f6c6f676963616c4e6f6465, 0x43494d31352e49454336313937302e546f706f6c6f67792e546f706f6c6f676963616c4e6f6465, true, 0x42617365566f6c74616765⟩, ⟨0x566f6c746167654c6576656c, 0x43494d31352e49454336313937302e436f72652e566f6c746167654c6576656c, true, 0x42617365566f6c74616765⟩, ⟨0x436f6e64756374696e6745717569706d656e74, 0x43494d31352e49454336313937302e436f72652e436f6e64756374696e6745717569706d656e74, true, 0x42617365566f6c74616765⟩]⟩
/-- Class CIM15.IEC61970.Core.BasicIntervalSchedule -/
def s_BasicIntervalSchedule : SClass := ⟨0x4261736963496e74657276616c5363686564756c65, 0x43494d31352e49454336313937302e436f72652e4261736963496e74657276616c5363686564756c65, 0x43494d31352e49454336313937302e436f72652e4964656e7469666965644f626a656374,
  [(0x737461727454696d65, t_java_util_Date), (0x76616c7565314d756c7469706c696572, e_UnitMultiplier), (0x76616c756532556e6974, e_UnitSymbol), (0x76616c756531556e6974, e_UnitSymbol), (0x76616c7565324d756c7469706c696572, e_UnitMultiplier)],
  []⟩
/-- Class CIM15.IEC61970.Core.Bay -/
def s_Bay : SClass := ⟨0x426179, 0x43494d31352e49454336313937302e436f72652e426179, 0x43494d31352e49454336313937302e436f72652e45717569706d656e74436f6e7461696e6572,
  [(0x626179506f7765724d656173466c6167, t_EBoolean), (0x626179456e657267794d656173466c6167, t_EBoolean), (0x627573426172436f6e66696775726174696f6e, e_BusbarConfiguration), (0x627265616b6572436f6e66696775726174696f6e, e_BreakerConfiguration)],
  [⟨0x566f6c746167654c6576656c, 0x43494d31352e49454336313937302e436f72652e566f6c746167654c6576656c, false, 0x42617973⟩, ⟨0x53756273746174696f6e, 0x43494d31352e49454336313937302e436f72652e53756273746174696f6e, false, 0x42617973⟩]⟩
/-- Class CIM15.IEC61970.Core.ConductingEquipment -/
def s_ConductingEquipment : SClass := ⟨0x436f6e64756374696e6745717569706d656e74, 0x43494d31352e49454336313937302e436f72652e436f6e64756374696e6745717569706d656e74, 0x43494d31352e49454336313937302e436f72652e45717569706d656e74,
  [],
  [⟨0x42617365566f6c74616765, 0x43494d31352e49454336313937302e436f72652e42617365566f6c74616765, false, 0x436f6e64756374696e6745717569706d656e74⟩, ⟨0x436c656172616e636554616773, 0x43494d31352e49454336313937302e4f75746167652e436c656172616e6365546167, true, 0x436f6e64756374696e6745717569706d656e74⟩, ⟨0x50726f74656374696f6e45717569706d656e7473, 0x43494d31352e49454336313937302e50726f74656374696f6e2e50726f74656374696f6e45717569706d656e74, true, 0x436f6e64756374696e6745717569706d656e7473⟩, ⟨0x5465726d696e616c73, 0x43494d31352e49454336313937302e436f72652e5465726d696e616c, true, 0x436f6e64756374696e6745717569706d656e74⟩, ⟨0x4f757461676553746570526f6c6573, 0x43494d31352e49454336313937302e496e666f726d61746976652e496e664f7065726174696f6e732e4f757461676553746570507372526f6c65, true, 0x436f6e64756374696e6745717569706d656e74⟩, ⟨0x5376537461747573, 0x43494d31352e49454336313937302e53746174655661726961626c65732e5376537461747573, false, 0x436f6e64756374696e6745717569706d656e74⟩]⟩
/-- Class CIM15.IEC61970.Core.ConnectivityNode -/
def s_ConnectivityNode : SClass := ⟨0x436f6e6e65637469766974794e6f6465, 0x43494d31352e49454336313937302e436f72652e436f6e6e65637469766974794e6f6465, 0x43494d31352e49454336313937302e436f72652e4964656e7469666965644f626a656374,
  [],
  [⟨0x546f706f6c6f676963616c4e6f6465, 0x43494d31352e49454336313937302e546f706f6c6f67792e546f706f6c6f676963616c4e6f6465, false, 0x436f6e6e65637469766974794e6f646573⟩, ⟨0x436f6e6e65637469766974794e6f6465436f6e7461696e6572, 0x43494d31352e49454336313937302e436f72652e436f6e6e65637469766974794e6f6465436f6e7461696e6572, false, 0x436f6e6e65637469766974794e6f646573⟩, ⟨0x5465726d696e616c73, 0x43494d31352e49454336313937302e436f72652e5465726d696e616c, true, 0x436f6e6e65637469766974794e6f6465⟩]⟩
/-- Class CIM15.IEC61970.Core.ConnectivityNodeContainer -/
def s_ConnectivityNodeContainer : SClass := ⟨0x436f6e6e65637469766974794e6f6465436f6e7461696e6572, 0x43494d31352e49454336313937302e436f72652e436f6e6e65637469766974794e6f6465436f6e7461696e6572, 0x43494d31352e49454336313937302e436f72652e506f77657253797374656d5265736f75726365,
  [],
  [⟨0x546f706f6c6f676963616c4e6f6465, 0x43494d31352e49454336313937302e546f706f6c6f67792e546f706f6c6f676963616c4e6f6465, true, 0x436f6e6e65637469766974794e6f6465436f6e7461696e6572⟩, ⟨0x436f6e6e65637469766974794e6f646573, 0x43494d31352e49454336313937302e436f72652e436f6e6e65637469766974794e6f6465, true, 0x436f6e6e65637469766974794e6f6465436f6e7461696e6572⟩]⟩
/-- Class CIM15.IEC61970.Core.Curve -/
def s_Curve : SClass := ⟨0x4375727665, 0x43494d31352e49454336313937302e436f72652e4375727665, 0x43494d31352e49454336313937302e436f72652e4964656e7469666965644f626a656374,
  [(0x78556e6974, e_UnitSymbol), (0x79314d756c7469706c696572, e_UnitMultiplier), (0x7932556e6974, e_UnitSymbol), (0x79334d756c7469706c696572, e_UnitMultiplier), (0x7931556e6974, e_UnitSymbol), (0x784d756c7469706c696572, e_UnitMultiplier), (0x7933556e6974, e_UnitSymbol), (0x79324d756c7469706c696572, e_UnitMultiplier), (0x63757276655374796c65, e_CurveStyle)],
  [⟨0x43757276654461746173, 0x43494d31352e49454336313937302e436f72652e437572766544617461, true, 0x4375727665⟩]⟩
/-- Class CIM15.IEC61970.Core.CurveData -/
def s_CurveData : SClass := ⟨0x437572766544617461, 0x43494d31352e49454336313937302e436f72652e437572766544617461, 0x43494d31352e456c656d656e74,
  [(0x793376616c7565, t_EFloat), (0x7876616c7565, t_EFloat), (0x793276616c7565, t_EFloat), (0x793176616c7565, t_EFloat)],
  [⟨0x4375727665, 0x43494d31352e49454336313937302e436f72652e4375727665, false, 0x43757276654461746173⟩]⟩
/-- Class CIM15.IEC61970.Core.Equipment -/
def s_Equipment : SClass := ⟨0x45717569706d656e74, 0x43494d31352e49454336313937302e436f72652e45717569706d656e74, 0x43494d31352e49454336313937302e436f72652e506f77657253797374656d5265736f75726365,
  [(0x6e6f726d616c6c79496e53657276696365, t_EBoolean), (0x616767726567617465, t_EBoolean)],
  [⟨0x436f6e74696e67656e637945717569706d656e74, 0x43494d31352e49454336313937302e436f6e74696e67656e63792e436f6e74696e67656e637945717569706d656e74, true, 0x45717569706d656e74⟩, ⟨0x437573746f6d657241677265656d656e7473, 0x43494d31352e49454336313936382e437573746f6d6572732e437573746f6d657241677265656d656e74, true, 0x45717569706d656e7473⟩, ⟨0x45717569706d656e74436f6e7461696e6572, 0x43494d31352e49454336313937302e436f72652e45717569706d656e74436f6e7461696e6572, false, 0x45717569706d656e7473⟩]⟩
/-- Class CIM15.IEC61970.Core.EquipmentContainer -/
def s_EquipmentContainer : SClass := ⟨0x45717569706d656e74436f6e7461696e6572, 0x43494d31352e49454336313937302e436f72652e45717569706d656e74436f6e7461696e6572, 0x43494d31352e49454336313937302e436f72652e436f6e6e65637469766974794e6f6465436f6e7461696e6572,
  [],
  [⟨0x45717569706d656e7473, 0x43494d31352e49454336313937302e436f72652e45717569706d656e74, true, 0x45717569706d656e74436f6e7461696e6572⟩]⟩
/-- Class CIM15.IEC61970.Core.GeographicalRegion -/
def s_GeographicalRegion : SClass := ⟨0x47656f67726170686963616c526567696f6e, 0x43494d31352e49454336313937302e436f72652e47656f67726170686963616c526567696f6e, 0x43494d31352e49454336313937302e436f72652e4964656e7469666965644f626a656374,
  [],
  [⟨0x526567696f6e73, 0x43494d31352e49454336313937302e436f72652e53756247656f67726170686963616c526567696f6e, true, 0x526567696f6e⟩]⟩
/-- Class CIM15.IEC61970.Core.IdentifiedObject -/
def s_IdentifiedObject : SClass := ⟨0x4964656e7469666965644f626a656374, 0x43494d31352e49454336313937302e436f72652e4964656e7469666965644f626a656374, 0x43494d31352e456c656d656e74,
  [(0x6d524944, t_EString), (0x616c6961734e616d65, t_EString), (0x6e616d65, t_EString)],
  [⟨0x4e616d6573, 0x43494d31352e49454336313937302e436f72652e4e616d65, true, 0x4964656e7469666965644f626a656374⟩, ⟨0x4469616772616d4f626a65637473, 0x43494d31352e49454336313937302e47726170686963732e4469616772616d4f626a656374, true, 0x4964656e7469666965644f626a656374⟩, ⟨0x4d6f64656c696e67417574686f72697479536574, 0x43494d31352e49454336313937302e496e666f726d61746976652e496e66436f72652e4d6f64656c696e67417574686f72697479536574, false, 0x4964656e7469666965644f626a65637473⟩]⟩
/-- Class CIM15.IEC61970.Core.IrregularIntervalSchedule -/
def s_IrregularIntervalSchedule : SClass := ⟨0x4972726567756c6172496e74657276616c5363686564756c65, 0x43494d31352e49454336313937302e436f72652e4972726567756c6172496e74657276616c5363686564756c65, 0x43494d31352e49454336313937302e436f72652e4261736963496e74657276616c5363686564756c65,
  [],
  [⟨0x54696d65506f696e7473, 0x43494d31352e49454336313937302e436f72652e4972726567756c617254696d65506f696e74, true, 0x496e74657276616c5363686564756c65⟩]⟩
/-- Class CIM15.IEC61970.Core.IrregularTimePoint -/
def s_IrregularTimePoint : SClass := ⟨0x4972726567756c617254696d65506f696e74, 0x43494d31352e49454336313937302e436f72652e4972726567756c617254696d65506f696e74, 0x43494d31352e456c656d656e74,
  [(0x74696d65, t_float), (0x76616c756531, t_EFloat), (0x76616c756532, t_EFloat)],
  [⟨0x496e74657276616c5363686564756c65, 0x43494d31352e49454336313937302e436f72652e4972726567756c6172496e74657276616c5363686564756c65, false, 0x54696d65506f696e7473⟩]⟩
/-- Class CIM15.IEC61970.Core.Name -/
def s_Name : SClass := ⟨0x4e616d65, 0x43494d31352e49454336313937302e436f72652e4e616d65, 0x43494d31352e456c656d656e74,
  [(0x6e616d65, t_EString)],
  [⟨0x4e616d6554797065, 0x43494d31352e49454336313937302e436f72652e4e616d6554797065, false, 0x4e616d6573⟩, ⟨0x4964656e7469666965644f626a656374, 0x43494d31352e49454336313937302e436f72652e4964656e7469666965644f626a656374, false, 0x4e616d6573⟩]⟩
/-- Class CIM15.IEC61970.Core.NameType -/
def s_NameType : SClass := ⟨0x4e616d6554797065, 0x43494d31352e49454336313937302e436f72652e4e616d6554797065, 0x43494d31352e456c656d656e74,
  [(0x6e616d65, t_EString), (0x6465736372697074696f6e, t_EString)],
  [⟨0x4e616d6573, 0x43494d31352e49454336313937302e436f72652e4e616d65, true, 0x4e616d6554797065⟩, ⟨0x4e616d6554797065417574686f72697479, 0x43494d31352e49454336313937302e436f72652e4e616d6554797065417574686f72697479, false, 0x4e616d655479706573⟩]⟩
/-- Class CIM15.IEC61970.Core.NameTypeAuthority -/
def s_NameTypeAuthority : SClass := ⟨0x4e616d6554797065417574686f72697479, 0x43494d31352e49454336313937302e436f72652e4e616d6554797065417574686f72697479, 0x43494d31352e456c656d656e74,
  [(0x6e616d65, t_EString), (0x6465736372697074696f6e, t_EString)],
  [⟨0x4e616d655479706573, 0x43494d31352e49454336313937302e436f72652e4e616d6554797065, true, 0x4e616d6554797065417574686f72697479⟩]⟩
/-- Class CIM15.IEC61970.Core.OperatingParticipant -/
def s_OperatingParticipant : SClass := ⟨0x4f7065726174696e675061727469636970616e74, 0x43494d31352e49454336313937302e436f72652e4f7065726174696e675061727469636970616e74, 0x43494d31352e49454336313937302e436f72652e4964656e7469666965644f626a656374,
  [],
  [⟨0x4f7065726174696e675368617265, 0x43494d31352e49454336313937302e436f72652e4f7065726174696e675368617265, true, 0x4f7065726174696e675061727469636970616e74⟩]⟩
/-- Class CIM15.IEC61970.Core.OperatingShare -/
def s_OperatingShare : SClass := ⟨0x4f7065726174696e675368617265, 0x43494d31352e49454336313937302e436f72652e4f7065726174696e675368617265, 0x43494d31352e456c656d656e74,
  [(0x70657263656e74616765, t_float)],
  [⟨0x506f77657253797374656d5265736f75726365, 0x43494d31352e49454336313937302e436f72652e506f77657253797374656d5265736f75726365, false, 0x4f7065726174696e675368617265⟩, ⟨0x4f7065726174696e675061727469636970616e74, 0x43494d31352e49454336313937302e436f72652e4f7065726174696e675061727469636970616e74, false, 0x4f7065726174696e675368617265⟩]⟩
/-- Class CIM15.IEC61970.Core.PSRType -/
def s_PSRType : SClass := ⟨0x50535254797065, 0x43494d31352e49454336313937302e436f72652e50535254797065, 0x43494d31352e49454336313937302e436f72652e4964656e7469666965644f626a656374,
  [],
  [⟨0x506f77657253797374656d5265736f7572636573, 0x43494d31352e49454336313937302e436f72652e506f77657253797374656d5265736f75726365, true, 0x50535254797065⟩]⟩
/-- Class CIM15.IEC61970.Core.PowerSystemResource -/
def s_PowerSystemResource : SClass := ⟨0x506f77657253797374656d5265736f75726365, 0x43494d31352e49454336313937302e436f72652e506f77657253797374656d5265736f75726365, 0x43494d31352e49454336313937302e436f72652e4964656e7469666965644f626a656374,
  [],
  [⟨0x4368616e67654974656d73, 0x43494d31352e49454336313937302e496e666f726d61746976652e496e664f7065726174696f6e732e4368616e67654974656d, true, 0x506f77657253797374656d5265736f75726365⟩, ⟨0x5363686564756c655374657073, 0x43494d31352e49454336313937302e496e666f726d61746976652e496e664f7065726174696f6e732e537769746368696e6753746570, true, 0x506f77657253797374656d5265736f7572636573⟩, ⟨0x536166657479446f63756d656e7473, 0x43494d31352e49454336313937302e496e666f726d61746976652e496e664f7065726174696f6e732e536166657479446f63756d656e74, true, 0x506f77657253797374656d5265736f75726365⟩, ⟨0x4f7065726174696e675368617265, 0x43494d31352e49454336313937302e436f72652e4f7065726174696e675368617265, true, 0x506f77657253797374656d5265736f75726365⟩, ⟨0x446f63756d656e74526f6c6573, 0x43494d31352e49454336313937302e496e666f726d61746976652e496e66436f6d6d6f6e2e446f63507372526f6c65, true, 0x506f77657253797374656d5265736f75726365⟩, ⟨0x5073724c69737473, 0x43494d31352e49454336313937302e436f72652e5073724c697374, true, 0x506f77657253797374656d5265736f7572636573⟩, ⟨0x4d6561737572656d656e7473, 0x43494d31352e49454336313937302e4d6561732e4d6561737572656d656e74, true, 0x506f77657253797374656d5265736f75726365⟩, ⟨0x5265706f7274696e6747726f7570, 0x43494d31352e49454336313937302e436f72652e5265706f7274696e6747726f7570, true, 0x506f77657253797374656d5265736f75726365⟩, ⟨0x50535254797065, 0x43494d31352e49454336313937302e436f72652e50535254797065, false, 0x506f77657253797374656d5265736f7572636573⟩, ⟨0x417373657473, 0x43494d31352e49454336313936382e4173736574732e4173736574, true, 0x506f77657253797374656d5265736f7572636573⟩, ⟨0x4572704f7267616e69736174696f6e526f6c6573, 0x43494d31352e49454336313937302e496e666f726d61746976652e496e664f7065726174696f6e732e4f7267507372526f6c65, true, 0x506f77657253797374656d5265736f75726365⟩, ⟨0x4c6f636174696f6e, 0x43494d31352e49454336313936382e436f6d6d6f6e2e4c6f636174696f6e, false, 0x506f77657253797374656d5265736f7572636573⟩, ⟨0x5053524576656e74, 0x43494d31352e49454336313937302e496e666f726d61746976652e496e664f7065726174696f6e732e5053524576656e74, true, 0x506f77657253797374656d5265736f75726365⟩, ⟨0x4e6574776f726b4461746153657473, 0x43494d31352e49454336313937302e496e666f726d61746976652e496e664f7065726174696f6e732e4e6574776f726b44617461536574, true, 0x506f77657253797374656d5265736f7572636573⟩, ⟨0x4f75746167655363686564756c65, 0x43494d31352e49454336313937302e4f75746167652e4f75746167655363686564756c65, false, 0x506f77657253797374656d5265736f75726365⟩]⟩
/-- Class CIM15.IEC61970.Core.PsrList -/
def s_PsrList : SClass := ⟨0x5073724c697374, 0x43494d31352e49454336313937302e436f72652e5073724c697374, 0x43494d31352e49454336313937302e436f72652e4964656e7469666965644f626a656374,
  [(0x747970655053524c697374, t_EString)],
  [⟨0x506f77657253797374656d5265736f7572636573, 0x43494d31352e49454336313937302e436f72652e506f77657253797374656d5265736f75726365, true, 0x5073724c69737473⟩]⟩
/-- Class CIM15.IEC61970.Core.RegularIntervalSchedule -/
def s_RegularIntervalSchedule : SClass := ⟨0x526567756c6172496e74657276616c5363686564756c65, 0x43494d31352e49454336313937302e436f72652e526567756c6172496e74657276616c5363686564756c65, 0x43494d31352e49454336313937302e436f72652e4261736963496e74657276616c5363686564756c65,
  [(0x656e6454696d65, t_java_util_Date), (0x74696d6553746570, t_float)],
  [⟨0x54696d65506f696e7473, 0x43494d31352e49454336313937302e436f72652e526567756c617254696d65506f696e74, true, 0x496e74657276616c5363686564756c65⟩]⟩
/-- Class CIM15.IEC61970.Core.RegularTimePoint -/
def s_RegularTimePoint : SClass := ⟨0x526567756c617254696d65506f696e74, 0x43494d31352e49454336313937302e436f72652e526567756c617254696d65506f696e74, 0x43494d31352e456c656d656e74,
  [(0x76616c756532, t_EFloat), (0x76616c756531, t_EFloat), (0x73657175656e63654e756d626572, t_EInt)],
  [⟨0x496e74657276616c5363686564756c65, 0x43494d31352e49454336313937302e436f72652e526567756c6172496e74657276616c5363686564756c65, false, 0x54696d65506f696e7473⟩]⟩
/-- Class CIM15.IEC61970.Core.ReportingGroup -/
def s_ReportingGroup : SClass := ⟨0x5265706f7274696e6747726f7570, 0x43494d31352e49454336313937302e436f72652e5265706f7274696e6747726f7570, 0x43494d31352e49454336313937302e436f72652e4964656e7469666965644f626a656374,
  [],
  [⟨0x4275734e616d654d61726b6572, 0x43494d31352e49454336313937302e546f706f6c6f67792e4275734e616d654d61726b6572, true, 0x5265706f7274696e6747726f7570⟩, ⟨0x5265706f7274696e67537570657247726f7570, 0x43494d31352e49454336313937302e436f72652e5265706f7274696e67537570657247726f7570, false, 0x5265706f7274696e6747726f7570⟩, ⟨0x546f706f6c6f676963616c4e6f6465, 0x43494d31352e49454336313937302e546f706f6c6f67792e546f706f6c6f676963616c4e6f6465, true, 0x5265706f7274696e6747726f7570⟩, ⟨0x506f77657253797374656d5265736f75726365, 0x43494d31352e49454336313937302e436f72652e506f77657253797374656d5265736f75726365, true, 0x5265706f7274696e6747726f7570⟩]⟩
/-- Class CIM15.IEC61970.Core.ReportingSuperGroup -/
def s_ReportingSuperGroup : SClass := ⟨0x5265706f7274696e67537570657247726f7570, 0x43494d31352e49454336313937302e436f72652e5265706f7274696e67537570657247726f7570, 0x43494d31352e49454336313937302e436f72652e4964656e7469666965644f626a656374,
  [],
  [⟨0x5265706f7274696e6747726f7570, 0x43494d31352e49454336313937302e436f72652e5265706f7274696e6747726f7570, true, 0x5265706f7274696e67537570657247726f7570⟩]⟩
/-- Class CIM15.IEC61970.Core.SubGeographicalRegion -/
def s_SubGeographicalRegion : SClass := ⟨0x53756247656f67726170686963616c526567696f6e, 0x43494d31352e49454336313937302e436f72652e53756247656f67726170686963616c526567696f6e, 0x43494d31352e49454336313937302e436f72652e4964656e7469666965644f626a656374,
  [],
  [⟨0x53756273746174696f6e73, 0x43494d31352e49454336313937302e436f72652e53756273746174696f6e, true, 0x526567696f6e⟩, ⟨0x4c696e6573, 0x43494d31352e49454336313937302e57697265732e4c696e65, true, 0x526567696f6e⟩, ⟨0x526567696f6e, 0x43494d31352e49454336313937302e436f72652e47656f67726170686963616c526567696f6e, false, 0x526567696f6e73⟩]⟩
/-- Class CIM15.IEC61970.Core.Substation -/
def s_Substation : SClass := ⟨0x53756273746174696f6e, 0x43494d31352e49454336313937302e436f72652e53756273746174696f6e, 0x43494d31352e49454336313937302e436f72652e45717569706d656e74436f6e7461696e6572,
  [],
  [⟨0x42617973, 0x43494d31352e49454336313937302e436f72652e426179, true, 0x53756273746174696f6e⟩, ⟨0x566f6c746167654c6576656c73, 0x43494d31352e49454336313937302e436f72652e566f6c746167654c6576656c, true, 0x53756273746174696f6e⟩, ⟨0x526567696f6e, 0x43494d31352e49454336313937302e436f72652e53756247656f67726170686963616c526567696f6e, false, 0x53756273746174696f6e73⟩]⟩
/-- Class CIM15.IEC61970.Core.Terminal -/
def s_Terminal : SClass := ⟨0x5465726d696e616c, 0x43494d31352e49454336313937302e436f72652e5465726d696e616c, 0x43494d31352e49454336313937302e436f72652e4964656e7469666965644f626a656374,
  [(0x706861736573, e_PhaseCode), (0x636f6e6e6563746564, t_EBoolean), (0x73657175656e63654e756d626572, t_EInt)],
  [⟨0x42757368696e67496e666f, 0x43494d31352e49454336313937302e496e666f726d61746976652e496e664173736574732e42757368696e67, false, 0x5465726d696e616c⟩, ⟨0x546965466c6f77, 0x43494d31352e49454336313937302e436f6e74726f6c417265612e546965466c6f77, true, 0x5465726d696e616c⟩, ⟨0x4861735365636f6e645f4d757475616c436f75706c696e67, 0x43494d31352e49454336313937302e57697265732e4d757475616c436f75706c696e67, true, 0x5365636f6e645f5465726d696e616c⟩, ⟨0x4f7065726174696f6e616c4c696d6974536574, 0x43494d31352e49454336313937302e4f7065726174696f6e616c4c696d6974732e4f7065726174696f6e616c4c696d6974536574, true, 0x5465726d696e616c⟩, ⟨0x4d6561737572656d656e7473, 0x43494d31352e49454336313937302e4d6561732e4d6561737572656d656e74, true, 0x5465726d696e616c⟩, ⟨0x436f6e64756374696e6745717569706d656e74, 0x43494d31352e49454336313937302e436f72652e436f6e64756374696e6745717569706d656e74, false, 0x5465726d696e616c73⟩, ⟨0x526567756c6174696e67436f6e74726f6c, 0x43494d31352e49454336313937302e57697265732e526567756c6174696e67436f6e74726f6c, true, 0x5465726d696e616c⟩, ⟨0x48617346697273745f4d757475616c436f75706c696e67, 0x43494d31352e49454336313937302e57697265732e4d757475616c436f75706c696e67, true, 0x46697273745f5465726d696e616c⟩, ⟨0x417578696c6961727945717569706d656e74, 0x43494d31352e49454336313937302e417578696c6961727945717569706d656e742e417578696c6961727945717569706d656e74, true, 0x5465726d696e616c⟩, ⟨0x5472616e73666f726d6572456e64, 0x43494d31352e49454336313937302e57697265732e5472616e73666f726d6572456e64, true, 0x5465726d696e616c⟩, ⟨0x436f6e6e65637469766974794e6f6465, 0x43494d31352e49454336313937302e436f72652e436f6e6e65637469766974794e6f6465, false, 0x5465726d696e616c73⟩, ⟨0x4272616e636847726f75705465726d696e616c, 0x43494d31352e49454336313937302e4f7065726174696f6e616c4c696d6974732e4272616e636847726f75705465726d696e616c, true, 0x5465726d696e616c⟩, ⟨0x4275734e616d654d61726b6572, 0x43494d31352e49454336313937302e546f706f6c6f67792e4275734e616d654d61726b6572, false, 0x5465726d696e616c⟩, ⟨0x5376506f776572466c6f77, 0x43494d31352e49454336313937302e53746174655661726961626c65732e5376506f776572466c6f77, false, 0x5465726d696e616c⟩, ⟨0x546f706f6c6f676963616c4e6f6465, 0x43494d31352e49454336313937302e546f706f6c6f67792e546f706f6c6f676963616c4e6f6465, false, 0x5465726d696e616c⟩]⟩
/-- Class CIM15.IEC61970.Core.VoltageLevel -/
def s_VoltageLevel : SClass := ⟨0x566f6c746167654c6576656c, 0x43494d31352e49454336313937302e436f72652e566f6c746167654c6576656c, 0x43494d31352e49454336313937302e436f72652e45717569706d656e74436f6e7461696e6572,
  [(0x68696768566f6c746167654c696d6974, t_float), (0x6c6f77566f6c746167654c696d6974, t_float)],
  [⟨0x42617973, 0x43494d31352e49454336313937302e436f72652e426179, true, 0x566f6c746167654c6576656c⟩, ⟨0x53756273746174696f6e, 0x43494d31352e49454336313937302e436f72652e53756273746174696f6e, false, 0x566f6c746167654c6576656c73⟩, ⟨0x42617365566f6c74616765, 0x43494d31352e49454336313937302e436f72652e42617365566f6c74616765, false, 0x566f6c746167654c6576656c⟩]⟩
/-- Class CIM15.IEC61970.CutsJumpers.Clamp -/
def s_Clamp : SClass := ⟨0x436c616d70, 0x43494d31352e49454336313937302e437574734a756d706572732e436c616d70, 0x43494d31352e49454336313937302e436f72652e436f6e64756374696e6745717569706d656e74,
  [(0x6c656e67746846726f6d5465726d696e616c31, t_float)],
  [⟨0x41434c696e655365676d656e74, 0x43494d31352e49454336313937302e57697265732e41434c696e655365676d656e74, false, 0x436c616d70⟩]⟩
/-- Class CIM15.IEC61970.CutsJumpers.Cut -/
def s_Cut : SClass := ⟨0x437574, 0x43494d31352e49454336313937302e437574734a756d706572732e437574, 0x43494d31352e49454336313937302e57697265732e537769746368,
  [(0x6c656e67746846726f6d5465726d696e616c31, t_float)],
  [⟨0x41434c696e655365676d656e74, 0x43494d31352e49454336313937302e57697265732e41434c696e655365676d656e74, false, 0x437574⟩]⟩
/-- Class CIM15.IEC61970.Domain.DateTimeInterval -/
def s_DateTimeInterval : SClass := ⟨0x4461746554696d65496e74657276616c, 0x43494d31352e49454336313937302e446f6d61696e2e4461746554696d65496e74657276616c, 0,
  [(0x7374617274, t_java_util_Date), (0x656e64, t_java_util_Date)],
  []⟩
/-- Class CIM15.IEC61970.Equivalents.EquivalentBranch -/
def s_EquivalentBranch : SClass := ⟨0x4571756976616c656e744272616e6368, 0x43494d31352e49454336313937302e4571756976616c656e74732e4571756976616c656e744272616e6368, 0x43494d31352e49454336313937302e4571756976616c656e74732e4571756976616c656e7445717569706d656e74,
  [(0x78, t_float), (0x72, t_float)],
  []⟩
/-- Class CIM15.IEC61970.Equivalents.EquivalentEquipment -/
def s_EquivalentEquipment : SClass := ⟨0x4571756976616c656e7445717569706d656e74, 0x43494d31352e49454336313937302e4571756976616c656e74732e4571756976616c656e7445717569706d656e74, 0x43494d31352e49454336313937302e436f72652e436f6e64756374696e6745717569706d656e74,
  [],
  [⟨0x4571756976616c656e744e6574776f726b, 0x43494d31352e49454336313937302e4571756976616c656e74732e4571756976616c656e744e6574776f726b, false, 0x4571756976616c656e7445717569706d656e7473⟩]⟩
/-- Class CIM15.IEC61970.Equivalents.EquivalentInjection -/
def s_EquivalentInjection : SClass := ⟨0x4571756976616c656e74496e6a656374696f6e, 0x43494d31352e49454336313937302e4571756976616c656e74732e4571756976616c656e74496e6a656374696f6e, 0x43494d31352e49454336313937302e4571756976616c656e74732e4571756976616c656e7445717569706d656e74,
  [(0x726567756c6174696f6e4361706162696c697479, t_EBoolean), (0x6d617850, t_float), (0x726567756c6174696f6e537461747573, t_EBoolean), (0x726567756c6174696f6e546172676574, t_float), (0x6d696e50, t_float)],
  []⟩
/-- Class CIM15.IEC61970.Equivalents.EquivalentNetwork -/
def s_EquivalentNetwork : SClass := ⟨0x4571756976616c656e744e6574776f726b, 0x43494d31352e49454336313937302e4571756976616c656e74732e4571756976616c656e744e6574776f726b, 0x43494d31352e49454336313937302e436f72652e436f6e6e65637469766974794e6f6465436f6e7461696e6572,
  [],
  [⟨0x4571756976616c656e7445717569706d656e7473, 0x43494d31352e49454336313937302e4571756976616c656e74732e4571756976616c656e7445717569706d656e74, true, 0x4571756976616c656e744e6574776f726b⟩]⟩
/-- Class CIM15.IEC61970.Equivalents.EquivalentShunt -/
def s_EquivalentShunt : SClass := ⟨0x4571756976616c656e745368756e74, 0x43494d31352e49454336313937302e4571756976616c656e74732e4571756976616c656e745368756e74, 0x43494d31352e49454336313937302e4571756976616c656e74732e4571756976616c656e7445717569706d656e74,
  [(0x62, t_float), (0x67, t_float)],
  []⟩
/-- Class CIM15.IEC61970.Generation.GenerationDynamics.BWRSteamSupply -/
def s_BWRSteamSupply : SClass := ⟨0x425752537465616d537570706c79, 0x43494d31352e49454336313937302e47656e65726174696f6e2e47656e65726174696f6e44796e616d6963732e425752537465616d537570706c79, 0x43494d31352e49454336313937302e47656e65726174696f6e2e47656e65726174696f6e44796e616d6963732e537465616d537570706c79,
  [(0x6c6f7765724c696d6974, t_float), (0x7072657373757265536574706f696e74544331, t_float), (0x7072657373757265536574706f696e74544332, t_float), (0x726f645061747465726e, t_float), (0x7072657373757265536574706f696e744741, t_EFloat), (0x75707065724c696d6974, t_float), (0x70726573737572654c696d6974, t_float), (0x726641757835, t_float), (0x726641757836, t_float), (0x726641757833, t_float), (0x726f645061747465726e436f6e7374616e74, t_EFloat), (0x726641757834, t_float), (0x726641757837, t_float), (0x726641757838, t_float), (0x68696768506f7765724c696d6974, t_float), (0x726641757831, t_float), (0x696e436f7265546865726d616c5443, t_float), (0x726641757832, t_float), (0x70726f706f7274696f6e616c4761696e, t_EFloat), (0x6c6f77506f7765724c696d6974, t_float), (0x696e74656772616c4761696e, t_EFloat)],
  []⟩
/-- Class CIM15.IEC61970.Generation.GenerationDynamics.CTTempActivePowerCurve -/
def s_CTTempActivePowerCurve : SClass := ⟨0x435454656d70416374697665506f7765724375727665, 0x43494d31352e49454336313937302e47656e65726174696f6e2e47656e65726174696f6e44796e616d6963732e435454656d70416374697665506f7765724375727665, 0x43494d31352e49454336313937302e436f72652e4375727665,
  [],
  [⟨0x436f6d62757374696f6e54757262696e65, 0x43494d31352e49454336313937302e47656e65726174696f6e2e47656e65726174696f6e44796e616d6963732e436f6d62757374696f6e54757262696e65, false, 0x435454656d70416374697665506f7765724375727665⟩]⟩
/-- Class CIM15.IEC61970.Generation.GenerationDynamics.CombustionTurbine -/
def s_CombustionTurbine : SClass := ⟨0x436f6d62757374696f6e54757262696e65, 0x43494d31352e49454336313937302e47656e65726174696f6e2e47656e65726174696f6e44796e616d6963732e436f6d62757374696f6e54757262696e65, 0x43494d31352e49454336313937302e47656e65726174696f6e2e47656e65726174696f6e44796e616d6963732e5072696d654d6f766572,
  [(0x6361706162696c6974795665727375734672657175656e6379, t_float), (0x7265666572656e636554656d70, t_float), (0x617578506f7765725665727375734672657175656e6379, t_float), (0x706f776572566172696174696f6e427954656d70, t_float), (0x617578506f776572566572737573566f6c74616765, t_float), (0x74696d65436f6e7374616e74, t_float), (0x686561745265636f76657279466c6167, t_EBoolean), (0x616d6269656e7454656d70, t_float)],
  [⟨0x486561745265636f76657279426f696c6572, 0x43494d31352e49454336313937302e47656e65726174696f6e2e47656e65726174696f6e44796e616d6963732e486561745265636f76657279426f696c6572, false, 0x436f6d62757374696f6e54757262696e6573⟩, ⟨0x416972436f6d70726573736f72, 0x43494d31352e49454336313937302e47656e65726174696f6e2e50726f64756374696f6e2e416972436f6d70726573736f72, false, 0x436f6d62757374696f6e54757262696e65⟩, ⟨0x435454656d70416374697665506f7765724375727665, 0x43494d31352e49454336313937302e47656e65726174696f6e2e47656e65726174696f6e44796e616d6963732e435454656d70416374697665506f7765724375727665, false, 0x436f6d62757374696f6e54757262696e65⟩]⟩
/-- Class CIM15.IEC61970.Generation.GenerationDynamics.DrumBoiler -/
def s_DrumBoiler : SClass := ⟨0x4472756d426f696c6572, 0x43494d31352e49454336313937302e47656e65726174696f6e2e47656e65726174696f6e44796e616d6963732e4472756d426f696c6572, 0x43494d31352e49454336313937302e47656e65726174696f6e2e47656e65726174696f6e44796e616d6963732e466f7373696c537465616d537570706c79,
  [(0x6472756d426f696c6572526174696e67, t_EFloat)],
  []⟩
/-- Class CIM15.IEC61970.Generation.GenerationDynamics.FossilSteamSupply -/
def s_FossilSteamSupply : SClass := ⟨0x466f7373696c537465616d537570706c79, 0x43494d31352e49454336313937302e47656e65726174696f6e2e47656e65726174696f6e44796e616d6963732e466f7373696c537465616d537570706c79, 0x43494d31352e49454336313937302e47656e65726174696f6e2e47656e65726174696f6e44796e616d6963732e537465616d537570706c79,
  [(0x6675656c44656d616e644c696d6974, t_float), (0x617578506f7765725665727375734672657175656e6379, t_float), (0x6d656368506f77657253656e736f724c6167, t_float), (0x70726573737572654374726c4447, t_EFloat), (0x7468726f74746c6550726573737572655350, t_float), (0x6665656457617465725047, t_EFloat), (0x6665656457617465725443, t_float), (0x636f6e74726f6c5043, t_EFloat), (0x6675656c537570706c7944656c6179, t_float), (0x636f6e74726f6c504544, t_float), (0x636f6e74726f6c504542, t_EFloat), (0x626f696c6572436f6e74726f6c4d6f6465, e_BoilerControlMode), (0x636f6e74726f6c5443, t_EFloat), (0x6d696e4572726f725261746550, t_EFloat), (0x7375706572486561746572314361706163697479, t_EFloat), (0x636f6e74726f6c4572726f724269617350, t_EFloat), (0x70726573737572654374726c4947, t_EFloat), (0x6665656457617465724947, t_EFloat), (0x7072657373757265466565646261636b, t_EInt), (0x617578506f776572566572737573566f6c74616765, t_float), (0x6675656c537570706c795443, t_float), (0x6d61784572726f725261746550, t_EFloat), (0x7375706572486561746572506970655044, t_EFloat), (0x70726573737572654374726c5047, t_EFloat), (0x7375706572486561746572324361706163697479, t_EFloat), (0x636f6e74726f6c4943, t_EFloat)],
  []⟩
/-- Class CIM15.IEC61970.Generation.GenerationDynamics.HeatRecoveryBoiler -/
def s_HeatRecoveryBoiler : SClass := ⟨0x486561745265636f76657279426f696c6572, 0x43494d31352e49454336313937302e47656e65726174696f6e2e47656e65726174696f6e44796e616d6963732e486561745265636f76657279426f696c6572, 0x43494d31352e49454336313937302e47656e65726174696f6e2e47656e65726174696f6e44796e616d6963732e466f7373696c537465616d537570706c79,
  [(0x737465616d537570706c79526174696e6732, t_EFloat)],
  [⟨0x436f6d62757374696f6e54757262696e6573, 0x43494d31352e49454336313937302e47656e65726174696f6e2e47656e65726174696f6e44796e616d6963732e436f6d62757374696f6e54757262696e65, true, 0x486561745265636f76657279426f696c6572⟩]⟩
/-- Class CIM15.IEC61970.Generation.GenerationDynamics.HydroTurbine -/
def s_HydroTurbine : SClass := ⟨0x487964726f54757262696e65, 0x43494d31352e49454336313937302e47656e65726174696f6e2e47656e65726174696f6e44796e616d6963732e487964726f54757262696e65, 0x43494d31352e49454336313937302e47656e65726174696f6e2e47656e65726174696f6e44796e616d6963732e5072696d654d6f766572,
  [(0x6d6178486561644d617850, t_float), (0x6d696e486561644d617850, t_float), (0x74757262696e65526174696e67, t_float), (0x67617465526174654c696d6974, t_EFloat), (0x74757262696e6554797065, e_TurbineType), (0x6761746555707065724c696d6974, t_float), (0x7370656564526174696e67, t_float), (0x7370656564526567756c6174696f6e, t_float), (0x7472616e7369656e7444726f6f7054696d65, t_float), (0x7472616e7369656e74526567756c6174696f6e, t_float), (0x77617465725374617274696e6754696d65, t_float)],
  []⟩
/-- Class CIM15.IEC61970.Generation.GenerationDynamics.PWRSteamSupply -/
def s_PWRSteamSupply : SClass := ⟨0x505752537465616d537570706c79, 0x43494d31352e49454336313937302e47656e65726174696f6e2e47656e65726174696f6e44796e616d6963732e505752537465616d537570706c79, 0x43494d31352e49454336313937302e47656e65726174696f6e2e47656e65726174696f6e44796e616d6963732e537465616d537570706c79,
  [(0x636f72654e657574726f6e6963734854, t_float), (0x737465616d466c6f774647, t_float), (0x686f744c6567546f436f6c644c65674761696e, t_float), (0x737465616d507265737375726544726f704c61675443, t_float), (0x636f726548544c6167544331, t_float), (0x636f726548544c6167544332, t_float), (0x686f744c65674c61675443, t_float), (0x7468726f74746c6550726573737572655350, t_float), (0x686f744c6567537465616d4761696e, t_float), (0x7468726f74746c655072657373757265466163746f72, t_float), (0x636f6c644c656746424c61675443, t_float), (0x70726573737572654347, t_float), (0x737465616d50726573737572654647, t_float), (0x666565646261636b466163746f72, t_float), (0x636f72654e657574726f6e6963734566665443, t_float), (0x636f6c644c6567464732, t_float), (0x636f6c644c6567464731, t_float), (0x636f6c644c65674c61675443, t_float), (0x636f6c644c656746424c656164544332, t_float), (0x636f6c644c656746424c656164544331, t_float)],
  []⟩
/-- Class CIM15.IEC61970.Generation.GenerationDynamics.PrimeMover -/
def s_PrimeMover : SClass := ⟨0x5072696d654d6f766572, 0x43494d31352e49454336313937302e47656e65726174696f6e2e47656e65726174696f6e44796e616d6963732e5072696d654d6f766572, 0x43494d31352e49454336313937302e436f72652e506f77657253797374656d5265736f75726365,
  [(0x7072696d654d6f766572526174696e67, t_EFloat)],
  [⟨0x53796e6368726f6e6f75734d616368696e6573, 0x43494d31352e49454336313937302e57697265732e53796e6368726f6e6f75734d616368696e65, true, 0x5072696d654d6f76657273⟩]⟩
/-- Class CIM15.IEC61970.Generation.GenerationDynamics.SteamSupply -/
def s_SteamSupply : SClass := ⟨0x537465616d537570706c79, 0x43494d31352e49454336313937302e47656e65726174696f6e2e47656e65726174696f6e44796e616d6963732e537465616d537570706c79, 0x43494d31352e49454336313937302e436f72652e506f77657253797374656d5265736f75726365,
  [(0x737465616d537570706c79526174696e67, t_EFloat)],
  [⟨0x537465616d54757262696e6573, 0x43494d31352e49454336313937302e47656e65726174696f6e2e47656e65726174696f6e44796e616d6963732e537465616d54757262696e65, true, 0x537465616d537570706c7973⟩]⟩
/-- Class CIM15.IEC61970.Generation.GenerationDynamics.SteamTurbine -/
def s_SteamTurbine : SClass := ⟨0x537465616d54757262696e65, 0x43494d31352e49454336313937302e47656e65726174696f6e2e47656e65726174696f6e44796e616d6963732e537465616d54757262696e65, 0x43494d31352e49454336313937302e47656e65726174696f6e2e47656e65726174696f6e44796e616d6963732e5072696d654d6f766572,
  [(0x736861667431506f7765724950, t_EFloat), (0x736861667432506f7765724950, t_EFloat), (0x63726f73736f7665725443, t_float), (0x736861667431506f7765724c5031, t_EFloat), (0x736861667431506f7765724c5032, t_EFloat), (0x7265686561746572315443, t_float), (0x736861667432506f7765724c5031, t_EFloat), (0x736861667432506f7765724c5032, t_EFloat), (0x7265686561746572325443, t_float), (0x737465616d43686573745443, t_float), (0x736861667431506f7765724850, t_EFloat), (0x736861667432506f7765724850, t_EFloat)],
  [⟨0x537465616d537570706c7973, 0x43494d31352e49454336313937302e47656e65726174696f6e2e47656e65726174696f6e44796e616d6963732e537465616d537570706c79, true, 0x537465616d54757262696e6573⟩]⟩
/-- Class CIM15.IEC61970.Generation.GenerationDynamics.Subcritical -/
def s_Subcritical : SClass := ⟨0x537562637269746963616c, 0x43494d31352e49454336313937302e47656e65726174696f6e2e47656e65726174696f6e44796e616d6963732e537562637269746963616c, 0x43494d31352e49454336313937302e47656e65726174696f6e2e47656e65726174696f6e44796e616d6963732e466f7373696c537465616d537570706c79,
  [],
  []⟩
/-- Class CIM15.IEC61970.Generation.GenerationDynamics.Supercritical -/
def s_Supercritical : SClass := ⟨0x5375706572637269746963616c, 0x43494d31352e49454336313937302e47656e65726174696f6e2e47656e65726174696f6e44796e616d6963732e5375706572637269746963616c, 0x43494d31352e49454336313937302e47656e65726174696f6e2e47656e65726174696f6e44796e616d6963732e466f7373696c537465616d537570706c79,
  [],
  []⟩
/-- Class CIM15.IEC61970.Generation.Production.AirCompressor -/
def s_AirCompressor : SClass := ⟨0x416972436f6d70726573736f72, 0x43494d31352e49454336313937302e47656e65726174696f6e2e50726f64756374696f6e2e416972436f6d70726573736f72, 0x43494d31352e49454336313937302e436f72652e506f77657253797374656d5265736f75726365,
  [(0x616972436f6d70726573736f72526174696e67, t_EFloat)],
  [⟨0x436f6d62757374696f6e54757262696e65, 0x43494d31352e49454336313937302e47656e65726174696f6e2e47656e65726174696f6e44796e616d6963732e436f6d62757374696f6e54757262696e65, false, 0x416972436f6d70726573736f72⟩, ⟨0x43414553506c616e74, 0x43494d31352e49454336313937302e47656e65726174696f6e2e50726f64756374696f6e2e43414553506c616e74, false, 0x416972436f6d70726573736f72⟩]⟩
/-- Class CIM15.IEC61970.Generation.Production.CAESPlant -/
def s_CAESPlant : SClass := ⟨0x43414553506c616e74, 0x43494d31352e49454336313937302e47656e65726174696f6e2e50726f64756374696f6e2e43414553506c616e74, 0x43494d31352e49454336313937302e436f72652e506f77657253797374656d5265736f75726365,
  [(0x7261746564436170616369747950, t_float), (0x656e6572677953746f726167654361706163697479, t_float)],
  [⟨0x416972436f6d70726573736f72, 0x43494d31352e49454336313937302e47656e65726174696f6e2e50726f64756374696f6e2e416972436f6d70726573736f72, false, 0x43414553506c616e74⟩, ⟨0x546865726d616c47656e65726174696e67556e6974, 0x43494d31352e49454336313937302e47656e65726174696f6e2e50726f64756374696f6e2e546865726d616c47656e65726174696e67556e6974, false, 0x43414553506c616e74⟩]⟩
/-- Class CIM15.IEC61970.Generation.Production.CogenerationPlant -/
def s_CogenerationPlant : SClass := ⟨0x436f67656e65726174696f6e506c616e74, 0x43494d31352e49454336313937302e47656e65726174696f6e2e50726f64756374696f6e2e436f67656e65726174696f6e506c616e74, 0x43494d31352e49454336313937302e436f72652e506f77657253797374656d5265736f75726365,
  [(0x636f67656e4c50537465616d526174696e67, t_EFloat), (0x636f67656e4c5053656e646f7574526174696e67, t_EFloat), (0x726174656450, t_float), (0x636f67656e485053656e646f7574526174696e67, t_EFloat), (0x636f67656e4850537465616d526174696e67, t_EFloat)],
  [⟨0x537465616d53656e646f75745363686564756c65, 0x43494d31352e49454336313937302e47656e65726174696f6e2e50726f64756374696f6e2e537465616d53656e646f75745363686564756c65, false, 0x436f67656e65726174696f6e506c616e74⟩, ⟨0x546865726d616c47656e65726174696e67556e697473, 0x43494d31352e49454336313937302e47656e65726174696f6e2e50726f64756374696f6e2e546865726d616c47656e65726174696e67556e6974, true, 0x436f67656e65726174696f6e506c616e74⟩]⟩
/-- Class CIM15.IEC61970.Generation.Production.CombinedCyclePlant -/
def s_CombinedCyclePlant : SClass := ⟨0x436f6d62696e65644379636c65506c616e74, 0x43494d31352e49454336313937302e47656e65726174696f6e2e50726f64756374696f6e2e436f6d62696e65644379636c65506c616e74, 0x43494d31352e49454336313937302e436f72652e506f77657253797374656d5265736f75726365,
  [(0x636f6d624379636c65506c616e74526174696e67, t_float)],
  [⟨0x546865726d616c47656e65726174696e67556e697473, 0x43494d31352e49454336313937302e47656e65726174696f6e2e50726f64756374696f6e2e546865726d616c47656e65726174696e67556e6974, true, 0x436f6d62696e65644379636c65506c616e74⟩]⟩
/-- Class CIM15.IEC61970.Generation.Production.EmissionAccount -/
def s_EmissionAccount : SClass := ⟨0x456d697373696f6e4163636f756e74, 0x43494d31352e49454336313937302e47656e65726174696f6e2e50726f64756374696f6e2e456d697373696f6e4163636f756e74, 0x43494d31352e49454336313937302e436f72652e4375727665,
  [(0x656d697373696f6e54797065, e_EmissionType), (0x656d697373696f6e56616c7565536f75726365, e_EmissionValueSource)],
  [⟨0x546865726d616c47656e65726174696e67556e6974, 0x43494d31352e49454336313937302e47656e65726174696f6e2e50726f64756374696f6e2e546865726d616c47656e65726174696e67556e6974, false, 0x456d6d697373696f6e4163636f756e7473⟩]⟩
/-- Class CIM15.IEC61970.Generation.Production.EmissionCurve -/
def s_EmissionCurve : SClass := ⟨0x456d697373696f6e4375727665, 0x43494d31352e49454336313937302e47656e65726174696f6e2e50726f64756374696f6e2e456d697373696f6e4375727665, 0x43494d31352e49454336313937302e436f72652e4375727665,
  [(0x656d697373696f6e436f6e74656e74, t_float), (0x69734e657447726f737350, t_EBoolean), (0x656d697373696f6e54797065, e_EmissionType)],
  [⟨0x546865726d616c47656e65726174696e67556e6974, 0x43494d31352e49454336313937302e47656e65726174696f6e2e50726f64756374696f6e2e546865726d616c47656e65726174696e67556e6974, false, 0x456d697373696f6e437572766573⟩]⟩
/-- Class CIM15.IEC61970.Generation.Production.FossilFuel -/
def s_FossilFuel : SClass := ⟨0x466f7373696c4675656c, 0x43494d31352e49454336313937302e47656e65726174696f6e2e50726f64756374696f6e2e466f7373696c4675656c, 0x43494d31352e49454336313937302e436f72652e4964656e7469666965644f626a656374,
  [(0x6675656c53756c667572, t_float), (0x6675656c436f7374, t_float), (0x666f7373696c4675656c54797065, e_FuelType), (0x6c6f77427265616b706f696e7450, t_float), (0x6675656c4469737061746368436f7374, t_float), (0x6675656c48616e646c696e67436f7374, t_float), (0x6675656c48656174436f6e74656e74, t_EFloat), (0x6675656c456666466163746f72, t_float), (0x6675656c4d697874757265, t_float), (0x68696768427265616b706f696e7450, t_float)],
  [⟨0x546865726d616c47656e65726174696e67556e6974, 0x43494d31352e49454336313937302e47656e65726174696f6e2e50726f64756374696f6e2e546865726d616c47656e65726174696e67556e6974, false, 0x466f7373696c4675656c73⟩, ⟨0x4675656c416c6c6f636174696f6e5363686564756c6573, 0x43494d31352e49454336313937302e47656e65726174696f6e2e50726f64756374696f6e2e4675656c416c6c6f636174696f6e5363686564756c65, true, 0x466f7373696c4675656c⟩]⟩
/-- Class CIM15.IEC61970.Generation.Production.FuelAllocationSchedule -/
def s_FuelAllocationSchedule : SClass := ⟨0x4675656c416c6c6f636174696f6e5363686564756c65, 0x43494d31352e49454336313937302e47656e65726174696f6e2e50726f64756374696f6e2e4675656c416c6c6f636174696f6e5363686564756c65, 0x43494d31352e49454336313937302e436f72652e4375727665,
  [(0x6d696e4675656c416c6c6f636174696f6e, t_EFloat), (0x6675656c416c6c6f636174696f6e456e6444617465, t_java_util_Date), (0x6d61784675656c416c6c6f636174696f6e, t_EFloat), (0x6675656c416c6c6f636174696f6e537461727444617465, t_java_util_Date), (0x6675656c54797065, e_FuelType)],
  [⟨0x466f7373696c4675656c, 0x43494d31352e49454336313937302e47656e65726174696f6e2e50726f64756374696f6e2e466f7373696c4675656c, false, 0x4675656c416c6c6f636174696f6e5363686564756c6573⟩, ⟨0x546865726d616c47656e65726174696e67556e6974, 0x43494d31352e49454336313937302e47656e65726174696f6e2e50726f64756374696f6e2e546865726d616c47656e65726174696e67556e6974, false, 0x4675656c416c6c6f636174696f6e5363686564756c6573⟩]⟩
/-- Class CIM15.IEC61970.Generation.Production.GenUnitOpCostCurve -/
def s_GenUnitOpCostCurve : SClass := ⟨0x47656e556e69744f70436f73744375727665, 0x43494d31352e49454336313937302e47656e65726174696f6e2e50726f64756374696f6e2e47656e556e69744f70436f73744375727665, 0x43494d31352e49454336313937302e436f72652e4375727665,
  [(0x69734e657447726f737350, t_EBoolean)],
  [⟨0x47656e65726174696e67556e6974, 0x43494d31352e49454336313937302e47656e65726174696f6e2e50726f64756374696f6e2e47656e65726174696e67556e6974, false, 0x47656e556e69744f70436f7374437572766573⟩]⟩
/-- Class CIM15.IEC61970.Generation.Production.GenUnitOpSchedule -/
def s_GenUnitOpSchedule : SClass := ⟨0x47656e556e69744f705363686564756c65, 0x43494d31352e49454336313937302e47656e65726174696f6e2e50726f64756374696f6e2e47656e556e69744f705363686564756c65, 0x43494d31352e49454336313937302e436f72652e526567756c6172496e74657276616c5363686564756c65,
  [],
  [⟨0x47656e65726174696e67556e6974, 0x43494d31352e49454336313937302e47656e65726174696f6e2e50726f64756374696f6e2e47656e65726174696e67556e6974, false, 0x47656e556e69744f705363686564756c65⟩]⟩
/-- Class CIM15.IEC61970.Generation.Production.GeneratingUnit -/
def s_GeneratingUnit : SClass := ⟨0x47656e65726174696e67556e6974, 0x43494d31352e49454336313937302e47656e65726174696f6e2e50726f64756374696f6e2e47656e65726174696e67556e6974, 0x43494d31352e49454336313937302e436f72652e45717569706d656e74,
  [(0x726174656447726f73734d696e50, t_float), (0x656666696369656e6379, t_float), (0x737465704368616e6765, t_float), (0x72617465644e65744d617850, t_float), (0x7469654c696e655046, t_EFloat), (0x6469737052657365727665466c6167, t_EBoolean), (0x636f6e74726f6c50756c736548696768, t_float), (0x7374617274757054696d65, t_float), (0x6d61784f7065726174696e6750, t_float), (0x67656e436f6e74726f6c536f75726365, e_GeneratorControlSource), (0x6e6f726d616c5046, t_EFloat), (0x696e697469616c50, t_float), (0x7370696e5265736572766552616d70, t_float), (0x616c6c6f635370696e52657350, t_float), (0x6d696e45636f6e6f6d696350, t_float), (0x6c6f6e675046, t_EFloat), (0x6e6f6d696e616c50, t_float), (0x636f6e74726f6c526573706f6e736552617465, t_float), (0x726174656447726f73734d617850, t_float), (0x70656e616c7479466163746f72, t_EFloat), (0x666173745374617274466c6167, t_EBoolean), (0x6d696e696d756d4f666654696d65, t_float), (0x73686f72745046, t_EFloat), (0x676f7665726e6f724d504c, t_float), (0x656e657267794d696e50, t_float), (0x6675656c5072696f72697479, t_EInt), (0x6d617845636f6e6f6d696350, t_float), (0x6175746f436e74726c4d617267696e50, t_float), (0x68696768436f6e74726f6c4c696d6974, t_float), (0x6d6f64656c44657461696c, t_java_math_BigInteger), (0x636f6e74726f6c50756c73654c6f77, t_float), (0x726169736552616d7052617465, t_float), (0x636f6e74726f6c4465616462616e64, t_float), (0x6261736550, t_float), (0x73746172747570436f7374, t_float), (0x7661726961626c65436f7374, t_float), (0x67656e4f7065726174696e674d6f6465, e_GeneratorOperatingMode), (0x6c6f77657252616d7052617465, t_float), (0x6d696e4f7065726174696e6750, t_float), (0x6c6f77436f6e74726f6c4c696d6974, t_float), (0x6d6178696d756d416c6c6f7761626c655370696e6e696e6752657365727665, t_float), (0x67656e436f6e74726f6c4d6f6465, e_GeneratorControlMode), (0x676f7665726e6f72534344, t_float)],
  [⟨0x436f6e74726f6c4172656147656e65726174696e67556e6974, 0x43494d31352e49454336313937302e436f6e74726f6c417265612e436f6e74726f6c4172656147656e65726174696e67556e6974, true, 0x47656e65726174696e67556e6974⟩, ⟨0x53796e6368726f6e6f75734d616368696e6573, 0x43494d31352e49454336313937302e57697265732e53796e6368726f6e6f75734d616368696e65, true, 0x47656e65726174696e67556e6974⟩, ⟨0x47656e556e69744f705363686564756c65, 0x43494d31352e49454336313937302e47656e65726174696f6e2e50726f64756374696f6e2e47656e556e69744f705363686564756c65, false, 0x47656e65726174696e67556e6974⟩, ⟨0x47726f7373546f4e6574416374697665506f776572437572766573, 0x43494d31352e49454336313937302e47656e65726174696f6e2e50726f64756374696f6e2e47726f7373546f4e6574416374697665506f7765724375727665, true, 0x47656e65726174696e67556e6974⟩, ⟨0x47656e556e69744f70436f7374437572766573, 0x43494d31352e49454336313937302e47656e65726174696f6e2e50726f64756374696f6e2e47656e556e69744f70436f73744375727665, true, 0x47656e65726174696e67556e6974⟩]⟩
/-- Class CIM15.IEC61970.Generation.Production.GrossToNetActivePowerCurve -/
def s_GrossToNetActivePowerCurve : SClass := ⟨0x47726f7373546f4e6574416374697665506f7765724375727665, 0x43494d31352e49454336313937302e47656e65726174696f6e2e50726f64756374696f6e2e47726f7373546f4e6574416374697665506f7765724375727665, 0x43494d31352e49454336313937302e436f72652e4375727665,
  [],
  [⟨0x47656e65726174696e67556e6974, 0x43494d31352e49454336313937302e47656e65726174696f6e2e50726f64756374696f6e2e47656e65726174696e67556e6974, false, 0x47726f7373546f4e6574416374697665506f776572437572766573⟩]⟩
/-- Class CIM15.IEC61970.Generation.Production.HeatInputCurve -/
def s_HeatInputCurve : SClass := ⟨0x48656174496e7075744375727665, 0x43494d31352e49454336313937302e47656e65726174696f6e2e50726f64756374696f6e2e48656174496e7075744375727665, 0x43494d31352e49454336313937302e436f72652e4375727665,
  [(0x69734e657447726f737350, t_EBoolean), (0x68656174496e707574456666, t_float), (0x68656174496e7075744f6666736574, t_float), (0x617578506f7765724f6666736574, t_float), (0x617578506f7765724d756c74, t_float)],
  [⟨0x546865726d616c47656e65726174696e67556e6974, 0x43494d31352e49454336313937302e47656e65726174696f6e2e50726f64756374696f6e2e546865726d616c47656e65726174696e67556e6974, false, 0x48656174496e7075744375727665⟩]⟩
/-- Class CIM15.IEC61970.Generation.Production.HeatRateCurve -/
def s_HeatRateCurve : SClass := ⟨0x48656174526174654375727665, 0x43494d31352e49454336313937302e47656e65726174696f6e2e50726f64756374696f6e2e48656174526174654375727665, 0x43494d31352e49454336313937302e436f72652e4375727665,
  [(0x69734e657447726f737350, t_EBoolean)],
  [⟨0x546865726d616c47656e65726174696e67556e6974, 0x43494d31352e49454336313937302e47656e65726174696f6e2e50726f64756374696f6e2e546865726d616c47656e65726174696e67556e6974, false, 0x48656174526174654375727665⟩]⟩
/-- Class CIM15.IEC61970.Generation.Production.HydroGeneratingEfficiencyCurve -/
def s_HydroGeneratingEfficiencyCurve : SClass := ⟨0x487964726f47656e65726174696e67456666696369656e63794375727665, 0x43494d31352e49454336313937302e47656e65726174696f6e2e50726f64756374696f6e2e487964726f47656e65726174696e67456666696369656e63794375727665, 0x43494d31352e49454336313937302e436f72652e4375727665,
  [],
  [⟨0x487964726f47656e65726174696e67556e6974, 0x43494d31352e49454336313937302e47656e65726174696f6e2e50726f64756374696f6e2e487964726f47656e65726174696e67556e6974, false, 0x487964726f47656e65726174696e67456666696369656e6379437572766573⟩]⟩
/-- Class CIM15.IEC61970.Generation.Production.HydroGeneratingUnit -/
def s_HydroGeneratingUnit : SClass := ⟨0x487964726f47656e65726174696e67556e6974, 0x43494d31352e49454336313937302e47656e65726174696f6e2e50726f64756374696f6e2e487964726f47656e65726174696e67556e6974, 0x43494d31352e49454336313937302e47656e65726174696f6e2e50726f64756374696f6e2e47656e65726174696e67556e6974,
  [(0x656e65726779436f6e76657273696f6e4361706162696c697479, e_HydroEnergyConversionKind), (0x687964726f556e69745761746572436f7374, t_float)],
  [⟨0x50656e73746f636b4c6f73734375727665, 0x43494d31352e49454336313937302e47656e65726174696f6e2e50726f64756374696f6e2e50656e73746f636b4c6f73734375727665, false, 0x487964726f47656e65726174696e67556e6974⟩, ⟨0x487964726f506f776572506c616e74, 0x43494d31352e49454336313937302e47656e65726174696f6e2e50726f64756374696f6e2e487964726f506f776572506c616e74, false, 0x487964726f47656e65726174696e67556e697473⟩, ⟨0x5461696c6261794c6f73734375727665, 0x43494d31352e49454336313937302e47656e65726174696f6e2e50726f64756374696f6e2e5461696c6261794c6f73734375727665, true, 0x487964726f47656e65726174696e67556e6974⟩, ⟨0x487964726f47656e65726174696e67456666696369656e6379437572766573, 0x43494d31352e49454336313937302e47656e65726174696f6e2e50726f64756374696f6e2e487964726f47656e65726174696e67456666696369656e63794375727665, true, 0x487964726f47656e65726174696e67556e6974⟩]⟩
/-- Class CIM15.IEC61970.Generation.Production.HydroPowerPlant -/
def s_HydroPowerPlant : SClass := ⟨0x487964726f506f776572506c616e74, 0x43494d31352e49454336313937302e47656e65726174696f6e2e50726f64756374696f6e2e487964726f506f776572506c616e74, 0x43494d31352e49454336313937302e436f72652e506f77657253797374656d5265736f75726365,
  [(0x70656e73746f636b54797065, e_PenstockType), (0x70756d70526174656450, t_float), (0x687964726f506c616e7454797065, e_HydroPlantType), (0x737572676554616e6b43726573744c6576656c, t_float), (0x64697363686172676554726176656c44656c6179, t_float), (0x706c616e744469736368617267654361706163697479, t_float), (0x706c616e74526174656448656164, t_float), (0x67656e526174656450, t_float), (0x737572676554616e6b436f6465, e_SurgeTankCode)],
  [⟨0x487964726f47656e65726174696e67556e697473, 0x43494d31352e49454336313937302e47656e65726174696f6e2e50726f64756374696f6e2e487964726f47656e65726174696e67556e6974, true, 0x487964726f506f776572506c616e74⟩, ⟨0x47656e536f7572636550756d704469736368617267655265736572766f6972, 0x43494d31352e49454336313937302e47656e65726174696f6e2e50726f64756374696f6e2e5265736572766f6972, false, 0x557073747265616d46726f6d487964726f506f776572506c616e7473⟩, ⟨0x5265736572766f6972, 0x43494d31352e49454336313937302e47656e65726174696f6e2e50726f64756374696f6e2e5265736572766f6972, false, 0x487964726f506f776572506c616e7473⟩, ⟨0x487964726f50756d7073, 0x43494d31352e49454336313937302e47656e65726174696f6e2e50726f64756374696f6e2e487964726f50756d70, true, 0x487964726f506f776572506c616e74⟩]⟩
/-- Class CIM15.IEC61970.Generation.Production.HydroPump -/
def s_HydroPump : SClass := ⟨0x487964726f50756d70, 0x43494d31352e49454336313937302e47656e65726174696f6e2e50726f64756374696f6e2e487964726f50756d70, 0x43494d31352e49454336313937302e436f72652e506f77657253797374656d5265736f75726365,
  [(0x70756d70446973636841744d617848656164, t_float), (0x70756d70446973636841744d696e48656164, t_float), (0x70756d70506f77657241744d696e48656164, t_float), (0x70756d70506f77657241744d617848656164, t_float)],
  [⟨0x487964726f506f776572506c616e74, 0x43494d31352e49454336313937302e47656e65726174696f6e2e50726f64756374696f6e2e487964726f506f776572506c616e74, false, 0x487964726f50756d7073⟩, ⟨0x487964726f50756d704f705363686564756c65, 0x43494d31352e49454336313937302e47656e65726174696f6e2e50726f64756374696f6e2e487964726f50756d704f705363686564756c65, false, 0x487964726f50756d70⟩, ⟨0x53796e6368726f6e6f75734d616368696e65, 0x43494d31352e49454336313937302e57697265732e53796e6368726f6e6f75734d616368696e65, false, 0x487964726f50756d70⟩]⟩
/-- Class CIM15.IEC61970.Generation.Production.HydroPumpOpSchedule -/
def s_HydroPumpOpSchedule : SClass := ⟨0x487964726f50756d704f705363686564756c65, 0x43494d31352e49454336313937302e47656e65726174696f6e2e50726f64756374696f6e2e487964726f50756d704f705363686564756c65, 0x43494d31352e49454336313937302e436f72652e526567756c6172496e74657276616c5363686564756c65,
  [],
  [⟨0x487964726f50756d70, 0x43494d31352e49454336313937302e47656e65726174696f6e2e50726f64756374696f6e2e487964726f50756d70, false, 0x487964726f50756d704f705363686564756c65⟩]⟩
/-- Class CIM15.IEC61970.Generation.Production.IncrementalHeatRateCurve -/
def s_IncrementalHeatRateCurve : SClass := ⟨0x496e6372656d656e74616c48656174526174654375727665, 0x43494d31352e49454336313937302e47656e65726174696f6e2e50726f64756374696f6e2e496e6372656d656e74616c48656174526174654375727665, 0x43494d31352e49454336313937302e436f72652e4375727665,
  [(0x69734e657447726f737350, t_EBoolean)],
  [⟨0x546865726d616c47656e65726174696e67556e6974, 0x43494d31352e49454336313937302e47656e65726174696f6e2e50726f64756374696f6e2e546865726d616c47656e65726174696e67556e6974, false, 0x496e6372656d656e74616c48656174526174654375727665⟩]⟩
/-- Class CIM15.IEC61970.Generation.Production.InflowForecast -/
def s_InflowForecast : SClass := ⟨0x496e666c6f77466f726563617374, 0x43494d31352e49454336313937302e47656e65726174696f6e2e50726f64756374696f6e2e496e666c6f77466f726563617374, 0x43494d31352e49454336313937302e436f72652e526567756c6172496e74657276616c5363686564756c65,
  [],
  [⟨0x5265736572766f6972, 0x43494d31352e49454336313937302e47656e65726174696f6e2e50726f64756374696f6e2e5265736572766f6972, false, 0x496e666c6f77466f72656361737473⟩]⟩
/-- Class CIM15.IEC61970.Generation.Production.LevelVsVolumeCurve -/
def s_LevelVsVolumeCurve : SClass := ⟨0x4c6576656c5673566f6c756d654375727665, 0x43494d31352e49454336313937302e47656e65726174696f6e2e50726f64756374696f6e2e4c6576656c5673566f6c756d654375727665, 0x43494d31352e49454336313937302e436f72652e4375727665,
  [],
  [⟨0x5265736572766f6972, 0x43494d31352e49454336313937302e47656e65726174696f6e2e50726f64756374696f6e2e5265736572766f6972, false, 0x4c6576656c5673566f6c756d65437572766573⟩]⟩
/-- Class CIM15.IEC61970.Generation.Production.NuclearGeneratingUnit -/
def s_NuclearGeneratingUnit : SClass := ⟨0x4e75636c65617247656e65726174696e67556e6974, 0x43494d31352e49454336313937302e47656e65726174696f6e2e50726f64756374696f6e2e4e75636c65617247656e65726174696e67556e6974, 0x43494d31352e49454336313937302e47656e65726174696f6e2e50726f64756374696f6e2e47656e65726174696e67556e6974,
  [],
  []⟩
/-- Class CIM15.IEC61970.Generation.Production.PenstockLossCurve -/
def s_PenstockLossCurve : SClass := ⟨0x50656e73746f636b4c6f73734375727665, 0x43494d31352e49454336313937302e47656e65726174696f6e2e50726f64756374696f6e2e50656e73746f636b4c6f73734375727665, 0x43494d31352e49454336313937302e436f72652e4375727665,
  [],
  [⟨0x487964726f47656e65726174696e67556e6974, 0x43494d31352e49454336313937302e47656e65726174696f6e2e50726f64756374696f6e2e487964726f47656e65726174696e67556e6974, false, 0x50656e73746f636b4c6f73734375727665⟩]⟩
/-- Class CIM15.IEC61970.Generation.Production.Reservoir -/
def s_Reservoir : SClass := ⟨0x5265736572766f6972, 0x43494d31352e49454336313937302e47656e65726174696f6e2e50726f64756374696f6e2e5265736572766f6972, 0x43494d31352e49454336313937302e436f72652e506f77657253797374656d5265736f75726365,
  [(0x7370696c6c7761794361706163697479, t_EFloat), (0x656e6572677953746f72616765526174696e67, t_EFloat), (0x67726f73734361706163697479, t_float), (0x72697665724f75746c6574576f726b73, t_EString), (0x7370696c6c77617943726573744c6576656c, t_float), (0x6e6f726d616c4d696e4f7065726174654c6576656c, t_float), (0x7370696c6c77617943726573744c656e677468, t_float), (0x7370696c6c54726176656c44656c6179, t_float), (0x61637469766553746f726167654361706163697479, t_float), (0x7370696c6c5761794761746554797065, e_SpillwayGateType), (0x66756c6c537570706c794c6576656c, t_float)],
  [⟨0x4c6576656c5673566f6c756d65437572766573, 0x43494d31352e49454336313937302e47656e65726174696f6e2e50726f64756374696f6e2e4c6576656c5673566f6c756d654375727665, true, 0x5265736572766f6972⟩, ⟨0x5461726765744c6576656c5363686564756c65, 0x43494d31352e49454336313937302e47656e65726174696f6e2e50726f64756374696f6e2e5461726765744c6576656c5363686564756c65, false, 0x5265736572766f6972⟩, ⟨0x487964726f506f776572506c616e7473, 0x43494d31352e49454336313937302e47656e65726174696f6e2e50726f64756374696f6e2e487964726f506f776572506c616e74, true, 0x5265736572766f6972⟩, ⟨0x557073747265616d46726f6d487964726f506f776572506c616e7473, 0x43494d31352e49454336313937302e47656e65726174696f6e2e50726f64756374696f6e2e487964726f506f776572506c616e74, true, 0x47656e536f7572636550756d704469736368617267655265736572766f6972⟩, ⟨0x496e666c6f77466f72656361737473, 0x43494d31352e49454336313937302e47656e65726174696f6e2e50726f64756374696f6e2e496e666c6f77466f726563617374, true, 0x5265736572766f6972⟩, ⟨0x5370696c6c7346726f6d5265736572766f6972, 0x43494d31352e49454336313937302e47656e65726174696f6e2e50726f64756374696f6e2e5265736572766f6972, false, 0x5370696c6c73496e746f5265736572766f697273⟩, ⟨0x5370696c6c73496e746f5265736572766f697273, 0x43494d31352e49454336313937302e47656e65726174696f6e2e50726f64756374696f6e2e5265736572766f6972, true, 0x5370696c6c7346726f6d5265736572766f6972⟩]⟩
/-- Class CIM15.IEC61970.Generation.Production.ShutdownCurve -/
def s_ShutdownCurve : SClass := ⟨0x53687574646f776e4375727665, 0x43494d31352e49454336313937302e47656e65726174696f6e2e50726f64756374696f6e2e53687574646f776e4375727665, 0x43494d31352e49454336313937302e436f72652e4375727665,
  [(0x73687574646f776e44617465, t_java_util_Date), (0x73687574646f776e436f7374, t_float)],
  [⟨0x546865726d616c47656e65726174696e67556e6974, 0x43494d31352e49454336313937302e47656e65726174696f6e2e50726f64756374696f6e2e546865726d616c47656e65726174696e67556e6974, false, 0x53687574646f776e4375727665⟩]⟩
/-- Class CIM15.IEC61970.Generation.Production.StartIgnFuelCurve -/
def s_StartIgnFuelCurve : SClass := ⟨0x537461727449676e4675656c4375727665, 0x43494d31352e49454336313937302e47656e65726174696f6e2e50726f64756374696f6e2e537461727449676e4675656c4375727665, 0x43494d31352e49454336313937302e436f72652e4375727665,
  [(0x69676e6974696f6e4675656c54797065, e_FuelType)],
  [⟨0x537461727475704d6f64656c, 0x43494d31352e49454336313937302e47656e65726174696f6e2e50726f64756374696f6e2e537461727475704d6f64656c, false, 0x537461727449676e4675656c4375727665⟩]⟩
/-- Class CIM15.IEC61970.Generation.Production.StartMainFuelCurve -/
def s_StartMainFuelCurve : SClass := ⟨0x53746172744d61696e4675656c4375727665, 0x43494d31352e49454336313937302e47656e65726174696f6e2e50726f64756374696f6e2e53746172744d61696e4675656c4375727665, 0x43494d31352e49454336313937302e436f72652e4375727665,
  [(0x6d61696e4675656c54797065, e_FuelType)],
  [⟨0x537461727475704d6f64656c, 0x43494d31352e49454336313937302e47656e65726174696f6e2e50726f64756374696f6e2e537461727475704d6f64656c, false, 0x53746172744d61696e4675656c4375727665⟩]⟩
/-- Class CIM15.IEC61970.Generation.Production.StartRampCurve -/
def s_StartRampCurve : SClass := ⟨0x537461727452616d704375727665, 0x43494d31352e49454336313937302e47656e65726174696f6e2e50726f64756374696f6e2e537461727452616d704375727665, 0x43494d31352e49454336313937302e436f72652e4375727665,
  [(0x686f745374616e64627952616d70, t_float)],
  [⟨0x537461727475704d6f64656c, 0x43494d31352e49454336313937302e47656e65726174696f6e2e50726f64756374696f6e2e537461727475704d6f64656c, false, 0x537461727452616d704375727665⟩]⟩
/-- Class CIM15.IEC61970.Generation.Production.StartupModel -/
def s_StartupModel : SClass := ⟨0x537461727475704d6f64656c, 0x43494d31352e49454336313937302e47656e65726174696f6e2e50726f64756374696f6e2e537461727475704d6f64656c, 0x43494d31352e49454336313937302e436f72652e4964656e7469666965644f626a656374,
  [(0x73746172747570436f7374, t_float), (0x7374627941757850, t_float), (0x6d696e696d756d52756e54696d65, t_float), (0x7269736b466163746f72436f7374, t_float), (0x6d696e696d756d446f776e54696d65, t_float), (0x66697865644d61696e74436f7374, t_float), (0x7374617274757044617465, t_java_util_Date), (0x686f745374616e64627948656174, t_float), (0x737461727475705072696f72697479, t_EInt), (0x696e6372656d656e74616c4d61696e74436f7374, t_float)],
  [⟨0x537461727452616d704375727665, 0x43494d31352e49454336313937302e47656e65726174696f6e2e50726f64756374696f6e2e537461727452616d704375727665, false, 0x537461727475704d6f64656c⟩, ⟨0x53746172744d61696e4675656c4375727665, 0x43494d31352e49454336313937302e47656e65726174696f6e2e50726f64756374696f6e2e53746172744d61696e4675656c4375727665, false, 0x537461727475704d6f64656c⟩, ⟨0x537461727449676e4675656c4375727665, 0x43494d31352e49454336313937302e47656e65726174696f6e2e50726f64756374696f6e2e537461727449676e4675656c4375727665, false, 0x537461727475704d6f64656c⟩, ⟨0x546865726d616c47656e65726174696e67556e6974, 0x43494d31352e49454336313937302e47656e65726174696f6e2e50726f64756374696f6e2e546865726d616c47656e65726174696e67556e6974, false, 0x537461727475704d6f64656c⟩]⟩
/-- Class CIM15.IEC61970.Generation.Production.SteamSendoutSchedule -/
def s_SteamSendoutSchedule : SClass := ⟨0x537465616d53656e646f75745363686564756c65, 0x43494d31352e49454336313937302e47656e65726174696f6e2e50726f64756374696f6e2e537465616d53656e646f75745363686564756c65, 0x43494d31352e49454336313937302e436f72652e526567756c6172496e74657276616c5363686564756c65,
  [],
  [⟨0x436f67656e65726174696f6e506c616e74, 0x43494d31352e49454336313937302e47656e65726174696f6e2e50726f64756374696f6e2e436f67656e65726174696f6e506c616e74, false, 0x537465616d53656e646f75745363686564756c65⟩]⟩
/-- Class CIM15.IEC61970.Generation.Production.TailbayLossCurve -/
def s_TailbayLossCurve : SClass := ⟨0x5461696c6261794c6f73734375727665, 0x43494d31352e49454336313937302e47656e65726174696f6e2e50726f64756374696f6e2e5461696c6261794c6f73734375727665, 0x43494d31352e49454336313937302e436f72652e4375727665,
  [],
  [⟨0x487964726f47656e65726174696e67556e6974, 0x43494d31352e49454336313937302e47656e65726174696f6e2e50726f64756374696f6e2e487964726f47656e65726174696e67556e6974, false, 0x5461696c6261794c6f73734375727665⟩]⟩
/-- Class CIM15.IEC61970.Generation.Production.TargetLevelSchedule -/
def s_TargetLevelSchedule : SClass := ⟨0x5461726765744c6576656c5363686564756c65, 0x43494d31352e49454336313937302e47656e65726174696f6e2e50726f64756374696f6e2e5461726765744c6576656c5363686564756c65, 0x43494d31352e49454336313937302e436f72652e4375727665,
  [(0x6c6f774c6576656c4c696d6974, t_float), (0x686967684c6576656c4c696d6974, t_float)],
  [⟨0x5265736572766f6972, 0x43494d31352e49454336313937302e47656e65726174696f6e2e50726f64756374696f6e2e5265736572766f6972, false, 0x5461726765744c6576656c5363686564756c65⟩]⟩
/-- Class CIM15.IEC61970.Generation.Production.ThermalGeneratingUnit -/
def s_ThermalGeneratingUnit : SClass := ⟨0x546865726d616c47656e65726174696e67556e6974, 0x43494d31352e49454336313937302e47656e65726174696f6e2e50726f64756374696f6e2e546865726d616c47656e65726174696e67556e6974, 0x43494d31352e49454336313937302e47656e65726174696f6e2e50726f64756374696f6e2e47656e65726174696e67556e6974,
  [(0x6f4d436f7374, t_float)],
  [⟨0x43414553506c616e74, 0x43494d31352e49454336313937302e47656e65726174696f6e2e50726f64756374696f6e2e43414553506c616e74, false, 0x546865726d616c47656e65726174696e67556e6974⟩, ⟨0x436f67656e65726174696f6e506c616e74, 0x43494d31352e49454336313937302e47656e65726174696f6e2e50726f64756374696f6e2e436f67656e65726174696f6e506c616e74, false, 0x546865726d616c47656e65726174696e67556e697473⟩, ⟨0x53687574646f776e4375727665, 0x43494d31352e49454336313937302e47656e65726174696f6e2e50726f64756374696f6e2e53687574646f776e4375727665, false, 0x546865726d616c47656e65726174696e67556e6974⟩, ⟨0x466f7373696c4675656c73, 0x43494d31352e49454336313937302e47656e65726174696f6e2e50726f64756374696f6e2e466f7373696c4675656c, true, 0x546865726d616c47656e65726174696e67556e6974⟩, ⟨0x48656174526174654375727665, 0x43494d31352e49454336313937302e47656e65726174696f6e2e50726f64756374696f6e2e48656174526174654375727665, false, 0x546865726d616c47656e65726174696e67556e6974⟩, ⟨0x4675656c416c6c6f636174696f6e5363686564756c6573, 0x43494d31352e49454336313937302e47656e65726174696f6e2e50726f64756374696f6e2e4675656c416c6c6f636174696f6e5363686564756c65, true, 0x546865726d616c47656e65726174696e67556e6974⟩, ⟨0x456d697373696f6e437572766573, 0x43494d31352e49454336313937302e47656e65726174696f6e2e50726f64756374696f6e2e456d697373696f6e4375727665, true, 0x546865726d616c47656e65726174696e67556e6974⟩, ⟨0x48656174496e7075744375727665, 0x43494d31352e49454336313937302e47656e65726174696f6e2e50726f64756374696f6e2e48656174496e7075744375727665, false, 0x546865726d616c47656e65726174696e67556e6974⟩, ⟨0x436f6d62696e65644379636c65506c616e74, 0x43494d31352e49454336313937302e47656e65726174696f6e2e50726f64756374696f6e2e436f6d62696e65644379636c65506c616e74, false, 0x546865726d616c47656e65726174696e67556e697473⟩, ⟨0x496e6372656d656e74616c48656174526174654375727665, 0x43494d31352e49454336313937302e47656e65726174696f6e2e50726f64756374696f6e2e496e6372656d656e74616c48656174526174654375727665, false, 0x546865726d616c47656e65726174696e67556e6974⟩, ⟨0x537461727475704d6f64656c, 0x43494d31352e49454336313937302e47656e65726174696f6e2e50726f64756374696f6e2e537461727475704d6f64656c, false, 0x546865726d616c47656e65726174696e67556e6974⟩, ⟨0x456d6d697373696f6e4163636f756e7473, 0x43494d31352e49454336313937302e47656e65726174696f6e2e50726f64756374696f6e2e456d697373696f6e4163636f756e74, true, 0x546865726d616c47656e65726174696e67556e6974⟩]⟩
/-- Class CIM15.IEC61970.Generation.Production.WindGeneratingUnit -/
def s_WindGeneratingUnit : SClass := ⟨0x57696e6447656e65726174696e67556e6974, 0x43494d31352e49454336313937302e47656e65726174696f6e2e50726f64756374696f6e2e57696e6447656e65726174696e67556e6974, 0x43494d31352e49454336313937302e47656e65726174696f6e2e50726f64756374696f6e2e47656e65726174696e67556e6974,
  [],
  []⟩
/-- Class CIM15.IEC61970.Graphics.DiagramObject -/
def s_DiagramObject : SClass := ⟨0x4469616772616d4f626a656374, 0x43494d31352e49454336313937302e47726170686963732e4469616772616d4f626a656374, 0x43494d31352e49454336313937302e436f72652e4964656e7469666965644f626a656374,
  [(0x6f666673657459, t_EFloat), (0x6f666673657458, t_EFloat), (0x6973506f6c79676f6e, t_EBoolean), (0x726f746174696f6e, t_float), (0x64726177696e674f72646572, t_EInt)],
  [⟨0x5669736962696c6974794c6179657273, 0x43494d31352e49454336313937302e47726170686963732e5669736962696c6974794c61796572, true, 0x4469616772616d4f626a65637473⟩, ⟨0x4964656e7469666965644f626a656374, 0x43494d31352e49454336313937302e436f72652e4964656e7469666965644f626a656374, false, 0x4469616772616d4f626a65637473⟩, ⟨0x4469616772616d4f626a6563745374796c65, 0x43494d31352e49454336313937302e47726170686963732e4469616772616d4f626a6563745374796c65, false, 0x4469616772616d4f626a65637473⟩, ⟨0x4469616772616d4f626a656374506f696e7473, 0x43494d31352e49454336313937302e47726170686963732e4469616772616d4f626a656374506f696e74, true, 0x4469616772616d4f626a656374⟩, ⟨0x4469616772616d, 0x43494d31352e49454336313937302e496e666f726d61746976652e496e66474d4c537570706f72742e4469616772616d, false, 0x4469616772616d4f626a65637473⟩]⟩
/-- Class CIM15.IEC61970.Graphics.DiagramObjectGluePoint -/
def s_DiagramObjectGluePoint : SClass := ⟨0x4469616772616d4f626a656374476c7565506f696e74, 0x43494d31352e49454336313937302e47726170686963732e4469616772616d4f626a656374476c7565506f696e74, 0x43494d31352e456c656d656e74,
  [],
  [⟨0x4469616772616d4f626a656374506f696e7473, 0x43494d31352e49454336313937302e47726170686963732e4469616772616d4f626a656374506f696e74, true, 0x4469616772616d4f626a656374476c7565506f696e74⟩]⟩
/-- Class CIM15.IEC61970.Graphics.DiagramObjectPoint -/
def s_DiagramObjectPoint : SClass := ⟨0x4469616772616d4f626a656374506f696e74, 0x43494d31352e49454336313937302e47726170686963732e4469616772616d4f626a656374506f696e74, 0x43494d31352e456c656d656e74,
  [(0x73657175656e63654e756d626572, t_EInt), (0x78506f736974696f6e, t_EFloat), (0x79506f736974696f6e, t_EFloat), (0x7a506f736974696f6e, t_EFloat)],
  [⟨0x4469616772616d4f626a656374476c7565506f696e74, 0x43494d31352e49454336313937302e47726170686963732e4469616772616d4f626a656374476c7565506f696e74, false, 0x4469616772616d4f626a656374506f696e7473⟩, ⟨0x4469616772616d4f626a656374, 0x43494d31352e49454336313937302e47726170686963732e4469616772616d4f626a656374, false, 0x4469616772616d4f626a656374506f696e7473⟩]⟩
/-- Class CIM15.IEC61970.Graphics.DiagramObjectStyle -/
def s_DiagramObjectStyle : SClass := ⟨0x4469616772616d4f626a6563745374796c65, 0x43494d31352e49454336313937302e47726170686963732e4469616772616d4f626a6563745374796c65, 0x43494d31352e49454336313937302e436f72652e4964656e7469666965644f626a656374,
  [],
  [⟨0x4469616772616d4f626a65637473, 0x43494d31352e49454336313937302e47726170686963732e4469616772616d4f626a656374, true, 0x4469616772616d4f626a6563745374796c65⟩]⟩
/-- Class CIM15.IEC61970.Graphics.TextDiagramObject -/
def s_TextDiagramObject : SClass := ⟨0x546578744469616772616d4f626a656374, 0x43494d31352e49454336313937302e47726170686963732e546578744469616772616d4f626a656374, 0x43494d31352e49454336313937302e47726170686963732e4469616772616d4f626a656374,
  [(0x74657874, t_EString)],
  []⟩
/-- Class CIM15.IEC61970.Graphics.VisibilityLayer -/
def s_VisibilityLayer : SClass := ⟨0x5669736962696c6974794c61796572, 0x43494d31352e49454336313937302e47726170686963732e5669736962696c6974794c61796572, 0x43494d31352e49454336313937302e436f72652e4964656e7469666965644f626a656374,
  [(0x64726177696e674f72646572, t_EInt)],
  [⟨0x4469616772616d4f626a65637473, 0x43494d31352e49454336313937302e47726170686963732e4469616772616d4f626a656374, true, 0x5669736962696c6974794c6179657273⟩]⟩
/-- Class CIM15.IEC61970.IEC61970CIMVersion -/
def s_IEC61970CIMVersion : SClass := ⟨0x494543363139373043494d56657273696f6e, 0x43494d31352e49454336313937302e494543363139373043494d56657273696f6e, 0x43494d31352e456c656d656e74,
  [(0x64617465, t_java_lang_String), (0x76657273696f6e, t_EString)],
  []⟩
/-- Class CIM15.IEC61970.Informative.InfAssetModels.AssetModelCatalogue -/
def s_AssetModelCatalogue : SClass := ⟨0x41737365744d6f64656c436174616c6f677565, 0x43494d31352e49454336313937302e496e666f726d61746976652e496e6641737365744d6f64656c732e41737365744d6f64656c436174616c6f677565, 0x43494d31352e49454336313937302e436f72652e4964656e7469666965644f626a656374,
  [],
  [⟨0x41737365744d6f64656c436174616c6f6775654974656d73, 0x43494d31352e49454336313937302e496e666f726d61746976652e496e6641737365744d6f64656c732e41737365744d6f64656c436174616c6f6775654974656d, true, 0x41737365744d6f64656c436174616c6f677565⟩, ⟨0x737461747573, 0x43494d31352e49454336313936382e436f6d6d6f6e2e537461747573, false, 0⟩]⟩
/-- Class CIM15.IEC61970.Informative.InfAssetModels.AssetModelCatalogueItem -/
def s_AssetModelCatalogueItem : SClass := ⟨0x41737365744d6f64656c436174616c6f6775654974656d, 0x43494d31352e49454336313937302e496e666f726d61746976652e496e6641737365744d6f64656c732e41737365744d6f64656c436174616c6f6775654974656d, 0x43494d31352e49454336313936382e436f6d6d6f6e2e446f63756d656e74,
  [(0x756e6974436f7374, t_float)],
  [⟨0x457270504f4c696e654974656d73, 0x43494d31352e49454336313937302e496e666f726d61746976652e496e66455250537570706f72742e457270504f4c696e654974656d, true, 0x41737365744d6f64656c436174616c6f6775654974656d⟩, ⟨0x41737365744d6f64656c436174616c6f677565, 0x43494d31352e49454336313937302e496e666f726d61746976652e496e6641737365744d6f64656c732e41737365744d6f64656c436174616c6f677565, false, 0x41737365744d6f64656c436174616c6f6775654974656d73⟩, ⟨0x41737365744d6f64656c, 0x43494d31352e49454336313936382e4173736574732e50726f6475637441737365744d6f64656c, false, 0x41737365744d6f64656c436174616c6f6775654974656d73⟩, ⟨0x45727051756f74654c696e654974656d73, 0x43494d31352e49454336313937302e496e666f726d61746976652e496e66455250537570706f72742e45727051756f74654c696e654974656d, true, 0x41737365744d6f64656c436174616c6f6775654974656d⟩]⟩
/-- Class CIM15.IEC61970.Informative.InfAssetModels.TransformerAssetModel -/
def s_TransformerAssetModel : SClass := ⟨0x5472616e73666f726d657241737365744d6f64656c, 0x43494d31352e49454336313937302e496e666f726d61746976652e496e6641737365744d6f64656c732e5472616e73666f726d657241737365744d6f64656c, 0x43494d31352e49454336313936382e4173736574732e50726f6475637441737365744d6f64656c,
  [(0x6e65757472616c42494c, t_float), (0x636f6e737472756374696f6e4b696e64, e_TransformerConstructionKind), (0x636f7265436f696c73576569676874, t_float), (0x77696e64696e67496e73756c6174696f6e4b696e64, e_WindingInsulationKind), (0x686f75724f7665724c6f6164526174696e67, t_float), (0x616c745072696d6172794e6f6d566f6c74616765, t_float), (0x616c745365636f6e646172794e6f6d566f6c74616765, t_float), (0x7265636f6e66696757696e64696e67, t_EBoolean), (0x66756e6374696f6e, e_TransformerFunctionKind), (0x6f696c507265736572766174696f6e4b696e64, e_OilPreservationKind), (0x6461794f7665724c6f6164526174696e67, t_float), (0x636f72654b696e64, e_TransformerCoreKind), (0x6175746f5472616e73666f726d6572, t_EBoolean), (0x736f6c6964496e73756c6174696f6e576569676874, t_float)],
  [⟨0x5472616e73666f726d6572417373657473, 0x43494d31352e49454336313937302e496e666f726d61746976652e496e664173736574732e5472616e73666f726d65724173736574, true, 0x5472616e73666f726d657241737365744d6f64656c⟩, ⟨0x5472616e73666f726d6572496e666f, 0x43494d31352e49454336313936382e41737365744d6f64656c732e5472616e73666f726d657254616e6b496e666f, false, 0x5472616e73666f726d657241737365744d6f64656c73⟩]⟩
/-- Class CIM15.IEC61970.Informative.InfAssets.AssetAssetRole -/
def s_AssetAssetRole : SClass := ⟨0x41737365744173736574526f6c65, 0x43494d31352e49454336313937302e496e666f726d61746976652e496e664173736574732e41737365744173736574526f6c65, 0x43494d31352e49454336313937302e496e666f726d61746976652e496e66436f6d6d6f6e2e526f6c65,
  [],
  [⟨0x546f4173736574, 0x43494d31352e49454336313936382e4173736574732e4173736574, false, 0x46726f6d4173736574526f6c6573⟩, ⟨0x46726f6d4173736574, 0x43494d31352e49454336313936382e4173736574732e4173736574, false, 0x546f4173736574526f6c6573⟩]⟩
/-- Class CIM15.IEC61970.Informative.InfAssets.AssetPropertyCurve -/
def s_AssetPropertyCurve : SClass := ⟨0x417373657450726f70657274794375727665, 0x43494d31352e49454336313937302e496e666f726d61746976652e496e664173736574732e417373657450726f70657274794375727665, 0x43494d31352e49454336313937302e436f72652e4375727665,
  [],
  [⟨0x53706563696669636174696f6e, 0x43494d31352e49454336313937302e496e666f726d61746976652e496e664173736574732e53706563696669636174696f6e, false, 0x417373657450726f7065727479437572766573⟩, ⟨0x417373657473, 0x43494d31352e49454336313936382e4173736574732e4173736574, true, 0x417373657450726f7065727479437572766573⟩]⟩
/-- Class CIM15.IEC61970.Informative.InfAssets.BreakerInfo -/
def s_BreakerInfo : SClass := ⟨0x427265616b6572496e666f, 0x43494d31352e49454336313937302e496e666f726d61746976652e496e664173736574732e427265616b6572496e666f, 0x43494d31352e49454336313937302e496e666f726d61746976652e496e664173736574732e537769746368496e666f,
  [(0x706861736554726970, t_float)],
  []⟩
/-- Class CIM15.IEC61970.Informative.InfAssets.Bushing -/
def s_Bushing : SClass := ⟨0x42757368696e67, 0x43494d31352e49454336313937302e496e666f726d61746976652e496e664173736574732e42757368696e67, 0x43494d31352e49454336313936382e4173736574732e4173736574,
  [(0x6332506f776572466163746f72, t_EFloat), (0x633243617061636974616e6365, t_float), (0x6331506f776572466163746f72, t_EFloat), (0x696e73756c6174696f6e4b696e64, e_BushingInsulationKind), (0x633143617061636974616e6365, t_float)],
  [⟨0x5465726d696e616c, 0x43494d31352e49454336313937302e436f72652e5465726d696e616c, false, 0x42757368696e67496e666f⟩, ⟨0x42757368696e67496e73756c6174696f6e504673, 0x43494d31352e49454336313937302e496e666f726d61746976652e496e664173736574732e42757368696e67496e73756c6174696f6e5046, true, 0x42757368696e67496e666f⟩]⟩
/-- Class CIM15.IEC61970.Informative.InfAssets.BushingInsulationPF -/
def s_BushingInsulationPF : SClass := ⟨0x42757368696e67496e73756c6174696f6e5046, 0x43494d31352e49454336313937302e496e666f726d61746976652e496e664173736574732e42757368696e67496e73756c6174696f6e5046, 0x43494d31352e49454336313937302e436f72652e4964656e7469666965644f626a656374,
  [(0x746573744b696e64, e_BushingInsulationPfTestKind)],
  [⟨0x737461747573, 0x43494d31352e49454336313936382e436f6d6d6f6e2e537461747573, false, 0⟩, ⟨0x5472616e73666f726d65724f62736572766174696f6e, 0x43494d31352e49454336313937302e496e666f726d61746976652e496e664173736574732e5472616e73666f726d65724f62736572766174696f6e, false, 0x42757368696e67496e73756c746174696f6e504673⟩, ⟨0x42757368696e67496e666f, 0x43494d31352e49454336313937302e496e666f726d61746976652e496e664173736574732e42757368696e67, false, 0x42757368696e67496e73756c6174696f6e504673⟩]⟩
/-- Class CIM15.IEC61970.Informative.InfAssets.Cabinet -/
def s_Cabinet : SClass := ⟨0x436162696e6574, 0x43494d31352e49454336313937302e496e666f726d61746976652e496e664173736574732e436162696e6574, 0x43494d31352e49454336313936382e4173736574732e4173736574436f6e7461696e6572,
  [],
  []⟩
/-- Class CIM15.IEC61970.Informative.InfAssets.ComEquipment -/
def s_ComEquipment : SClass := ⟨0x436f6d45717569706d656e74, 0x43494d31352e49454336313937302e496e666f726d61746976652e496e664173736574732e436f6d45717569706d656e74, 0x43494d31352e49454336313936382e4173736574732e4173736574,
  [],
  [⟨0x456e6444657669636546756e6374696f6e73, 0x43494d31352e49454336313936382e4d65746572696e672e456e6444657669636546756e6374696f6e, true, 0x436f6d45717569706d656e74⟩]⟩
/-- Class CIM15.IEC61970.Informative.InfAssets.CompositeSwitchInfo -/
def s_CompositeSwitchInfo : SClass := ⟨0x436f6d706f73697465537769746368496e666f, 0x43494d31352e49454336313937302e496e666f726d61746976652e496e664173736574732e436f6d706f73697465537769746368496e666f, 0x43494d31352e49454336313936382e4173736574732e4173736574496e666f,
  [(0x6b696e64, e_CompositeSwitchKind), (0x7068617365436f6465, e_PhaseCode), (0x72656d6f7465, t_EBoolean), (0x7377697463685374617465436f756e74, t_EInt), (0x7261746564566f6c74616765, t_float), (0x67616e676564, t_EBoolean), (0x7068617365436f756e74, t_EInt), (0x696e69744f704d6f6465, t_EString), (0x696e74657272757074696e67526174696e67, t_float)],
  []⟩
/-- Class CIM15.IEC61970.Informative.InfAssets.ConductorAsset -/
def s_ConductorAsset : SClass := ⟨0x436f6e647563746f724173736574, 0x43494d31352e49454336313937302e496e666f726d61746976652e496e664173736574732e436f6e647563746f724173736574, 0x43494d31352e49454336313936382e4173736574732e4173736574,
  [(0x6973486f72697a6f6e74616c, t_EBoolean), (0x67726f756e64696e674d6574686f64, t_EString), (0x696e73756c61746564, t_EBoolean)],
  [⟨0x4369726375697453656374696f6e, 0x43494d31352e49454336313937302e496e666f726d61746976652e496e664f7065726174696f6e732e4369726375697453656374696f6e, false, 0x436f6e647563746f72417373657473⟩, ⟨0x436f6e647563746f725365676d656e74, 0x43494d31352e49454336313937302e57697265732e41434c696e655365676d656e74, false, 0x436f6e647563746f72417373657473⟩]⟩
/-- Class CIM15.IEC61970.Informative.InfAssets.CurrentTransformerInfo -/
def s_CurrentTransformerInfo : SClass := ⟨0x43757272656e745472616e73666f726d6572496e666f, 0x43494d31352e49454336313937302e496e666f726d61746976652e496e664173736574732e43757272656e745472616e73666f726d6572496e666f, 0x43494d31352e49454336313936382e4173736574732e4173736574496e666f,
  [(0x7465727469617279466c73526174696e67, t_float), (0x636f7265436f756e74, t_EInt), (0x7365636f6e64617279466c73526174696e67, t_float), (0x7573616765, t_EString), (0x6163637572616379436c617373, t_EString), (0x6374436c617373, t_EString), (0x6b6e6565506f696e74566f6c74616765, t_float), (0x636f726542757264656e, t_float), (0x61636375726163794c696d6974, t_float), (0x6b6e6565506f696e7443757272656e74, t_float), (0x7072696d617279466c73526174696e67, t_float)],
  [⟨0x6e6f6d696e616c526174696f, 0x43494d31352e49454336313937302e496e666f726d61746976652e496e66436f6d6d6f6e2e526174696f, false, 0⟩, ⟨0x7365636f6e64617279526174696f, 0x43494d31352e49454336313937302e496e666f726d61746976652e496e66436f6d6d6f6e2e526174696f, false, 0⟩, ⟨0x435473, 0x43494d31352e49454336313937302e417578696c6961727945717569706d656e742e43757272656e745472616e73666f726d6572, true, 0x4354496e666f⟩, ⟨0x7465727469617279526174696f, 0x43494d31352e49454336313937302e496e666f726d61746976652e496e66436f6d6d6f6e2e526174696f, false, 0⟩, ⟨0x6d6178526174696f, 0x43494d31352e49454336313937302e496e666f726d61746976652e496e66436f6d6d6f6e2e526174696f, false, 0⟩, ⟨0x7072696d617279526174696f, 0x43494d31352e49454336313937302e496e666f726d61746976652e496e66436f6d6d6f6e2e526174696f, false, 0⟩]⟩
/-- Class CIM15.IEC61970.Informative.InfAssets.DimensionsInfo -/
def s_DimensionsInfo : SClass := ⟨0x44696d656e73696f6e73496e666f, 0x43494d31352e49454336313937302e496e666f726d61746976652e496e664173736574732e44696d656e73696f6e73496e666f, 0x43494d31352e49454336313937302e436f72652e4964656e7469666965644f626a656374,
  [(0x73697a655769647468, t_float), (0x73697a654469616d65746572, t_float), (0x73697a654c656e677468, t_float), (0x6f7269656e746174696f6e, t_EString), (0x73697a654465707468, t_float)],
  [⟨0x4c6f636174696f6e73, 0x43494d31352e49454336313936382e436f6d6d6f6e2e4c6f636174696f6e, true, 0x44696d656e73696f6e73496e666f⟩, ⟨0x4173736574496e666f73, 0x43494d31352e49454336313936382e4173736574732e4173736574496e666f, true, 0x44696d656e73696f6e73496e666f⟩, ⟨0x53706563696669636174696f6e73, 0x43494d31352e49454336313937302e496e666f726d61746976652e496e664173736574732e53706563696669636174696f6e, true, 0x44696d656e73696f6e73496e666f73⟩]⟩
/-- Class CIM15.IEC61970.Informative.InfAssets.DocAssetRole -/
def s_DocAssetRole : SClass := ⟨0x446f634173736574526f6c65, 0x43494d31352e49454336313937302e496e666f726d61746976652e496e664173736574732e446f634173736574526f6c65, 0x43494d31352e49454336313937302e496e666f726d61746976652e496e66436f6d6d6f6e2e526f6c65,
  [],
  [⟨0x446f63756d656e74, 0x43494d31352e49454336313936382e436f6d6d6f6e2e446f63756d656e74, false, 0x4173736574526f6c6573⟩, ⟨0x4173736574, 0x43494d31352e49454336313936382e4173736574732e4173736574, false, 0x446f63756d656e74526f6c6573⟩]⟩
/-- Class CIM15.IEC61970.Informative.InfAssets.Duct -/
def s_Duct : SClass := ⟨0x44756374, 0x43494d31352e49454336313937302e496e666f726d61746976652e496e664173736574732e44756374, 0x43494d31352e49454336313936382e4173736574732e4173736574436f6e7461696e6572,
  [(0x78436f6f7264, t_EInt), (0x79436f6f7264, t_EInt)],
  [⟨0x4475637442616e6b496e666f, 0x43494d31352e49454336313937302e496e666f726d61746976652e496e664173736574732e4475637442616e6b, false, 0x44756374496e666f73⟩, ⟨0x4361626c65496e666f73, 0x43494d31352e49454336313936382e41737365744d6f64656c732e4361626c65496e666f, true, 0x4475637442616e6b496e666f⟩]⟩
/-- Class CIM15.IEC61970.Informative.InfAssets.DuctBank -/
def s_DuctBank : SClass := ⟨0x4475637442616e6b, 0x43494d31352e49454336313937302e496e666f726d61746976652e496e664173736574732e4475637442616e6b, 0x43494d31352e49454336313936382e4173736574732e4173736574436f6e7461696e6572,
  [(0x63697263756974436f756e74, t_EInt)],
  [⟨0x44756374496e666f73, 0x43494d31352e49454336313937302e496e666f726d61746976652e496e664173736574732e44756374, true, 0x4475637442616e6b496e666f⟩]⟩
/-- Class CIM15.IEC61970.Informative.InfAssets.ElectricalInfo -/
def s_ElectricalInfo : SClass := ⟨0x456c656374726963616c496e666f, 0x43494d31352e49454336313937302e496e666f726d61746976652e496e664173736574732e456c656374726963616c496e666f, 0x43494d31352e49454336313936382e4173736574732e4173736574496e666f,
  [(0x7068617365436f756e74, t_EInt), (0x72617465644170706172656e74506f776572, t_float), (0x7068617365436f6465, e_PhaseCode), (0x6672657175656e6379, t_float), (0x7230, t_float), (0x72, t_float), (0x62696c, t_float), (0x7830, t_float), (0x78, t_float), (0x726174656443757272656e74, t_float), (0x77697265436f756e74, t_EInt), (0x6230, t_float), (0x62, t_float), (0x7261746564566f6c74616765, t_float), (0x67, t_float), (0x6730, t_float), (0x6973436f6e6e6563746564, t_EBoolean)],
  []⟩
/-- Class CIM15.IEC61970.Informative.InfAssets.FACTSDevice -/
def s_FACTSDevice : SClass := ⟨0x4641435453446576696365, 0x43494d31352e49454336313937302e496e666f726d61746976652e496e664173736574732e4641435453446576696365, 0x43494d31352e49454336313936382e4173736574732e4173736574,
  [(0x6b696e64, e_FACTSDeviceKind)],
  []⟩
/-- Class CIM15.IEC61970.Informative.InfAssets.Facility -/
def s_Facility : SClass := ⟨0x466163696c697479, 0x43494d31352e49454336313937302e496e666f726d61746976652e496e664173736574732e466163696c697479, 0x43494d31352e49454336313936382e4173736574732e4173736574436f6e7461696e6572,
  [(0x6b696e64, t_EString)],
  []⟩
/-- Class CIM15.IEC61970.Informative.InfAssets.FailureEvent -/
def s_FailureEvent : SClass := ⟨0x4661696c7572654576656e74, 0x43494d31352e49454336313937302e496e666f726d61746976652e496e664173736574732e4661696c7572654576656e74, 0x43494d31352e49454336313936382e436f6d6d6f6e2e41637469766974795265636f7264,
  [(0x6661696c75726549736f6c6174696f6e4d6574686f64, e_FailureIsolationMethodKind), (0x636f72706f72617465436f6465, t_EString), (0x6661756c744c6f636174696e674d6574686f64, t_EString), (0x6c6f636174696f6e, t_EString)],
  []⟩
/-- Class CIM15.IEC61970.Informative.InfAssets.FaultIndicatorInfo -/
def s_FaultIndicatorInfo : SClass := ⟨0x4661756c74496e64696361746f72496e666f, 0x43494d31352e49454336313937302e496e666f726d61746976652e496e664173736574732e4661756c74496e64696361746f72496e666f, 0x43494d31352e49454336313936382e4173736574732e4173736574496e666f,
  [(0x72657365744b696e64, e_FaultIndicatorResetKind)],
  [⟨0x4661756c74496e64696361746f7273, 0x43494d31352e49454336313937302e417578696c6961727945717569706d656e742e4661756c74496e64696361746f72, true, 0x4661756c74496e64696361746f72496e666f⟩]⟩
/-- Class CIM15.IEC61970.Informative.InfAssets.FinancialInfo -/
def s_FinancialInfo : SClass := ⟨0x46696e616e6369616c496e666f, 0x43494d31352e49454336313937302e496e666f726d61746976652e496e664173736574732e46696e616e6369616c496e666f, 0x43494d31352e49454336313937302e436f72652e4964656e7469666965644f626a656374,
  [(0x77617272616e7479456e644461746554696d65, t_java_util_Date), (0x636f73744465736372697074696f6e, t_EString), (0x70757263686173654461746554696d65, t_java_util_Date), (0x6163636f756e74, t_EString), (0x66696e616e6369616c56616c7565, t_float), (0x70757263686173654f726465724e756d626572, t_EString), (0x706c616e745472616e736665724461746554696d65, t_java_util_Date), (0x7175616e74697479, t_java_math_BigInteger), (0x76616c75654461746554696d65, t_java_util_Date), (0x636f737454797065, t_EString), (0x61637475616c5075726368617365436f7374, t_float)],
  [⟨0x4173736574, 0x43494d31352e49454336313936382e4173736574732e4173736574, false, 0x46696e616e6369616c496e666f⟩]⟩
/-- Class CIM15.IEC61970.Informative.InfAssets.GenericAssetModelOrMaterial -/
def s_GenericAssetModelOrMaterial : SClass := ⟨0x47656e6572696341737365744d6f64656c4f724d6174657269616c, 0x43494d31352e49454336313937302e496e666f726d61746976652e496e664173736574732e47656e6572696341737365744d6f64656c4f724d6174657269616c, 0x43494d31352e49454336313936382e4173736574732e41737365744d6f64656c,
  [(0x657374696d61746564556e6974436f7374, t_float), (0x73746f636b4974656d, t_EBoolean), (0x7175616e74697479, t_java_lang_String)],
  [⟨0x4572705265714c696e654974656d73, 0x43494d31352e49454336313937302e496e666f726d61746976652e496e66455250537570706f72742e4572705265714c696e654974656d, true, 0x547970654173736574⟩, ⟨0x50726f6475637441737365744d6f64656c73, 0x43494d31352e49454336313936382e4173736574732e50726f6475637441737365744d6f64656c, true, 0x47656e6572696341737365744d6f64656c4f724d6174657269616c⟩, ⟨0x457270496e76656e746f7279497373756573, 0x43494d31352e49454336313937302e496e666f726d61746976652e496e66455250537570706f72742e4572704973737565496e76656e746f7279, true, 0x547970654173736574⟩, ⟨0x4355576f726b45717569706d656e744173736574, 0x43494d31352e49454336313937302e496e666f726d61746976652e496e66576f726b2e4355576f726b45717569706d656e744974656d, false, 0x547970654173736574⟩, ⟨0x547970654173736574436174616c6f677565, 0x43494d31352e49454336313937302e496e666f726d61746976652e496e665479706541737365742e547970654173736574436174616c6f677565, false, 0x54797065417373657473⟩, ⟨0x43554173736574, 0x43494d31352e49454336313937302e496e666f726d61746976652e496e66576f726b2e43554173736574, false, 0x547970654173736574⟩, ⟨0x457270426f6d4974656d4461746173, 0x43494d31352e49454336313937302e496e666f726d61746976652e496e66455250537570706f72742e457270426f6d4974656d44617461, true, 0x547970654173736574⟩]⟩
/-- Class CIM15.IEC61970.Informative.InfAssets.Joint -/
def s_Joint : SClass := ⟨0x4a6f696e74, 0x43494d31352e49454336313937302e496e666f726d61746976652e496e664173736574732e4a6f696e74, 0x43494d31352e49454336313936382e4173736574732e4173736574,
  [(0x696e73756c6174696f6e, t_EString), (0x66696c6c4b696e64, e_JointFillKind), (0x636f6e66696775726174696f6e4b696e64, e_JointConfigurationKind)],
  []⟩
/-- Class CIM15.IEC61970.Informative.InfAssets.Medium -/
def s_Medium : SClass := ⟨0x4d656469756d, 0x43494d31352e49454336313937302e496e666f726d61746976652e496e664173736574732e4d656469756d, 0x43494d31352e49454336313937302e436f72652e4964656e7469666965644f626a656374,
  [(0x6b696e64, e_MediumKind), (0x766f6c756d6553706563, t_float)],
  [⟨0x53706563696669636174696f6e, 0x43494d31352e49454336313937302e496e666f726d61746976652e496e664173736574732e53706563696669636174696f6e, false, 0x4d656469756d73⟩, ⟨0x417373657473, 0x43494d31352e49454336313936382e4173736574732e4173736574, true, 0x4d656469756d73⟩]⟩
/-- Class CIM15.IEC61970.Informative.InfAssets.MountingConnection -/
def s_MountingConnection : SClass := ⟨0x4d6f756e74696e67436f6e6e656374696f6e, 0x43494d31352e49454336313937302e496e666f726d61746976652e496e664173736574732e4d6f756e74696e67436f6e6e656374696f6e, 0x43494d31352e49454336313937302e436f72652e4964656e7469666965644f626a656374,
  [],
  [⟨0x537472756374757265496e666f73, 0x43494d31352e49454336313937302e496e666f726d61746976652e496e664173736574732e537472756374757265, true, 0x4d6f756e74696e67436f6e6e656374696f6e73⟩, ⟨0x4d6f756e74696e67506f696e7473, 0x43494d31352e49454336313937302e496e666f726d61746976652e496e664173736574732e4d6f756e74696e67506f696e74, true, 0x436f6e6e656374696f6e73⟩]⟩
/-- Class CIM15.IEC61970.Informative.InfAssets.MountingPoint -/
def s_MountingPoint : SClass := ⟨0x4d6f756e74696e67506f696e74, 0x43494d31352e49454336313937302e496e666f726d61746976652e496e664173736574732e4d6f756e74696e67506f696e74, 0x43494d31352e49454336313937302e436f72652e4964656e7469666965644f626a656374,
  [(0x78436f6f7264, t_EInt), (0x7068617365436f6465, e_PhaseCode), (0x79436f6f7264, t_EInt)],
  [⟨0x436f6e6e656374696f6e73, 0x43494d31352e49454336313937302e496e666f726d61746976652e496e664173736574732e4d6f756e74696e67436f6e6e656374696f6e, true, 0x4d6f756e74696e67506f696e7473⟩, ⟨0x4f76657268656164436f6e647563746f7273, 0x43494d31352e49454336313936382e41737365744d6f64656c732e4f76657268656164436f6e647563746f72496e666f, true, 0x4d6f756e74696e67506f696e74⟩]⟩
/-- Class CIM15.IEC61970.Informative.InfAssets.OrgAssetRole -/
def s_OrgAssetRole : SClass := ⟨0x4f72674173736574526f6c65, 0x43494d31352e49454336313937302e496e666f726d61746976652e496e664173736574732e4f72674173736574526f6c65, 0x43494d31352e49454336313937302e496e666f726d61746976652e496e66436f6d6d6f6e2e526f6c65,
  [(0x70657263656e744f776e657273686970, t_EFloat)],
  [⟨0x4572704f7267616e69736174696f6e, 0x43494d31352e49454336313937302e496e666f726d61746976652e496e66455250537570706f72742e4572704f7267616e69736174696f6e, false, 0x4173736574526f6c6573⟩, ⟨0x4173736574, 0x43494d31352e49454336313936382e4173736574732e4173736574, false, 0x4572704f7267616e69736174696f6e526f6c6573⟩]⟩
/-- Class CIM15.IEC61970.Informative.InfAssets.Pole -/
def s_Pole : SClass := ⟨0x506f6c65, 0x43494d31352e49454336313937302e496e666f726d61746976652e496e664173736574732e506f6c65, 0x43494d31352e49454336313937302e496e666f726d61746976652e496e664173736574732e537472756374757265,
  [(0x627265617374426c6f636b, t_EBoolean), (0x6469616d65746572, t_float), (0x626173654b696e64, e_PoleBaseKind), (0x6a70615265666572656e6365, t_EString), (0x74726561746d656e744b696e64, e_PoleTreatmentKind), (0x7072657365727661746976654b696e64, e_PolePreservativeKind), (0x6c656e677468, t_float), (0x636f6e737472756374696f6e, t_EString), (0x7370656369657354797065, t_EString), (0x636c617373696669636174696f6e, t_EString), (0x747265617465644461746554696d65, t_java_util_Date)],
  [⟨0x5374726565746c6967687473, 0x43494d31352e49454336313937302e496e666f726d61746976652e496e664173736574732e5374726565746c69676874, true, 0x506f6c65⟩]⟩
/-- Class CIM15.IEC61970.Informative.InfAssets.PotentialTransformerInfo -/
def s_PotentialTransformerInfo : SClass := ⟨0x506f74656e7469616c5472616e73666f726d6572496e666f, 0x43494d31352e49454336313937302e496e666f726d61746976652e496e664173736574732e506f74656e7469616c5472616e73666f726d6572496e666f, 0x43494d31352e49454336313936382e4173736574732e4173736574496e666f,
  [(0x7074436c617373, t_EString), (0x6163637572616379436c617373, t_EString)],
  [⟨0x6e6f6d696e616c526174696f, 0x43494d31352e49454336313937302e496e666f726d61746976652e496e66436f6d6d6f6e2e526174696f, false, 0⟩, ⟨0x7072696d617279526174696f, 0x43494d31352e49454336313937302e496e666f726d61746976652e496e66436f6d6d6f6e2e526174696f, false, 0⟩, ⟨0x7465727469617279526174696f, 0x43494d31352e49454336313937302e496e666f726d61746976652e496e66436f6d6d6f6e2e526174696f, false, 0⟩, ⟨0x505473, 0x43494d31352e49454336313937302e417578696c6961727945717569706d656e742e506f74656e7469616c5472616e73666f726d6572, true, 0x5054496e666f⟩, ⟨0x7365636f6e64617279526174696f, 0x43494d31352e49454336313937302e496e666f726d61746976652e496e66436f6d6d6f6e2e526174696f, false, 0⟩]⟩
/-- Class CIM15.IEC61970.Informative.InfAssets.PowerRating -/
def s_PowerRating : SClass := ⟨0x506f776572526174696e67, 0x43494d31352e49454336313937302e496e666f726d61746976652e496e664173736574732e506f776572526174696e67, 0x43494d31352e49454336313937302e436f72652e4964656e7469666965644f626a656374,
  [(0x7374616765, t_EInt), (0x706f776572526174696e67, t_float), (0x636f6f6c696e674b696e64, e_CoolingKind)],
  [⟨0x5472616e73666f726d6572417373657473, 0x43494d31352e49454336313937302e496e666f726d61746976652e496e664173736574732e5472616e73666f726d65724173736574, true, 0x506f776572526174696e6773⟩]⟩
/-- Class CIM15.IEC61970.Informative.InfAssets.Procedure -/
def s_Procedure : SClass := ⟨0x50726f636564757265, 0x43494d31352e49454336313937302e496e666f726d61746976652e496e664173736574732e50726f636564757265, 0x43494d31352e49454336313936382e436f6d6d6f6e2e446f63756d656e74,
  [(0x636f72706f72617465436f6465, t_EString), (0x73657175656e63654e756d626572, t_EString), (0x6b696e64, e_ProcedureKind), (0x696e737472756374696f6e, t_EString)],
  [⟨0x50726f63656475726556616c756573, 0x43494d31352e49454336313936382e436f6d6d6f6e2e55736572417474726962757465, true, 0x50726f636564757265⟩, ⟨0x50726f6365647572654461746153657473, 0x43494d31352e49454336313937302e496e666f726d61746976652e496e664173736574732e50726f63656475726544617461536574, true, 0x50726f636564757265⟩, ⟨0x436f6d70617469626c65556e697473, 0x43494d31352e49454336313937302e496e666f726d61746976652e496e66576f726b2e436f6d70617469626c65556e6974, true, 0x50726f63656475726573⟩, ⟨0x4c696d697473, 0x43494d31352e49454336313937302e4d6561732e4c696d6974, true, 0x50726f63656475726573⟩]⟩
/-- Class CIM15.IEC61970.Informative.InfAssets.ProcedureDataSet -/
def s_ProcedureDataSet : SClass := ⟨0x50726f63656475726544617461536574, 0x43494d31352e49454336313937302e496e666f726d61746976652e496e664173736574732e50726f63656475726544617461536574, 0x43494d31352e49454336313936382e436f6d6d6f6e2e446f63756d656e74,
  [(0x636f6d706c657465644461746554696d65, t_java_util_Date)],
  [⟨0x50726f70657274696573, 0x43494d31352e49454336313936382e436f6d6d6f6e2e55736572417474726962757465, true, 0x50726f6365647572654461746153657473⟩, ⟨0x5472616e73666f726d65724f62736572766174696f6e73, 0x43494d31352e49454336313937302e496e666f726d61746976652e496e664173736574732e5472616e73666f726d65724f62736572766174696f6e, true, 0x50726f6365647572654461746153657473⟩, ⟨0x50726f636564757265, 0x43494d31352e49454336313937302e496e666f726d61746976652e496e664173736574732e50726f636564757265, false, 0x50726f6365647572654461746153657473⟩, ⟨0x4d6561737572656d656e7456616c756573, 0x43494d31352e49454336313937302e4d6561732e4d6561737572656d656e7456616c7565, true, 0x50726f6365647572654461746153657473⟩]⟩
/-- Class CIM15.IEC61970.Informative.InfAssets.ProtectionEquipmentInfo -/
def s_ProtectionEquipmentInfo : SClass := ⟨0x50726f74656374696f6e45717569706d656e74496e666f, 0x43494d31352e49454336313937302e496e666f726d61746976652e496e664173736574732e50726f74656374696f6e45717569706d656e74496e666f, 0x43494d31352e49454336313936382e4173736574732e4173736574496e666f,
  [(0x67726f756e6454726970, t_float), (0x706861736554726970, t_float)],
  []⟩
/-- Class CIM15.IEC61970.Informative.InfAssets.RecloserInfo -/
def s_RecloserInfo : SClass := ⟨0x5265636c6f736572496e666f, 0x43494d31352e49454336313937302e496e666f726d61746976652e496e664173736574732e5265636c6f736572496e666f, 0x43494d31352e49454336313937302e496e666f726d61746976652e496e664173736574732e537769746368496e666f,
  [(0x67726f756e64547269704e6f726d616c456e61626c6564, t_EBoolean), (0x67726f756e645472697043617061626c65, t_EBoolean), (0x7265636c6f73654c6f636b6f7574436f756e74, t_EInt), (0x706861736554726970526174696e67, t_float), (0x67726f756e6454726970526174696e67, t_float)],
  []⟩
/-- Class CIM15.IEC61970.Informative.InfAssets.ReliabilityInfo -/
def s_ReliabilityInfo : SClass := ⟨0x52656c696162696c697479496e666f, 0x43494d31352e49454336313937302e496e666f726d61746976652e496e664173736574732e52656c696162696c697479496e666f, 0x43494d31352e49454336313937302e436f72652e4964656e7469666965644f626a656374,
  [(0x6d6f6d4661696c75726552617465, t_float), (0x6d545452, t_float)],
  [⟨0x53706563696669636174696f6e, 0x43494d31352e49454336313937302e496e666f726d61746976652e496e664173736574732e53706563696669636174696f6e, false, 0x52656c696162696c697479496e666f73⟩, ⟨0x417373657473, 0x43494d31352e49454336313936382e4173736574732e4173736574, true, 0x52656c696162696c697479496e666f73⟩]⟩
/-- Class CIM15.IEC61970.Informative.InfAssets.SVC -/
def s_SVC : SClass := ⟨0x535643, 0x43494d31352e49454336313937302e496e666f726d61746976652e496e664173736574732e535643, 0x43494d31352e49454336313937302e496e666f726d61746976652e496e664173736574732e4641435453446576696365,
  [(0x696e64756374697665526174696e67, t_float), (0x63617061636974697665526174696e67, t_float)],
  []⟩
/-- Class CIM15.IEC61970.Informative.InfAssets.ShuntCompensatorInfo -/
def s_ShuntCompensatorInfo : SClass := ⟨0x5368756e74436f6d70656e7361746f72496e666f, 0x43494d31352e49454336313937302e496e666f726d61746976652e496e664173736574732e5368756e74436f6d70656e7361746f72496e666f, 0x43494d31352e49454336313936382e4173736574732e4173736574496e666f,
  [(0x6d6178506f7765724c6f7373, t_float)],
  [⟨0x5368756e74496d706564616e6365496e666f, 0x43494d31352e49454336313937302e496e666f726d61746976652e496e664173736574732e5368756e74496d706564616e6365496e666f, false, 0x5368756e74436f6d70656e7361746f72496e666f73⟩]⟩
/-- Class CIM15.IEC61970.Informative.InfAssets.ShuntImpedanceInfo -/
def s_ShuntImpedanceInfo : SClass := ⟨0x5368756e74496d706564616e6365496e666f, 0x43494d31352e49454336313937302e496e666f726d61746976652e496e664173736574732e5368756e74496d706564616e6365496e666f, 0x43494d31352e49454336313936382e4173736574732e4173736574496e666f,
  [(0x6d61785377697463684f7065726174696f6e436f756e74, t_EInt), (0x6c6f63616c436f6e74726f6c4b696e64, e_ShuntImpedanceLocalControlKind), (0x7377697463684f7065726174696f6e4379636c65, t_float), (0x765265674c696e654c696e65, t_EBoolean), (0x68696768566f6c746167654f76657272696465, t_float), (0x6c6f77566f6c746167654f76657272696465, t_float), (0x7265674272616e6368, t_EString), (0x63656c6c53697a65, t_float), (0x6c6f63616c4f6e4c6576656c, t_EString), (0x7265674272616e63684b696e64, e_RegulationBranchKind), (0x6e6f726d616c4f70656e, t_EBoolean), (0x636f6e74726f6c4b696e64, e_ShuntImpedanceControlKind), (0x7265674272616e6368456e64, t_EInt), (0x6272616e6368446972656374, t_EInt), (0x6c6f63616c4f66664c6576656c, t_EString), (0x73656e73696e675068617365436f6465, e_PhaseCode), (0x6c6f63616c4f76657272696465, t_EBoolean)],
  [⟨0x5368756e74436f6d70656e7361746f72496e666f73, 0x43494d31352e49454336313937302e496e666f726d61746976652e496e664173736574732e5368756e74436f6d70656e7361746f72496e666f, true, 0x5368756e74496d706564616e6365496e666f⟩]⟩
/-- Class CIM15.IEC61970.Informative.InfAssets.Specification -/
def s_Specification : SClass := ⟨0x53706563696669636174696f6e, 0x43494d31352e49454336313937302e496e666f726d61746976652e496e664173736574732e53706563696669636174696f6e, 0x43494d31352e49454336313936382e436f6d6d6f6e2e446f63756d656e74,
  [],
  [⟨0x417373657450726f7065727479437572766573, 0x43494d31352e49454336313937302e496e666f726d61746976652e496e664173736574732e417373657450726f70657274794375727665, true, 0x53706563696669636174696f6e⟩, ⟨0x4d656469756d73, 0x43494d31352e49454336313937302e496e666f726d61746976652e496e664173736574732e4d656469756d, true, 0x53706563696669636174696f6e⟩, ⟨0x417373657450726f70657269746573, 0x43494d31352e49454336313936382e436f6d6d6f6e2e55736572417474726962757465, true, 0x50726f706572747953706563696669636174696f6e⟩, ⟨0x52656c696162696c697479496e666f73, 0x43494d31352e49454336313937302e496e666f726d61746976652e496e664173736574732e52656c696162696c697479496e666f, true, 0x53706563696669636174696f6e⟩, ⟨0x44696d656e73696f6e73496e666f73, 0x43494d31352e49454336313937302e496e666f726d61746976652e496e664173736574732e44696d656e73696f6e73496e666f, true, 0x53706563696669636174696f6e73⟩, ⟨0x526174696e6773, 0x43494d31352e49454336313936382e436f6d6d6f6e2e55736572417474726962757465, true, 0x526174696e6753706563696669636174696f6e⟩, ⟨0x5175616c696669636174696f6e526571756972656d656e7473, 0x43494d31352e49454336313937302e496e666f726d61746976652e496e66576f726b2e5175616c696669636174696f6e526571756972656d656e74, true, 0x53706563696669636174696f6e73⟩]⟩
/-- Class CIM15.IEC61970.Informative.InfAssets.Streetlight -/
def s_Streetlight : SClass := ⟨0x5374726565746c69676874, 0x43494d31352e49454336313937302e496e666f726d61746976652e496e664173736574732e5374726565746c69676874, 0x43494d31352e49454336313936382e4173736574732e4173736574,
  [(0x61726d4c656e677468, t_float), (0x6c616d704b696e64, e_StreetlightLampKind), (0x6c69676874526174696e67, t_float)],
  [⟨0x506f6c65, 0x43494d31352e49454336313937302e496e666f726d61746976652e496e664173736574732e506f6c65, false, 0x5374726565746c6967687473⟩]⟩
/-- Class CIM15.IEC61970.Informative.InfAssets.Structure -/
def s_Structure : SClass := ⟨0x537472756374757265, 0x43494d31352e49454336313937302e496e666f726d61746976652e496e664173736574732e537472756374757265, 0x43494d31352e49454336313936382e4173736574732e4173736574436f6e7461696e6572,
  [(0x7261746564566f6c74616765, t_float), (0x66756d6967616e744170706c69656444617465, t_java_lang_String), (0x7765656452656d6f76656444617465, t_java_lang_String), (0x72656d6f766557656564, t_EBoolean), (0x686569676874, t_float), (0x66756d6967616e744e616d65, t_EString), (0x6d6174657269616c4b696e64, e_StructureMaterialKind)],
  [⟨0x537472756374757265537570706f7274496e666f73, 0x43494d31352e49454336313937302e496e666f726d61746976652e496e664173736574732e537472756374757265537570706f7274, true, 0x53656375726564537472756374757265⟩, ⟨0x4d6f756e74696e67436f6e6e656374696f6e73, 0x43494d31352e49454336313937302e496e666f726d61746976652e496e664173736574732e4d6f756e74696e67436f6e6e656374696f6e, true, 0x537472756374757265496e666f73⟩]⟩
/-- Class CIM15.IEC61970.Informative.InfAssets.StructureSupport -/
def s_StructureSupport : SClass := ⟨0x537472756374757265537570706f7274, 0x43494d31352e49454336313937302e496e666f726d61746976652e496e664173736574732e537472756374757265537570706f7274, 0x43494d31352e49454336313936382e4173736574732e4173736574,
  [(0x616e63686f72526f64436f756e74, t_EInt), (0x6c656e677468, t_float), (0x616e63686f72526f644c656e677468, t_float), (0x646972656374696f6e, t_float), (0x616e63686f724b696e64, e_AnchorKind), (0x6b696e64, e_StructureSupportKind), (0x73697a65, t_EString)],
  [⟨0x53656375726564537472756374757265, 0x43494d31352e49454336313937302e496e666f726d61746976652e496e664173736574732e537472756374757265, false, 0x537472756374757265537570706f7274496e666f73⟩]⟩
/-- Class CIM15.IEC61970.Informative.InfAssets.SubstationAsset -/
def s_SubstationAsset : SClass := ⟨0x53756273746174696f6e4173736574, 0x43494d31352e49454336313937302e496e666f726d61746976652e496e664173736574732e53756273746174696f6e4173736574, 0x43494d31352e49454336313936382e4173736574732e4173736574,
  [(0x66756e6374696f6e, e_SubstationFunctionKind)],
  []⟩
/-- Class CIM15.IEC61970.Informative.InfAssets.SurgeProtectorInfo -/
def s_SurgeProtectorInfo : SClass := ⟨0x537572676550726f746563746f72496e666f, 0x43494d31352e49454336313937302e496e666f726d61746976652e496e664173736574732e537572676550726f746563746f72496e666f, 0x43494d31352e49454336313936382e4173736574732e4173736574496e666f,
  [(0x6d617843757272656e74526174696e67, t_float), (0x6d6178436f6e74696e6f75734f7065726174696e67566f6c74616765, t_float), (0x6e6f6d696e616c44657369676e566f6c74616765, t_float), (0x6d6178456e657267794162736f727074696f6e, t_EFloat)],
  [⟨0x537572676550726f746563746f7273, 0x43494d31352e49454336313937302e417578696c6961727945717569706d656e742e537572676550726f746563746f72, true, 0x537572676550726f746563746f72496e666f⟩]⟩
/-- Class CIM15.IEC61970.Informative.InfAssets.SwitchInfo -/
def s_SwitchInfo : SClass := ⟨0x537769746368496e666f, 0x43494d31352e49454336313937302e496e666f726d61746976652e496e664173736574732e537769746368496e666f, 0x43494d31352e49454336313936382e4173736574732e4173736574496e666f,
  [(0x6469656c656374726963537472656e677468, t_float), (0x67616e67, t_EBoolean), (0x6d616b696e674361706163697479, t_float), (0x776974687374616e6443757272656e74, t_float), (0x6c6f6164427265616b, t_EBoolean), (0x6d696e696d756d43757272656e74, t_float), (0x696e74657272757074696e67526174696e67, t_float), (0x72656d6f7465, t_EBoolean), (0x706f6c65436f756e74, t_EInt)],
  []⟩
/-- Class CIM15.IEC61970.Informative.InfAssets.TestDataSet -/
def s_TestDataSet : SClass := ⟨0x5465737444617461536574, 0x43494d31352e49454336313937302e496e666f726d61746976652e496e664173736574732e5465737444617461536574, 0x43494d31352e49454336313937302e496e666f726d61746976652e496e664173736574732e50726f63656475726544617461536574,
  [(0x73706563696d656e546f4c61624461746554696d65, t_java_util_Date), (0x636f6e636c7573696f6e, t_EString), (0x73706563696d656e4944, t_EString)],
  []⟩
/-- Class CIM15.IEC61970.Informative.InfAssets.Tool -/
def s_Tool : SClass := ⟨0x546f6f6c, 0x43494d31352e49454336313937302e496e666f726d61746976652e496e664173736574732e546f6f6c, 0x43494d31352e49454336313936382e4173736574732e4173736574,
  [(0x6c61737443616c6962726174696f6e44617465, t_java_lang_String)],
  [⟨0x43726577, 0x43494d31352e49454336313937302e496e666f726d61746976652e496e66576f726b2e43726577, false, 0x546f6f6c73⟩]⟩
/-- Class CIM15.IEC61970.Informative.InfAssets.Tower -/
def s_Tower : SClass := ⟨0x546f776572, 0x43494d31352e49454336313937302e496e666f726d61746976652e496e664173736574732e546f776572, 0x43494d31352e49454336313937302e496e666f726d61746976652e496e664173736574732e537472756374757265,
  [(0x636f6e737472756374696f6e4b696e64, e_TowerConstructionKind)],
  []⟩
/-- Class CIM15.IEC61970.Informative.InfAssets.TransformerAsset -/
def s_TransformerAsset : SClass := ⟨0x5472616e73666f726d65724173736574, 0x43494d31352e49454336313937302e496e666f726d61746976652e496e664173736574732e5472616e73666f726d65724173736574, 0x43494d31352e49454336313936382e4173736574732e4173736574,
  [(0x7265636f6e646974696f6e65644461746554696d65, t_java_util_Date)],
  [⟨0x506f776572526174696e6773, 0x43494d31352e49454336313937302e496e666f726d61746976652e496e664173736574732e506f776572526174696e67, true, 0x5472616e73666f726d6572417373657473⟩, ⟨0x5472616e73666f726d65724f62736572766174696f6e73, 0x43494d31352e49454336313937302e496e666f726d61746976652e496e664173736574732e5472616e73666f726d65724f62736572766174696f6e, true, 0x5472616e73666f726d65724173736574⟩, ⟨0x5472616e73666f726d6572496e666f, 0x43494d31352e49454336313936382e41737365744d6f64656c732e5472616e73666f726d657254616e6b496e666f, false, 0x5472616e73666f726d6572417373657473⟩, ⟨0x5472616e73666f726d657241737365744d6f64656c, 0x43494d31352e49454336313937302e496e666f726d61746976652e496e6641737365744d6f64656c732e5472616e73666f726d657241737365744d6f64656c, false, 0x5472616e73666f726d6572417373657473⟩]⟩
/-- Class CIM15.IEC61970.Informative.InfAssets.TransformerObservation -/
def s_TransformerObservation : SClass := ⟨0x5472616e73666f726d65724f62736572766174696f6e, 0x43494d31352e49454336313937302e496e666f726d61746976652e496e664173736574732e5472616e73666f726d65724f62736572766174696f6e, 0x43494d31352e49454336313937302e436f72652e4964656e7469666965644f626a656374,
  [(0x6f696c4e65757472616c697a6174696f6e4e756d626572, t_EString), (0x7761746572436f6e74656e74, t_EString), (0x6f696c4c6576656c, t_EString), (0x6672657152657370, t_EString), (0x6f696c4469656c656374726963537472656e677468, t_float), (0x6f696c436f6c6f72, t_EString), (0x686f7453706f7454656d70, t_float), (0x646761, t_EString), (0x667572667572616c4450, t_EString), (0x6f696c494654, t_EString), (0x62757368696e6754656d70, t_float), (0x746f704f696c54656d70, t_float), (0x70756d70566962726174696f6e, t_EString)],
  [⟨0x42757368696e67496e73756c746174696f6e504673, 0x43494d31352e49454336313937302e496e666f726d61746976652e496e664173736574732e42757368696e67496e73756c6174696f6e5046, true, 0x5472616e73666f726d65724f62736572766174696f6e⟩, ⟨0x50726f6365647572654461746153657473, 0x43494d31352e49454336313937302e496e666f726d61746976652e496e664173736574732e50726f63656475726544617461536574, true, 0x5472616e73666f726d65724f62736572766174696f6e73⟩, ⟨0x5472616e73666f726d6572, 0x43494d31352e49454336313937302e57697265732e5472616e73666f726d657254616e6b, false, 0x5472616e73666f726d65724f62736572766174696f6e73⟩, ⟨0x737461747573, 0x43494d31352e49454336313936382e436f6d6d6f6e2e537461747573, false, 0⟩, ⟨0x57696e64696e67496e73756c6174696f6e504673, 0x43494d31352e49454336313937302e496e666f726d61746976652e496e664173736574732e57696e64696e67496e73756c6174696f6e, true, 0x5472616e73666f726d65724f62736572766174696f6e⟩, ⟨0x5472616e73666f726d65724173736574, 0x43494d31352e49454336313937302e496e666f726d61746976652e496e664173736574732e5472616e73666f726d65724173736574, false, 0x5472616e73666f726d65724f62736572766174696f6e73⟩]⟩
/-- Class CIM15.IEC61970.Informative.InfAssets.UndergroundStructure -/
def s_UndergroundStructure : SClass := ⟨0x556e64657267726f756e64537472756374757265, 0x43494d31352e49454336313937302e496e666f726d61746976652e496e664173736574732e556e64657267726f756e64537472756374757265, 0x43494d31352e49454336313937302e496e666f726d61746976652e496e664173736574732e537472756374757265,
  [(0x68617356656e74696c6174696f6e, t_EBoolean), (0x6b696e64, e_UndergroundStructureKind), (0x6d6174657269616c, t_EString), (0x7365616c696e6757617272616e74794578706972657344617465, t_java_lang_String)],
  []⟩
/-- Class CIM15.IEC61970.Informative.InfAssets.Vehicle -/
def s_Vehicle : SClass := ⟨0x56656869636c65, 0x43494d31352e49454336313937302e496e666f726d61746976652e496e664173736574732e56656869636c65, 0x43494d31352e49454336313936382e4173736574732e4173736574,
  [(0x6f646f6d6574657252656164696e67, t_float), (0x6f646f6d65746572526561644461746554696d65, t_java_util_Date), (0x75736167654b696e64, e_VehicleUsageKind)],
  [⟨0x43726577, 0x43494d31352e49454336313937302e496e666f726d61746976652e496e66576f726b2e43726577, false, 0x56656869636c6573⟩]⟩
/-- Class CIM15.IEC61970.Informative.InfAssets.WindingInsulation -/
def s_WindingInsulation : SClass := ⟨0x57696e64696e67496e73756c6174696f6e, 0x43494d31352e49454336313937302e496e666f726d61746976652e496e664173736574732e57696e64696e67496e73756c6174696f6e, 0x43494d31352e49454336313937302e436f72652e4964656e7469666965644f626a656374,
  [(0x696e73756c6174696f6e5046537461747573, t_EString), (0x696e73756c6174696f6e526573697374616e6365, t_EString), (0x6c65616b6167655265616374616e6365, t_float)],
  [⟨0x47726f756e64, 0x43494d31352e49454336313937302e57697265732e47726f756e64, false, 0x57696e64696e67496e73756c6174696f6e73⟩, ⟨0x5472616e73666f726d65724f62736572766174696f6e, 0x43494d31352e49454336313937302e496e666f726d61746976652e496e664173736574732e5472616e73666f726d65724f62736572766174696f6e, false, 0x57696e64696e67496e73756c6174696f6e504673⟩, ⟨0x546f57696e64696e67, 0x43494d31352e49454336313937302e57697265732e5472616e73666f726d6572456e64, false, 0x546f57696e64696e67496e73756c6174696f6e73⟩, ⟨0x46726f6d57696e64696e67, 0x43494d31352e49454336313937302e57697265732e5472616e73666f726d6572456e64, false, 0x46726f6d57696e64696e67496e73756c6174696f6e73⟩, ⟨0x737461747573, 0x43494d31352e49454336313936382e436f6d6d6f6e2e537461747573, false, 0⟩]⟩
/-- Class CIM15.IEC61970.Informative.InfAssets.WorkEquipment -/
def s_WorkEquipment : SClass := ⟨0x576f726b45717569706d656e74, 0x43494d31352e49454336313937302e496e666f726d61746976652e496e664173736574732e576f726b45717569706d656e74, 0x43494d31352e49454336313936382e4173736574732e4173736574,
  [],
  [⟨0x43726577, 0x43494d31352e49454336313937302e496e666f726d61746976652e496e66576f726b2e43726577, false, 0x576f726b45717569706d656e74417373657473⟩, ⟨0x557361676573, 0x43494d31352e49454336313937302e496e666f726d61746976652e496e66576f726b2e5573616765, true, 0x576f726b45717569706d656e744173736574⟩]⟩
/-- Class CIM15.IEC61970.Informative.InfCommon.Bank -/
def s_Bank : SClass := ⟨0x42616e6b, 0x43494d31352e49454336313937302e496e666f726d61746976652e496e66436f6d6d6f6e2e42616e6b, 0x43494d31352e49454336313936382e436f6d6d6f6e2e4f7267616e69736174696f6e,
  [(0x626963, t_EString), (0x6962616e, t_EString), (0x6272616e6368436f6465, t_EString)],
  [⟨0x42616e6b4163636f756e7473, 0x43494d31352e49454336313937302e496e666f726d61746976652e496e66436f6d6d6f6e2e42616e6b4163636f756e74, true, 0x42616e6b⟩]⟩
/-- Class CIM15.IEC61970.Informative.InfCommon.BankAccount -/
def s_BankAccount : SClass := ⟨0x42616e6b4163636f756e74, 0x43494d31352e49454336313937302e496e666f726d61746976652e496e66436f6d6d6f6e2e42616e6b4163636f756e74, 0x43494d31352e49454336313936382e436f6d6d6f6e2e446f63756d656e74,
  [(0x6163636f756e744e756d626572, t_EString)],
  [⟨0x53657276696365537570706c696572, 0x43494d31352e49454336313936382e5061796d656e744d65746572696e672e53657276696365537570706c696572, false, 0x42616e6b4163636f756e7473⟩, ⟨0x42616e6b, 0x43494d31352e49454336313937302e496e666f726d61746976652e496e66436f6d6d6f6e2e42616e6b, false, 0x42616e6b4163636f756e7473⟩]⟩
/-- Class CIM15.IEC61970.Informative.InfCommon.BusinessPlan -/
def s_BusinessPlan : SClass := ⟨0x427573696e657373506c616e, 0x43494d31352e49454336313937302e496e666f726d61746976652e496e66436f6d6d6f6e2e427573696e657373506c616e, 0x43494d31352e49454336313936382e436f6d6d6f6e2e446f63756d656e74,
  [],
  []⟩
/-- Class CIM15.IEC61970.Informative.InfCommon.BusinessRole -/
def s_BusinessRole : SClass := ⟨0x427573696e657373526f6c65, 0x43494d31352e49454336313937302e496e666f726d61746976652e496e66436f6d6d6f6e2e427573696e657373526f6c65, 0x43494d31352e49454336313937302e436f72652e4964656e7469666965644f626a656374,
  [(0x63617465676f7279, t_EString)],
  [⟨0x4f7267616e69736174696f6e73, 0x43494d31352e49454336313936382e436f6d6d6f6e2e4f7267616e69736174696f6e, true, 0x427573696e657373526f6c6573⟩, ⟨0x737461747573, 0x43494d31352e49454336313936382e436f6d6d6f6e2e537461747573, false, 0⟩]⟩
/-- Class CIM15.IEC61970.Informative.InfCommon.Craft -/
def s_Craft : SClass := ⟨0x4372616674, 0x43494d31352e49454336313937302e496e666f726d61746976652e496e66436f6d6d6f6e2e4372616674, 0x43494d31352e49454336313937302e436f72652e4964656e7469666965644f626a656374,
  [(0x63617465676f7279, t_EString)],
  [⟨0x536b696c6c73, 0x43494d31352e49454336313937302e496e666f726d61746976652e496e66436f6d6d6f6e2e536b696c6c, true, 0x437261667473⟩, ⟨0x457270506572736f6e73, 0x43494d31352e49454336313937302e496e666f726d61746976652e496e66455250537570706f72742e457270506572736f6e, true, 0x437261667473⟩, ⟨0x737461747573, 0x43494d31352e49454336313936382e436f6d6d6f6e2e537461747573, false, 0⟩, ⟨0x4361706162696c6974696573, 0x43494d31352e49454336313937302e496e666f726d61746976652e496e66576f726b2e4361706162696c697479, true, 0x437261667473⟩]⟩
/-- Class CIM15.IEC61970.Informative.InfCommon.DocDocRole -/
def s_DocDocRole : SClass := ⟨0x446f63446f63526f6c65, 0x43494d31352e49454336313937302e496e666f726d61746976652e496e66436f6d6d6f6e2e446f63446f63526f6c65, 0x43494d31352e49454336313937302e496e666f726d61746976652e496e66436f6d6d6f6e2e526f6c65,
  [],
  [⟨0x546f446f63756d656e74, 0x43494d31352e49454336313936382e436f6d6d6f6e2e446f63756d656e74, false, 0x46726f6d446f63756d656e74526f6c6573⟩, ⟨0x46726f6d446f63756d656e74, 0x43494d31352e49454336313936382e436f6d6d6f6e2e446f63756d656e74, false, 0x546f446f63756d656e74526f6c6573⟩]⟩
/-- Class CIM15.IEC61970.Informative.InfCommon.DocPsrRole -/
def s_DocPsrRole : SClass := ⟨0x446f63507372526f6c65, 0x43494d31352e49454336313937302e496e666f726d61746976652e496e66436f6d6d6f6e2e446f63507372526f6c65, 0x43494d31352e49454336313937302e496e666f726d61746976652e496e66436f6d6d6f6e2e526f6c65,
  [],
  [⟨0x446f63756d656e74, 0x43494d31352e49454336313936382e436f6d6d6f6e2e446f63756d656e74, false, 0x506f77657253797374656d5265736f75726365526f6c6573⟩, ⟨0x506f77657253797374656d5265736f75726365, 0x43494d31352e49454336313937302e436f72652e506f77657253797374656d5265736f75726365, false, 0x446f63756d656e74526f6c6573⟩]⟩
/-- Class CIM15.IEC61970.Informative.InfCommon.Ratio -/
def s_Ratio : SClass := ⟨0x526174696f, 0x43494d31352e49454336313937302e496e666f726d61746976652e496e66436f6d6d6f6e2e526174696f, 0,
  [(0x6e756d657261746f72, t_EFloat), (0x64656e6f6d696e61746f72, t_EFloat)],
  []⟩
/-- Class CIM15.IEC61970.Informative.InfCommon.Role -/
def s_Role : SClass := ⟨0x526f6c65, 0x43494d31352e49454336313937302e496e666f726d61746976652e496e66436f6d6d6f6e2e526f6c65, 0x43494d31352e49454336313937302e436f72652e4964656e7469666965644f626a656374,
  [(0x63617465676f7279, t_EString)],
  [⟨0x737461747573, 0x43494d31352e49454336313936382e436f6d6d6f6e2e537461747573, false, 0⟩]⟩
/-- Class CIM15.IEC61970.Informative.InfCommon.ScheduleParameterInfo -/
def s_ScheduleParameterInfo : SClass := ⟨0x5363686564756c65506172616d65746572496e666f, 0x43494d31352e49454336313937302e496e666f726d61746976652e496e66436f6d6d6f6e2e5363686564756c65506172616d65746572496e666f, 0x43494d31352e49454336313937302e436f72652e4964656e7469666965644f626a656374,
  [],
  [⟨0x466f72496e7370656374696f6e44617461536574, 0x43494d31352e49454336313937302e496e666f726d61746976652e496e66576f726b2e496e7370656374696f6e44617461536574, false, 0x4163636f7264696e67546f5363686564756c6573⟩, ⟨0x72657175657374656457696e646f77, 0x43494d31352e49454336313937302e446f6d61696e2e4461746554696d65496e74657276616c, false, 0⟩, ⟨0x446f63756d656e7473, 0x43494d31352e49454336313936382e436f6d6d6f6e2e446f63756d656e74, true, 0x5363686564756c65506172616d65746572496e666f73⟩, ⟨0x657374696d6174656457696e646f77, 0x43494d31352e49454336313937302e446f6d61696e2e4461746554696d65496e74657276616c, false, 0⟩, ⟨0x5363686564756c65644576656e7473, 0x43494d31352e49454336313937302e496e666f726d61746976652e496e66436f6d6d6f6e2e5363686564756c65644576656e74, true, 0x5363686564756c65506172616d65746572496e666f⟩, ⟨0x737461747573, 0x43494d31352e49454336313936382e436f6d6d6f6e2e537461747573, false, 0⟩]⟩
/-- Class CIM15.IEC61970.Informative.InfCommon.ScheduledEvent -/
def s_ScheduledEvent : SClass := ⟨0x5363686564756c65644576656e74, 0x43494d31352e49454336313937302e496e666f726d61746976652e496e66436f6d6d6f6e2e5363686564756c65644576656e74, 0x43494d31352e49454336313937302e436f72652e4964656e7469666965644f626a656374,
  [(0x6475726174696f6e, t_float), (0x63617465676f7279, t_EString)],
  [⟨0x446f63756d656e74, 0x43494d31352e49454336313936382e436f6d6d6f6e2e446f63756d656e74, false, 0x5363686564756c65644576656e7473⟩, ⟨0x41637469766974795265636f7264, 0x43494d31352e49454336313936382e436f6d6d6f6e2e41637469766974795265636f7264, false, 0x5363686564756c65644576656e74⟩, ⟨0x737461747573, 0x43494d31352e49454336313936382e436f6d6d6f6e2e537461747573, false, 0⟩, ⟨0x54696d65506f696e74, 0x43494d31352e49454336313936382e436f6d6d6f6e2e54696d65506f696e74, false, 0x5363686564756c65644576656e7473⟩, ⟨0x5363686564756c65506172616d65746572496e666f, 0x43494d31352e49454336313937302e496e666f726d61746976652e496e66436f6d6d6f6e2e5363686564756c65506172616d65746572496e666f, false, 0x5363686564756c65644576656e7473⟩, ⟨0x417373657473, 0x43494d31352e49454336313936382e4173736574732e4173736574, true, 0x5363686564756c65644576656e7473⟩]⟩
/-- Class CIM15.IEC61970.Informative.InfCommon.Skill -/
def s_Skill : SClass := ⟨0x536b696c6c, 0x43494d31352e49454336313937302e496e666f726d61746976652e496e66436f6d6d6f6e2e536b696c6c, 0x43494d31352e49454336313936382e436f6d6d6f6e2e446f63756d656e74,
  [(0x6566666563746976654461746554696d65, t_java_util_Date), (0x6c6576656c, e_SkillLevelKind)],
  [⟨0x437261667473, 0x43494d31352e49454336313937302e496e666f726d61746976652e496e66436f6d6d6f6e2e4372616674, true, 0x536b696c6c73⟩, ⟨0x457270506572736f6e, 0x43494d31352e49454336313937302e496e666f726d61746976652e496e66455250537570706f72742e457270506572736f6e, false, 0x536b696c6c73⟩, ⟨0x5175616c696669636174696f6e526571756972656d656e7473, 0x43494d31352e49454336313937302e496e666f726d61746976652e496e66576f726b2e5175616c696669636174696f6e526571756972656d656e74, true, 0x536b696c6c73⟩, ⟨0x63657274696669636174696f6e506572696f64, 0x43494d31352e49454336313937302e446f6d61696e2e4461746554696d65496e74657276616c, false, 0⟩]⟩
/-- Class CIM15.IEC61970.Informative.InfCore.ModelingAuthority -/
def s_ModelingAuthority : SClass := ⟨0x4d6f64656c696e67417574686f72697479, 0x43494d31352e49454336313937302e496e666f726d61746976652e496e66436f72652e4d6f64656c696e67417574686f72697479, 0x43494d31352e49454336313937302e436f72652e4964656e7469666965644f626a656374,
  [],
  [⟨0x4d6f64656c696e67417574686f7269747953657473, 0x43494d31352e49454336313937302e496e666f726d61746976652e496e66436f72652e4d6f64656c696e67417574686f72697479536574, true, 0x4d6f64656c696e67417574686f72697479⟩]⟩
/-- Class CIM15.IEC61970.Informative.InfCore.ModelingAuthoritySet -/
def s_ModelingAuthoritySet : SClass := ⟨0x4d6f64656c696e67417574686f72697479536574, 0x43494d31352e49454336313937302e496e666f726d61746976652e496e66436f72652e4d6f64656c696e67417574686f72697479536574, 0x43494d31352e49454336313937302e436f72652e4964656e7469666965644f626a656374,
  [],
  [⟨0x4964656e7469666965644f626a65637473, 0x43494d31352e49454336313937302e436f72652e4964656e7469666965644f626a656374, true, 0x4d6f64656c696e67417574686f72697479536574⟩, ⟨0x4d6f64656c696e67417574686f72697479, 0x43494d31352e49454336313937302e496e666f726d61746976652e496e66436f72652e4d6f64656c696e67417574686f72697479, false, 0x4d6f64656c696e67417574686f7269747953657473⟩]⟩
/-- Class CIM15.IEC61970.Informative.InfCustomers.ComplianceEvent -/
def s_ComplianceEvent : SClass := ⟨0x436f6d706c69616e63654576656e74, 0x43494d31352e49454336313937302e496e666f726d61746976652e496e66437573746f6d6572732e436f6d706c69616e63654576656e74, 0x43494d31352e49454336313936382e436f6d6d6f6e2e41637469766974795265636f7264,
  [(0x646561646c696e65, t_java_util_Date)],
  []⟩
/-- Class CIM15.IEC61970.Informative.InfCustomers.CustomerBillingInfo -/
def s_CustomerBillingInfo : SClass := ⟨0x437573746f6d657242696c6c696e67496e666f, 0x43494d31352e49454336313937302e496e666f726d61746976652e496e66437573746f6d6572732e437573746f6d657242696c6c696e67496e666f, 0x43494d31352e49454336313936382e436f6d6d6f6e2e446f63756d656e74,
  [(0x70796d74506c616e54797065, t_EString), (0x6b696e64, e_CustomerBillingKind), (0x70796d74506c616e416d74, t_float), (0x6c6173745061796d656e74416d74, t_float), (0x64756544617465, t_java_lang_String), (0x6f757442616c616e6365, t_float), (0x6c6173745061796d656e7444617465, t_java_lang_String), (0x62696c6c696e6744617465, t_java_lang_String)],
  [⟨0x457270496e766f6963654c696e654974656d73, 0x43494d31352e49454336313937302e496e666f726d61746976652e496e66455250537570706f72742e457270496e766f6963654c696e654974656d, true, 0x437573746f6d657242696c6c696e67496e666f73⟩, ⟨0x437573746f6d65724163636f756e74, 0x43494d31352e49454336313936382e437573746f6d6572732e437573746f6d65724163636f756e74, false, 0x437573746f6d657242696c6c696e67496e666f73⟩]⟩
/-- Class CIM15.IEC61970.Informative.InfCustomers.ExternalCustomerAgreement -/
def s_ExternalCustomerAgreement : SClass := ⟨0x45787465726e616c437573746f6d657241677265656d656e74, 0x43494d31352e49454336313937302e496e666f726d61746976652e496e66437573746f6d6572732e45787465726e616c437573746f6d657241677265656d656e74, 0x43494d31352e49454336313936382e436f6d6d6f6e2e41677265656d656e74,
  [],
  []⟩
/-- Class CIM15.IEC61970.Informative.InfCustomers.OutageHistory -/
def s_OutageHistory : SClass := ⟨0x4f7574616765486973746f7279, 0x43494d31352e49454336313937302e496e666f726d61746976652e496e66437573746f6d6572732e4f7574616765486973746f7279, 0x43494d31352e49454336313936382e436f6d6d6f6e2e446f63756d656e74,
  [],
  [⟨0x4f75746167655265706f727473, 0x43494d31352e49454336313937302e496e666f726d61746976652e496e664f7065726174696f6e732e4f75746167655265706f7274, true, 0x4f7574616765486973746f7279⟩]⟩
/-- Class CIM15.IEC61970.Informative.InfCustomers.PowerQualityPricing -/
def s_PowerQualityPricing : SClass := ⟨0x506f7765725175616c69747950726963696e67, 0x43494d31352e49454336313937302e496e666f726d61746976652e496e66437573746f6d6572732e506f7765725175616c69747950726963696e67, 0x43494d31352e49454336313936382e436f6d6d6f6e2e446f63756d656e74,
  [(0x6e6f726d616c4c6f77566f6c744c696d6974, t_float), (0x76616c7565556e696e74657272757074656453657276696365456e65726779, t_float), (0x766f6c744c696d697456696f6c436f7374, t_EFloat), (0x6e6f726d616c48696768566f6c744c696d6974, t_float), (0x656d657267656e637948696768566f6c744c696d6974, t_float), (0x656d657267656e63794c6f77566f6c744c696d6974, t_float), (0x706f776572466163746f724d696e, t_EFloat), (0x766f6c74496d62616c616e636556696f6c436f7374, t_EFloat), (0x76616c7565556e696e7465727275707465645365727669636550, t_EFloat)],
  []⟩
/-- Class CIM15.IEC61970.Informative.InfCustomers.ServiceGuarantee -/
def s_ServiceGuarantee : SClass := ⟨0x5365727669636547756172616e746565, 0x43494d31352e49454336313937302e496e666f726d61746976652e496e66437573746f6d6572732e5365727669636547756172616e746565, 0x43494d31352e49454336313936382e436f6d6d6f6e2e446f63756d656e74,
  [(0x6175746f6d61746963506179, t_EBoolean), (0x706179416d6f756e74, t_float), (0x73657276696365526571756972656d656e74, t_EString)],
  [⟨0x6170706c69636174696f6e506572696f64, 0x43494d31352e49454336313937302e446f6d61696e2e4461746554696d65496e74657276616c, false, 0⟩]⟩
/-- Class CIM15.IEC61970.Informative.InfCustomers.StandardIndustryCode -/
def s_StandardIndustryCode : SClass := ⟨0x5374616e64617264496e647573747279436f6465, 0x43494d31352e49454336313937302e496e666f726d61746976652e496e66437573746f6d6572732e5374616e64617264496e647573747279436f6465, 0x43494d31352e49454336313936382e436f6d6d6f6e2e446f63756d656e74,
  [(0x636f6465, t_EString)],
  [⟨0x437573746f6d657241677265656d656e7473, 0x43494d31352e49454336313936382e437573746f6d6572732e437573746f6d657241677265656d656e74, true, 0x5374616e64617264496e647573747279436f6465⟩]⟩
/-- Class CIM15.IEC61970.Informative.InfCustomers.SubscribePowerCurve -/
def s_SubscribePowerCurve : SClass := ⟨0x537562736372696265506f7765724375727665, 0x43494d31352e49454336313937302e496e666f726d61746976652e496e66437573746f6d6572732e537562736372696265506f7765724375727665, 0x43494d31352e49454336313937302e436f72652e4375727665,
  [],
  []⟩
/-- Class CIM15.IEC61970.Informative.InfCustomers.WorkBillingInfo -/
def s_WorkBillingInfo : SClass := ⟨0x576f726b42696c6c696e67496e666f, 0x43494d31352e49454336313937302e496e666f726d61746976652e496e66437573746f6d6572732e576f726b42696c6c696e67496e666f, 0x43494d31352e49454336313936382e436f6d6d6f6e2e446f63756d656e74,
  [(0x69737375654461746554696d65, t_java_util_Date), (0x6465706f736974, t_float), (0x636f7374457374696d617465, t_float), (0x646973636f756e74, t_EFloat), (0x6475654461746554696d65, t_java_util_Date), (0x72656365697665644461746554696d65, t_java_util_Date), (0x776f726b5072696365, t_float)],
  [⟨0x576f726b73, 0x43494d31352e49454336313936382e576f726b2e576f726b, true, 0x576f726b42696c6c696e67496e666f⟩, ⟨0x437573746f6d65724163636f756e74, 0x43494d31352e49454336313936382e437573746f6d6572732e437573746f6d65724163636f756e74, false, 0x576f726b42696c6c696e67496e666f73⟩, ⟨0x4572704c696e654974656d73, 0x43494d31352e49454336313937302e496e666f726d61746976652e496e66455250537570706f72742e457270496e766f6963654c696e654974656d, true, 0x576f726b42696c6c696e67496e666f73⟩]⟩
/-- Class CIM15.IEC61970.Informative.InfERPSupport.DocErpPersonRole -/
def s_DocErpPersonRole : SClass := ⟨0x446f63457270506572736f6e526f6c65, 0x43494d31352e49454336313937302e496e666f726d61746976652e496e66455250537570706f72742e446f63457270506572736f6e526f6c65, 0x43494d31352e49454336313937302e496e666f726d61746976652e496e66436f6d6d6f6e2e526f6c65,
  [],
  [⟨0x446f63756d656e74, 0x43494d31352e49454336313936382e436f6d6d6f6e2e446f63756d656e74, false, 0x457270506572736f6e526f6c6573⟩, ⟨0x457270506572736f6e, 0x43494d31352e49454336313937302e496e666f726d61746976652e496e66455250537570706f72742e457270506572736f6e, false, 0x446f63756d656e74526f6c6573⟩]⟩
/-- Class CIM15.IEC61970.Informative.InfERPSupport.DocOrgRole -/
def s_DocOrgRole : SClass := ⟨0x446f634f7267526f6c65, 0x43494d31352e49454336313937302e496e666f726d61746976652e496e66455250537570706f72742e446f634f7267526f6c65, 0x43494d31352e49454336313937302e496e666f726d61746976652e496e66436f6d6d6f6e2e526f6c65,
  [],
  [⟨0x446f63756d656e74, 0x43494d31352e49454336313936382e436f6d6d6f6e2e446f63756d656e74, false, 0x4572704f7267616e69736174696f6e526f6c6573⟩, ⟨0x4572704f7267616e69736174696f6e, 0x43494d31352e49454336313937302e496e666f726d61746976652e496e66455250537570706f72742e4572704f7267616e69736174696f6e, false, 0x446f63756d656e74526f6c6573⟩]⟩
/-- Class CIM15.IEC61970.Informative.InfERPSupport.ErpBOM -/
def s_ErpBOM : SClass := ⟨0x457270424f4d, 0x43494d31352e49454336313937302e496e666f726d61746976652e496e66455250537570706f72742e457270424f4d, 0x43494d31352e49454336313936382e436f6d6d6f6e2e446f63756d656e74,
  [],
  [⟨0x44657369676e, 0x43494d31352e49454336313937302e496e666f726d61746976652e496e66576f726b2e44657369676e, false, 0x457270424f4d73⟩, ⟨0x457270426f6d4974656d4461746173, 0x43494d31352e49454336313937302e496e666f726d61746976652e496e66455250537570706f72742e457270426f6d4974656d44617461, true, 0x457270424f4d⟩]⟩
/-- Class CIM15.IEC61970.Informative.InfERPSupport.ErpBankAccount -/
def s_ErpBankAccount : SClass := ⟨0x45727042616e6b4163636f756e74, 0x43494d31352e49454336313937302e496e666f726d61746976652e496e66455250537570706f72742e45727042616e6b4163636f756e74, 0x43494d31352e49454336313937302e496e666f726d61746976652e496e66436f6d6d6f6e2e42616e6b4163636f756e74,
  [(0x62616e6b414241, t_EString)],
  []⟩
/-- Class CIM15.IEC61970.Informative.InfERPSupport.ErpBomItemData -/
def s_ErpBomItemData : SClass := ⟨0x457270426f6d4974656d44617461, 0x43494d31352e49454336313937302e496e666f726d61746976652e496e66455250537570706f72742e457270426f6d4974656d44617461, 0x43494d31352e49454336313937302e436f72652e4964656e7469666965644f626a656374,
  [],
  [⟨0x547970654173736574, 0x43494d31352e49454336313937302e496e666f726d61746976652e496e664173736574732e47656e6572696341737365744d6f64656c4f724d6174657269616c, false, 0x457270426f6d4974656d4461746173⟩, ⟨0x457270424f4d, 0x43494d31352e49454336313937302e496e666f726d61746976652e496e66455250537570706f72742e457270424f4d, false, 0x457270426f6d4974656d4461746173⟩, ⟨0x44657369676e4c6f636174696f6e, 0x43494d31352e49454336313937302e496e666f726d61746976652e496e66576f726b2e44657369676e4c6f636174696f6e, false, 0x457270426f6d4974656d4461746173⟩]⟩
/-- Class CIM15.IEC61970.Informative.InfERPSupport.ErpChartOfAccounts -/
def s_ErpChartOfAccounts : SClass := ⟨0x45727043686172744f664163636f756e7473, 0x43494d31352e49454336313937302e496e666f726d61746976652e496e66455250537570706f72742e45727043686172744f664163636f756e7473, 0x43494d31352e49454336313936382e436f6d6d6f6e2e446f63756d656e74,
  [],
  []⟩
/-- Class CIM15.IEC61970.Informative.InfERPSupport.ErpCompetency -/
def s_ErpCompetency : SClass := ⟨0x457270436f6d706574656e6379, 0x43494d31352e49454336313937302e496e666f726d61746976652e496e66455250537570706f72742e457270436f6d706574656e6379, 0x43494d31352e49454336313937302e436f72652e4964656e7469666965644f626a656374,
  [],
  [⟨0x457270506572736f6e73, 0x43494d31352e49454336313937302e496e666f726d61746976652e496e66455250537570706f72742e457270506572736f6e, true, 0x457270436f6d706574656e6379⟩]⟩
/-- Class CIM15.IEC61970.Informative.InfERPSupport.ErpEngChangeOrder -/
def s_ErpEngChangeOrder : SClass := ⟨0x457270456e674368616e67654f72646572, 0x43494d31352e49454336313937302e496e666f726d61746976652e496e66455250537570706f72742e457270456e674368616e67654f72646572, 0x43494d31352e49454336313936382e436f6d6d6f6e2e446f63756d656e74,
  [],
  []⟩
/-- Class CIM15.IEC61970.Informative.InfERPSupport.ErpInventory -/
def s_ErpInventory : SClass := ⟨0x457270496e76656e746f7279, 0x43494d31352e49454336313937302e496e666f726d61746976652e496e66455250537570706f72742e457270496e76656e746f7279, 0x43494d31352e49454336313937302e436f72652e4964656e7469666965644f626a656374,
  [],
  [⟨0x4173736574, 0x43494d31352e49454336313936382e4173736574732e4173736574, false, 0x457270496e76656e746f7279⟩, ⟨0x737461747573, 0x43494d31352e49454336313936382e436f6d6d6f6e2e537461747573, false, 0⟩]⟩
/-- Class CIM15.IEC61970.Informative.InfERPSupport.ErpInventoryCount -/
def s_ErpInventoryCount : SClass := ⟨0x457270496e76656e746f7279436f756e74, 0x43494d31352e49454336313937302e496e666f726d61746976652e496e66455250537570706f72742e457270496e76656e746f7279436f756e74, 0x43494d31352e49454336313937302e436f72652e4964656e7469666965644f626a656374,
  [],
  [⟨0x737461747573, 0x43494d31352e49454336313936382e436f6d6d6f6e2e537461747573, false, 0⟩, ⟨0x4d6174657269616c4974656d, 0x43494d31352e49454336313937302e496e666f726d61746976652e496e66576f726b2e4d6174657269616c4974656d, false, 0x457270496e76656e746f7279436f756e7473⟩, ⟨0x41737365744d6f64656c, 0x43494d31352e49454336313936382e4173736574732e41737365744d6f64656c, false, 0x457270496e76656e746f7279436f756e7473⟩]⟩
/-- Class CIM15.IEC61970.Informative.InfERPSupport.ErpInvoice -/
def s_ErpInvoice : SClass := ⟨0x457270496e766f696365, 0x43494d31352e49454336313937302e496e666f726d61746976652e496e66455250537570706f72742e457270496e766f696365, 0x43494d31352e49454336313936382e436f6d6d6f6e2e446f63756d656e74,
  [(0x6d61696c656444617465, t_java_lang_String), (0x7472616e73616374696f6e4461746554696d65, t_java_util_Date), (0x616d6f756e74, t_float), (0x64756544617465, t_java_lang_String), (0x62696c6c4d656469614b696e64, e_BillMediaKind), (0x7265666572656e63654e756d626572, t_EString), (0x6b696e64, e_ErpInvoiceKind), (0x7472616e7366657254797065, t_EString), (0x70726f466f726d61, t_EBoolean)],
  [⟨0x457270496e766f6963654c696e654974656d73, 0x43494d31352e49454336313937302e496e666f726d61746976652e496e66455250537570706f72742e457270496e766f6963654c696e654974656d, true, 0x457270496e766f696365⟩, ⟨0x437573746f6d65724163636f756e74, 0x43494d31352e49454336313936382e437573746f6d6572732e437573746f6d65724163636f756e74, false, 0x457270496e766f6963656573⟩]⟩
/-- Class CIM15.IEC61970.Informative.InfERPSupport.ErpInvoiceLineItem -/
def s_ErpInvoiceLineItem : SClass := ⟨0x457270496e766f6963654c696e654974656d, 0x43494d31352e49454336313937302e496e666f726d61746976652e496e66455250537570706f72742e457270496e766f6963654c696e654974656d, 0x43494d31352e49454336313936382e436f6d6d6f6e2e446f63756d656e74,
  [(0x6c696e654e756d626572, t_EString), (0x676c4461746554696d65, t_java_util_Date), (0x6c696e65416d6f756e74, t_EFloat), (0x6e6574416d6f756e74, t_EFloat), (0x6b696e64, e_ErpInvoiceLineItemKind), (0x6c696e6556657273696f6e, t_EString), (0x676c4163636f756e74, t_EString), (0x70726576696f7573416d6f756e74, t_EFloat)],
  [⟨0x4572705061796d656e7473, 0x43494d31352e49454336313937302e496e666f726d61746976652e496e66455250537570706f72742e4572705061796d656e74, true, 0x457270496e766f6963654c696e654974656d73⟩, ⟨0x436f6e7461696e6572457270496e766f6963654c696e654974656d, 0x43494d31352e49454336313937302e496e666f726d61746976652e496e66455250537570706f72742e457270496e766f6963654c696e654974656d, false, 0x436f6d706f6e656e74457270496e766f6963654c696e654974656d73⟩, ⟨0x576f726b42696c6c696e67496e666f73, 0x43494d31352e49454336313937302e496e666f726d61746976652e496e66437573746f6d6572732e576f726b42696c6c696e67496e666f, true, 0x4572704c696e654974656d73⟩, ⟨0x45727051756f74654c696e654974656d, 0x43494d31352e49454336313937302e496e666f726d61746976652e496e66455250537570706f72742e45727051756f74654c696e654974656d, false, 0x457270496e766f6963654c696e654974656d⟩, ⟨0x5573657241747472696275746573, 0x43494d31352e49454336313936382e436f6d6d6f6e2e55736572417474726962757465, true, 0x457270496e766f6963654c696e654974656d73⟩, ⟨0x45727052656344656c764c696e654974656d, 0x43494d31352e49454336313937302e496e666f726d61746976652e496e66455250537570706f72742e45727052656344656c764c696e654974656d, false, 0x457270496e766f6963654c696e654974656d⟩, ⟨0x45727050617961626c654c696e654974656d, 0x43494d31352e49454336313937302e496e666f726d61746976652e496e66455250537570706f72742e45727050617961626c654c696e654974656d, false, 0x457270496e766f6963654c696e654974656d⟩, ⟨0x436f6d706f6e656e74457270496e766f6963654c696e654974656d73, 0x43494d31352e49454336313937302e496e666f726d61746976652e496e66455250537570706f72742e457270496e766f6963654c696e654974656d, true, 0x436f6e7461696e6572457270496e766f6963654c696e654974656d⟩, ⟨0x62696c6c506572696f64, 0x43494d31352e49454336313937302e446f6d61696e2e4461746554696d65496e74657276616c, false, 0⟩, ⟨0x457270496e766f696365, 0x43494d31352e49454336313937302e496e666f726d61746976652e496e66455250537570706f72742e457270496e766f696365, false, 0x457270496e766f6963654c696e654974656d73⟩, ⟨0x437573746f6d657242696c6c696e67496e666f73, 0x43494d31352e49454336313937302e496e666f726d61746976652e496e66437573746f6d6572732e437573746f6d657242696c6c696e67496e666f, true, 0x457270496e766f6963654c696e654974656d73⟩, ⟨0x4572705265634c696e654974656d, 0x43494d31352e49454336313937302e496e666f726d61746976652e496e66455250537570706f72742e4572705265634c696e654974656d, false, 0x457270496e766f6963654c696e654974656d⟩, ⟨0x4572704a6f75726e616c456e7472696573, 0x43494d31352e49454336313937302e496e666f726d61746976652e496e66455250537570706f72742e4572704a6f75726e616c456e747279, true, 0x457270496e766f6963654c696e654974656d⟩]⟩
/-- Class CIM15.IEC61970.Informative.InfERPSupport.ErpIssueInventory -/
def s_ErpIssueInventory : SClass := ⟨0x4572704973737565496e76656e746f7279, 0x43494d31352e49454336313937302e496e666f726d61746976652e496e66455250537570706f72742e4572704973737565496e76656e746f7279, 0x43494d31352e49454336313937302e436f72652e4964656e7469666965644f626a656374,
  [],
  [⟨0x547970654173736574, 0x43494d31352e49454336313937302e496e666f726d61746976652e496e664173736574732e47656e6572696341737365744d6f64656c4f724d6174657269616c, false, 0x457270496e76656e746f7279497373756573⟩, ⟨0x737461747573, 0x43494d31352e49454336313936382e436f6d6d6f6e2e537461747573, false, 0⟩, ⟨0x547970654d6174657269616c, 0x43494d31352e49454336313937302e496e666f726d61746976652e496e66576f726b2e547970654d6174657269616c, false, 0x4572704973737565496e76656e746f72696573⟩]⟩
/-- Class CIM15.IEC61970.Informative.InfERPSupport.ErpItemMaster -/
def s_ErpItemMaster : SClass := ⟨0x4572704974656d4d6173746572, 0x43494d31352e49454336313937302e496e666f726d61746976652e496e66455250537570706f72742e4572704974656d4d6173746572, 0x43494d31352e49454336313937302e436f72652e4964656e7469666965644f626a656374,
  [],
  [⟨0x4173736574, 0x43494d31352e49454336313936382e4173736574732e4173736574, false, 0x4572704974656d4d6173746572⟩, ⟨0x737461747573, 0x43494d31352e49454336313936382e436f6d6d6f6e2e537461747573, false, 0⟩]⟩
/-- Class CIM15.IEC61970.Informative.InfERPSupport.ErpJournal -/
def s_ErpJournal : SClass := ⟨0x4572704a6f75726e616c, 0x43494d31352e49454336313937302e496e666f726d61746976652e496e66455250537570706f72742e4572704a6f75726e616c, 0x43494d31352e49454336313936382e436f6d6d6f6e2e446f63756d656e74,
  [],
  [⟨0x4572704a6f75726e616c456e7472696573, 0x43494d31352e49454336313937302e496e666f726d61746976652e496e66455250537570706f72742e4572704a6f75726e616c456e747279, true, 0x4572704a6f75726e616c⟩]⟩
/-- Class CIM15.IEC61970.Informative.InfERPSupport.ErpJournalEntry -/
def s_ErpJournalEntry : SClass := ⟨0x4572704a6f75726e616c456e747279, 0x43494d31352e49454336313937302e496e666f726d61746976652e496e66455250537570706f72742e4572704a6f75726e616c456e747279, 0x43494d31352e49454336313937302e436f72652e4964656e7469666965644f626a656374,
  [(0x7472616e73616374696f6e4461746554696d65, t_java_util_Date), (0x736f757263654944, t_EString), (0x706f7374696e674461746554696d65, t_java_util_Date), (0x616d6f756e74, t_float), (0x6163636f756e744944, t_EString)],
  [⟨0x737461747573, 0x43494d31352e49454336313936382e436f6d6d6f6e2e537461747573, false, 0⟩, ⟨0x45727050617961626c654c696e654974656d73, 0x43494d31352e49454336313937302e496e666f726d61746976652e496e66455250537570706f72742e45727050617961626c654c696e654974656d, true, 0x4572704a6f75726e616c456e7472696573⟩, ⟨0x457270496e766f6963654c696e654974656d, 0x43494d31352e49454336313937302e496e666f726d61746976652e496e66455250537570706f72742e457270496e766f6963654c696e654974656d, false, 0x4572704a6f75726e616c456e7472696573⟩, ⟨0x4572705265634c696e654974656d73, 0x43494d31352e49454336313937302e496e666f726d61746976652e496e66455250537570706f72742e4572705265634c696e654974656d, true, 0x4572704a6f75726e616c456e7472696573⟩, ⟨0x4572704c6564676572456e747279, 0x43494d31352e49454336313937302e496e666f726d61746976652e496e66455250537570706f72742e4572704c6564676572456e747279, false, 0x4572704a6f756e616c456e747279⟩, ⟨0x436f73745479706573, 0x43494d31352e49454336313937302e496e666f726d61746976652e496e66576f726b2e436f737454797065, true, 0x4572704a6f75726e616c456e7472696573⟩, ⟨0x4572704a6f75726e616c, 0x43494d31352e49454336313937302e496e666f726d61746976652e496e66455250537570706f72742e4572704a6f75726e616c, false, 0x4572704a6f75726e616c456e7472696573⟩]⟩
/-- Class CIM15.IEC61970.Informative.InfERPSupport.ErpLedBudLineItem -/
def s_ErpLedBudLineItem : SClass := ⟨0x4572704c65644275644c696e654974656d, 0x43494d31352e49454336313937302e496e666f726d61746976652e496e66455250537570706f72742e4572704c65644275644c696e654974656d, 0x43494d31352e49454336313937302e436f72652e4964656e7469666965644f626a656374,
  [],
  [⟨0x4572704c65644275644c696e654974656d, 0x43494d31352e49454336313937302e496e666f726d61746976652e496e66455250537570706f72742e4572704c6564676572456e747279, false, 0x4572704c6564676572456e747279⟩, ⟨0x4572704c6564676572427564676574, 0x43494d31352e49454336313937302e496e666f726d61746976652e496e66455250537570706f72742e4572704c6564676572427564676574, false, 0x4572704c65644275644c696e654974656d73⟩, ⟨0x737461747573, 0x43494d31352e49454336313936382e436f6d6d6f6e2e537461747573, false, 0⟩]⟩
/-- Class CIM15.IEC61970.Informative.InfERPSupport.ErpLedger -/
def s_ErpLedger : SClass := ⟨0x4572704c6564676572, 0x43494d31352e49454336313937302e496e666f726d61746976652e496e66455250537570706f72742e4572704c6564676572, 0x43494d31352e49454336313936382e436f6d6d6f6e2e446f63756d656e74,
  [],
  [⟨0x4572704c6564676572456e7472696573, 0x43494d31352e49454336313937302e496e666f726d61746976652e496e66455250537570706f72742e4572704c6564676572456e747279, true, 0x4572704c6564676572⟩]⟩
/-- Class CIM15.IEC61970.Informative.InfERPSupport.ErpLedgerBudget -/
def s_ErpLedgerBudget : SClass := ⟨0x4572704c6564676572427564676574, 0x43494d31352e49454336313937302e496e666f726d61746976652e496e66455250537570706f72742e4572704c6564676572427564676574, 0x43494d31352e49454336313936382e436f6d6d6f6e2e446f63756d656e74,
  [],
  [⟨0x4572704c65644275644c696e654974656d73, 0x43494d31352e49454336313937302e496e666f726d61746976652e496e66455250537570706f72742e4572704c65644275644c696e654974656d, true, 0x4572704c6564676572427564676574⟩]⟩
/-- Class CIM15.IEC61970.Informative.InfERPSupport.ErpLedgerEntry -/
def s_ErpLedgerEntry : SClass := ⟨0x4572704c6564676572456e747279, 0x43494d31352e49454336313937302e496e666f726d61746976652e496e66455250537570706f72742e4572704c6564676572456e747279, 0x43494d31352e49454336313937302e436f72652e4964656e7469666965644f626a656374,
  [(0x7472616e73616374696f6e4461746554696d65, t_java_util_Date), (0x6163636f756e744b696e64, e_ErpAccountKind), (0x616d6f756e74, t_float), (0x706f737465644461746554696d65, t_java_util_Date), (0x6163636f756e744944, t_EString)],
  [⟨0x4572704c6564676572, 0x43494d31352e49454336313937302e496e666f726d61746976652e496e66455250537570706f72742e4572704c6564676572, false, 0x4572704c6564676572456e7472696573⟩, ⟨0x737461747573, 0x43494d31352e49454336313936382e436f6d6d6f6e2e537461747573, false, 0⟩, ⟨0x4572704c6564676572456e747279, 0x43494d31352e49454336313937302e496e666f726d61746976652e496e66455250537570706f72742e4572704c65644275644c696e654974656d, false, 0x4572704c65644275644c696e654974656d⟩, ⟨0x5573657241747472696275746573, 0x43494d31352e49454336313936382e436f6d6d6f6e2e55736572417474726962757465, true, 0x4572704c6564676572456e7472696573⟩, ⟨0x4572704a6f756e616c456e747279, 0x43494d31352e49454336313937302e496e666f726d61746976652e496e66455250537570706f72742e4572704a6f75726e616c456e747279, false, 0x4572704c6564676572456e747279⟩]⟩
/-- Class CIM15.IEC61970.Informative.InfERPSupport.ErpOrganisation -/
def s_ErpOrganisation : SClass := ⟨0x4572704f7267616e69736174696f6e, 0x43494d31352e49454336313937302e496e666f726d61746976652e496e66455250537570706f72742e4572704f7267616e69736174696f6e, 0x43494d31352e49454336313936382e436f6d6d6f6e2e4f7267616e69736174696f6e,
  [(0x63617465676f7279, t_EString), (0x636f6465, t_EString), (0x696e6475737472794944, t_EString), (0x676f7665726e6d656e744944, t_EString), (0x6f70744f7574, t_EBoolean), (0x6973436f737443656e746572, t_EBoolean), (0x697350726f66697443656e746572, t_EBoolean), (0x6d6f6465, t_EString)],
  [⟨0x4173736574526f6c6573, 0x43494d31352e49454336313937302e496e666f726d61746976652e496e664173736574732e4f72674173736574526f6c65, true, 0x4572704f7267616e69736174696f6e⟩, ⟨0x5265717565737473, 0x43494d31352e49454336313937302e496e666f726d61746976652e496e66576f726b2e52657175657374, true, 0x4f7267616e69736174696f6e⟩, ⟨0x4372657773, 0x43494d31352e49454336313937302e496e666f726d61746976652e496e66576f726b2e43726577, true, 0x4f7267616e69736174696f6e73⟩, ⟨0x4368616e67654974656d73, 0x43494d31352e49454336313937302e496e666f726d61746976652e496e664f7065726174696f6e732e4368616e67654974656d, true, 0x4f7267616e69736174696f6e⟩, ⟨0x457270506572736f6e526f6c6573, 0x43494d31352e49454336313937302e496e666f726d61746976652e496e66455250537570706f72742e4f7267457270506572736f6e526f6c65, true, 0x4572704f7267616e69736174696f6e⟩, ⟨0x41637469766974795265636f726473, 0x43494d31352e49454336313936382e436f6d6d6f6e2e41637469766974795265636f7264, true, 0x4f7267616e69736174696f6e73⟩, ⟨0x506172656e744f7267616e69736174696f6e526f6c6573, 0x43494d31352e49454336313937302e496e666f726d61746976652e496e66455250537570706f72742e4f72674f7267526f6c65, true, 0x4368696c644f7267616e69736174696f6e⟩, ⟨0x4c6f636174696f6e73, 0x43494d31352e49454336313936382e436f6d6d6f6e2e4c6f636174696f6e, true, 0x4572704f7267616e69736174696f6e73⟩, ⟨0x4368696c644f7267616e69736174696f6e526f6c6573, 0x43494d31352e49454336313937302e496e666f726d61746976652e496e66455250537570706f72742e4f72674f7267526f6c65, true, 0x506172656e744f7267616e69736174696f6e⟩, ⟨0x506f77657253797374656d5265736f75726365526f6c6573, 0x43494d31352e49454336313937302e496e666f726d61746976652e496e664f7065726174696f6e732e4f7267507372526f6c65, true, 0x4572704f7267616e69736174696f6e⟩, ⟨0x4c616e6450726f7065727479526f6c6573, 0x43494d31352e49454336313937302e496e666f726d61746976652e496e664c6f636174696f6e732e4f726750726f7065727479526f6c65, true, 0x4572704f7267616e69736174696f6e⟩, ⟨0x446f63756d656e74526f6c6573, 0x43494d31352e49454336313937302e496e666f726d61746976652e496e66455250537570706f72742e446f634f7267526f6c65, true, 0x4572704f7267616e69736174696f6e⟩]⟩
/-- Class CIM15.IEC61970.Informative.InfERPSupport.ErpPOLineItem -/
def s_ErpPOLineItem : SClass := ⟨0x457270504f4c696e654974656d, 0x43494d31352e49454336313937302e496e666f726d61746976652e496e66455250537570706f72742e457270504f4c696e654974656d, 0x43494d31352e49454336313936382e436f6d6d6f6e2e446f63756d656e74,
  [],
  [⟨0x45727050757263686173654f72646572, 0x43494d31352e49454336313937302e496e666f726d61746976652e496e66455250537570706f72742e45727050757263686173654f72646572, false, 0x457270504f4c696e654974656d73⟩, ⟨0x45727052656344656c4c696e654974656d, 0x43494d31352e49454336313937302e496e666f726d61746976652e496e66455250537570706f72742e45727052656344656c764c696e654974656d, false, 0x457270504f4c696e654974656d⟩, ⟨0x41737365744d6f64656c436174616c6f6775654974656d, 0x43494d31352e49454336313937302e496e666f726d61746976652e496e6641737365744d6f64656c732e41737365744d6f64656c436174616c6f6775654974656d, false, 0x457270504f4c696e654974656d73⟩, ⟨0x4d6174657269616c4974656d, 0x43494d31352e49454336313937302e496e666f726d61746976652e496e66576f726b2e4d6174657269616c4974656d, false, 0x457270504f4c696e654974656d73⟩, ⟨0x4572705265714c696e654974656d, 0x43494d31352e49454336313937302e496e666f726d61746976652e496e66455250537570706f72742e4572705265714c696e654974656d, false, 0x457270504f4c696e654974656d⟩]⟩
/-- Class CIM15.IEC61970.Informative.InfERPSupport.ErpPayable -/
def s_ErpPayable : SClass := ⟨0x45727050617961626c65, 0x43494d31352e49454336313937302e496e666f726d61746976652e496e66455250537570706f72742e45727050617961626c65, 0x43494d31352e49454336313936382e436f6d6d6f6e2e446f63756d656e74,
  [],
  [⟨0x436f6e74726163746f724974656d73, 0x43494d31352e49454336313937302e496e666f726d61746976652e496e66576f726b2e436f6e74726163746f724974656d, true, 0x45727050617961626c6573⟩, ⟨0x45727050617961626c654c696e654974656d73, 0x43494d31352e49454336313937302e496e666f726d61746976652e496e66455250537570706f72742e45727050617961626c654c696e654974656d, true, 0x45727050617961626c65⟩]⟩
/-- Class CIM15.IEC61970.Informative.InfERPSupport.ErpPayableLineItem -/
def s_ErpPayableLineItem : SClass := ⟨0x45727050617961626c654c696e654974656d, 0x43494d31352e49454336313937302e496e666f726d61746976652e496e66455250537570706f72742e45727050617961626c654c696e654974656d, 0x43494d31352e49454336313937302e436f72652e4964656e7469666965644f626a656374,
  [],
  [⟨0x4572705061796d656e7473, 0x43494d31352e49454336313937302e496e666f726d61746976652e496e66455250537570706f72742e4572705061796d656e74, true, 0x45727050617961626c654c696e654974656d73⟩, ⟨0x4572704a6f75726e616c456e7472696573, 0x43494d31352e49454336313937302e496e666f726d61746976652e496e66455250537570706f72742e4572704a6f75726e616c456e747279, true, 0x45727050617961626c654c696e654974656d73⟩, ⟨0x457270496e766f6963654c696e654974656d, 0x43494d31352e49454336313937302e496e666f726d61746976652e496e66455250537570706f72742e457270496e766f6963654c696e654974656d, false, 0x45727050617961626c654c696e654974656d⟩, ⟨0x45727050617961626c65, 0x43494d31352e49454336313937302e496e666f726d61746976652e496e66455250537570706f72742e45727050617961626c65, false, 0x45727050617961626c654c696e654974656d73⟩, ⟨0x737461747573, 0x43494d31352e49454336313936382e436f6d6d6f6e2e537461747573, false, 0⟩]⟩
/-- Class CIM15.IEC61970.Informative.InfERPSupport.ErpPayment -/
def s_ErpPayment : SClass := ⟨0x4572705061796d656e74, 0x43494d31352e49454336313937302e496e666f726d61746976652e496e66455250537570706f72742e4572705061796d656e74, 0x43494d31352e49454336313936382e436f6d6d6f6e2e446f63756d656e74,
  [(0x7465726d735061796d656e74, t_EString)],
  [⟨0x4572705265634c696e654974656d73, 0x43494d31352e49454336313937302e496e666f726d61746976652e496e66455250537570706f72742e4572705265634c696e654974656d, true, 0x4572705061796d656e7473⟩, ⟨0x45727050617961626c654c696e654974656d73, 0x43494d31352e49454336313937302e496e666f726d61746976652e496e66455250537570706f72742e45727050617961626c654c696e654974656d, true, 0x4572705061796d656e7473⟩, ⟨0x457270496e766f6963654c696e654974656d73, 0x43494d31352e49454336313937302e496e666f726d61746976652e496e66455250537570706f72742e457270496e766f6963654c696e654974656d, true, 0x4572705061796d656e7473⟩]⟩
/-- Class CIM15.IEC61970.Informative.InfERPSupport.ErpPerson -/
def s_ErpPerson : SClass := ⟨0x457270506572736f6e, 0x43494d31352e49454336313937302e496e666f726d61746976652e496e66455250537570706f72742e457270506572736f6e, 0x43494d31352e49454336313937302e436f72652e4964656e7469666965644f626a656374,
  [(0x63617465676f7279, t_EString), (0x6c6173744e616d65, t_EString), (0x66697273744e616d65, t_EString), (0x676f7665726e6d656e744944, t_EString), (0x6d4e616d65, t_EString), (0x737566666978, t_EString), (0x7370656369616c4e656564, t_EString), (0x707265666978, t_EString)],
  [⟨0x536572766963654c6f636174696f6e, 0x43494d31352e49454336313936382e437573746f6d6572732e536572766963654c6f636174696f6e, false, 0x457270506572736f6e73⟩, ⟨0x4572704f7267616e69736174696f6e526f6c6573, 0x43494d31352e49454336313937302e496e666f726d61746976652e496e66455250537570706f72742e4f7267457270506572736f6e526f6c65, true, 0x457270506572736f6e⟩, ⟨0x4170706f696e746d656e7473, 0x43494d31352e49454336313937302e496e666f726d61746976652e496e66576f726b2e4170706f696e746d656e74, true, 0x457270506572736f6e73⟩, ⟨0x4372657773, 0x43494d31352e49454336313937302e496e666f726d61746976652e496e66576f726b2e43726577, true, 0x437265774d656d62657273⟩, ⟨0x4c61626f724974656d73, 0x43494d31352e49454336313937302e496e666f726d61746976652e496e66576f726b2e4c61626f724974656d, true, 0x457270506572736f6e73⟩, ⟨0x4c616e6450726f7065727479526f6c6573, 0x43494d31352e49454336313937302e496e666f726d61746976652e496e664c6f636174696f6e732e506572736f6e50726f7065727479526f6c65, true, 0x457270506572736f6e⟩, ⟨0x41637469766974795265636f726473, 0x43494d31352e49454336313936382e436f6d6d6f6e2e41637469766974795265636f7264, true, 0x457270506572736f6e73⟩, ⟨0x4d6561737572656d656e7456616c756573, 0x43494d31352e49454336313937302e4d6561732e4d6561737572656d656e7456616c7565, true, 0x457270506572736f6e⟩, ⟨0x536b696c6c73, 0x43494d31352e49454336313937302e496e666f726d61746976652e496e66436f6d6d6f6e2e536b696c6c, true, 0x457270506572736f6e⟩, ⟨0x6c616e646c696e6550686f6e65, 0x43494d31352e49454336313936382e436f6d6d6f6e2e54656c6570686f6e654e756d626572, false, 0⟩, ⟨0x6d6f62696c6550686f6e65, 0x43494d31352e49454336313936382e436f6d6d6f6e2e54656c6570686f6e654e756d626572, false, 0⟩, ⟨0x4368616e67654974656d73, 0x43494d31352e49454336313937302e496e666f726d61746976652e496e664f7065726174696f6e732e4368616e67654974656d, true, 0x457270506572736f6e⟩, ⟨0x737461747573, 0x43494d31352e49454336313936382e436f6d6d6f6e2e537461747573, false, 0⟩, ⟨0x446f63756d656e74526f6c6573, 0x43494d31352e49454336313937302e496e666f726d61746976652e496e66455250537570706f72742e446f63457270506572736f6e526f6c65, true, 0x457270506572736f6e⟩, ⟨0x457270506572736f6e6e656c, 0x43494d31352e49454336313937302e496e666f726d61746976652e496e66455250537570706f72742e457270506572736f6e6e656c, false, 0x457270506572736f6e73⟩, ⟨0x437261667473, 0x43494d31352e49454336313937302e496e666f726d61746976652e496e66436f6d6d6f6e2e4372616674, true, 0x457270506572736f6e73⟩, ⟨0x437573746f6d657244617461, 0x43494d31352e49454336313936382e437573746f6d6572732e437573746f6d6572, false, 0x457270506572736f6e73⟩, ⟨0x43616c6c4261636b73, 0x43494d31352e49454336313937302e496e666f726d61746976652e496e664f7065726174696f6e732e43616c6c4261636b, true, 0x457270506572736f6e73⟩, ⟨0x537769746368696e6753746570526f6c6573, 0x43494d31352e49454336313937302e496e666f726d61746976652e496e664f7065726174696f6e732e457270506572736f6e5363686564756c6553746570526f6c65, true, 0x457270506572736f6e⟩, ⟨0x656c656374726f6e696341646472657373, 0x43494d31352e49454336313936382e436f6d6d6f6e2e456c656374726f6e696341646472657373, false, 0⟩, ⟨0x457270436f6d706574656e6379, 0x43494d31352e49454336313937302e496e666f726d61746976652e496e66455250537570706f72742e457270436f6d706574656e6379, false, 0x457270506572736f6e73⟩]⟩
/-- Class CIM15.IEC61970.Informative.InfERPSupport.ErpPersonnel -/
def s_ErpPersonnel : SClass := ⟨0x457270506572736f6e6e656c, 0x43494d31352e49454336313937302e496e666f726d61746976652e496e66455250537570706f72742e457270506572736f6e6e656c, 0x43494d31352e49454336313937302e436f72652e4964656e7469666965644f626a656374,
  [],
  [⟨0x737461747573, 0x43494d31352e49454336313936382e436f6d6d6f6e2e537461747573, false, 0⟩, ⟨0x457270506572736f6e73, 0x43494d31352e49454336313937302e496e666f726d61746976652e496e66455250537570706f72742e457270506572736f6e, true, 0x457270506572736f6e6e656c⟩]⟩
/-- Class CIM15.IEC61970.Informative.InfERPSupport.ErpProjectAccounting -/
def s_ErpProjectAccounting : SClass := ⟨0x45727050726f6a6563744163636f756e74696e67, 0x43494d31352e49454336313937302e496e666f726d61746976652e496e66455250537570706f72742e45727050726f6a6563744163636f756e74696e67, 0x43494d31352e49454336313936382e436f6d6d6f6e2e446f63756d656e74,
  [],
  [⟨0x576f726b73, 0x43494d31352e49454336313936382e576f726b2e576f726b, true, 0x45727050726f6a6563744163636f756e74696e67⟩, ⟨0x50726f6a65637473, 0x43494d31352e49454336313937302e496e666f726d61746976652e496e66576f726b2e50726f6a656374, true, 0x45727050726f6a6563744163636f756e74696e67⟩, ⟨0x45727054696d65456e7472696573, 0x43494d31352e49454336313937302e496e666f726d61746976652e496e66455250537570706f72742e45727054696d65456e747279, true, 0x45727050726f6a6563744163636f756e74696e67⟩, ⟨0x576f726b436f737444657461696c73, 0x43494d31352e49454336313937302e496e666f726d61746976652e496e66576f726b2e576f726b436f737444657461696c, true, 0x45727050726f6a6563744163636f756e74696e67⟩]⟩
/-- Class CIM15.IEC61970.Informative.InfERPSupport.ErpPurchaseOrder -/
def s_ErpPurchaseOrder : SClass := ⟨0x45727050757263686173654f72646572, 0x43494d31352e49454336313937302e496e666f726d61746976652e496e66455250537570706f72742e45727050757263686173654f72646572, 0x43494d31352e49454336313936382e436f6d6d6f6e2e446f63756d656e74,
  [],
  [⟨0x457270504f4c696e654974656d73, 0x43494d31352e49454336313937302e496e666f726d61746976652e496e66455250537570706f72742e457270504f4c696e654974656d, true, 0x45727050757263686173654f72646572⟩]⟩
/-- Class CIM15.IEC61970.Informative.InfERPSupport.ErpQuote -/
def s_ErpQuote : SClass := ⟨0x45727051756f7465, 0x43494d31352e49454336313937302e496e666f726d61746976652e496e66455250537570706f72742e45727051756f7465, 0x43494d31352e49454336313936382e436f6d6d6f6e2e446f63756d656e74,
  [],
  [⟨0x45727051756f74654c696e654974656d73, 0x43494d31352e49454336313937302e496e666f726d61746976652e496e66455250537570706f72742e45727051756f74654c696e654974656d, true, 0x45727051756f7465⟩]⟩
/-- Class CIM15.IEC61970.Informative.InfERPSupport.ErpQuoteLineItem -/
def s_ErpQuoteLineItem : SClass := ⟨0x45727051756f74654c696e654974656d, 0x43494d31352e49454336313937302e496e666f726d61746976652e496e66455250537570706f72742e45727051756f74654c696e654974656d, 0x43494d31352e49454336313937302e436f72652e4964656e7469666965644f626a656374,
  [],
  [⟨0x45727051756f7465, 0x43494d31352e49454336313937302e496e666f726d61746976652e496e66455250537570706f72742e45727051756f7465, false, 0x45727051756f74654c696e654974656d73⟩, ⟨0x41737365744d6f64656c436174616c6f6775654974656d, 0x43494d31352e49454336313937302e496e666f726d61746976652e496e6641737365744d6f64656c732e41737365744d6f64656c436174616c6f6775654974656d, false, 0x45727051756f74654c696e654974656d73⟩, ⟨0x737461747573, 0x43494d31352e49454336313936382e436f6d6d6f6e2e537461747573, false, 0⟩, ⟨0x44657369676e, 0x43494d31352e49454336313937302e496e666f726d61746976652e496e66576f726b2e44657369676e, false, 0x45727051756f74654c696e654974656d⟩, ⟨0x457270496e766f6963654c696e654974656d, 0x43494d31352e49454336313937302e496e666f726d61746976652e496e66455250537570706f72742e457270496e766f6963654c696e654974656d, false, 0x45727051756f74654c696e654974656d⟩, ⟨0x4572705265714c696e654974656d, 0x43494d31352e49454336313937302e496e666f726d61746976652e496e66455250537570706f72742e4572705265714c696e654974656d, false, 0x45727051756f74654c696e654974656d⟩, ⟨0x52657175657374, 0x43494d31352e49454336313937302e496e666f726d61746976652e496e66576f726b2e52657175657374, false, 0x45727051756f74654c696e654974656d⟩]⟩
/-- Class CIM15.IEC61970.Informative.InfERPSupport.ErpRecDelvLineItem -/
def s_ErpRecDelvLineItem : SClass := ⟨0x45727052656344656c764c696e654974656d, 0x43494d31352e49454336313937302e496e666f726d61746976652e496e66455250537570706f72742e45727052656344656c764c696e654974656d, 0x43494d31352e49454336313937302e436f72652e4964656e7469666965644f626a656374,
  [],
  [⟨0x417373657473, 0x43494d31352e49454336313936382e4173736574732e4173736574, true, 0x45727052656344656c69766572794974656d73⟩, ⟨0x457270496e766f6963654c696e654974656d, 0x43494d31352e49454336313937302e496e666f726d61746976652e496e66455250537570706f72742e457270496e766f6963654c696e654974656d, false, 0x45727052656344656c764c696e654974656d⟩, ⟨0x737461747573, 0x43494d31352e49454336313936382e436f6d6d6f6e2e537461747573, false, 0⟩, ⟨0x4572705265636569766544656c6976657279, 0x43494d31352e49454336313937302e496e666f726d61746976652e496e66455250537570706f72742e4572705265636569766544656c6976657279, false, 0x45727052656344656c764c696e654974656d73⟩, ⟨0x4d6174657269616c4974656d73, 0x43494d31352e49454336313937302e496e666f726d61746976652e496e66576f726b2e4d6174657269616c4974656d, true, 0x45727052656344656c764c696e654974656d73⟩, ⟨0x457270504f4c696e654974656d, 0x43494d31352e49454336313937302e496e666f726d61746976652e496e66455250537570706f72742e457270504f4c696e654974656d, false, 0x45727052656344656c4c696e654974656d⟩]⟩
/-- Class CIM15.IEC61970.Informative.InfERPSupport.ErpRecLineItem -/
def s_ErpRecLineItem : SClass := ⟨0x4572705265634c696e654974656d, 0x43494d31352e49454336313937302e496e666f726d61746976652e496e66455250537570706f72742e4572705265634c696e654974656d, 0x43494d31352e49454336313937302e436f72652e4964656e7469666965644f626a656374,
  [],
  [⟨0x45727052656365697661626c65, 0x43494d31352e49454336313937302e496e666f726d61746976652e496e66455250537570706f72742e45727052656365697661626c65, false, 0x4572705265634c696e654974656d73⟩, ⟨0x737461747573, 0x43494d31352e49454336313936382e436f6d6d6f6e2e537461747573, false, 0⟩, ⟨0x457270496e766f6963654c696e654974656d, 0x43494d31352e49454336313937302e496e666f726d61746976652e496e66455250537570706f72742e457270496e766f6963654c696e654974656d, false, 0x4572705265634c696e654974656d⟩, ⟨0x4572705061796d656e7473, 0x43494d31352e49454336313937302e496e666f726d61746976652e496e66455250537570706f72742e4572705061796d656e74, true, 0x4572705265634c696e654974656d73⟩, ⟨0x4572704a6f75726e616c456e7472696573, 0x43494d31352e49454336313937302e496e666f726d61746976652e496e66455250537570706f72742e4572704a6f75726e616c456e747279, true, 0x4572705265634c696e654974656d73⟩]⟩
/-- Class CIM15.IEC61970.Informative.InfERPSupport.ErpReceivable -/
def s_ErpReceivable : SClass := ⟨0x45727052656365697661626c65, 0x43494d31352e49454336313937302e496e666f726d61746976652e496e66455250537570706f72742e45727052656365697661626c65, 0x43494d31352e49454336313936382e436f6d6d6f6e2e446f63756d656e74,
  [],
  [⟨0x4572705265634c696e654974656d73, 0x43494d31352e49454336313937302e496e666f726d61746976652e496e66455250537570706f72742e4572705265634c696e654974656d, true, 0x45727052656365697661626c65⟩]⟩
/-- Class CIM15.IEC61970.Informative.InfERPSupport.ErpReceiveDelivery -/
def s_ErpReceiveDelivery : SClass := ⟨0x4572705265636569766544656c6976657279, 0x43494d31352e49454336313937302e496e666f726d61746976652e496e66455250537570706f72742e4572705265636569766544656c6976657279, 0x43494d31352e49454336313936382e436f6d6d6f6e2e446f63756d656e74,
  [],
  [⟨0x45727052656344656c764c696e654974656d73, 0x43494d31352e49454336313937302e496e666f726d61746976652e496e66455250537570706f72742e45727052656344656c764c696e654974656d, true, 0x4572705265636569766544656c6976657279⟩]⟩
/-- Class CIM15.IEC61970.Informative.InfERPSupport.ErpReqLineItem -/
def s_ErpReqLineItem : SClass := ⟨0x4572705265714c696e654974656d, 0x43494d31352e49454336313937302e496e666f726d61746976652e496e66455250537570706f72742e4572705265714c696e654974656d, 0x43494d31352e49454336313937302e436f72652e4964656e7469666965644f626a656374,
  [(0x636f7374, t_float), (0x7175616e74697479, t_EInt), (0x64656c697665727944617465, t_java_lang_String), (0x636f6465, t_EString)],
  [⟨0x45727051756f74654c696e654974656d, 0x43494d31352e49454336313937302e496e666f726d61746976652e496e66455250537570706f72742e45727051756f74654c696e654974656d, false, 0x4572705265714c696e654974656d⟩, ⟨0x737461747573, 0x43494d31352e49454336313936382e436f6d6d6f6e2e537461747573, false, 0⟩, ⟨0x4572705265717569736974696f6e, 0x43494d31352e49454336313937302e496e666f726d61746976652e496e66455250537570706f72742e4572705265717569736974696f6e, false, 0x4572705265714c696e654974656d73⟩, ⟨0x547970654d6174657269616c, 0x43494d31352e49454336313937302e496e666f726d61746976652e496e66576f726b2e547970654d6174657269616c, false, 0x4572705265714c696e654974656d73⟩, ⟨0x457270504f4c696e654974656d, 0x43494d31352e49454336313937302e496e666f726d61746976652e496e66455250537570706f72742e457270504f4c696e654974656d, false, 0x4572705265714c696e654974656d⟩, ⟨0x547970654173736574, 0x43494d31352e49454336313937302e496e666f726d61746976652e496e664173736574732e47656e6572696341737365744d6f64656c4f724d6174657269616c, false, 0x4572705265714c696e654974656d73⟩]⟩
/-- Class CIM15.IEC61970.Informative.InfERPSupport.ErpRequisition -/
def s_ErpRequisition : SClass := ⟨0x4572705265717569736974696f6e, 0x43494d31352e49454336313937302e496e666f726d61746976652e496e66455250537570706f72742e4572705265717569736974696f6e, 0x43494d31352e49454336313936382e436f6d6d6f6e2e446f63756d656e74,
  [],
  [⟨0x4572705265714c696e654974656d73, 0x43494d31352e49454336313937302e496e666f726d61746976652e496e66455250537570706f72742e4572705265714c696e654974656d, true, 0x4572705265717569736974696f6e⟩]⟩
/-- Class CIM15.IEC61970.Informative.InfERPSupport.ErpSalesOrder -/
def s_ErpSalesOrder : SClass := ⟨0x45727053616c65734f72646572, 0x43494d31352e49454336313937302e496e666f726d61746976652e496e66455250537570706f72742e45727053616c65734f72646572, 0x43494d31352e49454336313936382e436f6d6d6f6e2e446f63756d656e74,
  [],
  []⟩
/-- Class CIM15.IEC61970.Informative.InfERPSupport.ErpSiteLevelData -/
def s_ErpSiteLevelData : SClass := ⟨0x457270536974654c6576656c44617461, 0x43494d31352e49454336313937302e496e666f726d61746976652e496e66455250537570706f72742e457270536974654c6576656c44617461, 0x43494d31352e49454336313937302e436f72652e4964656e7469666965644f626a656374,
  [],
  [⟨0x737461747573, 0x43494d31352e49454336313936382e436f6d6d6f6e2e537461747573, false, 0⟩, ⟨0x4c616e6450726f7065727479, 0x43494d31352e49454336313937302e496e666f726d61746976652e496e664c6f636174696f6e732e4c616e6450726f7065727479, false, 0x457270536974654c6576656c4461746173⟩]⟩
/-- Class CIM15.IEC61970.Informative.InfERPSupport.ErpTimeEntry -/
def s_ErpTimeEntry : SClass := ⟨0x45727054696d65456e747279, 0x43494d31352e49454336313937302e496e666f726d61746976652e496e66455250537570706f72742e45727054696d65456e747279, 0x43494d31352e49454336313937302e436f72652e4964656e7469666965644f626a656374,
  [],
  [⟨0x45727050726f6a6563744163636f756e74696e67, 0x43494d31352e49454336313937302e496e666f726d61746976652e496e66455250537570706f72742e45727050726f6a6563744163636f756e74696e67, false, 0x45727054696d65456e7472696573⟩, ⟨0x737461747573, 0x43494d31352e49454336313936382e436f6d6d6f6e2e537461747573, false, 0⟩, ⟨0x45727054696d655368656574, 0x43494d31352e49454336313937302e496e666f726d61746976652e496e66455250537570706f72742e45727054696d655368656574, false, 0x45727054696d65456e7472696573⟩]⟩
/-- Class CIM15.IEC61970.Informative.InfERPSupport.ErpTimeSheet -/
def s_ErpTimeSheet : SClass := ⟨0x45727054696d655368656574, 0x43494d31352e49454336313937302e496e666f726d61746976652e496e66455250537570706f72742e45727054696d655368656574, 0x43494d31352e49454336313936382e436f6d6d6f6e2e446f63756d656e74,
  [],
  [⟨0x45727054696d65456e7472696573, 0x43494d31352e49454336313937302e496e666f726d61746976652e496e66455250537570706f72742e45727054696d65456e747279, true, 0x45727054696d655368656574⟩]⟩
/-- Class CIM15.IEC61970.Informative.InfERPSupport.OrgErpPersonRole -/
def s_OrgErpPersonRole : SClass := ⟨0x4f7267457270506572736f6e526f6c65, 0x43494d31352e49454336313937302e496e666f726d61746976652e496e66455250537570706f72742e4f7267457270506572736f6e526f6c65, 0x43494d31352e49454336313937302e496e666f726d61746976652e496e66436f6d6d6f6e2e526f6c65,
  [(0x636c69656e744944, t_EString)],
  [⟨0x457270506572736f6e, 0x43494d31352e49454336313937302e496e666f726d61746976652e496e66455250537570706f72742e457270506572736f6e, false, 0x4572704f7267616e69736174696f6e526f6c6573⟩, ⟨0x4572704f7267616e69736174696f6e, 0x43494d31352e49454336313937302e496e666f726d61746976652e496e66455250537570706f72742e4572704f7267616e69736174696f6e, false, 0x457270506572736f6e526f6c6573⟩]⟩
/-- Class CIM15.IEC61970.Informative.InfERPSupport.OrgOrgRole -/
def s_OrgOrgRole : SClass := ⟨0x4f72674f7267526f6c65, 0x43494d31352e49454336313937302e496e666f726d61746976652e496e66455250537570706f72742e4f72674f7267526f6c65, 0x43494d31352e49454336313937302e496e666f726d61746976652e496e66436f6d6d6f6e2e526f6c65,
  [(0x636c69656e744944, t_EString)],
  [⟨0x506172656e744f7267616e69736174696f6e, 0x43494d31352e49454336313937302e496e666f726d61746976652e496e66455250537570706f72742e4572704f7267616e69736174696f6e, false, 0x4368696c644f7267616e69736174696f6e526f6c6573⟩, ⟨0x4368696c644f7267616e69736174696f6e, 0x43494d31352e49454336313937302e496e666f726d61746976652e496e66455250537570706f72742e4572704f7267616e69736174696f6e, false, 0x506172656e744f7267616e69736174696f6e526f6c6573⟩]⟩
/-- Class CIM15.IEC61970.Informative.InfGMLSupport.Diagram -/
def s_Diagram : SClass := ⟨0x4469616772616d, 0x43494d31352e49454336313937302e496e666f726d61746976652e496e66474d4c537570706f72742e4469616772616d, 0x43494d31352e49454336313936382e436f6d6d6f6e2e446f63756d656e74,
  [(0x7931496e697469616c56696577, t_EFloat), (0x6b696e64, e_DiagramKind), (0x7832496e697469616c56696577, t_EFloat), (0x7831496e697469616c56696577, t_EFloat), (0x6f7269656e746174696f6e, e_OrientationKind), (0x7932496e697469616c56696577, t_EFloat)],
  [⟨0x4469616772616d4f626a65637473, 0x43494d31352e49454336313937302e47726170686963732e4469616772616d4f626a656374, true, 0x4469616772616d⟩, ⟨0x436f6f7264696e61746553797374656d, 0x43494d31352e49454336313936382e436f6d6d6f6e2e436f6f7264696e61746553797374656d, false, 0x4469616772616d73⟩, ⟨0x476d6c4469616772616d4f626a65637473, 0x43494d31352e49454336313937302e496e666f726d61746976652e496e66474d4c537570706f72742e476d6c4469616772616d4f626a656374, true, 0x4469616772616d73⟩, ⟨0x44657369676e4c6f636174696f6e73, 0x43494d31352e49454336313937302e496e666f726d61746976652e496e66576f726b2e44657369676e4c6f636174696f6e, true, 0x4469616772616d73⟩]⟩
/-- Class CIM15.IEC61970.Informative.InfGMLSupport.GmlBaseSymbol -/
def s_GmlBaseSymbol : SClass := ⟨0x476d6c4261736553796d626f6c, 0x43494d31352e49454336313937302e496e666f726d61746976652e496e66474d4c537570706f72742e476d6c4261736553796d626f6c, 0x43494d31352e49454336313937302e436f72652e4964656e7469666965644f626a656374,
  [],
  [⟨0x476d6c53796d626f6c73, 0x43494d31352e49454336313937302e496e666f726d61746976652e496e66474d4c537570706f72742e476d6c53796d626f6c, true, 0x476d6c4261736553796d626f6c⟩]⟩
/-- Class CIM15.IEC61970.Informative.InfGMLSupport.GmlColour -/
def s_GmlColour : SClass := ⟨0x476d6c436f6c6f7572, 0x43494d31352e49454336313937302e496e666f726d61746976652e496e66474d4c537570706f72742e476d6c436f6c6f7572, 0x43494d31352e49454336313937302e436f72652e4964656e7469666965644f626a656374,
  [(0x726564, t_EString), (0x677265656e, t_EString), (0x626c7565, t_EString)],
  [⟨0x476d6c46696c6c73, 0x43494d31352e49454336313937302e496e666f726d61746976652e496e66474d4c537570706f72742e476d6c46696c6c, true, 0x476d6c436f6c6f7572⟩, ⟨0x476d6c466f6e7473, 0x43494d31352e49454336313937302e496e666f726d61746976652e496e66474d4c537570706f72742e476d6c466f6e74, true, 0x476d6c436f6c6f7572⟩, ⟨0x476d6c5374726f6b6573, 0x43494d31352e49454336313937302e496e666f726d61746976652e496e66474d4c537570706f72742e476d6c5374726f6b65, true, 0x476d6c436f6c6f7572⟩]⟩
/-- Class CIM15.IEC61970.Informative.InfGMLSupport.GmlDiagramObject -/
def s_GmlDiagramObject : SClass := ⟨0x476d6c4469616772616d4f626a656374, 0x43494d31352e49454336313937302e496e666f726d61746976652e496e66474d4c537570706f72742e476d6c4469616772616d4f626a656374, 0x43494d31352e49454336313937302e436f72652e4964656e7469666965644f626a656374,
  [],
  [⟨0x476d6c53656c6563746f7273, 0x43494d31352e49454336313937302e496e666f726d61746976652e496e66474d4c537570706f72742e476d6c53656c6563746f72, true, 0x476d6c4469616772616d4f626a65637473⟩, ⟨0x4469616772616d73, 0x43494d31352e49454336313937302e496e666f726d61746976652e496e66474d4c537570706f72742e4469616772616d, true, 0x476d6c4469616772616d4f626a65637473⟩, ⟨0x436f6f7264696e61746553797374656d73, 0x43494d31352e49454336313936382e436f6d6d6f6e2e436f6f7264696e61746553797374656d, true, 0x476d6c4469616772616d4f626a65637473⟩, ⟨0x476d6c506f696e7453796d626f6c73, 0x43494d31352e49454336313937302e496e666f726d61746976652e496e66474d4c537570706f72742e476d6c506f696e7453796d626f6c, true, 0x476d6c4469616772616d4f626a656374⟩, ⟨0x476d6c4c696e6553796d626f6c73, 0x43494d31352e49454336313937302e496e666f726d61746976652e496e66474d4c537570706f72742e476d6c4c696e6553796d626f6c, true, 0x476d6c4469616772616d4f626a656374⟩, ⟨0x476d6c52617374657253796d626f6c73, 0x43494d31352e49454336313937302e496e666f726d61746976652e496e66474d4c537570706f72742e476d6c52617374657253796d626f6c, true, 0x476d6c4469616772616d4f626a656374⟩, ⟨0x476d6c4f62736572766174696e73, 0x43494d31352e49454336313937302e496e666f726d61746976652e496e66474d4c537570706f72742e476d6c4f62736572766174696f6e, true, 0x476d6c4469616772616d4f626a65637473⟩, ⟨0x476d6c5465787453796d626f6c73, 0x43494d31352e49454336313937302e496e666f726d61746976652e496e66474d4c537570706f72742e476d6c5465787453796d626f6c, true, 0x476d6c4469616772616d4f626a656374⟩, ⟨0x476d6c506f6c79676f6e53796d626f6c73, 0x43494d31352e49454336313937302e496e666f726d61746976652e496e66474d4c537570706f72742e476d6c506f6c79676f6e53796d626f6c, true, 0x476d6c4469616772616d4f626a656374⟩]⟩
/-- Class CIM15.IEC61970.Informative.InfGMLSupport.GmlFeatureStyle -/
def s_GmlFeatureStyle : SClass := ⟨0x476d6c466561747572655374796c65, 0x43494d31352e49454336313937302e496e666f726d61746976652e496e66474d4c537570706f72742e476d6c466561747572655374796c65, 0x43494d31352e49454336313937302e436f72652e4964656e7469666965644f626a656374,
  [(0x73656d616e746963547970654964656e746966696572, t_EString), (0x6665617475726554797065, t_EString), (0x76657273696f6e, t_EString), (0x66656174757265547970654e616d65, t_EString), (0x66656174757265436f6e73747261696e74, t_EString), (0x6261736554797065, t_EString), (0x71756572794772616d6d6172, e_QueryGrammarKind)],
  [⟨0x476d6c47656f6d657472795374796c6573, 0x43494d31352e49454336313937302e496e666f726d61746976652e496e66474d4c537570706f72742e476d6c47656f6d657472795374796c65, true, 0x476d6c466561747572655374796c65⟩, ⟨0x476d6c53796d626f6c73, 0x43494d31352e49454336313937302e496e666f726d61746976652e496e66474d4c537570706f72742e476d6c53796d626f6c, true, 0x476d6c466561747572655374796c6573⟩, ⟨0x476d6c546f626f6c6f67795374796c6573, 0x43494d31352e49454336313937302e496e666f726d61746976652e496e66474d4c537570706f72742e476d6c546f706f6c6f67795374796c65, true, 0x476d6c466561747572655374796c65⟩, ⟨0x476d6c4c6162656c5374796c6573, 0x43494d31352e49454336313937302e496e666f726d61746976652e496e66474d4c537570706f72742e476d6c4c6162656c5374796c65, true, 0x476d6c466561747572655374796c65⟩, ⟨0x476d6c466561747572655479706573, 0x43494d31352e49454336313937302e496e666f726d61746976652e496e66474d4c537570706f72742e476d6c4665617475726554797065, true, 0x476d6c466561747572655374796c6573⟩]⟩
/-- Class CIM15.IEC61970.Informative.InfGMLSupport.GmlFeatureType -/
def s_GmlFeatureType : SClass := ⟨0x476d6c4665617475726554797065, 0x43494d31352e49454336313937302e496e666f726d61746976652e496e66474d4c537570706f72742e476d6c4665617475726554797065, 0x43494d31352e49454336313937302e436f72652e4964656e7469666965644f626a656374,
  [],
  [⟨0x476d6c466561747572655374796c6573, 0x43494d31352e49454336313937302e496e666f726d61746976652e496e66474d4c537570706f72742e476d6c466561747572655374796c65, true, 0x476d6c466561747572655479706573⟩]⟩
/-- Class CIM15.IEC61970.Informative.InfGMLSupport.GmlFill -/
def s_GmlFill : SClass := ⟨0x476d6c46696c6c, 0x43494d31352e49454336313937302e496e666f726d61746976652e496e66474d4c537570706f72742e476d6c46696c6c, 0x43494d31352e49454336313937302e436f72652e4964656e7469666965644f626a656374,
  [(0x6f706163697479, t_EFloat)],
  [⟨0x476d6c436f6c6f7572, 0x43494d31352e49454336313937302e496e666f726d61746976652e496e66474d4c537570706f72742e476d6c436f6c6f7572, false, 0x476d6c46696c6c73⟩, ⟨0x476d6c4d61726b73, 0x43494d31352e49454336313937302e496e666f726d61746976652e496e66474d4c537570706f72742e476d6c4d61726b, true, 0x476d6c46496c6c73⟩, ⟨0x476d6c5465787453796d626f6c73, 0x43494d31352e49454336313937302e496e666f726d61746976652e496e66474d4c537570706f72742e476d6c5465787453796d626f6c, true, 0x476d6c46696c6c⟩, ⟨0x476d6c537667506172616d6574657273, 0x43494d31352e49454336313937302e496e666f726d61746976652e496e66474d4c537570706f72742e476d6c537667506172616d65746572, true, 0x476d6c46696c6c73⟩, ⟨0x476d6c506f6c79676f6e53796d626f6c73, 0x43494d31352e49454336313937302e496e666f726d61746976652e496e66474d4c537570706f72742e476d6c506f6c79676f6e53796d626f6c, true, 0x476d6c46696c6c⟩]⟩
/-- Class CIM15.IEC61970.Informative.InfGMLSupport.GmlFont -/
def s_GmlFont : SClass := ⟨0x476d6c466f6e74, 0x43494d31352e49454336313937302e496e666f726d61746976652e496e66474d4c537570706f72742e476d6c466f6e74, 0x43494d31352e49454336313937302e436f72652e4964656e7469666965644f626a656374,
  [(0x6162736f6c75746553697a65, t_EBoolean), (0x73697a65, t_EString), (0x7374796c65, t_EString), (0x66616d696c79, t_EString), (0x776569676874, t_EString)],
  [⟨0x476d6c5465787453796d626f6c73, 0x43494d31352e49454336313937302e496e666f726d61746976652e496e66474d4c537570706f72742e476d6c5465787453796d626f6c, true, 0x476d6c466f6e74⟩, ⟨0x476d6c537667506172616d6574657273, 0x43494d31352e49454336313937302e496e666f726d61746976652e496e66474d4c537570706f72742e476d6c537667506172616d65746572, true, 0x476d6c466f6e7473⟩, ⟨0x476d6c436f6c6f7572, 0x43494d31352e49454336313937302e496e666f726d61746976652e496e66474d4c537570706f72742e476d6c436f6c6f7572, false, 0x476d6c466f6e7473⟩]⟩
/-- Class CIM15.IEC61970.Informative.InfGMLSupport.GmlGeometryStyle -/
def s_GmlGeometryStyle : SClass := ⟨0x476d6c47656f6d657472795374796c65, 0x43494d31352e49454336313937302e496e666f726d61746976652e496e66474d4c537570706f72742e476d6c47656f6d657472795374796c65, 0x43494d31352e49454336313937302e436f72652e4964656e7469666965644f626a656374,
  [(0x67656f6d6574727950726f7065727479, t_EString), (0x67656f6d6574727954797065, t_EString), (0x73796d626f6c, t_EString)],
  [⟨0x476d6c466561747572655374796c65, 0x43494d31352e49454336313937302e496e666f726d61746976652e496e66474d4c537570706f72742e476d6c466561747572655374796c65, false, 0x476d6c47656f6d657472795374796c6573⟩, ⟨0x476d6c4c6162656c5374796c65, 0x43494d31352e49454336313937302e496e666f726d61746976652e496e66474d4c537570706f72742e476d6c4c6162656c5374796c65, false, 0x476d6c47656f6d657472795374796c6573⟩]⟩
/-- Class CIM15.IEC61970.Informative.InfGMLSupport.GmlGraphic -/
def s_GmlGraphic : SClass := ⟨0x476d6c47726170686963, 0x43494d31352e49454336313937302e496e666f726d61746976652e496e66474d4c537570706f72742e476d6c47726170686963, 0x43494d31352e49454336313937302e436f72652e4964656e7469666965644f626a656374,
  [(0x726f746174696f6e, t_float), (0x73697a65, t_EInt), (0x73796d626f6c4944, t_EString), (0x6d696e53697a65, t_EInt), (0x6f706163697479, t_EFloat), (0x785363616c65, t_EFloat), (0x795363616c65, t_EFloat)],
  [⟨0x476d6c4d61726b73, 0x43494d31352e49454336313937302e496e666f726d61746976652e496e66474d4c537570706f72742e476d6c4d61726b, true, 0x476d6c4772617068696373⟩, ⟨0x476d6c506f696e7453796d626f6c73, 0x43494d31352e49454336313937302e496e666f726d61746976652e496e66474d4c537570706f72742e476d6c506f696e7453796d626f6c, true, 0x476d6c47726170686963⟩]⟩
/-- Class CIM15.IEC61970.Informative.InfGMLSupport.GmlHalo -/
def s_GmlHalo : SClass := ⟨0x476d6c48616c6f, 0x43494d31352e49454336313937302e496e666f726d61746976652e496e66474d4c537570706f72742e476d6c48616c6f, 0x43494d31352e49454336313937302e436f72652e4964656e7469666965644f626a656374,
  [(0x726164697573, t_EString), (0x6f706163697479, t_EFloat)],
  [⟨0x476d6c5465787453796d626f6c73, 0x43494d31352e49454336313937302e496e666f726d61746976652e496e66474d4c537570706f72742e476d6c5465787453796d626f6c, true, 0x476d6c48616c6f⟩]⟩
/-- Class CIM15.IEC61970.Informative.InfGMLSupport.GmlLabelPlacement -/
def s_GmlLabelPlacement : SClass := ⟨0x476d6c4c6162656c506c6163656d656e74, 0x43494d31352e49454336313937302e496e666f726d61746976652e496e66474d4c537570706f72742e476d6c4c6162656c506c6163656d656e74, 0x43494d31352e49454336313937302e436f72652e4964656e7469666965644f626a656374,
  [(0x646973706c6163656d656e7458, t_EString), (0x726f746174696f6e, t_EString), (0x646973706c6163656d656e7459, t_EString), (0x74797065, t_EString), (0x616e63686f7258, t_EString), (0x616e63686f7259, t_EString), (0x6f6666736574, t_EString)],
  [⟨0x476d6c5465787453796d626f6c73, 0x43494d31352e49454336313937302e496e666f726d61746976652e496e66474d4c537570706f72742e476d6c5465787453796d626f6c, true, 0x476d6c4c6162656c506c6163656d656e74⟩]⟩
/-- Class CIM15.IEC61970.Informative.InfGMLSupport.GmlLabelStyle -/
def s_GmlLabelStyle : SClass := ⟨0x476d6c4c6162656c5374796c65, 0x43494d31352e49454336313937302e496e666f726d61746976652e496e66474d4c537570706f72742e476d6c4c6162656c5374796c65, 0x43494d31352e49454336313937302e436f72652e4964656e7469666965644f626a656374,
  [(0x7472616e73666f726d, t_EString), (0x6c6162656c45787072657373696f6e, t_EString), (0x7374796c65, t_EString)],
  [⟨0x476d6c546f706f6c6f67795374796c6573, 0x43494d31352e49454336313937302e496e666f726d61746976652e496e66474d4c537570706f72742e476d6c546f706f6c6f67795374796c65, true, 0x476d6c4c61626c655374796c65⟩, ⟨0x476d6c47656f6d657472795374796c6573, 0x43494d31352e49454336313937302e496e666f726d61746976652e496e66474d4c537570706f72742e476d6c47656f6d657472795374796c65, true, 0x476d6c4c6162656c5374796c65⟩, ⟨0x476d6c466561747572655374796c65, 0x43494d31352e49454336313937302e496e666f726d61746976652e496e66474d4c537570706f72742e476d6c466561747572655374796c65, false, 0x476d6c4c6162656c5374796c6573⟩]⟩
/-- Class CIM15.IEC61970.Informative.InfGMLSupport.GmlLineGeometry -/
def s_GmlLineGeometry : SClass := ⟨0x476d6c4c696e6547656f6d65747279, 0x43494d31352e49454336313937302e496e666f726d61746976652e496e66474d4c537570706f72742e476d6c4c696e6547656f6d65747279, 0x43494d31352e49454336313937302e496e666f726d61746976652e496e66474d4c537570706f72742e476d6c4469616772616d4f626a656374,
  [(0x736f7572636553696465, t_EString)],
  []⟩
/-- Class CIM15.IEC61970.Informative.InfGMLSupport.GmlLineSymbol -/
def s_GmlLineSymbol : SClass := ⟨0x476d6c4c696e6553796d626f6c, 0x43494d31352e49454336313937302e496e666f726d61746976652e496e66474d4c537570706f72742e476d6c4c696e6553796d626f6c, 0x43494d31352e49454336313937302e496e666f726d61746976652e496e66474d4c537570706f72742e476d6c53796d626f6c,
  [(0x736f7572636553696465, t_EString)],
  [⟨0x476d6c5374726f6b65, 0x43494d31352e49454336313937302e496e666f726d61746976652e496e66474d4c537570706f72742e476d6c5374726f6b65, false, 0x476d6c4c696e6553796d626f6c73⟩, ⟨0x476d6c4469616772616d4f626a656374, 0x43494d31352e49454336313937302e496e666f726d61746976652e496e66474d4c537570706f72742e476d6c4469616772616d4f626a656374, false, 0x476d6c4c696e6553796d626f6c73⟩]⟩
/-- Class CIM15.IEC61970.Informative.InfGMLSupport.GmlMark -/
def s_GmlMark : SClass := ⟨0x476d6c4d61726b, 0x43494d31352e49454336313937302e496e666f726d61746976652e496e66474d4c537570706f72742e476d6c4d61726b, 0x43494d31352e49454336313937302e436f72652e4964656e7469666965644f626a656374,
  [(0x77656c6c4b6e6f776e4e616d65, t_EString)],
  [⟨0x476d6c4772617068696373, 0x43494d31352e49454336313937302e496e666f726d61746976652e496e66474d4c537570706f72742e476d6c47726170686963, true, 0x476d6c4d61726b73⟩, ⟨0x476d6c5374726f6b6573, 0x43494d31352e49454336313937302e496e666f726d61746976652e496e66474d4c537570706f72742e476d6c5374726f6b65, true, 0x476d6c4d61726b73⟩, ⟨0x476d6c46496c6c73, 0x43494d31352e49454336313937302e496e666f726d61746976652e496e66474d4c537570706f72742e476d6c46696c6c, true, 0x476d6c4d61726b73⟩]⟩
/-- Class CIM15.IEC61970.Informative.InfGMLSupport.GmlObservation -/
def s_GmlObservation : SClass := ⟨0x476d6c4f62736572766174696f6e, 0x43494d31352e49454336313937302e496e666f726d61746976652e496e66474d4c537570706f72742e476d6c4f62736572766174696f6e, 0x43494d31352e456c656d656e74,
  [(0x726573756c744f66, t_EString), (0x746172676574, t_EString), (0x7573696e67, t_EString), (0x6461746554696d65, t_java_util_Date)],
  [⟨0x476d6c4469616772616d4f626a65637473, 0x43494d31352e49454336313937302e496e666f726d61746976652e496e66474d4c537570706f72742e476d6c4469616772616d4f626a656374, true, 0x476d6c4f62736572766174696e73⟩, ⟨0x4368616e67654974656d73, 0x43494d31352e49454336313937302e496e666f726d61746976652e496e664f7065726174696f6e732e4368616e67654974656d, true, 0x476d6c4f62736572766174696f6e⟩, ⟨0x476d6c56616c756573, 0x43494d31352e49454336313937302e496e666f726d61746976652e496e66474d4c537570706f72742e476d6c56616c7565, true, 0x476d6c4f62736572766174696f6e⟩]⟩
/-- Class CIM15.IEC61970.Informative.InfGMLSupport.GmlPointGeometry -/
def s_GmlPointGeometry : SClass := ⟨0x476d6c506f696e7447656f6d65747279, 0x43494d31352e49454336313937302e496e666f726d61746976652e496e66474d4c537570706f72742e476d6c506f696e7447656f6d65747279, 0x43494d31352e49454336313937302e496e666f726d61746976652e496e66474d4c537570706f72742e476d6c4469616772616d4f626a656374,
  [],
  []⟩
/-- Class CIM15.IEC61970.Informative.InfGMLSupport.GmlPointSymbol -/
def s_GmlPointSymbol : SClass := ⟨0x476d6c506f696e7453796d626f6c, 0x43494d31352e49454336313937302e496e666f726d61746976652e496e66474d4c537570706f72742e476d6c506f696e7453796d626f6c, 0x43494d31352e49454336313937302e496e666f726d61746976652e496e66474d4c537570706f72742e476d6c53796d626f6c,
  [],
  [⟨0x476d6c47726170686963, 0x43494d31352e49454336313937302e496e666f726d61746976652e496e66474d4c537570706f72742e476d6c47726170686963, false, 0x476d6c506f696e7453796d626f6c73⟩, ⟨0x476d6c4469616772616d4f626a656374, 0x43494d31352e49454336313937302e496e666f726d61746976652e496e66474d4c537570706f72742e476d6c4469616772616d4f626a656374, false, 0x476d6c506f696e7453796d626f6c73⟩]⟩
/-- Class CIM15.IEC61970.Informative.InfGMLSupport.GmlPolygonGeometry -/
def s_GmlPolygonGeometry : SClass := ⟨0x476d6c506f6c79676f6e47656f6d65747279, 0x43494d31352e49454336313937302e496e666f726d61746976652e496e66474d4c537570706f72742e476d6c506f6c79676f6e47656f6d65747279, 0x43494d31352e49454336313937302e496e666f726d61746976652e496e66474d4c537570706f72742e476d6c4469616772616d4f626a656374,
  [],
  []⟩
/-- Class CIM15.IEC61970.Informative.InfGMLSupport.GmlPolygonSymbol -/
def s_GmlPolygonSymbol : SClass := ⟨0x476d6c506f6c79676f6e53796d626f6c, 0x43494d31352e49454336313937302e496e666f726d61746976652e496e66474d4c537570706f72742e476d6c506f6c79676f6e53796d626f6c, 0x43494d31352e49454336313937302e496e666f726d61746976652e496e66474d4c537570706f72742e476d6c53796d626f6c,
  [],
  [⟨0x476d6c4469616772616d4f626a656374, 0x43494d31352e49454336313937302e496e666f726d61746976652e496e66474d4c537570706f72742e476d6c4469616772616d4f626a656374, false, 0x476d6c506f6c79676f6e53796d626f6c73⟩, ⟨0x476d6c46696c6c, 0x43494d31352e49454336313937302e496e666f726d61746976652e496e66474d4c537570706f72742e476d6c46696c6c, false, 0x476d6c506f6c79676f6e53796d626f6c73⟩, ⟨0x476d6c5374726f6b65, 0x43494d31352e49454336313937302e496e666f726d61746976652e496e66474d4c537570706f72742e476d6c5374726f6b65, false, 0x476d6c506f6c79676f6e53796d626f6c73⟩]⟩
/-- Class CIM15.IEC61970.Informative.InfGMLSupport.GmlPosition -/
def s_GmlPosition : SClass := ⟨0x476d6c506f736974696f6e, 0x43494d31352e49454336313937302e496e666f726d61746976652e496e66474d4c537570706f72742e476d6c506f736974696f6e, 0x43494d31352e49454336313936382e436f6d6d6f6e2e506f736974696f6e506f696e74,
  [],
  []⟩
/-- Class CIM15.IEC61970.Informative.InfGMLSupport.GmlRasterSymbol -/
def s_GmlRasterSymbol : SClass := ⟨0x476d6c52617374657253796d626f6c, 0x43494d31352e49454336313937302e496e666f726d61746976652e496e66474d4c537570706f72742e476d6c52617374657253796d626f6c, 0x43494d31352e49454336313937302e496e666f726d61746976652e496e66474d4c537570706f72742e476d6c53796d626f6c,
  [(0x67726179536f757263656e616d65, t_EString), (0x677265656e536f757263654e616d65, t_EString), (0x6f706163697479, t_EFloat), (0x72656c696566466163746f72, t_EString), (0x726564536f757263656e616d65, t_EString), (0x6f7665726c61706265686176696f7572, t_EString), (0x62726967686e6573734f6e6c79, t_EBoolean), (0x626c7565536f757263656e616d65, t_EString)],
  [⟨0x476d6c4469616772616d4f626a656374, 0x43494d31352e49454336313937302e496e666f726d61746976652e496e66474d4c537570706f72742e476d6c4469616772616d4f626a656374, false, 0x476d6c52617374657253796d626f6c73⟩]⟩
/-- Class CIM15.IEC61970.Informative.InfGMLSupport.GmlSelector -/
def s_GmlSelector : SClass := ⟨0x476d6c53656c6563746f72, 0x43494d31352e49454336313937302e496e666f726d61746976652e496e66474d4c537570706f72742e476d6c53656c6563746f72, 0x43494d31352e49454336313937302e436f72652e4964656e7469666965644f626a656374,
  [],
  [⟨0x4368616e67654974656d73, 0x43494d31352e49454336313937302e496e666f726d61746976652e496e664f7065726174696f6e732e4368616e67654974656d, true, 0x476d6c53656c6563746f72⟩, ⟨0x476d6c4469616772616d4f626a65637473, 0x43494d31352e49454336313937302e496e666f726d61746976652e496e66474d4c537570706f72742e476d6c4469616772616d4f626a656374, true, 0x476d6c53656c6563746f7273⟩]⟩
/-- Class CIM15.IEC61970.Informative.InfGMLSupport.GmlStroke -/
def s_GmlStroke : SClass := ⟨0x476d6c5374726f6b65, 0x43494d31352e49454336313937302e496e666f726d61746976652e496e66474d4c537570706f72742e476d6c5374726f6b65, 0x43494d31352e49454336313937302e436f72652e4964656e7469666965644f626a656374,
  [(0x6c696e65436170, t_EString), (0x7769647468, t_EFloat), (0x6c696e656a6f696e, t_EString), (0x646173684172726179, t_EString), (0x6c696e655374796c65, t_EString), (0x646173684f6666736574, t_EString), (0x6f706163697479, t_EFloat)],
  [⟨0x476d6c436f6c6f7572, 0x43494d31352e49454336313937302e496e666f726d61746976652e496e66474d4c537570706f72742e476d6c436f6c6f7572, false, 0x476d6c5374726f6b6573⟩, ⟨0x476d6c506f6c79676f6e53796d626f6c73, 0x43494d31352e49454336313937302e496e666f726d61746976652e496e66474d4c537570706f72742e476d6c506f6c79676f6e53796d626f6c, true, 0x476d6c5374726f6b65⟩, ⟨0x476d6c4d61726b73, 0x43494d31352e49454336313937302e496e666f726d61746976652e496e66474d4c537570706f72742e476d6c4d61726b, true, 0x476d6c5374726f6b6573⟩, ⟨0x476d6c537667506172616d6574657273, 0x43494d31352e49454336313937302e496e666f726d61746976652e496e66474d4c537570706f72742e476d6c537667506172616d65746572, true, 0x476d6c53746f6b6573⟩, ⟨0x476d6c4c696e6553796d626f6c73, 0x43494d31352e49454336313937302e496e666f726d61746976652e496e66474d4c537570706f72742e476d6c4c696e6553796d626f6c, true, 0x476d6c5374726f6b65⟩]⟩
/-- Class CIM15.IEC61970.Informative.InfGMLSupport.GmlSvgParameter -/
def s_GmlSvgParameter : SClass := ⟨0x476d6c537667506172616d65746572, 0x43494d31352e49454336313937302e496e666f726d61746976652e496e66474d4c537570706f72742e476d6c537667506172616d65746572, 0x43494d31352e49454336313937302e436f72652e4964656e7469666965644f626a656374,
  [(0x617474726962757465, t_EString), (0x76616c7565, t_EString)],
  [⟨0x476d6c53746f6b6573, 0x43494d31352e49454336313937302e496e666f726d61746976652e496e66474d4c537570706f72742e476d6c5374726f6b65, true, 0x476d6c537667506172616d6574657273⟩, ⟨0x476d6c466f6e7473, 0x43494d31352e49454336313937302e496e666f726d61746976652e496e66474d4c537570706f72742e476d6c466f6e74, true, 0x476d6c537667506172616d6574657273⟩, ⟨0x476d6c46696c6c73, 0x43494d31352e49454336313937302e496e666f726d61746976652e496e66474d4c537570706f72742e476d6c46696c6c, true, 0x476d6c537667506172616d6574657273⟩]⟩
/-- Class CIM15.IEC61970.Informative.InfGMLSupport.GmlSymbol -/
def s_GmlSymbol : SClass := ⟨0x476d6c53796d626f6c, 0x43494d31352e49454336313937302e496e666f726d61746976652e496e66474d4c537570706f72742e476d6c53796d626f6c, 0x43494d31352e49454336313937302e436f72652e4964656e7469666965644f626a656374,
  [(0x76657273696f6e, t_EString), (0x6c6576656c, t_EString), (0x74797065, t_EString)],
  [⟨0x476d6c466561747572655374796c6573, 0x43494d31352e49454336313937302e496e666f726d61746976652e496e66474d4c537570706f72742e476d6c466561747572655374796c65, true, 0x476d6c53796d626f6c73⟩, ⟨0x476d6c4261736553796d626f6c, 0x43494d31352e49454336313937302e496e666f726d61746976652e496e66474d4c537570706f72742e476d6c4261736553796d626f6c, false, 0x476d6c53796d626f6c73⟩]⟩
/-- Class CIM15.IEC61970.Informative.InfGMLSupport.GmlTextSymbol -/
def s_GmlTextSymbol : SClass := ⟨0x476d6c5465787453796d626f6c, 0x43494d31352e49454336313937302e496e666f726d61746976652e496e66474d4c537570706f72742e476d6c5465787453796d626f6c, 0x43494d31352e49454336313937302e496e666f726d61746976652e496e66474d4c537570706f72742e476d6c53796d626f6c,
  [(0x6c6162656c, t_EString), (0x6c6162656c54797065, t_EString), (0x6669656c644944, t_EString), (0x6d696e466f6e7453697a65, t_EInt), (0x70726f7065727479, t_EString)],
  [⟨0x476d6c46696c6c, 0x43494d31352e49454336313937302e496e666f726d61746976652e496e66474d4c537570706f72742e476d6c46696c6c, false, 0x476d6c5465787453796d626f6c73⟩, ⟨0x476d6c4c6162656c506c6163656d656e74, 0x43494d31352e49454336313937302e496e666f726d61746976652e496e66474d4c537570706f72742e476d6c4c6162656c506c6163656d656e74, false, 0x476d6c5465787453796d626f6c73⟩, ⟨0x476d6c48616c6f, 0x43494d31352e49454336313937302e496e666f726d61746976652e496e66474d4c537570706f72742e476d6c48616c6f, false, 0x476d6c5465787453796d626f6c73⟩, ⟨0x476d6c466f6e74, 0x43494d31352e49454336313937302e496e666f726d61746976652e496e66474d4c537570706f72742e476d6c466f6e74, false, 0x476d6c5465787453796d626f6c73⟩, ⟨0x476d6c4469616772616d4f626a656374, 0x43494d31352e49454336313937302e496e666f726d61746976652e496e66474d4c537570706f72742e476d6c4469616772616d4f626a656374, false, 0x476d6c5465787453796d626f6c73⟩]⟩
/-- Class CIM15.IEC61970.Informative.InfGMLSupport.GmlTopologyStyle -/
def s_GmlTopologyStyle : SClass := ⟨0x476d6c546f706f6c6f67795374796c65, 0x43494d31352e49454336313937302e496e666f726d61746976652e496e66474d4c537570706f72742e476d6c546f706f6c6f67795374796c65, 0x43494d31352e49454336313937302e436f72652e4964656e7469666965644f626a656374,
  [],
  [⟨0x476d6c4c61626c655374796c65, 0x43494d31352e49454336313937302e496e666f726d61746976652e496e66474d4c537570706f72742e476d6c4c6162656c5374796c65, false, 0x476d6c546f706f6c6f67795374796c6573⟩, ⟨0x476d6c466561747572655374796c65, 0x43494d31352e49454336313937302e496e666f726d61746976652e496e66474d4c537570706f72742e476d6c466561747572655374796c65, false, 0x476d6c546f626f6c6f67795374796c6573⟩]⟩
/-- Class CIM15.IEC61970.Informative.InfGMLSupport.GmlValue -/
def s_GmlValue : SClass := ⟨0x476d6c56616c7565, 0x43494d31352e49454336313937302e496e666f726d61746976652e496e66474d4c537570706f72742e476d6c56616c7565, 0x43494d31352e49454336313937302e436f72652e4964656e7469666965644f626a656374,
  [(0x6461746554696d65, t_java_util_Date), (0x74696d65506572696f64, t_EString), (0x76616c7565, t_float)],
  [⟨0x476d6c4f62736572766174696f6e, 0x43494d31352e49454336313937302e496e666f726d61746976652e496e66474d4c537570706f72742e476d6c4f62736572766174696f6e, false, 0x476d6c56616c756573⟩, ⟨0x4d6561737572656d656e7456616c7565, 0x43494d31352e49454336313937302e4d6561732e4d6561737572656d656e7456616c7565, false, 0x476d6c56616c756573⟩]⟩
/-- Class CIM15.IEC61970.Informative.InfGMLSupport.Map -/
def s_Map : SClass := ⟨0x4d6170, 0x43494d31352e49454336313937302e496e666f726d61746976652e496e66474d4c537570706f72742e4d6170, 0x43494d31352e49454336313937302e496e666f726d61746976652e496e66474d4c537570706f72742e4469616772616d,
  [(0x706167654e756d626572, t_EInt), (0x6d61704c6f6347726964, t_EString)],
  []⟩
/-- Class CIM15.IEC61970.Informative.InfLoadControl.LoadLimitFunction -/
def s_LoadLimitFunction : SClass := ⟨0x4c6f61644c696d697446756e6374696f6e, 0x43494d31352e49454336313937302e496e666f726d61746976652e496e664c6f6164436f6e74726f6c2e4c6f61644c696d697446756e6374696f6e, 0x43494d31352e49454336313937302e496e666f726d61746976652e496e664c6f6164436f6e74726f6c2e4c6f61644d676d7446756e6374696f6e,
  [(0x646973636f6e6e65637454696d6544656c6179, t_float), (0x69734175746f5265636f6e4f70, t_EBoolean), (0x7265636f6e6e65637454696d6544656c6179, t_float), (0x6d6178696d756d4c6f6164, t_float)],
  []⟩
/-- Class CIM15.IEC61970.Informative.InfLoadControl.LoadMgmtFunction -/
def s_LoadMgmtFunction : SClass := ⟨0x4c6f61644d676d7446756e6374696f6e, 0x43494d31352e49454336313937302e496e666f726d61746976652e496e664c6f6164436f6e74726f6c2e4c6f61644d676d7446756e6374696f6e, 0x43494d31352e49454336313936382e4d65746572696e672e456e6444657669636546756e6374696f6e,
  [(0x7363686564756c696e674261736973, e_LoadMgmtKind), (0x72656d6f74654f76657252696465, t_EBoolean), (0x69734175746f4f70, t_EBoolean), (0x6c6f6164537461747573, e_LoadStateKind), (0x6d616e75616c4f76657252696465, t_EBoolean), (0x6f7665725269646554696d654f7574, t_float)],
  [⟨0x5377697463686573, 0x43494d31352e49454336313937302e57697265732e537769746368, true, 0x4c6f61644d676d7446756e6374696f6e73⟩, ⟨0x4c6f61644d676d745265636f726473, 0x43494d31352e49454336313937302e496e666f726d61746976652e496e664c6f6164436f6e74726f6c2e4c6f61644d676d745265636f7264, true, 0x4c6f61644d676d7446756e6374696f6e⟩]⟩
/-- Class CIM15.IEC61970.Informative.InfLoadControl.LoadMgmtRecord -/
def s_LoadMgmtRecord : SClass := ⟨0x4c6f61644d676d745265636f7264, 0x43494d31352e49454336313937302e496e666f726d61746976652e496e664c6f6164436f6e74726f6c2e4c6f61644d676d745265636f7264, 0x43494d31352e49454336313936382e436f6d6d6f6e2e41637469766974795265636f7264,
  [(0x6c6f6164526564756374696f6e, t_float)],
  [⟨0x4c6f61644d676d7446756e6374696f6e, 0x43494d31352e49454336313937302e496e666f726d61746976652e496e664c6f6164436f6e74726f6c2e4c6f61644d676d7446756e6374696f6e, false, 0x4c6f61644d676d745265636f726473⟩]⟩
/-- Class CIM15.IEC61970.Informative.InfLoadControl.LoadShedFunction -/
def s_LoadShedFunction : SClass := ⟨0x4c6f61645368656446756e6374696f6e, 0x43494d31352e49454336313937302e496e666f726d61746976652e496e664c6f6164436f6e74726f6c2e4c6f61645368656446756e6374696f6e, 0x43494d31352e49454336313937302e496e666f726d61746976652e496e664c6f6164436f6e74726f6c2e4c6f61644d676d7446756e6374696f6e,
  [(0x73776974636865644c6f6164, t_float)],
  []⟩
/-- Class CIM15.IEC61970.Informative.InfLocations.Direction -/
def s_Direction : SClass := ⟨0x446972656374696f6e, 0x43494d31352e49454336313937302e496e666f726d61746976652e496e664c6f636174696f6e732e446972656374696f6e, 0x43494d31352e456c656d656e74,
  [(0x646972656374696f6e496e666f, t_EString)],
  [⟨0x4c6f636174696f6e, 0x43494d31352e49454336313936382e436f6d6d6f6e2e4c6f636174696f6e, false, 0x446972656374696f6e73⟩]⟩
/-- Class CIM15.IEC61970.Informative.InfLocations.Hazard -/
def s_Hazard : SClass := ⟨0x48617a617264, 0x43494d31352e49454336313937302e496e666f726d61746976652e496e664c6f636174696f6e732e48617a617264, 0x43494d31352e49454336313937302e436f72652e4964656e7469666965644f626a656374,
  [(0x63617465676f7279, t_EString)],
  [⟨0x4c6f636174696f6e73, 0x43494d31352e49454336313936382e436f6d6d6f6e2e4c6f636174696f6e, true, 0x48617a61726473⟩, ⟨0x737461747573, 0x43494d31352e49454336313936382e436f6d6d6f6e2e537461747573, false, 0⟩]⟩
/-- Class CIM15.IEC61970.Informative.InfLocations.LandProperty -/
def s_LandProperty : SClass := ⟨0x4c616e6450726f7065727479, 0x43494d31352e49454336313937302e496e666f726d61746976652e496e664c6f636174696f6e732e4c616e6450726f7065727479, 0x43494d31352e49454336313937302e436f72652e4964656e7469666965644f626a656374,
  [(0x6b696e64, e_LandPropertyKind), (0x65787465726e616c5265636f72645265666572656e6365, t_EString), (0x64656d6f677261706869634b696e64, e_DemographicKind)],
  [⟨0x737461747573, 0x43494d31352e49454336313936382e436f6d6d6f6e2e537461747573, false, 0⟩, ⟨0x4c6f636174696f6e4772616e7473, 0x43494d31352e49454336313937302e496e666f726d61746976652e496e664c6f636174696f6e732e4c6f636174696f6e4772616e74, true, 0x4c616e6450726f7065727479⟩, ⟨0x457270536974654c6576656c4461746173, 0x43494d31352e49454336313937302e496e666f726d61746976652e496e66455250537570706f72742e457270536974654c6576656c44617461, true, 0x4c616e6450726f7065727479⟩, ⟨0x457270506572736f6e526f6c6573, 0x43494d31352e49454336313937302e496e666f726d61746976652e496e664c6f636174696f6e732e506572736f6e50726f7065727479526f6c65, true, 0x4c616e6450726f7065727479⟩, ⟨0x4572704f7267616e69736174696f6e526f6c6573, 0x43494d31352e49454336313937302e496e666f726d61746976652e496e664c6f636174696f6e732e4f726750726f7065727479526f6c65, true, 0x4c616e6450726f7065727479⟩, ⟨0x4173736574436f6e7461696e657273, 0x43494d31352e49454336313936382e4173736574732e4173736574436f6e7461696e6572, true, 0x4c616e6450726f70657274696573⟩, ⟨0x4c6f636174696f6e73, 0x43494d31352e49454336313936382e436f6d6d6f6e2e4c6f636174696f6e, true, 0x4c616e6450726f70657274696573⟩, ⟨0x52696768744f6657617973, 0x43494d31352e49454336313937302e496e666f726d61746976652e496e664c6f636174696f6e732e52696768744f66576179, true, 0x4c616e6450726f70657274696573⟩]⟩
/-- Class CIM15.IEC61970.Informative.InfLocations.LocationGrant -/
def s_LocationGrant : SClass := ⟨0x4c6f636174696f6e4772616e74, 0x43494d31352e49454336313937302e496e666f726d61746976652e496e664c6f636174696f6e732e4c6f636174696f6e4772616e74, 0x43494d31352e49454336313936382e436f6d6d6f6e2e41677265656d656e74,
  [(0x70726f706572747944617461, t_EString)],
  [⟨0x4c616e6450726f7065727479, 0x43494d31352e49454336313937302e496e666f726d61746976652e496e664c6f636174696f6e732e4c616e6450726f7065727479, false, 0x4c6f636174696f6e4772616e7473⟩]⟩
/-- Class CIM15.IEC61970.Informative.InfLocations.OrgPropertyRole -/
def s_OrgPropertyRole : SClass := ⟨0x4f726750726f7065727479526f6c65, 0x43494d31352e49454336313937302e496e666f726d61746976652e496e664c6f636174696f6e732e4f726750726f7065727479526f6c65, 0x43494d31352e49454336313937302e496e666f726d61746976652e496e66436f6d6d6f6e2e526f6c65,
  [],
  [⟨0x4c616e6450726f7065727479, 0x43494d31352e49454336313937302e496e666f726d61746976652e496e664c6f636174696f6e732e4c616e6450726f7065727479, true, 0x4572704f7267616e69736174696f6e526f6c6573⟩, ⟨0x4572704f7267616e69736174696f6e, 0x43494d31352e49454336313937302e496e666f726d61746976652e496e66455250537570706f72742e4572704f7267616e69736174696f6e, false, 0x4c616e6450726f7065727479526f6c6573⟩]⟩
/-- Class CIM15.IEC61970.Informative.InfLocations.PersonPropertyRole -/
def s_PersonPropertyRole : SClass := ⟨0x506572736f6e50726f7065727479526f6c65, 0x43494d31352e49454336313937302e496e666f726d61746976652e496e664c6f636174696f6e732e506572736f6e50726f7065727479526f6c65, 0x43494d31352e49454336313937302e496e666f726d61746976652e496e66436f6d6d6f6e2e526f6c65,
  [],
  [⟨0x457270506572736f6e, 0x43494d31352e49454336313937302e496e666f726d61746976652e496e66455250537570706f72742e457270506572736f6e, false, 0x4c616e6450726f7065727479526f6c6573⟩, ⟨0x4c616e6450726f7065727479, 0x43494d31352e49454336313937302e496e666f726d61746976652e496e664c6f636174696f6e732e4c616e6450726f7065727479, false, 0x457270506572736f6e526f6c6573⟩]⟩
/-- Class CIM15.IEC61970.Informative.InfLocations.RedLine -/
def s_RedLine : SClass := ⟨0x5265644c696e65, 0x43494d31352e49454336313937302e496e666f726d61746976652e496e664c6f636174696f6e732e5265644c696e65, 0x43494d31352e49454336313937302e436f72652e4964656e7469666965644f626a656374,
  [],
  [⟨0x4c6f636174696f6e73, 0x43494d31352e49454336313936382e436f6d6d6f6e2e4c6f636174696f6e, true, 0x5265644c696e6573⟩, ⟨0x737461747573, 0x43494d31352e49454336313936382e436f6d6d6f6e2e537461747573, false, 0⟩]⟩
/-- Class CIM15.IEC61970.Informative.InfLocations.RightOfWay -/
def s_RightOfWay : SClass := ⟨0x52696768744f66576179, 0x43494d31352e49454336313937302e496e666f726d61746976652e496e664c6f636174696f6e732e52696768744f66576179, 0x43494d31352e49454336313936382e436f6d6d6f6e2e41677265656d656e74,
  [(0x70726f706572747944617461, t_EString)],
  [⟨0x4c616e6450726f70657274696573, 0x43494d31352e49454336313937302e496e666f726d61746976652e496e664c6f636174696f6e732e4c616e6450726f7065727479, true, 0x52696768744f6657617973⟩]⟩
/-- Class CIM15.IEC61970.Informative.InfLocations.Route -/
def s_Route : SClass := ⟨0x526f757465, 0x43494d31352e49454336313937302e496e666f726d61746976652e496e664c6f636174696f6e732e526f757465, 0x43494d31352e49454336313937302e436f72652e4964656e7469666965644f626a656374,
  [(0x63617465676f7279, t_EString)],
  [⟨0x4372657773, 0x43494d31352e49454336313937302e496e666f726d61746976652e496e66576f726b2e43726577, true, 0x526f757465⟩, ⟨0x737461747573, 0x43494d31352e49454336313936382e436f6d6d6f6e2e537461747573, false, 0⟩, ⟨0x4c6f636174696f6e73, 0x43494d31352e49454336313936382e436f6d6d6f6e2e4c6f636174696f6e, true, 0x526f75746573⟩]⟩
/-- Class CIM15.IEC61970.Informative.InfLocations.Zone -/
def s_Zone : SClass := ⟨0x5a6f6e65, 0x43494d31352e49454336313937302e496e666f726d61746976652e496e664c6f636174696f6e732e5a6f6e65, 0x43494d31352e49454336313936382e436f6d6d6f6e2e4c6f636174696f6e,
  [(0x6b696e64, e_ZoneKind)],
  []⟩
/-- Class CIM15.IEC61970.Informative.InfMetering.GasMeteringFunction -/
def s_GasMeteringFunction : SClass := ⟨0x4761734d65746572696e6746756e6374696f6e, 0x43494d31352e49454336313937302e496e666f726d61746976652e496e664d65746572696e672e4761734d65746572696e6746756e6374696f6e, 0x43494d31352e49454336313936382e4d65746572696e672e456e6444657669636546756e6374696f6e,
  [],
  []⟩
/-- Class CIM15.IEC61970.Informative.InfMetering.WaterMeteringFunction -/
def s_WaterMeteringFunction : SClass := ⟨0x57617465724d65746572696e6746756e6374696f6e, 0x43494d31352e49454336313937302e496e666f726d61746976652e496e664d65746572696e672e57617465724d65746572696e6746756e6374696f6e, 0x43494d31352e49454336313936382e4d65746572696e672e456e6444657669636546756e6374696f6e,
  [],
  []⟩
/-- Class CIM15.IEC61970.Informative.InfOperations.CallBack -/
def s_CallBack : SClass := ⟨0x43616c6c4261636b, 0x43494d31352e49454336313937302e496e666f726d61746976652e496e664f7065726174696f6e732e43616c6c4261636b, 0x43494d31352e49454336313937302e436f72652e4964656e7469666965644f626a656374,
  [(0x6461746554696d65, t_java_util_Date), (0x636f6d6d656e74, t_EString), (0x616476696365, t_EString), (0x636f6e7461637444657461696c, t_EString), (0x70726f626c656d496e666f, t_EString)],
  [⟨0x4170706f696e746d656e7473, 0x43494d31352e49454336313937302e496e666f726d61746976652e496e66576f726b2e4170706f696e746d656e74, true, 0x43616c6c4261636b⟩, ⟨0x457270506572736f6e73, 0x43494d31352e49454336313937302e496e666f726d61746976652e496e66455250537570706f72742e457270506572736f6e, true, 0x43616c6c4261636b73⟩, ⟨0x54726f75626c655469636b657473, 0x43494d31352e49454336313937302e496e666f726d61746976652e496e664f7065726174696f6e732e54726f75626c655469636b6574, true, 0x43616c6c4261636b73⟩, ⟨0x737461747573, 0x43494d31352e49454336313936382e436f6d6d6f6e2e537461747573, false, 0⟩]⟩
/-- Class CIM15.IEC61970.Informative.InfOperations.ChangeItem -/
def s_ChangeItem : SClass := ⟨0x4368616e67654974656d, 0x43494d31352e49454336313937302e496e666f726d61746976652e496e664f7065726174696f6e732e4368616e67654974656d, 0x43494d31352e49454336313937302e436f72652e4964656e7469666965644f626a656374,
  [(0x73657175656e63654e756d626572, t_EInt), (0x6b696e64, e_ChangeItemKind)],
  [⟨0x476d6c53656c6563746f72, 0x43494d31352e49454336313937302e496e666f726d61746976652e496e66474d4c537570706f72742e476d6c53656c6563746f72, false, 0x4368616e67654974656d73⟩, ⟨0x4f7267616e69736174696f6e, 0x43494d31352e49454336313937302e496e666f726d61746976652e496e66455250537570706f72742e4572704f7267616e69736174696f6e, false, 0x4368616e67654974656d73⟩, ⟨0x446f63756d656e74, 0x43494d31352e49454336313936382e436f6d6d6f6e2e446f63756d656e74, false, 0x4368616e67654974656d73⟩, ⟨0x4173736574, 0x43494d31352e49454336313936382e4173736574732e4173736574, false, 0x4368616e67654974656d73⟩, ⟨0x737461747573, 0x43494d31352e49454336313936382e436f6d6d6f6e2e537461747573, false, 0⟩, ⟨0x476d6c4f62736572766174696f6e, 0x43494d31352e49454336313937302e496e666f726d61746976652e496e66474d4c537570706f72742e476d6c4f62736572766174696f6e, false, 0x4368616e67654974656d73⟩, ⟨0x457270506572736f6e, 0x43494d31352e49454336313937302e496e666f726d61746976652e496e66455250537570706f72742e457270506572736f6e, false, 0x4368616e67654974656d73⟩, ⟨0x506f77657253797374656d5265736f75726365, 0x43494d31352e49454336313937302e436f72652e506f77657253797374656d5265736f75726365, false, 0x4368616e67654974656d73⟩, ⟨0x4368616e6765536574, 0x43494d31352e49454336313937302e496e666f726d61746976652e496e664f7065726174696f6e732e4368616e6765536574, false, 0x4368616e67654974656d73⟩, ⟨0x4c6f636174696f6e, 0x43494d31352e49454336313936382e436f6d6d6f6e2e4c6f636174696f6e, false, 0x4368616e67654974656d73⟩, ⟨0x4e6574776f726b44617461536574, 0x43494d31352e49454336313937302e496e666f726d61746976652e496e664f7065726174696f6e732e4e6574776f726b44617461536574, false, 0x4368616e67654974656d73⟩]⟩
/-- Class CIM15.IEC61970.Informative.InfOperations.ChangeSet -/
def s_ChangeSet : SClass := ⟨0x4368616e6765536574, 0x43494d31352e49454336313937302e496e666f726d61746976652e496e664f7065726174696f6e732e4368616e6765536574, 0x43494d31352e49454336313937302e436f72652e4964656e7469666965644f626a656374,
  [],
  [⟨0x4e6574776f726b4461746153657473, 0x43494d31352e49454336313937302e496e666f726d61746976652e496e664f7065726174696f6e732e4e6574776f726b44617461536574, true, 0x4368616e676553657473⟩, ⟨0x4368616e67654974656d73, 0x43494d31352e49454336313937302e496e666f726d61746976652e496e664f7065726174696f6e732e4368616e67654974656d, true, 0x4368616e6765536574⟩, ⟨0x737461747573, 0x43494d31352e49454336313936382e436f6d6d6f6e2e537461747573, false, 0⟩, ⟨0x446f63756d656e7473, 0x43494d31352e49454336313936382e436f6d6d6f6e2e446f63756d656e74, true, 0x4368616e676553657473⟩]⟩
/-- Class CIM15.IEC61970.Informative.InfOperations.Circuit -/
def s_Circuit : SClass := ⟨0x43697263756974, 0x43494d31352e49454336313937302e496e666f726d61746976652e496e664f7065726174696f6e732e43697263756974, 0x43494d31352e49454336313937302e436f72652e45717569706d656e74436f6e7461696e6572,
  [],
  [⟨0x4369726375697453656374696f6e73, 0x43494d31352e49454336313937302e496e666f726d61746976652e496e664f7065726174696f6e732e4369726375697453656374696f6e, true, 0x4369726375697473⟩]⟩
/-- Class CIM15.IEC61970.Informative.InfOperations.CircuitSection -/
def s_CircuitSection : SClass := ⟨0x4369726375697453656374696f6e, 0x43494d31352e49454336313937302e496e666f726d61746976652e496e664f7065726174696f6e732e4369726375697453656374696f6e, 0x43494d31352e49454336313937302e436f72652e4964656e7469666965644f626a656374,
  [(0x636f6e6e656374696f6e4b696e64, e_CircuitConnectionKind)],
  [⟨0x436f6e647563746f72417373657473, 0x43494d31352e49454336313937302e496e666f726d61746976652e496e664173736574732e436f6e647563746f724173736574, true, 0x4369726375697453656374696f6e⟩, ⟨0x4369726375697473, 0x43494d31352e49454336313937302e496e666f726d61746976652e496e664f7065726174696f6e732e43697263756974, true, 0x4369726375697453656374696f6e73⟩]⟩
/-- Class CIM15.IEC61970.Informative.InfOperations.ErpPersonScheduleStepRole -/
def s_ErpPersonScheduleStepRole : SClass := ⟨0x457270506572736f6e5363686564756c6553746570526f6c65, 0x43494d31352e49454336313937302e496e666f726d61746976652e496e664f7065726174696f6e732e457270506572736f6e5363686564756c6553746570526f6c65, 0x43494d31352e49454336313937302e496e666f726d61746976652e496e66436f6d6d6f6e2e526f6c65,
  [],
  [⟨0x457270506572736f6e, 0x43494d31352e49454336313937302e496e666f726d61746976652e496e66455250537570706f72742e457270506572736f6e, false, 0x537769746368696e6753746570526f6c6573⟩, ⟨0x537769746368696e6753746570, 0x43494d31352e49454336313937302e496e666f726d61746976652e496e664f7065726174696f6e732e537769746368696e6753746570, false, 0x457270506572736f6e526f6c65⟩]⟩
/-- Class CIM15.IEC61970.Informative.InfOperations.IncidentCode -/
def s_IncidentCode : SClass := ⟨0x496e636964656e74436f6465, 0x43494d31352e49454336313937302e496e666f726d61746976652e496e664f7065726174696f6e732e496e636964656e74436f6465, 0x43494d31352e49454336313937302e436f72652e4964656e7469666965644f626a656374,
  [(0x737562436f6465, t_EString)],
  [⟨0x496e636964656e745265636f726473, 0x43494d31352e49454336313937302e496e666f726d61746976652e496e664f7065726174696f6e732e496e636964656e745265636f7264, true, 0x496e636964656e74436f646573⟩]⟩
/-- Class CIM15.IEC61970.Informative.InfOperations.IncidentRecord -/
def s_IncidentRecord : SClass := ⟨0x496e636964656e745265636f7264, 0x43494d31352e49454336313937302e496e666f726d61746976652e496e664f7065726174696f6e732e496e636964656e745265636f7264, 0x43494d31352e49454336313936382e436f6d6d6f6e2e446f63756d656e74,
  [],
  [⟨0x54726f75626c655469636b657473, 0x43494d31352e49454336313937302e496e666f726d61746976652e496e664f7065726174696f6e732e54726f75626c655469636b6574, true, 0x496e636964656e745265636f7264⟩, ⟨0x706572696f64, 0x43494d31352e49454336313937302e446f6d61696e2e4461746554696d65496e74657276616c, false, 0⟩, ⟨0x496e636964656e74436f646573, 0x43494d31352e49454336313937302e496e666f726d61746976652e496e664f7065726174696f6e732e496e636964656e74436f6465, true, 0x496e636964656e745265636f726473⟩]⟩
/-- Class CIM15.IEC61970.Informative.InfOperations.LandBase -/
def s_LandBase : SClass := ⟨0x4c616e6442617365, 0x43494d31352e49454336313937302e496e666f726d61746976652e496e664f7065726174696f6e732e4c616e6442617365, 0x43494d31352e49454336313936382e436f6d6d6f6e2e446f63756d656e74,
  [],
  []⟩
/-- Class CIM15.IEC61970.Informative.InfOperations.NetworkDataSet -/
def s_NetworkDataSet : SClass := ⟨0x4e6574776f726b44617461536574, 0x43494d31352e49454336313937302e496e666f726d61746976652e496e664f7065726174696f6e732e4e6574776f726b44617461536574, 0x43494d31352e49454336313937302e436f72652e4964656e7469666965644f626a656374,
  [(0x63617465676f7279, t_EString)],
  [⟨0x737461747573, 0x43494d31352e49454336313936382e436f6d6d6f6e2e537461747573, false, 0⟩, ⟨0x446f63756d656e7473, 0x43494d31352e49454336313936382e436f6d6d6f6e2e446f63756d656e74, true, 0x4e6574776f726b4461746153657473⟩, ⟨0x4368616e67654974656d73, 0x43494d31352e49454336313937302e496e666f726d61746976652e496e664f7065726174696f6e732e4368616e67654974656d, true, 0x4e6574776f726b44617461536574⟩, ⟨0x4368616e676553657473, 0x43494d31352e49454336313937302e496e666f726d61746976652e496e664f7065726174696f6e732e4368616e6765536574, true, 0x4e6574776f726b4461746153657473⟩, ⟨0x506f77657253797374656d5265736f7572636573, 0x43494d31352e49454336313937302e436f72652e506f77657253797374656d5265736f75726365, true, 0x4e6574776f726b4461746153657473⟩]⟩
/-- Class CIM15.IEC61970.Informative.InfOperations.OperationalRestriction -/
def s_OperationalRestriction : SClass := ⟨0x4f7065726174696f6e616c5265737472696374696f6e, 0x43494d31352e49454336313937302e496e666f726d61746976652e496e664f7065726174696f6e732e4f7065726174696f6e616c5265737472696374696f6e, 0x43494d31352e49454336313936382e436f6d6d6f6e2e446f63756d656e74,
  [],
  [⟨0x616374697665506572696f64, 0x43494d31352e49454336313937302e446f6d61696e2e4461746554696d65496e74657276616c, false, 0⟩]⟩
/-- Class CIM15.IEC61970.Informative.InfOperations.OrgPsrRole -/
def s_OrgPsrRole : SClass := ⟨0x4f7267507372526f6c65, 0x43494d31352e49454336313937302e496e666f726d61746976652e496e664f7065726174696f6e732e4f7267507372526f6c65, 0x43494d31352e49454336313937302e496e666f726d61746976652e496e66436f6d6d6f6e2e526f6c65,
  [],
  [⟨0x4572704f7267616e69736174696f6e, 0x43494d31352e49454336313937302e496e666f726d61746976652e496e66455250537570706f72742e4572704f7267616e69736174696f6e, false, 0x506f77657253797374656d5265736f75726365526f6c6573⟩, ⟨0x506f77657253797374656d5265736f75726365, 0x43494d31352e49454336313937302e436f72652e506f77657253797374656d5265736f75726365, false, 0x4572704f7267616e69736174696f6e526f6c6573⟩]⟩
/-- Class CIM15.IEC61970.Informative.InfOperations.OutageCode -/
def s_OutageCode : SClass := ⟨0x4f7574616765436f6465, 0x43494d31352e49454336313937302e496e666f726d61746976652e496e664f7065726174696f6e732e4f7574616765436f6465, 0x43494d31352e49454336313937302e436f72652e4964656e7469666965644f626a656374,
  [(0x737562436f6465, t_EString)],
  [⟨0x4f75746167655265636f726473, 0x43494d31352e49454336313937302e496e666f726d61746976652e496e664f7065726174696f6e732e4f75746167655265636f7264, true, 0x4f7574616765436f646573⟩, ⟨0x4f75746167655374657073, 0x43494d31352e49454336313937302e496e666f726d61746976652e496e664f7065726174696f6e732e4f757461676553746570, true, 0x4f7574616765436f646573⟩]⟩
/-- Class CIM15.IEC61970.Informative.InfOperations.OutageNotification -/
def s_OutageNotification : SClass := ⟨0x4f75746167654e6f74696669636174696f6e, 0x43494d31352e49454336313937302e496e666f726d61746976652e496e664f7065726174696f6e732e4f75746167654e6f74696669636174696f6e, 0x43494d31352e49454336313936382e436f6d6d6f6e2e446f63756d656e74,
  [(0x6578706563746564496e74657272757074696f6e436f756e74, t_EInt), (0x6475726174696f6e, t_float), (0x726561736f6e, t_EString)],
  [⟨0x437573746f6d65724461746173, 0x43494d31352e49454336313936382e437573746f6d6572732e437573746f6d6572, true, 0x4f75746167654e6f74696669636174696f6e73⟩]⟩
/-- Class CIM15.IEC61970.Informative.InfOperations.OutageRecord -/
def s_OutageRecord : SClass := ⟨0x4f75746167655265636f7264, 0x43494d31352e49454336313937302e496e666f726d61746976652e496e664f7065726174696f6e732e4f75746167655265636f7264, 0x43494d31352e49454336313936382e436f6d6d6f6e2e446f63756d656e74,
  [(0x656e644461746554696d65, t_java_util_Date), (0x6973506c616e6e6564, t_EBoolean), (0x64616d616765436f6465, t_EString), (0x616374696f6e54616b656e, t_EString), (0x6d6f6465, t_EString)],
  [⟨0x4f7574616765436f646573, 0x43494d31352e49454336313937302e496e666f726d61746976652e496e664f7065726174696f6e732e4f7574616765436f6465, true, 0x4f75746167655265636f726473⟩, ⟨0x4f75746167655265706f7274, 0x43494d31352e49454336313937302e496e666f726d61746976652e496e664f7065726174696f6e732e4f75746167655265706f7274, false, 0x4f75746167655265636f7264⟩, ⟨0x4f75746167655374657073, 0x43494d31352e49454336313937302e496e666f726d61746976652e496e664f7065726174696f6e732e4f757461676553746570, true, 0x4f75746167655265636f7264⟩]⟩
/-- Class CIM15.IEC61970.Informative.InfOperations.OutageReport -/
def s_OutageReport : SClass := ⟨0x4f75746167655265706f7274, 0x43494d31352e49454336313937302e496e666f726d61746976652e496e664f7065726174696f6e732e4f75746167655265706f7274, 0x43494d31352e49454336313936382e436f6d6d6f6e2e446f63756d656e74,
  [(0x637573746f6d6572436f756e74, t_EInt), (0x61766572616765436d6c, t_float), (0x6f75746167654475726174696f6e, t_float), (0x746f74616c436d6c, t_float)],
  [⟨0x4f75746167655265636f7264, 0x43494d31352e49454336313937302e496e666f726d61746976652e496e664f7065726174696f6e732e4f75746167655265636f7264, false, 0x4f75746167655265706f7274⟩, ⟨0x4f7574616765486973746f7279, 0x43494d31352e49454336313937302e496e666f726d61746976652e496e66437573746f6d6572732e4f7574616765486973746f7279, false, 0x4f75746167655265706f727473⟩]⟩
/-- Class CIM15.IEC61970.Informative.InfOperations.OutageStep -/
def s_OutageStep : SClass := ⟨0x4f757461676553746570, 0x43494d31352e49454336313937302e496e666f726d61746976652e496e664f7065726174696f6e732e4f757461676553746570, 0x43494d31352e49454336313937302e436f72652e4964656e7469666965644f626a656374,
  [(0x61766572616765436d6c, t_float), (0x64616d616765, t_EBoolean), (0x7370656369616c437573746f6d6572436f756e74, t_EInt), (0x637269746963616c437573746f6d6572436f756e74, t_EInt), (0x657374696d61746564526573746f72654461746554696d65, t_java_util_Date), (0x73686f636b5265706f72746564, t_EBoolean), (0x63616c6c6572436f756e74, t_EInt), (0x666174616c697479, t_EBoolean), (0x6a6f625072696f72697479, t_EString), (0x746f74616c437573746f6d6572436f756e74, t_EInt), (0x696e6a757279, t_EBoolean), (0x746f74616c436d6c, t_float)],
  [⟨0x4372657773, 0x43494d31352e49454336313937302e496e666f726d61746976652e496e66576f726b2e43726577, true, 0x4f75746167655374657073⟩, ⟨0x6e6f506f776572496e74657276616c, 0x43494d31352e49454336313937302e446f6d61696e2e4461746554696d65496e74657276616c, false, 0⟩, ⟨0x436f6e64756374696e6745717569706d656e74526f6c6573, 0x43494d31352e49454336313937302e496e666f726d61746976652e496e664f7065726174696f6e732e4f757461676553746570507372526f6c65, true, 0x4f757461676553746570⟩, ⟨0x737461747573, 0x43494d31352e49454336313936382e436f6d6d6f6e2e537461747573, false, 0⟩, ⟨0x4f75746167655265636f7264, 0x43494d31352e49454336313937302e496e666f726d61746976652e496e664f7065726174696f6e732e4f75746167655265636f7264, false, 0x4f75746167655374657073⟩, ⟨0x4f7574616765436f646573, 0x43494d31352e49454336313937302e496e666f726d61746976652e496e664f7065726174696f6e732e4f7574616765436f6465, true, 0x4f75746167655374657073⟩]⟩
/-- Class CIM15.IEC61970.Informative.InfOperations.OutageStepPsrRole -/
def s_OutageStepPsrRole : SClass := ⟨0x4f757461676553746570507372526f6c65, 0x43494d31352e49454336313937302e496e666f726d61746976652e496e664f7065726174696f6e732e4f757461676553746570507372526f6c65, 0x43494d31352e49454336313937302e496e666f726d61746976652e496e66436f6d6d6f6e2e526f6c65,
  [],
  [⟨0x4f757461676553746570, 0x43494d31352e49454336313937302e496e666f726d61746976652e496e664f7065726174696f6e732e4f757461676553746570, false, 0x436f6e64756374696e6745717569706d656e74526f6c6573⟩, ⟨0x436f6e64756374696e6745717569706d656e74, 0x43494d31352e49454336313937302e436f72652e436f6e64756374696e6745717569706d656e74, false, 0x4f757461676553746570526f6c6573⟩]⟩
/-- Class CIM15.IEC61970.Informative.InfOperations.PSREvent -/
def s_PSREvent : SClass := ⟨0x5053524576656e74, 0x43494d31352e49454336313937302e496e666f726d61746976652e496e664f7065726174696f6e732e5053524576656e74, 0x43494d31352e49454336313936382e436f6d6d6f6e2e41637469766974795265636f7264,
  [(0x6b696e64, e_PSREventKind)],
  [⟨0x506f77657253797374656d5265736f75726365, 0x43494d31352e49454336313937302e436f72652e506f77657253797374656d5265736f75726365, false, 0x5053524576656e74⟩]⟩
/-- Class CIM15.IEC61970.Informative.InfOperations.PlannedOutage -/
def s_PlannedOutage : SClass := ⟨0x506c616e6e65644f7574616765, 0x43494d31352e49454336313937302e496e666f726d61746976652e496e664f7065726174696f6e732e506c616e6e65644f7574616765, 0x43494d31352e49454336313936382e436f6d6d6f6e2e446f63756d656e74,
  [(0x6b696e64, e_OutageKind)],
  [⟨0x437573746f6d65724461746173, 0x43494d31352e49454336313936382e437573746f6d6572732e437573746f6d6572, true, 0x506c616e6e65644f7574616765⟩, ⟨0x4f75746167655363686564756c6573, 0x43494d31352e49454336313937302e4f75746167652e4f75746167655363686564756c65, true, 0x506c616e6e65644f7574616765⟩]⟩
/-- Class CIM15.IEC61970.Informative.InfOperations.SafetyDocument -/
def s_SafetyDocument : SClass := ⟨0x536166657479446f63756d656e74, 0x43494d31352e49454336313937302e496e666f726d61746976652e496e664f7065726174696f6e732e536166657479446f63756d656e74, 0x43494d31352e49454336313936382e436f6d6d6f6e2e446f63756d656e74,
  [],
  [⟨0x436c656172616e636554616773, 0x43494d31352e49454336313937302e4f75746167652e436c656172616e6365546167, true, 0x536166657479446f63756d656e74⟩, ⟨0x5363686564756c655374657073, 0x43494d31352e49454336313937302e496e666f726d61746976652e496e664f7065726174696f6e732e537769746368696e6753746570, true, 0x536166657479446f63756d656e74⟩, ⟨0x506f77657253797374656d5265736f75726365, 0x43494d31352e49454336313937302e436f72652e506f77657253797374656d5265736f75726365, false, 0x536166657479446f63756d656e7473⟩]⟩
/-- Class CIM15.IEC61970.Informative.InfOperations.SwitchingSchedule -/
def s_SwitchingSchedule : SClass := ⟨0x537769746368696e675363686564756c65, 0x43494d31352e49454336313937302e496e666f726d61746976652e496e664f7065726174696f6e732e537769746368696e675363686564756c65, 0x43494d31352e49454336313936382e436f6d6d6f6e2e446f63756d656e74,
  [(0x726561736f6e, t_EString)],
  [⟨0x5363686564756c655374657073, 0x43494d31352e49454336313937302e496e666f726d61746976652e496e664f7065726174696f6e732e537769746368696e6753746570, true, 0x537769746368696e675363686564756c65⟩, ⟨0x576f726b5461736b, 0x43494d31352e49454336313937302e496e666f726d61746976652e496e66576f726b2e576f726b5461736b, false, 0x537769746368696e675363686564756c6573⟩, ⟨0x4372657773, 0x43494d31352e49454336313937302e496e666f726d61746976652e496e66576f726b2e43726577, true, 0x537769746368696e675363686564756c6573⟩, ⟨0x696e74657276616c, 0x43494d31352e49454336313937302e446f6d61696e2e4461746554696d65496e74657276616c, false, 0⟩]⟩
/-- Class CIM15.IEC61970.Informative.InfOperations.SwitchingStep -/
def s_SwitchingStep : SClass := ⟨0x537769746368696e6753746570, 0x43494d31352e49454336313937302e496e666f726d61746976652e496e664f7065726174696f6e732e537769746368696e6753746570, 0x43494d31352e49454336313937302e436f72652e4964656e7469666965644f626a656374,
  [(0x7374617475734b696e64, e_SwitchingStepStatusKind), (0x74657874, t_EString), (0x7265717569726564436f6e74726f6c416374696f6e, t_EString), (0x64657369726564456e645374617465, t_EString)],
  [⟨0x536166657479446f63756d656e74, 0x43494d31352e49454336313937302e496e666f726d61746976652e496e664f7065726174696f6e732e536166657479446f63756d656e74, false, 0x5363686564756c655374657073⟩, ⟨0x7265717569726564436f6e74726f6c416374696f6e496e74657276616c, 0x43494d31352e49454336313937302e446f6d61696e2e4461746554696d65496e74657276616c, false, 0⟩, ⟨0x537769746368696e675363686564756c65, 0x43494d31352e49454336313937302e496e666f726d61746976652e496e664f7065726174696f6e732e537769746368696e675363686564756c65, false, 0x5363686564756c655374657073⟩, ⟨0x506f77657253797374656d5265736f7572636573, 0x43494d31352e49454336313937302e436f72652e506f77657253797374656d5265736f75726365, true, 0x5363686564756c655374657073⟩, ⟨0x457270506572736f6e526f6c65, 0x43494d31352e49454336313937302e496e666f726d61746976652e496e664f7065726174696f6e732e457270506572736f6e5363686564756c6553746570526f6c65, false, 0x537769746368696e6753746570⟩]⟩
/-- Class CIM15.IEC61970.Informative.InfOperations.TroubleTicket -/
def s_TroubleTicket : SClass := ⟨0x54726f75626c655469636b6574, 0x43494d31352e49454336313937302e496e666f726d61746976652e496e664f7065726174696f6e732e54726f75626c655469636b6574, 0x43494d31352e49454336313936382e436f6d6d6f6e2e446f63756d656e74,
  [(0x666972737443616c6c4461746554696d65, t_java_util_Date), (0x657374696d61746564526573746f72654461746554696d65, t_java_util_Date), (0x696e666f726d4265666f7265526573746f726564, t_EBoolean), (0x7265706f7274696e674b696e64, e_TroubleReportingKind), (0x7072696f72697479, t_EString), (0x696e666f726d4166746572526573746f726564, t_EBoolean), (0x616476696365, t_EString), (0x68617a617264436f6465, t_EString), (0x63616c6c4261636b, t_EBoolean)],
  [⟨0x43616c6c4261636b73, 0x43494d31352e49454336313937302e496e666f726d61746976652e496e664f7065726174696f6e732e43616c6c4261636b, true, 0x54726f75626c655469636b657473⟩, ⟨0x74726f75626c65506572696f64, 0x43494d31352e49454336313937302e446f6d61696e2e4461746554696d65496e74657276616c, false, 0⟩, ⟨0x437573746f6d657244617461, 0x43494d31352e49454336313936382e437573746f6d6572732e437573746f6d6572, false, 0x54726f75626c655469636b657473⟩, ⟨0x496e636964656e745265636f7264, 0x43494d31352e49454336313937302e496e666f726d61746976652e496e664f7065726174696f6e732e496e636964656e745265636f7264, false, 0x54726f75626c655469636b657473⟩]⟩
/-- Class CIM15.IEC61970.Informative.InfTypeAsset.GeneratorTypeAsset -/
def s_GeneratorTypeAsset : SClass := ⟨0x47656e657261746f72547970654173736574, 0x43494d31352e49454336313937302e496e666f726d61746976652e496e665479706541737365742e47656e657261746f72547970654173736574, 0x43494d31352e49454336313937302e496e666f726d61746976652e496e664173736574732e47656e6572696341737365744d6f64656c4f724d6174657269616c,
  [(0x7844697265637453796e63, t_float), (0x72517561645375627472616e73, t_float), (0x7244697265637453796e63, t_float), (0x724469726563745375627472616e73, t_float), (0x6d617851, t_float), (0x785175616453796e63, t_float), (0x6d696e51, t_float), (0x6d696e50, t_float), (0x6d617850, t_float), (0x725175616453796e63, t_float), (0x78517561645375627472616e73, t_float), (0x724469726563745472616e73, t_float), (0x72517561645472616e73, t_float), (0x784469726563745375627472616e73, t_float), (0x784469726563745472616e73, t_float), (0x78517561645472616e73, t_float)],
  []⟩
/-- Class CIM15.IEC61970.Informative.InfTypeAsset.TypeAssetCatalogue -/
def s_TypeAssetCatalogue : SClass := ⟨0x547970654173736574436174616c6f677565, 0x43494d31352e49454336313937302e496e666f726d61746976652e496e665479706541737365742e547970654173736574436174616c6f677565, 0x43494d31352e49454336313937302e436f72652e4964656e7469666965644f626a656374,
  [],
  [⟨0x54797065417373657473, 0x43494d31352e49454336313937302e496e666f726d61746976652e496e664173736574732e47656e6572696341737365744d6f64656c4f724d6174657269616c, true, 0x547970654173736574436174616c6f677565⟩, ⟨0x737461747573, 0x43494d31352e49454336313936382e436f6d6d6f6e2e537461747573, false, 0⟩]⟩
/-- Class CIM15.IEC61970.Informative.InfWork.AccessPermit -/
def s_AccessPermit : SClass := ⟨0x4163636573735065726d6974, 0x43494d31352e49454336313937302e496e666f726d61746976652e496e66576f726b2e4163636573735065726d6974, 0x43494d31352e49454336313936382e436f6d6d6f6e2e446f63756d656e74,
  [(0x6170706c69636174696f6e4e756d626572, t_EString), (0x7061796d656e74, t_float), (0x65666665637469766544617465, t_java_lang_String), (0x65787069726174696f6e44617465, t_java_lang_String), (0x7065726d69744944, t_EString)],
  []⟩
/-- Class CIM15.IEC61970.Informative.InfWork.Appointment -/
def s_Appointment : SClass := ⟨0x4170706f696e746d656e74, 0x43494d31352e49454336313937302e496e666f726d61746976652e496e66576f726b2e4170706f696e746d656e74, 0x43494d31352e49454336313937302e496e666f726d61746976652e496e66436f6d6d6f6e2e5363686564756c65644576656e74,
  [(0x63616c6c4168656164, t_EBoolean), (0x72656d61726b, t_EString)],
  [⟨0x61646472657373, 0x43494d31352e49454336313936382e436f6d6d6f6e2e53747265657441646472657373, false, 0⟩, ⟨0x457270506572736f6e73, 0x43494d31352e49454336313937302e496e666f726d61746976652e496e66455250537570706f72742e457270506572736f6e, true, 0x4170706f696e746d656e7473⟩, ⟨0x6d656574696e67496e74657276616c, 0x43494d31352e49454336313937302e446f6d61696e2e4461746554696d65496e74657276616c, false, 0⟩, ⟨0x43616c6c4261636b, 0x43494d31352e49454336313937302e496e666f726d61746976652e496e664f7065726174696f6e732e43616c6c4261636b, false, 0x4170706f696e746d656e7473⟩]⟩
/-- Class CIM15.IEC61970.Informative.InfWork.Assignment -/
def s_Assignment : SClass := ⟨0x41737369676e6d656e74, 0x43494d31352e49454336313937302e496e666f726d61746976652e496e66576f726b2e41737369676e6d656e74, 0x43494d31352e49454336313936382e436f6d6d6f6e2e446f63756d656e74,
  [],
  [⟨0x4372657773, 0x43494d31352e49454336313937302e496e666f726d61746976652e496e66576f726b2e43726577, true, 0x41737369676e6d656e7473⟩, ⟨0x656666656374697665506572696f64, 0x43494d31352e49454336313937302e446f6d61696e2e4461746554696d65496e74657276616c, false, 0⟩]⟩
/-- Class CIM15.IEC61970.Informative.InfWork.BusinessCase -/
def s_BusinessCase : SClass := ⟨0x427573696e65737343617365, 0x43494d31352e49454336313937302e496e666f726d61746976652e496e66576f726b2e427573696e65737343617365, 0x43494d31352e49454336313936382e436f6d6d6f6e2e446f63756d656e74,
  [(0x636f72706f72617465436f6465, t_EString)],
  [⟨0x50726f6a65637473, 0x43494d31352e49454336313937302e496e666f726d61746976652e496e66576f726b2e50726f6a656374, true, 0x427573696e65737343617365⟩, ⟨0x576f726b73, 0x43494d31352e49454336313936382e576f726b2e576f726b, true, 0x427573696e65737343617365⟩]⟩
/-- Class CIM15.IEC61970.Informative.InfWork.CUAllowableAction -/
def s_CUAllowableAction : SClass := ⟨0x4355416c6c6f7761626c65416374696f6e, 0x43494d31352e49454336313937302e496e666f726d61746976652e496e66576f726b2e4355416c6c6f7761626c65416374696f6e, 0x43494d31352e49454336313937302e436f72652e4964656e7469666965644f626a656374,
  [],
  [⟨0x436f6d70617469626c65556e697473, 0x43494d31352e49454336313937302e496e666f726d61746976652e496e66576f726b2e436f6d70617469626c65556e6974, true, 0x4355416c6c6f7761626c65416374696f6e⟩, ⟨0x737461747573, 0x43494d31352e49454336313936382e436f6d6d6f6e2e537461747573, false, 0⟩]⟩
/-- Class CIM15.IEC61970.Informative.InfWork.CUAsset -/
def s_CUAsset : SClass := ⟨0x43554173736574, 0x43494d31352e49454336313937302e496e666f726d61746976652e496e66576f726b2e43554173736574, 0x43494d31352e49454336313937302e436f72652e4964656e7469666965644f626a656374,
  [(0x7175616e74697479, t_java_math_BigInteger), (0x747970654173736574436f6465, t_EString)],
  [⟨0x436f6d70617469626c65556e697473, 0x43494d31352e49454336313937302e496e666f726d61746976652e496e66576f726b2e436f6d70617469626c65556e6974, true, 0x4355417373657473⟩, ⟨0x547970654173736574, 0x43494d31352e49454336313937302e496e666f726d61746976652e496e664173736574732e47656e6572696341737365744d6f64656c4f724d6174657269616c, false, 0x43554173736574⟩, ⟨0x737461747573, 0x43494d31352e49454336313936382e436f6d6d6f6e2e537461747573, false, 0⟩]⟩
/-- Class CIM15.IEC61970.Informative.InfWork.CUContractorItem -/
def s_CUContractorItem : SClass := ⟨0x4355436f6e74726163746f724974656d, 0x43494d31352e49454336313937302e496e666f726d61746976652e496e66576f726b2e4355436f6e74726163746f724974656d, 0x43494d31352e49454336313937302e436f72652e4964656e7469666965644f626a656374,
  [(0x626964416d6f756e74, t_float), (0x6163746976697479436f6465, t_EString)],
  [⟨0x436f6d70617469626c65556e697473, 0x43494d31352e49454336313937302e496e666f726d61746976652e496e66576f726b2e436f6d70617469626c65556e6974, true, 0x4355436f6e74726163746f724974656d73⟩, ⟨0x737461747573, 0x43494d31352e49454336313936382e436f6d6d6f6e2e537461747573, false, 0⟩]⟩
/-- Class CIM15.IEC61970.Informative.InfWork.CUGroup -/
def s_CUGroup : SClass := ⟨0x435547726f7570, 0x43494d31352e49454336313937302e496e666f726d61746976652e496e66576f726b2e435547726f7570, 0x43494d31352e49454336313937302e436f72652e4964656e7469666965644f626a656374,
  [],
  [⟨0x436f6d70617469626c65556e697473, 0x43494d31352e49454336313937302e496e666f726d61746976652e496e66576f726b2e436f6d70617469626c65556e6974, true, 0x435547726f7570⟩, ⟨0x506172656e74435547726f757073, 0x43494d31352e49454336313937302e496e666f726d61746976652e496e66576f726b2e435547726f7570, true, 0x4368696c64435547726f757073⟩, ⟨0x4368696c64435547726f757073, 0x43494d31352e49454336313937302e496e666f726d61746976652e496e66576f726b2e435547726f7570, true, 0x506172656e74435547726f757073⟩, ⟨0x737461747573, 0x43494d31352e49454336313936382e436f6d6d6f6e2e537461747573, false, 0⟩, ⟨0x44657369676e4c6f636174696f6e435573, 0x43494d31352e49454336313937302e496e666f726d61746976652e496e66576f726b2e44657369676e4c6f636174696f6e4355, true, 0x435547726f757073⟩]⟩
/-- Class CIM15.IEC61970.Informative.InfWork.CULaborCode -/
def s_CULaborCode : SClass := ⟨0x43554c61626f72436f6465, 0x43494d31352e49454336313937302e496e666f726d61746976652e496e66576f726b2e43554c61626f72436f6465, 0x43494d31352e49454336313937302e436f72652e4964656e7469666965644f626a656374,
  [(0x636f6465, t_EString)],
  [⟨0x43554c61626f724974656d73, 0x43494d31352e49454336313937302e496e666f726d61746976652e496e66576f726b2e43554c61626f724974656d, true, 0x43554c61626f72436f6465⟩, ⟨0x737461747573, 0x43494d31352e49454336313936382e436f6d6d6f6e2e537461747573, false, 0⟩]⟩
/-- Class CIM15.IEC61970.Informative.InfWork.CULaborItem -/
def s_CULaborItem : SClass := ⟨0x43554c61626f724974656d, 0x43494d31352e49454336313937302e496e666f726d61746976652e496e66576f726b2e43554c61626f724974656d, 0x43494d31352e49454336313937302e436f72652e4964656e7469666965644f626a656374,
  [(0x6c61626f724475726174696f6e, t_float), (0x6c61626f7252617465, t_float), (0x6163746976697479436f6465, t_EString)],
  [⟨0x436f6d70617469626c65556e697473, 0x43494d31352e49454336313937302e496e666f726d61746976652e496e66576f726b2e436f6d70617469626c65556e6974, true, 0x43554c61626f724974656d73⟩, ⟨0x43554c61626f72436f6465, 0x43494d31352e49454336313937302e496e666f726d61746976652e496e66576f726b2e43554c61626f72436f6465, false, 0x43554c61626f724974656d73⟩, ⟨0x737461747573, 0x43494d31352e49454336313936382e436f6d6d6f6e2e537461747573, false, 0⟩, ⟨0x5175616c696669636174696f6e526571756972656d656e7473, 0x43494d31352e49454336313937302e496e666f726d61746976652e496e66576f726b2e5175616c696669636174696f6e526571756972656d656e74, true, 0x43554c61626f724974656d73⟩]⟩
/-- Class CIM15.IEC61970.Informative.InfWork.CUMaterialItem -/
def s_CUMaterialItem : SClass := ⟨0x43554d6174657269616c4974656d, 0x43494d31352e49454336313937302e496e666f726d61746976652e496e66576f726b2e43554d6174657269616c4974656d, 0x43494d31352e49454336313937302e436f72652e4964656e7469666965644f626a656374,
  [(0x7175616e74697479, t_java_math_BigInteger), (0x636f72706f72617465436f6465, t_EString)],
  [⟨0x737461747573, 0x43494d31352e49454336313936382e436f6d6d6f6e2e537461747573, false, 0⟩, ⟨0x50726f7065727479556e697473, 0x43494d31352e49454336313937302e496e666f726d61746976652e496e66576f726b2e50726f7065727479556e6974, true, 0x43554d6174657269616c4974656d73⟩, ⟨0x436f6d70617469626c65556e697473, 0x43494d31352e49454336313937302e496e666f726d61746976652e496e66576f726b2e436f6d70617469626c65556e6974, true, 0x43554d6174657269616c4974656d73⟩, ⟨0x547970654d6174657269616c, 0x43494d31352e49454336313937302e496e666f726d61746976652e496e66576f726b2e547970654d6174657269616c, false, 0x43554d6174657269616c4974656d73⟩]⟩
/-- Class CIM15.IEC61970.Informative.InfWork.CUWorkEquipmentItem -/
def s_CUWorkEquipmentItem : SClass := ⟨0x4355576f726b45717569706d656e744974656d, 0x43494d31352e49454336313937302e496e666f726d61746976652e496e66576f726b2e4355576f726b45717569706d656e744974656d, 0x43494d31352e49454336313937302e436f72652e4964656e7469666965644f626a656374,
  [(0x72617465, t_float), (0x6571756970436f6465, t_EString)],
  [⟨0x547970654173736574, 0x43494d31352e49454336313937302e496e666f726d61746976652e496e664173736574732e47656e6572696341737365744d6f64656c4f724d6174657269616c, false, 0x4355576f726b45717569706d656e744173736574⟩, ⟨0x737461747573, 0x43494d31352e49454336313936382e436f6d6d6f6e2e537461747573, false, 0⟩, ⟨0x436f6d70617469626c65556e697473, 0x43494d31352e49454336313937302e496e666f726d61746976652e496e66576f726b2e436f6d70617469626c65556e6974, true, 0x4355576f726b45717569706d656e744974656d73⟩]⟩
/-- Class CIM15.IEC61970.Informative.InfWork.Capability -/
def s_Capability : SClass := ⟨0x4361706162696c697479, 0x43494d31352e49454336313937302e496e666f726d61746976652e496e66576f726b2e4361706162696c697479, 0x43494d31352e49454336313937302e436f72652e4964656e7469666965644f626a656374,
  [(0x63617465676f7279, t_EString), (0x706572666f726d616e6365466163746f72, t_EString)],
  [⟨0x43726577, 0x43494d31352e49454336313937302e496e666f726d61746976652e496e66576f726b2e43726577, false, 0x4361706162696c6974696573⟩, ⟨0x576f726b5461736b73, 0x43494d31352e49454336313937302e496e666f726d61746976652e496e66576f726b2e576f726b5461736b, true, 0x4361706162696c6974696573⟩, ⟨0x737461747573, 0x43494d31352e49454336313936382e436f6d6d6f6e2e537461747573, false, 0⟩, ⟨0x437261667473, 0x43494d31352e49454336313937302e496e666f726d61746976652e496e66436f6d6d6f6e2e4372616674, true, 0x4361706162696c6974696573⟩, ⟨0x76616c6964697479496e74657276616c, 0x43494d31352e49454336313937302e446f6d61696e2e4461746554696d65496e74657276616c, false, 0⟩]⟩
/-- Class CIM15.IEC61970.Informative.InfWork.CompatibleUnit -/
def s_CompatibleUnit : SClass := ⟨0x436f6d70617469626c65556e6974, 0x43494d31352e49454336313937302e496e666f726d61746976652e496e66576f726b2e436f6d70617469626c65556e6974, 0x43494d31352e49454336313936382e436f6d6d6f6e2e446f63756d656e74,
  [(0x7175616e74697479, t_EString), (0x657374436f7374, t_float)],
  [⟨0x4355576f726b45717569706d656e744974656d73, 0x43494d31352e49454336313937302e496e666f726d61746976652e496e66576f726b2e4355576f726b45717569706d656e744974656d, true, 0x436f6d70617469626c65556e697473⟩, ⟨0x44657369676e4c6f636174696f6e435573, 0x43494d31352e49454336313937302e496e666f726d61746976652e496e66576f726b2e44657369676e4c6f636174696f6e4355, true, 0x436f6d70617469626c65556e697473⟩, ⟨0x435547726f7570, 0x43494d31352e49454336313937302e496e666f726d61746976652e496e66576f726b2e435547726f7570, false, 0x436f6d70617469626c65556e697473⟩, ⟨0x4355417373657473, 0x43494d31352e49454336313937302e496e666f726d61746976652e496e66576f726b2e43554173736574, true, 0x436f6d70617469626c65556e697473⟩, ⟨0x50726f7065727479556e6974, 0x43494d31352e49454336313937302e496e666f726d61746976652e496e66576f726b2e50726f7065727479556e6974, false, 0x436f6d70617469626c65556e697473⟩, ⟨0x436f737454797065, 0x43494d31352e49454336313937302e496e666f726d61746976652e496e66576f726b2e436f737454797065, false, 0x436f6d70617469626c65556e697473⟩, ⟨0x4355416c6c6f7761626c65416374696f6e, 0x43494d31352e49454336313937302e496e666f726d61746976652e496e66576f726b2e4355416c6c6f7761626c65416374696f6e, false, 0x436f6d70617469626c65556e697473⟩, ⟨0x50726f63656475726573, 0x43494d31352e49454336313937302e496e666f726d61746976652e496e664173736574732e50726f636564757265, true, 0x436f6d70617469626c65556e697473⟩, ⟨0x4355436f6e74726163746f724974656d73, 0x43494d31352e49454336313937302e496e666f726d61746976652e496e66576f726b2e4355436f6e74726163746f724974656d, true, 0x436f6d70617469626c65556e697473⟩, ⟨0x43554d6174657269616c4974656d73, 0x43494d31352e49454336313937302e496e666f726d61746976652e496e66576f726b2e43554d6174657269616c4974656d, true, 0x436f6d70617469626c65556e697473⟩, ⟨0x43554c61626f724974656d73, 0x43494d31352e49454336313937302e496e666f726d61746976652e496e66576f726b2e43554c61626f724974656d, true, 0x436f6d70617469626c65556e697473⟩]⟩
/-- Class CIM15.IEC61970.Informative.InfWork.ConditionFactor -/
def s_ConditionFactor : SClass := ⟨0x436f6e646974696f6e466163746f72, 0x43494d31352e49454336313937302e496e666f726d61746976652e496e66576f726b2e436f6e646974696f6e466163746f72, 0x43494d31352e49454336313937302e436f72652e4964656e7469666965644f626a656374,
  [(0x6b696e64, e_ConditionFactorKind), (0x636656616c7565, t_EString)],
  [⟨0x44657369676e73, 0x43494d31352e49454336313937302e496e666f726d61746976652e496e66576f726b2e44657369676e, true, 0x436f6e646974696f6e466163746f7273⟩, ⟨0x44657369676e4c6f636174696f6e73, 0x43494d31352e49454336313937302e496e666f726d61746976652e496e66576f726b2e44657369676e4c6f636174696f6e, true, 0x436f6e646974696f6e466163746f7273⟩, ⟨0x737461747573, 0x43494d31352e49454336313936382e436f6d6d6f6e2e537461747573, false, 0⟩, ⟨0x44657369676e4c6f636174696f6e435573, 0x43494d31352e49454336313937302e496e666f726d61746976652e496e66576f726b2e44657369676e4c6f636174696f6e4355, true, 0x436f6e646974696f6e466163746f7273⟩]⟩
/-- Class CIM15.IEC61970.Informative.InfWork.ContractorItem -/
def s_ContractorItem : SClass := ⟨0x436f6e74726163746f724974656d, 0x43494d31352e49454336313937302e496e666f726d61746976652e496e66576f726b2e436f6e74726163746f724974656d, 0x43494d31352e49454336313937302e436f72652e4964656e7469666965644f626a656374,
  [(0x626964416d6f756e74, t_float), (0x6163746976697479436f6465, t_EString), (0x636f7374, t_float)],
  [⟨0x576f726b5461736b, 0x43494d31352e49454336313937302e496e666f726d61746976652e496e66576f726b2e576f726b5461736b, false, 0x436f6e74726163746f724974656d73⟩, ⟨0x45727050617961626c6573, 0x43494d31352e49454336313937302e496e666f726d61746976652e496e66455250537570706f72742e45727050617961626c65, true, 0x436f6e74726163746f724974656d73⟩, ⟨0x737461747573, 0x43494d31352e49454336313936382e436f6d6d6f6e2e537461747573, false, 0⟩, ⟨0x576f726b436f737444657461696c, 0x43494d31352e49454336313937302e496e666f726d61746976652e496e66576f726b2e576f726b436f737444657461696c, false, 0x436f6e74726163746f724974656d73⟩]⟩
/-- Class CIM15.IEC61970.Informative.InfWork.CostType -/
def s_CostType : SClass := ⟨0x436f737454797065, 0x43494d31352e49454336313937302e496e666f726d61746976652e496e66576f726b2e436f737454797065, 0x43494d31352e49454336313937302e436f72652e4964656e7469666965644f626a656374,
  [(0x7374616765, t_EString), (0x636f6465, t_EString), (0x6c6576656c, t_EString), (0x616d6f756e7441737369676e61626c65, t_EBoolean)],
  [⟨0x4572704a6f75726e616c456e7472696573, 0x43494d31352e49454336313937302e496e666f726d61746976652e496e66455250537570706f72742e4572704a6f75726e616c456e747279, true, 0x436f73745479706573⟩, ⟨0x506172656e74436f737454797065, 0x43494d31352e49454336313937302e496e666f726d61746976652e496e66576f726b2e436f737454797065, false, 0x4368696c64436f73745479706573⟩, ⟨0x4368696c64436f73745479706573, 0x43494d31352e49454336313937302e496e666f726d61746976652e496e66576f726b2e436f737454797065, true, 0x506172656e74436f737454797065⟩, ⟨0x576f726b436f737444657461696c73, 0x43494d31352e49454336313937302e496e666f726d61746976652e496e66576f726b2e576f726b436f737444657461696c, true, 0x436f737454797065⟩, ⟨0x436f6d70617469626c65556e697473, 0x43494d31352e49454336313937302e496e666f726d61746976652e496e66576f726b2e436f6d70617469626c65556e6974, true, 0x436f737454797065⟩, ⟨0x737461747573, 0x43494d31352e49454336313936382e436f6d6d6f6e2e537461747573, false, 0⟩]⟩
/-- Class CIM15.IEC61970.Informative.InfWork.Crew -/
def s_Crew : SClass := ⟨0x43726577, 0x43494d31352e49454336313937302e496e666f726d61746976652e496e66576f726b2e43726577, 0x43494d31352e49454336313937302e436f72652e4964656e7469666965644f626a656374,
  [(0x63617465676f7279, t_EString)],
  [⟨0x546f6f6c73, 0x43494d31352e49454336313937302e496e666f726d61746976652e496e664173736574732e546f6f6c, true, 0x43726577⟩, ⟨0x537769746368696e675363686564756c6573, 0x43494d31352e49454336313937302e496e666f726d61746976652e496e664f7065726174696f6e732e537769746368696e675363686564756c65, true, 0x4372657773⟩, ⟨0x526f757465, 0x43494d31352e49454336313937302e496e666f726d61746976652e496e664c6f636174696f6e732e526f757465, false, 0x4372657773⟩, ⟨0x4361706162696c6974696573, 0x43494d31352e49454336313937302e496e666f726d61746976652e496e66576f726b2e4361706162696c697479, true, 0x43726577⟩, ⟨0x437265774d656d62657273, 0x43494d31352e49454336313937302e496e666f726d61746976652e496e66455250537570706f72742e457270506572736f6e, true, 0x4372657773⟩, ⟨0x4f75746167655374657073, 0x43494d31352e49454336313937302e496e666f726d61746976652e496e664f7065726174696f6e732e4f757461676553746570, true, 0x4372657773⟩, ⟨0x576f726b45717569706d656e74417373657473, 0x43494d31352e49454336313937302e496e666f726d61746976652e496e664173736574732e576f726b45717569706d656e74, true, 0x43726577⟩, ⟨0x41737369676e6d656e7473, 0x43494d31352e49454336313937302e496e666f726d61746976652e496e66576f726b2e41737369676e6d656e74, true, 0x4372657773⟩, ⟨0x4c6f636174696f6e73, 0x43494d31352e49454336313936382e436f6d6d6f6e2e4c6f636174696f6e, true, 0x4372657773⟩, ⟨0x576f726b5461736b73, 0x43494d31352e49454336313937302e496e666f726d61746976652e496e66576f726b2e576f726b5461736b, true, 0x4372657773⟩, ⟨0x4f7267616e69736174696f6e73, 0x43494d31352e49454336313937302e496e666f726d61746976652e496e66455250537570706f72742e4572704f7267616e69736174696f6e, true, 0x4372657773⟩, ⟨0x53686966745061747465726e73, 0x43494d31352e49454336313937302e496e666f726d61746976652e496e66576f726b2e53686966745061747465726e, true, 0x4372657773⟩, ⟨0x56656869636c6573, 0x43494d31352e49454336313937302e496e666f726d61746976652e496e664173736574732e56656869636c65, true, 0x43726577⟩]⟩
/-- Class CIM15.IEC61970.Informative.InfWork.Design -/
def s_Design : SClass := ⟨0x44657369676e, 0x43494d31352e49454336313937302e496e666f726d61746976652e496e66576f726b2e44657369676e, 0x43494d31352e49454336313936382e436f6d6d6f6e2e446f63756d656e74,
  [(0x636f7374457374696d617465, t_float), (0x6b696e64, e_DesignKind), (0x7072696365, t_float)],
  [⟨0x44657369676e4c6f636174696f6e73, 0x43494d31352e49454336313937302e496e666f726d61746976652e496e66576f726b2e44657369676e4c6f636174696f6e, true, 0x44657369676e73⟩, ⟨0x576f726b436f737444657461696c73, 0x43494d31352e49454336313937302e496e666f726d61746976652e496e66576f726b2e576f726b436f737444657461696c, true, 0x44657369676e⟩, ⟨0x436f6e646974696f6e466163746f7273, 0x43494d31352e49454336313937302e496e666f726d61746976652e496e66576f726b2e436f6e646974696f6e466163746f72, true, 0x44657369676e73⟩, ⟨0x576f726b5461736b73, 0x43494d31352e49454336313937302e496e666f726d61746976652e496e66576f726b2e576f726b5461736b, true, 0x44657369676e⟩, ⟨0x457270424f4d73, 0x43494d31352e49454336313937302e496e666f726d61746976652e496e66455250537570706f72742e457270424f4d, true, 0x44657369676e⟩, ⟨0x576f726b, 0x43494d31352e49454336313936382e576f726b2e576f726b, false, 0x44657369676e73⟩, ⟨0x44657369676e4c6f636174696f6e73435573, 0x43494d31352e49454336313937302e496e666f726d61746976652e496e66576f726b2e44657369676e4c6f636174696f6e4355, true, 0x44657369676e73⟩, ⟨0x45727051756f74654c696e654974656d, 0x43494d31352e49454336313937302e496e666f726d61746976652e496e66455250537570706f72742e45727051756f74654c696e654974656d, false, 0x44657369676e⟩]⟩
/-- Class CIM15.IEC61970.Informative.InfWork.DesignLocation -/
def s_DesignLocation : SClass := ⟨0x44657369676e4c6f636174696f6e, 0x43494d31352e49454336313937302e496e666f726d61746976652e496e66576f726b2e44657369676e4c6f636174696f6e, 0x43494d31352e49454336313937302e436f72652e4964656e7469666965644f626a656374,
  [(0x7370616e4c656e677468, t_float)],
  [⟨0x737461747573, 0x43494d31352e49454336313936382e436f6d6d6f6e2e537461747573, false, 0⟩, ⟨0x4d6174657269616c4974656d73, 0x43494d31352e49454336313937302e496e666f726d61746976652e496e66576f726b2e4d6174657269616c4974656d, true, 0x44657369676e4c6f636174696f6e⟩, ⟨0x44657369676e73, 0x43494d31352e49454336313937302e496e666f726d61746976652e496e66576f726b2e44657369676e, true, 0x44657369676e4c6f636174696f6e73⟩, ⟨0x44657369676e4c6f636174696f6e435573, 0x43494d31352e49454336313937302e496e666f726d61746976652e496e66576f726b2e44657369676e4c6f636174696f6e4355, true, 0x44657369676e4c6f636174696f6e⟩, ⟨0x576f726b4c6f636174696f6e73, 0x43494d31352e49454336313937302e496e666f726d61746976652e496e66576f726b2e576f726b4c6f636174696f6e, true, 0x44657369676e4c6f636174696f6e73⟩, ⟨0x4469616772616d73, 0x43494d31352e49454336313937302e496e666f726d61746976652e496e66474d4c537570706f72742e4469616772616d, true, 0x44657369676e4c6f636174696f6e73⟩, ⟨0x4d697363436f73744974656d73, 0x43494d31352e49454336313937302e496e666f726d61746976652e496e66576f726b2e4d697363436f73744974656d, true, 0x44657369676e4c6f636174696f6e⟩, ⟨0x457270426f6d4974656d4461746173, 0x43494d31352e49454336313937302e496e666f726d61746976652e496e66455250537570706f72742e457270426f6d4974656d44617461, true, 0x44657369676e4c6f636174696f6e⟩, ⟨0x436f6e646974696f6e466163746f7273, 0x43494d31352e49454336313937302e496e666f726d61746976652e496e66576f726b2e436f6e646974696f6e466163746f72, true, 0x44657369676e4c6f636174696f6e73⟩]⟩
/-- Class CIM15.IEC61970.Informative.InfWork.DesignLocationCU -/
def s_DesignLocationCU : SClass := ⟨0x44657369676e4c6f636174696f6e4355, 0x43494d31352e49454336313937302e496e666f726d61746976652e496e66576f726b2e44657369676e4c6f636174696f6e4355, 0x43494d31352e49454336313937302e436f72652e4964656e7469666965644f626a656374,
  [(0x656e657267697a6174696f6e466c6167, t_EBoolean), (0x63755573616765, t_EString), (0x72656d6f76616c44617465, t_java_lang_String), (0x6375416374696f6e, e_WorkActionKind), (0x63754163636f756e74, t_EString), (0x63755175616e74697479, t_java_math_BigInteger)],
  [⟨0x436f6e646974696f6e466163746f7273, 0x43494d31352e49454336313937302e496e666f726d61746976652e496e66576f726b2e436f6e646974696f6e466163746f72, true, 0x44657369676e4c6f636174696f6e435573⟩, ⟨0x436f6d70617469626c65556e697473, 0x43494d31352e49454336313937302e496e666f726d61746976652e496e66576f726b2e436f6d70617469626c65556e6974, true, 0x44657369676e4c6f636174696f6e435573⟩, ⟨0x576f726b5461736b73, 0x43494d31352e49454336313937302e496e666f726d61746976652e496e66576f726b2e576f726b5461736b, true, 0x44657369676e4c6f636174696f6e435573⟩, ⟨0x44657369676e73, 0x43494d31352e49454336313937302e496e666f726d61746976652e496e66576f726b2e44657369676e, true, 0x44657369676e4c6f636174696f6e73435573⟩, ⟨0x435547726f757073, 0x43494d31352e49454336313937302e496e666f726d61746976652e496e66576f726b2e435547726f7570, true, 0x44657369676e4c6f636174696f6e435573⟩, ⟨0x44657369676e4c6f636174696f6e, 0x43494d31352e49454336313937302e496e666f726d61746976652e496e66576f726b2e44657369676e4c6f636174696f6e, false, 0x44657369676e4c6f636174696f6e435573⟩, ⟨0x737461747573, 0x43494d31352e49454336313936382e436f6d6d6f6e2e537461747573, false, 0⟩]⟩
/-- Class CIM15.IEC61970.Informative.InfWork.DiagnosisDataSet -/
def s_DiagnosisDataSet : SClass := ⟨0x446961676e6f73697344617461536574, 0x43494d31352e49454336313937302e496e666f726d61746976652e496e66576f726b2e446961676e6f73697344617461536574, 0x43494d31352e49454336313937302e496e666f726d61746976652e496e664173736574732e50726f63656475726544617461536574,
  [(0x66696e616c4361757365, t_EString), (0x66696e616c52656d61726b, t_EString), (0x7068617365436f6465, e_PhaseCode), (0x7072656c696d696e6172794461746554696d65, t_java_util_Date), (0x7072656c696d696e617279436f6465, t_EString), (0x726f6f7452656d61726b, t_EString), (0x726f6f744361757365, t_EString), (0x7072656c696d696e61727952656d61726b, t_EString), (0x656666656374, t_EString), (0x66696e616c4f726967696e, t_EString), (0x66696e616c436f6465, t_EString), (0x726f6f744f726967696e, t_EString), (0x6661696c7572654d6f6465, t_EString)],
  []⟩
/-- Class CIM15.IEC61970.Informative.InfWork.EquipmentItem -/
def s_EquipmentItem : SClass := ⟨0x45717569706d656e744974656d, 0x43494d31352e49454336313937302e496e666f726d61746976652e496e66576f726b2e45717569706d656e744974656d, 0x43494d31352e49454336313937302e436f72652e4964656e7469666965644f626a656374,
  [(0x636f6465, t_EString), (0x636f7374, t_float)],
  [⟨0x576f726b5461736b, 0x43494d31352e49454336313937302e496e666f726d61746976652e496e66576f726b2e576f726b5461736b, false, 0x45717569706d656e744974656d73⟩, ⟨0x576f726b436f737444657461696c, 0x43494d31352e49454336313937302e496e666f726d61746976652e496e66576f726b2e576f726b436f737444657461696c, false, 0x45717569706d656e744974656d73⟩, ⟨0x737461747573, 0x43494d31352e49454336313936382e436f6d6d6f6e2e537461747573, false, 0⟩]⟩
/-- Class CIM15.IEC61970.Informative.InfWork.InfoQuestion -/
def s_InfoQuestion : SClass := ⟨0x496e666f5175657374696f6e, 0x43494d31352e49454336313937302e496e666f726d61746976652e496e66576f726b2e496e666f5175657374696f6e, 0x43494d31352e49454336313936382e436f6d6d6f6e2e446f63756d656e74,
  [(0x616e73776572, t_EString), (0x616e7377657252656d61726b, t_EString), (0x7175657374696f6e54657874, t_EString), (0x616e737765724461746554696d65, t_java_util_Date), (0x7175657374696f6e436f6465, t_EString), (0x7175657374696f6e52656d61726b, t_EString), (0x7175657374696f6e43617465676f7279, t_EString)],
  []⟩
/-- Class CIM15.IEC61970.Informative.InfWork.InspectionDataSet -/
def s_InspectionDataSet : SClass := ⟨0x496e7370656374696f6e44617461536574, 0x43494d31352e49454336313937302e496e666f726d61746976652e496e66576f726b2e496e7370656374696f6e44617461536574, 0x43494d31352e49454336313937302e496e666f726d61746976652e496e664173736574732e50726f63656475726544617461536574,
  [(0x6c6f636174696f6e436f6e646974696f6e, t_EString)],
  [⟨0x4163636f7264696e67546f5363686564756c6573, 0x43494d31352e49454336313937302e496e666f726d61746976652e496e66436f6d6d6f6e2e5363686564756c65506172616d65746572496e666f, true, 0x466f72496e7370656374696f6e44617461536574⟩]⟩
/-- Class CIM15.IEC61970.Informative.InfWork.LaborItem -/
def s_LaborItem : SClass := ⟨0x4c61626f724974656d, 0x43494d31352e49454336313937302e496e666f726d61746976652e496e66576f726b2e4c61626f724974656d, 0x43494d31352e49454336313937302e436f72652e4964656e7469666965644f626a656374,
  [(0x636f7374, t_float), (0x6c61626f7252617465, t_float), (0x6c61626f724475726174696f6e, t_float), (0x6163746976697479436f6465, t_EString)],
  [⟨0x457270506572736f6e73, 0x43494d31352e49454336313937302e496e666f726d61746976652e496e66455250537570706f72742e457270506572736f6e, true, 0x4c61626f724974656d73⟩, ⟨0x576f726b5461736b, 0x43494d31352e49454336313937302e496e666f726d61746976652e496e66576f726b2e576f726b5461736b, false, 0x4c61626f724974656d73⟩, ⟨0x737461747573, 0x43494d31352e49454336313936382e436f6d6d6f6e2e537461747573, false, 0⟩, ⟨0x576f726b436f737444657461696c, 0x43494d31352e49454336313937302e496e666f726d61746976652e496e66576f726b2e576f726b436f737444657461696c, false, 0x4c61626f724974656d73⟩]⟩
/-- Class CIM15.IEC61970.Informative.InfWork.MaintenanceDataSet -/
def s_MaintenanceDataSet : SClass := ⟨0x4d61696e74656e616e636544617461536574, 0x43494d31352e49454336313937302e496e666f726d61746976652e496e66576f726b2e4d61696e74656e616e636544617461536574, 0x43494d31352e49454336313937302e496e666f726d61746976652e496e664173736574732e50726f63656475726544617461536574,
  [(0x636f6e646974696f6e4166746572, t_EString), (0x636f6e646974696f6e4265666f7265, t_EString), (0x6d61696e74436f6465, t_EString)],
  []⟩
/-- Class CIM15.IEC61970.Informative.InfWork.MaterialItem -/
def s_MaterialItem : SClass := ⟨0x4d6174657269616c4974656d, 0x43494d31352e49454336313937302e496e666f726d61746976652e496e66576f726b2e4d6174657269616c4974656d, 0x43494d31352e49454336313937302e436f72652e4964656e7469666965644f626a656374,
  [(0x636f73744465736372697074696f6e, t_EString), (0x7175616e74697479, t_java_math_BigInteger), (0x6d6174657269616c436f6465, t_EString), (0x65787465726e616c5265664944, t_EString), (0x636f737454797065, t_EString), (0x6163636f756e74, t_EString), (0x61637475616c436f7374, t_float)],
  [⟨0x457270496e76656e746f7279436f756e7473, 0x43494d31352e49454336313937302e496e666f726d61746976652e496e66455250537570706f72742e457270496e76656e746f7279436f756e74, true, 0x4d6174657269616c4974656d⟩, ⟨0x557361676573, 0x43494d31352e49454336313937302e496e666f726d61746976652e496e66576f726b2e5573616765, true, 0x4d6174657269616c4974656d⟩, ⟨0x457270504f4c696e654974656d73, 0x43494d31352e49454336313937302e496e666f726d61746976652e496e66455250537570706f72742e457270504f4c696e654974656d, true, 0x4d6174657269616c4974656d⟩, ⟨0x45727052656344656c764c696e654974656d73, 0x43494d31352e49454336313937302e496e666f726d61746976652e496e66455250537570706f72742e45727052656344656c764c696e654974656d, true, 0x4d6174657269616c4974656d73⟩, ⟨0x44657369676e4c6f636174696f6e, 0x43494d31352e49454336313937302e496e666f726d61746976652e496e66576f726b2e44657369676e4c6f636174696f6e, false, 0x4d6174657269616c4974656d73⟩, ⟨0x737461747573, 0x43494d31352e49454336313936382e436f6d6d6f6e2e537461747573, false, 0⟩, ⟨0x547970654d6174657269616c, 0x43494d31352e49454336313937302e496e666f726d61746976652e496e66576f726b2e547970654d6174657269616c, false, 0x4d6174657269616c4974656d73⟩, ⟨0x576f726b436f737444657461696c, 0x43494d31352e49454336313937302e496e666f726d61746976652e496e66576f726b2e576f726b436f737444657461696c, false, 0x4d6174657269616c4974656d73⟩, ⟨0x576f726b5461736b, 0x43494d31352e49454336313937302e496e666f726d61746976652e496e66576f726b2e576f726b5461736b, false, 0x4d6174657269616c4974656d73⟩]⟩
/-- Class CIM15.IEC61970.Informative.InfWork.MiscCostItem -/
def s_MiscCostItem : SClass := ⟨0x4d697363436f73744974656d, 0x43494d31352e49454336313937302e496e666f726d61746976652e496e66576f726b2e4d697363436f73744974656d, 0x43494d31352e49454336313937302e436f72652e4964656e7469666965644f626a656374,
  [(0x7175616e74697479, t_java_math_BigInteger), (0x636f7374506572556e6974, t_float), (0x65787465726e616c5265664944, t_EString), (0x6163636f756e74, t_EString), (0x636f737454797065, t_EString)],
  [⟨0x44657369676e4c6f636174696f6e, 0x43494d31352e49454336313937302e496e666f726d61746976652e496e66576f726b2e44657369676e4c6f636174696f6e, false, 0x4d697363436f73744974656d73⟩, ⟨0x737461747573, 0x43494d31352e49454336313936382e436f6d6d6f6e2e537461747573, false, 0⟩, ⟨0x576f726b5461736b, 0x43494d31352e49454336313937302e496e666f726d61746976652e496e66576f726b2e576f726b5461736b, false, 0x4d697363436f73744974656d73⟩, ⟨0x576f726b436f737444657461696c, 0x43494d31352e49454336313937302e496e666f726d61746976652e496e66576f726b2e576f726b436f737444657461696c, false, 0x4d697363436f73744974656d73⟩]⟩
/-- Class CIM15.IEC61970.Informative.InfWork.NonStandardItem -/
def s_NonStandardItem : SClass := ⟨0x4e6f6e5374616e646172644974656d, 0x43494d31352e49454336313937302e496e666f726d61746976652e496e66576f726b2e4e6f6e5374616e646172644974656d, 0x43494d31352e49454336313936382e436f6d6d6f6e2e446f63756d656e74,
  [(0x636f6465, t_EString), (0x616d6f756e74, t_float)],
  []⟩
/-- Class CIM15.IEC61970.Informative.InfWork.OneCallRequest -/
def s_OneCallRequest : SClass := ⟨0x4f6e6543616c6c52657175657374, 0x43494d31352e49454336313937302e496e666f726d61746976652e496e66576f726b2e4f6e6543616c6c52657175657374, 0x43494d31352e49454336313936382e436f6d6d6f6e2e446f63756d656e74,
  [(0x6d61726b6564496e64696361746f72, t_EBoolean), (0x6578706c6f736976657355736564, t_EBoolean), (0x6d61726b696e67496e737472756374696f6e, t_EString)],
  [⟨0x576f726b4c6f636174696f6e73, 0x43494d31352e49454336313937302e496e666f726d61746976652e496e66576f726b2e576f726b4c6f636174696f6e, true, 0x4f6e6543616c6c52657175657374⟩]⟩
/-- Class CIM15.IEC61970.Informative.InfWork.OverheadCost -/
def s_OverheadCost : SClass := ⟨0x4f76657268656164436f7374, 0x43494d31352e49454336313937302e496e666f726d61746976652e496e66576f726b2e4f76657268656164436f7374, 0x43494d31352e49454336313937302e436f72652e4964656e7469666965644f626a656374,
  [(0x636f6465, t_EString), (0x636f7374, t_float)],
  [⟨0x737461747573, 0x43494d31352e49454336313936382e436f6d6d6f6e2e537461747573, false, 0⟩, ⟨0x576f726b436f737444657461696c73, 0x43494d31352e49454336313937302e496e666f726d61746976652e496e66576f726b2e576f726b436f737444657461696c, true, 0x4f76657268656164436f7374⟩, ⟨0x576f726b5461736b73, 0x43494d31352e49454336313937302e496e666f726d61746976652e496e66576f726b2e576f726b5461736b, true, 0x4f76657268656164436f7374⟩]⟩
/-- Class CIM15.IEC61970.Informative.InfWork.Project -/
def s_Project : SClass := ⟨0x50726f6a656374, 0x43494d31352e49454336313937302e496e666f726d61746976652e496e66576f726b2e50726f6a656374, 0x43494d31352e49454336313936382e436f6d6d6f6e2e446f63756d656e74,
  [(0x627564676574, t_float)],
  [⟨0x427573696e65737343617365, 0x43494d31352e49454336313937302e496e666f726d61746976652e496e66576f726b2e427573696e65737343617365, false, 0x50726f6a65637473⟩, ⟨0x53756250726f6a65637473, 0x43494d31352e49454336313937302e496e666f726d61746976652e496e66576f726b2e50726f6a656374, true, 0x506172656e7450726f6a656374⟩, ⟨0x45727050726f6a6563744163636f756e74696e67, 0x43494d31352e49454336313937302e496e666f726d61746976652e496e66455250537570706f72742e45727050726f6a6563744163636f756e74696e67, false, 0x50726f6a65637473⟩, ⟨0x5265717565737473, 0x43494d31352e49454336313937302e496e666f726d61746976652e496e66576f726b2e52657175657374, true, 0x50726f6a65637473⟩, ⟨0x576f726b73, 0x43494d31352e49454336313936382e576f726b2e576f726b, true, 0x50726f6a656374⟩, ⟨0x506172656e7450726f6a656374, 0x43494d31352e49454336313937302e496e666f726d61746976652e496e66576f726b2e50726f6a656374, false, 0x53756250726f6a65637473⟩]⟩
/-- Class CIM15.IEC61970.Informative.InfWork.PropertyUnit -/
def s_PropertyUnit : SClass := ⟨0x50726f7065727479556e6974, 0x43494d31352e49454336313937302e496e666f726d61746976652e496e66576f726b2e50726f7065727479556e6974, 0x43494d31352e49454336313937302e436f72652e4964656e7469666965644f626a656374,
  [(0x6163636f756e74696e675573616765, t_EString), (0x70726f70657274794163636f756e74, t_EString), (0x6163746976697479436f6465, e_WorkActionKind)],
  [⟨0x737461747573, 0x43494d31352e49454336313936382e436f6d6d6f6e2e537461747573, false, 0⟩, ⟨0x436f6d70617469626c65556e697473, 0x43494d31352e49454336313937302e496e666f726d61746976652e496e66576f726b2e436f6d70617469626c65556e6974, true, 0x50726f7065727479556e6974⟩, ⟨0x43554d6174657269616c4974656d73, 0x43494d31352e49454336313937302e496e666f726d61746976652e496e66576f726b2e43554d6174657269616c4974656d, true, 0x50726f7065727479556e697473⟩, ⟨0x576f726b436f737444657461696c73, 0x43494d31352e49454336313937302e496e666f726d61746976652e496e66576f726b2e576f726b436f737444657461696c, true, 0x50726f7065727479556e697473⟩]⟩
/-- Class CIM15.IEC61970.Informative.InfWork.QualificationRequirement -/
def s_QualificationRequirement : SClass := ⟨0x5175616c696669636174696f6e526571756972656d656e74, 0x43494d31352e49454336313937302e496e666f726d61746976652e496e66576f726b2e5175616c696669636174696f6e526571756972656d656e74, 0x43494d31352e49454336313937302e436f72652e4964656e7469666965644f626a656374,
  [(0x7175616c696669636174696f6e4944, t_EString)],
  [⟨0x576f726b5461736b73, 0x43494d31352e49454336313937302e496e666f726d61746976652e496e66576f726b2e576f726b5461736b, true, 0x5175616c696669636174696f6e526571756972656d656e7473⟩, ⟨0x536b696c6c73, 0x43494d31352e49454336313937302e496e666f726d61746976652e496e66436f6d6d6f6e2e536b696c6c, true, 0x5175616c696669636174696f6e526571756972656d656e7473⟩, ⟨0x43554c61626f724974656d73, 0x43494d31352e49454336313937302e496e666f726d61746976652e496e66576f726b2e43554c61626f724974656d, true, 0x5175616c696669636174696f6e526571756972656d656e7473⟩, ⟨0x53706563696669636174696f6e73, 0x43494d31352e49454336313937302e496e666f726d61746976652e496e664173736574732e53706563696669636174696f6e, true, 0x5175616c696669636174696f6e526571756972656d656e7473⟩]⟩
/-- Class CIM15.IEC61970.Informative.InfWork.Regulation -/
def s_Regulation : SClass := ⟨0x526567756c6174696f6e, 0x43494d31352e49454336313937302e496e666f726d61746976652e496e66576f726b2e526567756c6174696f6e, 0x43494d31352e49454336313936382e436f6d6d6f6e2e446f63756d656e74,
  [(0x7265666572656e63654e756d626572, t_EString)],
  []⟩
/-- Class CIM15.IEC61970.Informative.InfWork.Request -/
def s_Request : SClass := ⟨0x52657175657374, 0x43494d31352e49454336313937302e496e666f726d61746976652e496e66576f726b2e52657175657374, 0x43494d31352e49454336313936382e436f6d6d6f6e2e446f63756d656e74,
  [(0x616374696f6e4e6565646564, t_EString), (0x7072696f72697479, t_EString), (0x636f72706f72617465436f6465, t_EString)],
  [⟨0x45727051756f74654c696e654974656d, 0x43494d31352e49454336313937302e496e666f726d61746976652e496e66455250537570706f72742e45727051756f74654c696e654974656d, false, 0x52657175657374⟩, ⟨0x50726f6a65637473, 0x43494d31352e49454336313937302e496e666f726d61746976652e496e66576f726b2e50726f6a656374, true, 0x5265717565737473⟩, ⟨0x4f7267616e69736174696f6e, 0x43494d31352e49454336313937302e496e666f726d61746976652e496e66455250537570706f72742e4572704f7267616e69736174696f6e, false, 0x5265717565737473⟩, ⟨0x576f726b73, 0x43494d31352e49454336313936382e576f726b2e576f726b, true, 0x52657175657374⟩]⟩
/-- Class CIM15.IEC61970.Informative.InfWork.ShiftPattern -/
def s_ShiftPattern : SClass := ⟨0x53686966745061747465726e, 0x43494d31352e49454336313937302e496e666f726d61746976652e496e66576f726b2e53686966745061747465726e, 0x43494d31352e49454336313937302e436f72652e4964656e7469666965644f626a656374,
  [(0x6379636c65436f756e74, t_EInt), (0x61737369676e6d656e7454797065, t_EString)],
  [⟨0x4372657773, 0x43494d31352e49454336313937302e496e666f726d61746976652e496e66576f726b2e43726577, true, 0x53686966745061747465726e73⟩, ⟨0x737461747573, 0x43494d31352e49454336313936382e436f6d6d6f6e2e537461747573, false, 0⟩, ⟨0x76616c6964697479496e74657276616c, 0x43494d31352e49454336313937302e446f6d61696e2e4461746554696d65496e74657276616c, false, 0⟩]⟩
/-- Class CIM15.IEC61970.Informative.InfWork.TypeMaterial -/
def s_TypeMaterial : SClass := ⟨0x547970654d6174657269616c, 0x43494d31352e49454336313937302e496e666f726d61746976652e496e66576f726b2e547970654d6174657269616c, 0x43494d31352e49454336313936382e436f6d6d6f6e2e446f63756d656e74,
  [(0x73746f636b4974656d, t_EBoolean), (0x636f737454797065, t_EString), (0x7175616e74697479, t_EString), (0x657374556e6974436f7374, t_float)],
  [⟨0x4572704973737565496e76656e746f72696573, 0x43494d31352e49454336313937302e496e666f726d61746976652e496e66455250537570706f72742e4572704973737565496e76656e746f7279, true, 0x547970654d6174657269616c⟩, ⟨0x4d6174657269616c4974656d73, 0x43494d31352e49454336313937302e496e666f726d61746976652e496e66576f726b2e4d6174657269616c4974656d, true, 0x547970654d6174657269616c⟩, ⟨0x43554d6174657269616c4974656d73, 0x43494d31352e49454336313937302e496e666f726d61746976652e496e66576f726b2e43554d6174657269616c4974656d, true, 0x547970654d6174657269616c⟩, ⟨0x4572705265714c696e654974656d73, 0x43494d31352e49454336313937302e496e666f726d61746976652e496e66455250537570706f72742e4572705265714c696e654974656d, true, 0x547970654d6174657269616c⟩]⟩
/-- Class CIM15.IEC61970.Informative.InfWork.Usage -/
def s_Usage : SClass := ⟨0x5573616765, 0x43494d31352e49454336313937302e496e666f726d61746976652e496e66576f726b2e5573616765, 0x43494d31352e49454336313937302e436f72652e4964656e7469666965644f626a656374,
  [],
  [⟨0x576f726b5461736b, 0x43494d31352e49454336313937302e496e666f726d61746976652e496e66576f726b2e576f726b5461736b, false, 0x557361676573⟩, ⟨0x576f726b45717569706d656e744173736574, 0x43494d31352e49454336313937302e496e666f726d61746976652e496e664173736574732e576f726b45717569706d656e74, false, 0x557361676573⟩, ⟨0x737461747573, 0x43494d31352e49454336313936382e436f6d6d6f6e2e537461747573, false, 0⟩, ⟨0x4d6174657269616c4974656d, 0x43494d31352e49454336313937302e496e666f726d61746976652e496e66576f726b2e4d6174657269616c4974656d, false, 0x557361676573⟩]⟩
/-- Class CIM15.IEC61970.Informative.InfWork.WorkCostDetail -/
def s_WorkCostDetail : SClass := ⟨0x576f726b436f737444657461696c, 0x43494d31352e49454336313937302e496e666f726d61746976652e496e66576f726b2e576f726b436f737444657461696c, 0x43494d31352e49454336313936382e436f6d6d6f6e2e446f63756d656e74,
  [(0x74797065, t_EString), (0x69734465626974, t_EBoolean), (0x7472616e73616374696f6e4461746554696d65, t_java_util_Date), (0x616d6f756e74, t_float)],
  [⟨0x576f726b5461736b, 0x43494d31352e49454336313937302e496e666f726d61746976652e496e66576f726b2e576f726b5461736b, false, 0x576f726b436f737444657461696c73⟩, ⟨0x576f726b73, 0x43494d31352e49454336313936382e576f726b2e576f726b, true, 0x576f726b436f737444657461696c73⟩, ⟨0x44657369676e, 0x43494d31352e49454336313937302e496e666f726d61746976652e496e66576f726b2e44657369676e, false, 0x576f726b436f737444657461696c73⟩, ⟨0x4d697363436f73744974656d73, 0x43494d31352e49454336313937302e496e666f726d61746976652e496e66576f726b2e4d697363436f73744974656d, true, 0x576f726b436f737444657461696c⟩, ⟨0x576f726b436f737453756d6d617279, 0x43494d31352e49454336313937302e496e666f726d61746976652e496e66576f726b2e576f726b436f737453756d6d617279, false, 0x576f726b436f737444657461696c⟩, ⟨0x50726f7065727479556e697473, 0x43494d31352e49454336313937302e496e666f726d61746976652e496e66576f726b2e50726f7065727479556e6974, true, 0x576f726b436f737444657461696c73⟩, ⟨0x45727050726f6a6563744163636f756e74696e67, 0x43494d31352e49454336313937302e496e666f726d61746976652e496e66455250537570706f72742e45727050726f6a6563744163636f756e74696e67, false, 0x576f726b436f737444657461696c73⟩, ⟨0x4c61626f724974656d73, 0x43494d31352e49454336313937302e496e666f726d61746976652e496e66576f726b2e4c61626f724974656d, true, 0x576f726b436f737444657461696c⟩, ⟨0x4d6174657269616c4974656d73, 0x43494d31352e49454336313937302e496e666f726d61746976652e496e66576f726b2e4d6174657269616c4974656d, true, 0x576f726b436f737444657461696c⟩, ⟨0x45717569706d656e744974656d73, 0x43494d31352e49454336313937302e496e666f726d61746976652e496e66576f726b2e45717569706d656e744974656d, true, 0x576f726b436f737444657461696c⟩, ⟨0x436f6e74726163746f724974656d73, 0x43494d31352e49454336313937302e496e666f726d61746976652e496e66576f726b2e436f6e74726163746f724974656d, true, 0x576f726b436f737444657461696c⟩, ⟨0x4f76657268656164436f7374, 0x43494d31352e49454336313937302e496e666f726d61746976652e496e66576f726b2e4f76657268656164436f7374, false, 0x576f726b436f737444657461696c73⟩, ⟨0x436f737454797065, 0x43494d31352e49454336313937302e496e666f726d61746976652e496e66576f726b2e436f737454797065, false, 0x576f726b436f737444657461696c73⟩]⟩
/-- Class CIM15.IEC61970.Informative.InfWork.WorkCostSummary -/
def s_WorkCostSummary : SClass := ⟨0x576f726b436f737453756d6d617279, 0x43494d31352e49454336313937302e496e666f726d61746976652e496e66576f726b2e576f726b436f737453756d6d617279, 0x43494d31352e49454336313936382e436f6d6d6f6e2e446f63756d656e74,
  [],
  [⟨0x576f726b436f737444657461696c, 0x43494d31352e49454336313937302e496e666f726d61746976652e496e66576f726b2e576f726b436f737444657461696c, false, 0x576f726b436f737453756d6d617279⟩]⟩
/-- Class CIM15.IEC61970.Informative.InfWork.WorkFlowStep -/
def s_WorkFlowStep : SClass := ⟨0x576f726b466c6f7753746570, 0x43494d31352e49454336313937302e496e666f726d61746976652e496e66576f726b2e576f726b466c6f7753746570, 0x43494d31352e49454336313937302e436f72652e4964656e7469666965644f626a656374,
  [(0x73657175656e63654e756d626572, t_EInt)],
  [⟨0x576f726b5461736b73, 0x43494d31352e49454336313937302e496e666f726d61746976652e496e66576f726b2e576f726b5461736b, true, 0x576f726b466c6f7753746570⟩, ⟨0x737461747573, 0x43494d31352e49454336313936382e436f6d6d6f6e2e537461747573, false, 0⟩, ⟨0x576f726b, 0x43494d31352e49454336313936382e576f726b2e576f726b, false, 0x576f726b466c6f775374657073⟩]⟩
/-- Class CIM15.IEC61970.Informative.InfWork.WorkLocation -/
def s_WorkLocation : SClass := ⟨0x576f726b4c6f636174696f6e, 0x43494d31352e49454336313937302e496e666f726d61746976652e496e66576f726b2e576f726b4c6f636174696f6e, 0x43494d31352e49454336313936382e436f6d6d6f6e2e4c6f636174696f6e,
  [(0x7375626469766973696f6e, t_EString), (0x6e656172657374496e74657273656374696f6e, t_EString), (0x626c6f636b, t_EString), (0x6c6f74, t_EString)],
  [⟨0x4f6e6543616c6c52657175657374, 0x43494d31352e49454336313937302e496e666f726d61746976652e496e66576f726b2e4f6e6543616c6c52657175657374, false, 0x576f726b4c6f636174696f6e73⟩, ⟨0x44657369676e4c6f636174696f6e73, 0x43494d31352e49454336313937302e496e666f726d61746976652e496e66576f726b2e44657369676e4c6f636174696f6e, true, 0x576f726b4c6f636174696f6e73⟩]⟩
/-- Class CIM15.IEC61970.Informative.InfWork.WorkStatusEntry -/
def s_WorkStatusEntry : SClass := ⟨0x576f726b537461747573456e747279, 0x43494d31352e49454336313937302e496e666f726d61746976652e496e66576f726b2e576f726b537461747573456e747279, 0x43494d31352e49454336313936382e436f6d6d6f6e2e41637469766974795265636f7264,
  [(0x70657263656e74436f6d706c657465, t_float)],
  []⟩
/-- Class CIM15.IEC61970.Informative.InfWork.WorkTask -/
def s_WorkTask : SClass := ⟨0x576f726b5461736b, 0x43494d31352e49454336313937302e496e666f726d61746976652e496e66576f726b2e576f726b5461736b, 0x43494d31352e49454336313936382e436f6d6d6f6e2e446f63756d656e74,
  [(0x7072696f72697479, t_EString), (0x73636865644f76657272696465, t_EString)],
  [⟨0x45717569706d656e744974656d73, 0x43494d31352e49454336313937302e496e666f726d61746976652e496e66576f726b2e45717569706d656e744974656d, true, 0x576f726b5461736b⟩, ⟨0x557361676573, 0x43494d31352e49454336313937302e496e666f726d61746976652e496e66576f726b2e5573616765, true, 0x576f726b5461736b⟩, ⟨0x4d697363436f73744974656d73, 0x43494d31352e49454336313937302e496e666f726d61746976652e496e66576f726b2e4d697363436f73744974656d, true, 0x576f726b5461736b⟩, ⟨0x4372657773, 0x43494d31352e49454336313937302e496e666f726d61746976652e496e66576f726b2e43726577, true, 0x576f726b5461736b73⟩, ⟨0x576f726b, 0x43494d31352e49454336313936382e576f726b2e576f726b, false, 0x576f726b5461736b73⟩, ⟨0x4f76657268656164436f7374, 0x43494d31352e49454336313937302e496e666f726d61746976652e496e66576f726b2e4f76657268656164436f7374, false, 0x576f726b5461736b73⟩, ⟨0x44657369676e4c6f636174696f6e435573, 0x43494d31352e49454336313937302e496e666f726d61746976652e496e66576f726b2e44657369676e4c6f636174696f6e4355, true, 0x576f726b5461736b73⟩, ⟨0x436f6e74726163746f724974656d73, 0x43494d31352e49454336313937302e496e666f726d61746976652e496e66576f726b2e436f6e74726163746f724974656d, true, 0x576f726b5461736b⟩, ⟨0x537769746368696e675363686564756c6573, 0x43494d31352e49454336313937302e496e666f726d61746976652e496e664f7065726174696f6e732e537769746368696e675363686564756c65, true, 0x576f726b5461736b⟩, ⟨0x576f726b466c6f7753746570, 0x43494d31352e49454336313937302e496e666f726d61746976652e496e66576f726b2e576f726b466c6f7753746570, false, 0x576f726b5461736b73⟩, ⟨0x44657369676e, 0x43494d31352e49454336313937302e496e666f726d61746976652e496e66576f726b2e44657369676e, false, 0x576f726b5461736b73⟩, ⟨0x5175616c696669636174696f6e526571756972656d656e7473, 0x43494d31352e49454336313937302e496e666f726d61746976652e496e66576f726b2e5175616c696669636174696f6e526571756972656d656e74, true, 0x576f726b5461736b73⟩, ⟨0x4361706162696c6974696573, 0x43494d31352e49454336313937302e496e666f726d61746976652e496e66576f726b2e4361706162696c697479, true, 0x576f726b5461736b73⟩, ⟨0x576f726b436f737444657461696c73, 0x43494d31352e49454336313937302e496e666f726d61746976652e496e66576f726b2e576f726b436f737444657461696c, true, 0x576f726b5461736b⟩, ⟨0x417373657473, 0x43494d31352e49454336313936382e4173736574732e4173736574, true, 0x576f726b5461736b⟩, ⟨0x4c61626f724974656d73, 0x43494d31352e49454336313937302e496e666f726d61746976652e496e66576f726b2e4c61626f724974656d, true, 0x576f726b5461736b⟩, ⟨0x4d6174657269616c4974656d73, 0x43494d31352e49454336313937302e496e666f726d61746976652e496e66576f726b2e4d6174657269616c4974656d, true, 0x576f726b5461736b⟩]⟩
/-- Class CIM15.IEC61970.LoadModel.ConformLoad -/
def s_ConformLoad : SClass := ⟨0x436f6e666f726d4c6f6164, 0x43494d31352e49454336313937302e4c6f61644d6f64656c2e436f6e666f726d4c6f6164, 0x43494d31352e49454336313937302e57697265732e456e65726779436f6e73756d6572,
  [],
  [⟨0x4c6f616447726f7570, 0x43494d31352e49454336313937302e4c6f61644d6f64656c2e436f6e666f726d4c6f616447726f7570, false, 0x456e65726779436f6e73756d657273⟩]⟩
/-- Class CIM15.IEC61970.LoadModel.ConformLoadGroup -/
def s_ConformLoadGroup : SClass := ⟨0x436f6e666f726d4c6f616447726f7570, 0x43494d31352e49454336313937302e4c6f61644d6f64656c2e436f6e666f726d4c6f616447726f7570, 0x43494d31352e49454336313937302e4c6f61644d6f64656c2e4c6f616447726f7570,
  [],
  [⟨0x436f6e666f726d4c6f61645363686564756c6573, 0x43494d31352e49454336313937302e4c6f61644d6f64656c2e436f6e666f726d4c6f61645363686564756c65, true, 0x436f6e666f726d4c6f616447726f7570⟩, ⟨0x456e65726779436f6e73756d657273, 0x43494d31352e49454336313937302e4c6f61644d6f64656c2e436f6e666f726d4c6f6164, true, 0x4c6f616447726f7570⟩]⟩
/-- Class CIM15.IEC61970.LoadModel.ConformLoadSchedule -/
def s_ConformLoadSchedule : SClass := ⟨0x436f6e666f726d4c6f61645363686564756c65, 0x43494d31352e49454336313937302e4c6f61644d6f64656c2e436f6e666f726d4c6f61645363686564756c65, 0x43494d31352e49454336313937302e4c6f61644d6f64656c2e536561736f6e446179547970655363686564756c65,
  [],
  [⟨0x436f6e666f726d4c6f616447726f7570, 0x43494d31352e49454336313937302e4c6f61644d6f64656c2e436f6e666f726d4c6f616447726f7570, false, 0x436f6e666f726d4c6f61645363686564756c6573⟩]⟩
/-- Class CIM15.IEC61970.LoadModel.DayType -/
def s_DayType : SClass := ⟨0x44617954797065, 0x43494d31352e49454336313937302e4c6f61644d6f64656c2e44617954797065, 0x43494d31352e49454336313937302e436f72652e4964656e7469666965644f626a656374,
  [],
  [⟨0x536561736f6e446179547970655363686564756c6573, 0x43494d31352e49454336313937302e4c6f61644d6f64656c2e536561736f6e446179547970655363686564756c65, true, 0x44617954797065⟩]⟩
/-- Class CIM15.IEC61970.LoadModel.EnergyArea -/
def s_EnergyArea : SClass := ⟨0x456e6572677941726561, 0x43494d31352e49454336313937302e4c6f61644d6f64656c2e456e6572677941726561, 0x43494d31352e49454336313937302e436f72652e4964656e7469666965644f626a656374,
  [],
  [⟨0x436f6e74726f6c41726561, 0x43494d31352e49454336313937302e436f6e74726f6c417265612e436f6e74726f6c41726561, false, 0x456e6572677941726561⟩]⟩
/-- Class CIM15.IEC61970.LoadModel.LoadArea -/
def s_LoadArea : SClass := ⟨0x4c6f616441726561, 0x43494d31352e49454336313937302e4c6f61644d6f64656c2e4c6f616441726561, 0x43494d31352e49454336313937302e4c6f61644d6f64656c2e456e6572677941726561,
  [],
  [⟨0x5375624c6f61644172656173, 0x43494d31352e49454336313937302e4c6f61644d6f64656c2e5375624c6f616441726561, true, 0x4c6f616441726561⟩]⟩
/-- Class CIM15.IEC61970.LoadModel.LoadGroup -/
def s_LoadGroup : SClass := ⟨0x4c6f616447726f7570, 0x43494d31352e49454336313937302e4c6f61644d6f64656c2e4c6f616447726f7570, 0x43494d31352e49454336313937302e436f72652e4964656e7469666965644f626a656374,
  [],
  [⟨0x5375624c6f616441726561, 0x43494d31352e49454336313937302e4c6f61644d6f64656c2e5375624c6f616441726561, false, 0x4c6f616447726f757073⟩]⟩
/-- Class CIM15.IEC61970.LoadModel.LoadResponseCharacteristic -/
def s_LoadResponseCharacteristic : SClass := ⟨0x4c6f6164526573706f6e73654368617261637465726973746963, 0x43494d31352e49454336313937302e4c6f61644d6f64656c2e4c6f6164526573706f6e73654368617261637465726973746963, 0x43494d31352e49454336313937302e436f72652e4964656e7469666965644f626a656374,
  [(0x704672657175656e63794578706f6e656e74, t_EFloat), (0x70436f6e7374616e74506f776572, t_EFloat), (0x6578706f6e656e744d6f64656c, t_EBoolean), (0x714672657175656e63794578706f6e656e74, t_EFloat), (0x70566f6c746167654578706f6e656e74, t_EFloat), (0x71436f6e7374616e74496d706564616e6365, t_EFloat), (0x71436f6e7374616e74506f776572, t_EFloat), (0x70436f6e7374616e74496d706564616e6365, t_EFloat), (0x70436f6e7374616e7443757272656e74, t_EFloat), (0x71566f6c746167654578706f6e656e74, t_EFloat), (0x71436f6e7374616e7443757272656e74, t_EFloat)],
  [⟨0x456e65726779436f6e73756d6572, 0x43494d31352e49454336313937302e57697265732e456e65726779436f6e73756d6572, true, 0x4c6f6164526573706f6e7365⟩]⟩
/-- Class CIM15.IEC61970.LoadModel.NonConformLoad -/
def s_NonConformLoad : SClass := ⟨0x4e6f6e436f6e666f726d4c6f6164, 0x43494d31352e49454336313937302e4c6f61644d6f64656c2e4e6f6e436f6e666f726d4c6f6164, 0x43494d31352e49454336313937302e57697265732e456e65726779436f6e73756d6572,
  [],
  [⟨0x4c6f616447726f7570, 0x43494d31352e49454336313937302e4c6f61644d6f64656c2e4e6f6e436f6e666f726d4c6f616447726f7570, false, 0x456e65726779436f6e73756d657273⟩]⟩
/-- Class CIM15.IEC61970.LoadModel.NonConformLoadGroup -/
def s_NonConformLoadGroup : SClass := ⟨0x4e6f6e436f6e666f726d4c6f616447726f7570, 0x43494d31352e49454336313937302e4c6f61644d6f64656c2e4e6f6e436f6e666f726d4c6f616447726f7570, 0x43494d31352e49454336313937302e4c6f61644d6f64656c2e4c6f616447726f7570,
  [],
  [⟨0x4e6f6e436f6e666f726d4c6f61645363686564756c6573, 0x43494d31352e49454336313937302e4c6f61644d6f64656c2e4e6f6e436f6e666f726d4c6f61645363686564756c65, true, 0x4e6f6e436f6e666f726d4c6f616447726f7570⟩, ⟨0x456e65726779436f6e73756d657273, 0x43494d31352e49454336313937302e4c6f61644d6f64656c2e4e6f6e436f6e666f726d4c6f6164, true, 0x4c6f616447726f7570⟩]⟩
/-- Class CIM15.IEC61970.LoadModel.NonConformLoadSchedule -/
def s_NonConformLoadSchedule : SClass := ⟨0x4e6f6e436f6e666f726d4c6f61645363686564756c65, 0x43494d31352e49454336313937302e4c6f61644d6f64656c2e4e6f6e436f6e666f726d4c6f61645363686564756c65, 0x43494d31352e49454336313937302e4c6f61644d6f64656c2e536561736f6e446179547970655363686564756c65,
  [],
  [⟨0x4e6f6e436f6e666f726d4c6f616447726f7570, 0x43494d31352e49454336313937302e4c6f61644d6f64656c2e4e6f6e436f6e666f726d4c6f616447726f7570, false, 0x4e6f6e436f6e666f726d4c6f61645363686564756c6573⟩]⟩
/-- Class CIM15.IEC61970.LoadModel.PowerCutZone -/
def s_PowerCutZone : SClass := ⟨0x506f7765724375745a6f6e65, 0x43494d31352e49454336313937302e4c6f61644d6f64656c2e506f7765724375745a6f6e65, 0x43494d31352e49454336313937302e436f72652e506f77657253797374656d5265736f75726365,
  [(0x6375744c6576656c32, t_float), (0x6375744c6576656c31, t_float)],
  [⟨0x456e65726779436f6e73756d657273, 0x43494d31352e49454336313937302e57697265732e456e65726779436f6e73756d6572, true, 0x506f7765724375745a6f6e65⟩]⟩
/-- Class CIM15.IEC61970.LoadModel.Season -/
def s_Season : SClass := ⟨0x536561736f6e, 0x43494d31352e49454336313937302e4c6f61644d6f64656c2e536561736f6e, 0x43494d31352e456c656d656e74,
  [(0x6e616d65, e_SeasonName), (0x737461727444617465, t_java_util_Date), (0x656e6444617465, t_java_util_Date)],
  [⟨0x536561736f6e446179547970655363686564756c6573, 0x43494d31352e49454336313937302e4c6f61644d6f64656c2e536561736f6e446179547970655363686564756c65, true, 0x536561736f6e⟩]⟩
/-- Class CIM15.IEC61970.LoadModel.SeasonDayTypeSchedule -/
def s_SeasonDayTypeSchedule : SClass := ⟨0x536561736f6e446179547970655363686564756c65, 0x43494d31352e49454336313937302e4c6f61644d6f64656c2e536561736f6e446179547970655363686564756c65, 0x43494d31352e49454336313937302e436f72652e526567756c6172496e74657276616c5363686564756c65,
  [],
  [⟨0x536561736f6e, 0x43494d31352e49454336313937302e4c6f61644d6f64656c2e536561736f6e, false, 0x536561736f6e446179547970655363686564756c6573⟩, ⟨0x44617954797065, 0x43494d31352e49454336313937302e4c6f61644d6f64656c2e44617954797065, false, 0x536561736f6e446179547970655363686564756c6573⟩]⟩
/-- Class CIM15.IEC61970.LoadModel.StationSupply -/
def s_StationSupply : SClass := ⟨0x53746174696f6e537570706c79, 0x43494d31352e49454336313937302e4c6f61644d6f64656c2e53746174696f6e537570706c79, 0x43494d31352e49454336313937302e57697265732e456e65726779436f6e73756d6572,
  [],
  []⟩
/-- Class CIM15.IEC61970.LoadModel.SubLoadArea -/
def s_SubLoadArea : SClass := ⟨0x5375624c6f616441726561, 0x43494d31352e49454336313937302e4c6f61644d6f64656c2e5375624c6f616441726561, 0x43494d31352e49454336313937302e4c6f61644d6f64656c2e456e6572677941726561,
  [],
  [⟨0x4c6f616447726f757073, 0x43494d31352e49454336313937302e4c6f61644d6f64656c2e4c6f616447726f7570, true, 0x5375624c6f616441726561⟩, ⟨0x4c6f616441726561, 0x43494d31352e49454336313937302e4c6f61644d6f64656c2e4c6f616441726561, false, 0x5375624c6f61644172656173⟩]⟩
/-- Class CIM15.IEC61970.Meas.Accumulator -/
def s_Accumulator : SClass := ⟨0x416363756d756c61746f72, 0x43494d31352e49454336313937302e4d6561732e416363756d756c61746f72, 0x43494d31352e49454336313937302e4d6561732e4d6561737572656d656e74,
  [(0x6d617856616c7565, t_EInt)],
  [⟨0x4c696d697453657473, 0x43494d31352e49454336313937302e4d6561732e416363756d756c61746f724c696d6974536574, true, 0x4d6561737572656d656e7473⟩, ⟨0x416363756d756c61746f7256616c756573, 0x43494d31352e49454336313937302e4d6561732e416363756d756c61746f7256616c7565, true, 0x416363756d756c61746f72⟩]⟩
/-- Class CIM15.IEC61970.Meas.AccumulatorLimit -/
def s_AccumulatorLimit : SClass := ⟨0x416363756d756c61746f724c696d6974, 0x43494d31352e49454336313937302e4d6561732e416363756d756c61746f724c696d6974, 0x43494d31352e49454336313937302e4d6561732e4c696d6974,
  [(0x76616c7565, t_EInt)],
  [⟨0x4c696d6974536574, 0x43494d31352e49454336313937302e4d6561732e416363756d756c61746f724c696d6974536574, false, 0x4c696d697473⟩]⟩
/-- Class CIM15.IEC61970.Meas.AccumulatorLimitSet -/
def s_AccumulatorLimitSet : SClass := ⟨0x416363756d756c61746f724c696d6974536574, 0x43494d31352e49454336313937302e4d6561732e416363756d756c61746f724c696d6974536574, 0x43494d31352e49454336313937302e4d6561732e4c696d6974536574,
  [],
  [⟨0x4c696d697473, 0x43494d31352e49454336313937302e4d6561732e416363756d756c61746f724c696d6974, true, 0x4c696d6974536574⟩, ⟨0x4d6561737572656d656e7473, 0x43494d31352e49454336313937302e4d6561732e416363756d756c61746f72, true, 0x4c696d697453657473⟩]⟩
/-- Class CIM15.IEC61970.Meas.AccumulatorValue -/
def s_AccumulatorValue : SClass := ⟨0x416363756d756c61746f7256616c7565, 0x43494d31352e49454336313937302e4d6561732e416363756d756c61746f7256616c7565, 0x43494d31352e49454336313937302e4d6561732e4d6561737572656d656e7456616c7565,
  [(0x76616c7565, t_EInt)],
  [⟨0x416363756d756c61746f72, 0x43494d31352e49454336313937302e4d6561732e416363756d756c61746f72, false, 0x416363756d756c61746f7256616c756573⟩]⟩
/-- Class CIM15.IEC61970.Meas.Analog -/
def s_Analog : SClass := ⟨0x416e616c6f67, 0x43494d31352e49454336313937302e4d6561732e416e616c6f67, 0x43494d31352e49454336313937302e4d6561732e4d6561737572656d656e74,
  [(0x6d617856616c7565, t_EFloat), (0x6e6f726d616c56616c7565, t_EFloat), (0x706f736974697665466c6f77496e, t_EBoolean), (0x6d696e56616c7565, t_EFloat)],
  [⟨0x4c696d697453657473, 0x43494d31352e49454336313937302e4d6561732e416e616c6f674c696d6974536574, true, 0x4d6561737572656d656e7473⟩, ⟨0x416e616c6f6756616c756573, 0x43494d31352e49454336313937302e4d6561732e416e616c6f6756616c7565, true, 0x416e616c6f67⟩, ⟨0x536574506f696e74, 0x43494d31352e49454336313937302e4d6561732e536574506f696e74, false, 0x416e616c6f67⟩]⟩
/-- Class CIM15.IEC61970.Meas.AnalogLimit -/
def s_AnalogLimit : SClass := ⟨0x416e616c6f674c696d6974, 0x43494d31352e49454336313937302e4d6561732e416e616c6f674c696d6974, 0x43494d31352e49454336313937302e4d6561732e4c696d6974,
  [(0x76616c7565, t_EFloat)],
  [⟨0x4c696d6974536574, 0x43494d31352e49454336313937302e4d6561732e416e616c6f674c696d6974536574, false, 0x4c696d697473⟩]⟩
/-- Class CIM15.IEC61970.Meas.AnalogLimitSet -/
def s_AnalogLimitSet : SClass := ⟨0x416e616c6f674c696d6974536574, 0x43494d31352e49454336313937302e4d6561732e416e616c6f674c696d6974536574, 0x43494d31352e49454336313937302e4d6561732e4c696d6974536574,
  [],
  [⟨0x4c696d697473, 0x43494d31352e49454336313937302e4d6561732e416e616c6f674c696d6974, true, 0x4c696d6974536574⟩, ⟨0x4d6561737572656d656e7473, 0x43494d31352e49454336313937302e4d6561732e416e616c6f67, true, 0x4c696d697453657473⟩]⟩
/-- Class CIM15.IEC61970.Meas.AnalogValue -/
def s_AnalogValue : SClass := ⟨0x416e616c6f6756616c7565, 0x43494d31352e49454336313937302e4d6561732e416e616c6f6756616c7565, 0x43494d31352e49454336313937302e4d6561732e4d6561737572656d656e7456616c7565,
  [(0x76616c7565, t_EFloat)],
  [⟨0x416c745469654d656173, 0x43494d31352e49454336313937302e436f6e74726f6c417265612e416c745469654d656173, true, 0x416e616c6f6756616c7565⟩, ⟨0x416e616c6f67, 0x43494d31352e49454336313937302e4d6561732e416e616c6f67, false, 0x416e616c6f6756616c756573⟩, ⟨0x416c7447656e65726174696e67556e6974, 0x43494d31352e49454336313937302e436f6e74726f6c417265612e416c7447656e65726174696e67556e69744d656173, true, 0x416e616c6f6756616c7565⟩]⟩
/-- Class CIM15.IEC61970.Meas.Command -/
def s_Command : SClass := ⟨0x436f6d6d616e64, 0x43494d31352e49454336313937302e4d6561732e436f6d6d616e64, 0x43494d31352e49454336313937302e4d6561732e436f6e74726f6c,
  [(0x76616c7565, t_EInt), (0x6e6f726d616c56616c7565, t_EInt)],
  [⟨0x4469736372657465, 0x43494d31352e49454336313937302e4d6561732e4469736372657465, false, 0x436f6d6d616e64⟩, ⟨0x56616c7565416c696173536574, 0x43494d31352e49454336313937302e4d6561732e56616c7565416c696173536574, false, 0x436f6d6d616e6473⟩]⟩
/-- Class CIM15.IEC61970.Meas.Control -/
def s_Control : SClass := ⟨0x436f6e74726f6c, 0x43494d31352e49454336313937302e4d6561732e436f6e74726f6c, 0x43494d31352e49454336313937302e436f72652e4964656e7469666965644f626a656374,
  [(0x756e697453796d626f6c, e_UnitSymbol), (0x756e69744d756c7469706c696572, e_UnitMultiplier), (0x6f7065726174696f6e496e50726f6772657373, t_EBoolean), (0x74696d655374616d70, t_java_util_Date)],
  [⟨0x52656d6f7465436f6e74726f6c, 0x43494d31352e49454336313937302e53434144412e52656d6f7465436f6e74726f6c, false, 0x436f6e74726f6c⟩, ⟨0x526567756c6174696e67436f6e644571, 0x43494d31352e49454336313937302e57697265732e526567756c6174696e67436f6e644571, false, 0x436f6e74726f6c73⟩, ⟨0x436f6e74726f6c54797065, 0x43494d31352e49454336313937302e4d6561732e436f6e74726f6c54797065, false, 0x436f6e74726f6c73⟩]⟩
/-- Class CIM15.IEC61970.Meas.ControlType -/
def s_ControlType : SClass := ⟨0x436f6e74726f6c54797065, 0x43494d31352e49454336313937302e4d6561732e436f6e74726f6c54797065, 0x43494d31352e49454336313937302e436f72652e4964656e7469666965644f626a656374,
  [],
  [⟨0x436f6e74726f6c73, 0x43494d31352e49454336313937302e4d6561732e436f6e74726f6c, true, 0x436f6e74726f6c54797065⟩]⟩
/-- Class CIM15.IEC61970.Meas.Discrete -/
def s_Discrete : SClass := ⟨0x4469736372657465, 0x43494d31352e49454336313937302e4d6561732e4469736372657465, 0x43494d31352e49454336313937302e4d6561732e4d6561737572656d656e74,
  [(0x6e6f726d616c56616c7565, t_EInt), (0x6d696e56616c7565, t_EInt), (0x6d617856616c7565, t_EInt)],
  [⟨0x436f6d6d616e64, 0x43494d31352e49454336313937302e4d6561732e436f6d6d616e64, false, 0x4469736372657465⟩, ⟨0x446973637265746556616c756573, 0x43494d31352e49454336313937302e4d6561732e446973637265746556616c7565, true, 0x4469736372657465⟩, ⟨0x56616c7565416c696173536574, 0x43494d31352e49454336313937302e4d6561732e56616c7565416c696173536574, false, 0x446973637265746573⟩]⟩
/-- Class CIM15.IEC61970.Meas.DiscreteValue -/
def s_DiscreteValue : SClass := ⟨0x446973637265746556616c7565, 0x43494d31352e49454336313937302e4d6561732e446973637265746556616c7565, 0x43494d31352e49454336313937302e4d6561732e4d6561737572656d656e7456616c7565,
  [(0x76616c7565, t_EInt)],
  [⟨0x4469736372657465, 0x43494d31352e49454336313937302e4d6561732e4469736372657465, false, 0x446973637265746556616c756573⟩]⟩
/-- Class CIM15.IEC61970.Meas.Limit -/
def s_Limit : SClass := ⟨0x4c696d6974, 0x43494d31352e49454336313937302e4d6561732e4c696d6974, 0x43494d31352e49454336313937302e436f72652e4964656e7469666965644f626a656374,
  [],
  [⟨0x50726f63656475726573, 0x43494d31352e49454336313937302e496e666f726d61746976652e496e664173736574732e50726f636564757265, true, 0x4c696d697473⟩]⟩
/-- Class CIM15.IEC61970.Meas.LimitSet -/
def s_LimitSet : SClass := ⟨0x4c696d6974536574, 0x43494d31352e49454336313937302e4d6561732e4c696d6974536574, 0x43494d31352e49454336313937302e436f72652e4964656e7469666965644f626a656374,
  [(0x697350657263656e746167654c696d697473, t_EBoolean)],
  []⟩
/-- Class CIM15.IEC61970.Meas.Measurement -/
def s_Measurement : SClass := ⟨0x4d6561737572656d656e74, 0x43494d31352e49454336313937302e4d6561732e4d6561737572656d656e74, 0x43494d31352e49454336313937302e436f72652e4964656e7469666965644f626a656374,
  [(0x706861736573, e_PhaseCode), (0x6d6561737572656d656e7454797065, t_EString), (0x756e69744d756c7469706c696572, e_UnitMultiplier), (0x756e697453796d626f6c, e_UnitSymbol)],
  [⟨0x5465726d696e616c, 0x43494d31352e49454336313937302e436f72652e5465726d696e616c, false, 0x4d6561737572656d656e7473⟩, ⟨0x506f77657253797374656d5265736f75726365, 0x43494d31352e49454336313937302e436f72652e506f77657253797374656d5265736f75726365, false, 0x4d6561737572656d656e7473⟩, ⟨0x4c6f636174696f6e73, 0x43494d31352e49454336313936382e436f6d6d6f6e2e4c6f636174696f6e, true, 0x4d6561737572656d656e7473⟩, ⟨0x4173736574, 0x43494d31352e49454336313936382e4173736574732e4173736574, false, 0x4d6561737572656d656e7473⟩, ⟨0x446f63756d656e7473, 0x43494d31352e49454336313936382e436f6d6d6f6e2e446f63756d656e74, true, 0x4d6561737572656d656e7473⟩]⟩
/-- Class CIM15.IEC61970.Meas.MeasurementValue -/
def s_MeasurementValue : SClass := ⟨0x4d6561737572656d656e7456616c7565, 0x43494d31352e49454336313937302e4d6561732e4d6561737572656d656e7456616c7565, 0x43494d31352e49454336313937302e436f72652e4964656e7469666965644f626a656374,
  [(0x73656e736f724163637572616379, t_float), (0x74696d655374616d70, t_java_util_Date)],
  [⟨0x476d6c56616c756573, 0x43494d31352e49454336313937302e496e666f726d61746976652e496e66474d4c537570706f72742e476d6c56616c7565, true, 0x4d6561737572656d656e7456616c7565⟩, ⟨0x4d6561737572656d656e7456616c75655175616c697479, 0x43494d31352e49454336313937302e4d6561732e4d6561737572656d656e7456616c75655175616c697479, false, 0x4d6561737572656d656e7456616c7565⟩, ⟨0x50726f6365647572654461746153657473, 0x43494d31352e49454336313937302e496e666f726d61746976652e496e664173736574732e50726f63656475726544617461536574, true, 0x4d6561737572656d656e7456616c756573⟩, ⟨0x4d6561737572656d656e7456616c7565536f75726365, 0x43494d31352e49454336313937302e4d6561732e4d6561737572656d656e7456616c7565536f75726365, false, 0x4d6561737572656d656e7456616c756573⟩, ⟨0x457270506572736f6e, 0x43494d31352e49454336313937302e496e666f726d61746976652e496e66455250537570706f72742e457270506572736f6e, false, 0x4d6561737572656d656e7456616c756573⟩, ⟨0x52656d6f7465536f75726365, 0x43494d31352e49454336313937302e53434144412e52656d6f7465536f75726365, false, 0x4d6561737572656d656e7456616c7565⟩]⟩
/-- Class CIM15.IEC61970.Meas.MeasurementValueQuality -/
def s_MeasurementValueQuality : SClass := ⟨0x4d6561737572656d656e7456616c75655175616c697479, 0x43494d31352e49454336313937302e4d6561732e4d6561737572656d656e7456616c75655175616c697479, 0x43494d31352e49454336313937302e4d6561732e5175616c6974793631383530,
  [],
  [⟨0x4d6561737572656d656e7456616c7565, 0x43494d31352e49454336313937302e4d6561732e4d6561737572656d656e7456616c7565, false, 0x4d6561737572656d656e7456616c75655175616c697479⟩]⟩
/-- Class CIM15.IEC61970.Meas.MeasurementValueSource -/
def s_MeasurementValueSource : SClass := ⟨0x4d6561737572656d656e7456616c7565536f75726365, 0x43494d31352e49454336313937302e4d6561732e4d6561737572656d656e7456616c7565536f75726365, 0x43494d31352e49454336313937302e436f72652e4964656e7469666965644f626a656374,
  [],
  [⟨0x4d6561737572656d656e7456616c756573, 0x43494d31352e49454336313937302e4d6561732e4d6561737572656d656e7456616c7565, true, 0x4d6561737572656d656e7456616c7565536f75726365⟩]⟩
/-- Class CIM15.IEC61970.Meas.Quality61850 -/
def s_Quality61850 : SClass := ⟨0x5175616c6974793631383530, 0x43494d31352e49454336313937302e4d6561732e5175616c6974793631383530, 0x43494d31352e456c656d656e74,
  [(0x6f766572466c6f77, t_EBoolean), (0x657374696d61746f725265706c61636564, t_EBoolean), (0x76616c6964697479, e_Validity), (0x6f70657261746f72426c6f636b6564, t_EBoolean), (0x6f6c6444617461, t_EBoolean), (0x6661696c757265, t_EBoolean), (0x736f75726365, e_Source), (0x6f75744f6652616e6765, t_EBoolean), (0x6261645265666572656e6365, t_EBoolean), (0x73757370656374, t_EBoolean), (0x74657374, t_EBoolean), (0x6f7363696c6c61746f7279, t_EBoolean)],
  []⟩
/-- Class CIM15.IEC61970.Meas.SetPoint -/
def s_SetPoint : SClass := ⟨0x536574506f696e74, 0x43494d31352e49454336313937302e4d6561732e536574506f696e74, 0x43494d31352e49454336313937302e4d6561732e436f6e74726f6c,
  [(0x6d617856616c7565, t_EFloat), (0x6d696e56616c7565, t_EFloat), (0x6e6f726d616c56616c7565, t_EFloat), (0x76616c7565, t_EFloat)],
  [⟨0x416e616c6f67, 0x43494d31352e49454336313937302e4d6561732e416e616c6f67, false, 0x536574506f696e74⟩]⟩
/-- Class CIM15.IEC61970.Meas.StringMeasurement -/
def s_StringMeasurement : SClass := ⟨0x537472696e674d6561737572656d656e74, 0x43494d31352e49454336313937302e4d6561732e537472696e674d6561737572656d656e74, 0x43494d31352e49454336313937302e4d6561732e4d6561737572656d656e74,
  [],
  [⟨0x537472696e674d6561737572656d656e7456616c756573, 0x43494d31352e49454336313937302e4d6561732e537472696e674d6561737572656d656e7456616c7565, true, 0x537472696e674d6561737572656d656e74⟩]⟩
/-- Class CIM15.IEC61970.Meas.StringMeasurementValue -/
def s_StringMeasurementValue : SClass := ⟨0x537472696e674d6561737572656d656e7456616c7565, 0x43494d31352e49454336313937302e4d6561732e537472696e674d6561737572656d656e7456616c7565, 0x43494d31352e49454336313937302e4d6561732e4d6561737572656d656e7456616c7565,
  [(0x76616c7565, t_EString)],
  [⟨0x537472696e674d6561737572656d656e74, 0x43494d31352e49454336313937302e4d6561732e537472696e674d6561737572656d656e74, false, 0x537472696e674d6561737572656d656e7456616c756573⟩]⟩
/-- Class CIM15.IEC61970.Meas.ValueAliasSet -/
def s_ValueAliasSet : SClass := ⟨0x56616c7565416c696173536574, 0x43494d31352e49454336313937302e4d6561732e56616c7565416c696173536574, 0x43494d31352e49454336313937302e436f72652e4964656e7469666965644f626a656374,
  [],
  [⟨0x446973637265746573, 0x43494d31352e49454336313937302e4d6561732e4469736372657465, true, 0x56616c7565416c696173536574⟩, ⟨0x436f6d6d616e6473, 0x43494d31352e49454336313937302e4d6561732e436f6d6d616e64, true, 0x56616c7565416c696173536574⟩, ⟨0x56616c756573, 0x43494d31352e49454336313937302e4d6561732e56616c7565546f416c696173, true, 0x56616c7565416c696173536574⟩]⟩
/-- Class CIM15.IEC61970.Meas.ValueToAlias -/
def s_ValueToAlias : SClass := ⟨0x56616c7565546f416c696173, 0x43494d31352e49454336313937302e4d6561732e56616c7565546f416c696173, 0x43494d31352e49454336313937302e436f72652e4964656e7469666965644f626a656374,
  [(0x76616c7565, t_EInt)],
  [⟨0x56616c7565416c696173536574, 0x43494d31352e49454336313937302e4d6561732e56616c7565416c696173536574, false, 0x56616c756573⟩]⟩
/-- Class CIM15.IEC61970.OperationalLimits.ActivePowerLimit -/
def s_ActivePowerLimit : SClass := ⟨0x416374697665506f7765724c696d6974, 0x43494d31352e49454336313937302e4f7065726174696f6e616c4c696d6974732e416374697665506f7765724c696d6974, 0x43494d31352e49454336313937302e4f7065726174696f6e616c4c696d6974732e4f7065726174696f6e616c4c696d6974,
  [(0x76616c7565, t_float)],
  [⟨0x416374697665506f7765724c696d6974536574, 0x43494d31352e49454336313937302e4f7065726174696f6e616c4c696d6974732e416374697665506f7765724c696d6974536574, false, 0x416374697665506f7765724c696d697473⟩]⟩
/-- Class CIM15.IEC61970.OperationalLimits.ActivePowerLimitSet -/
def s_ActivePowerLimitSet : SClass := ⟨0x416374697665506f7765724c696d6974536574, 0x43494d31352e49454336313937302e4f7065726174696f6e616c4c696d6974732e416374697665506f7765724c696d6974536574, 0x43494d31352e49454336313937302e4f7065726174696f6e616c4c696d6974732e4f7065726174696f6e616c4c696d6974536574,
  [],
  [⟨0x416374697665506f7765724c696d697473, 0x43494d31352e49454336313937302e4f7065726174696f6e616c4c696d6974732e416374697665506f7765724c696d6974, true, 0x416374697665506f7765724c696d6974536574⟩]⟩
/-- Class CIM15.IEC61970.OperationalLimits.ApparentPowerLimit -/
def s_ApparentPowerLimit : SClass := ⟨0x4170706172656e74506f7765724c696d6974, 0x43494d31352e49454336313937302e4f7065726174696f6e616c4c696d6974732e4170706172656e74506f7765724c696d6974, 0x43494d31352e49454336313937302e4f7065726174696f6e616c4c696d6974732e4f7065726174696f6e616c4c696d6974,
  [(0x76616c7565, t_float)],
  [⟨0x4170706172656e74506f7765724c696d6974536574, 0x43494d31352e49454336313937302e4f7065726174696f6e616c4c696d6974732e4170706172656e74506f7765724c696d6974536574, false, 0x4170706172656e74506f7765724c696d697473⟩]⟩
/-- Class CIM15.IEC61970.OperationalLimits.ApparentPowerLimitSet -/
def s_ApparentPowerLimitSet : SClass := ⟨0x4170706172656e74506f7765724c696d6974536574, 0x43494d31352e49454336313937302e4f7065726174696f6e616c4c696d6974732e4170706172656e74506f7765724c696d6974536574, 0x43494d31352e49454336313937302e4f7065726174696f6e616c4c696d6974732e4f7065726174696f6e616c4c696d6974536574,
  [],
  [⟨0x4170706172656e74506f7765724c696d697473, 0x43494d31352e49454336313937302e4f7065726174696f6e616c4c696d6974732e4170706172656e74506f7765724c696d6974, true, 0x4170706172656e74506f7765724c696d6974536574⟩]⟩
/-- Class CIM15.IEC61970.OperationalLimits.BranchGroup -/
def s_BranchGroup : SClass := ⟨0x4272616e636847726f7570, 0x43494d31352e49454336313937302e4f7065726174696f6e616c4c696d6974732e4272616e636847726f7570, 0x43494d31352e49454336313937302e436f72652e4964656e7469666965644f626a656374,
  [(0x6d696e696d756d5265616374697665506f776572, t_float), (0x6d6178696d756d5265616374697665506f776572, t_float), (0x6d6178696d756d416374697665506f776572, t_float), (0x6d696e696d756d416374697665506f776572, t_float), (0x6d6f6e69746f72416374697665506f776572, t_EBoolean), (0x6d6f6e69746f725265616374697665506f776572, t_EBoolean)],
  [⟨0x4272616e636847726f75705465726d696e616c, 0x43494d31352e49454336313937302e4f7065726174696f6e616c4c696d6974732e4272616e636847726f75705465726d696e616c, true, 0x4272616e636847726f7570⟩]⟩
/-- Class CIM15.IEC61970.OperationalLimits.BranchGroupTerminal -/
def s_BranchGroupTerminal : SClass := ⟨0x4272616e636847726f75705465726d696e616c, 0x43494d31352e49454336313937302e4f7065726174696f6e616c4c696d6974732e4272616e636847726f75705465726d696e616c, 0x43494d31352e456c656d656e74,
  [(0x706f736974697665466c6f77496e, t_EBoolean)],
  [⟨0x4272616e636847726f7570, 0x43494d31352e49454336313937302e4f7065726174696f6e616c4c696d6974732e4272616e636847726f7570, false, 0x4272616e636847726f75705465726d696e616c⟩, ⟨0x5465726d696e616c, 0x43494d31352e49454336313937302e436f72652e5465726d696e616c, false, 0x4272616e636847726f75705465726d696e616c⟩]⟩
/-- Class CIM15.IEC61970.OperationalLimits.CurrentLimit -/
def s_CurrentLimit : SClass := ⟨0x43757272656e744c696d6974, 0x43494d31352e49454336313937302e4f7065726174696f6e616c4c696d6974732e43757272656e744c696d6974, 0x43494d31352e49454336313937302e4f7065726174696f6e616c4c696d6974732e4f7065726174696f6e616c4c696d6974,
  [(0x76616c7565, t_float)],
  [⟨0x43757272656e744c696d6974536574, 0x43494d31352e49454336313937302e4f7065726174696f6e616c4c696d6974732e43757272656e744c696d6974536574, false, 0x43757272656e744c696d697473⟩]⟩
/-- Class CIM15.IEC61970.OperationalLimits.CurrentLimitSet -/
def s_CurrentLimitSet : SClass := ⟨0x43757272656e744c696d6974536574, 0x43494d31352e49454336313937302e4f7065726174696f6e616c4c696d6974732e43757272656e744c696d6974536574, 0x43494d31352e49454336313937302e4f7065726174696f6e616c4c696d6974732e4f7065726174696f6e616c4c696d6974536574,
  [],
  [⟨0x43757272656e744c696d697473, 0x43494d31352e49454336313937302e4f7065726174696f6e616c4c696d6974732e43757272656e744c696d6974, true, 0x43757272656e744c696d6974536574⟩]⟩
/-- Class CIM15.IEC61970.OperationalLimits.OperationalLimit -/
def s_OperationalLimit : SClass := ⟨0x4f7065726174696f6e616c4c696d6974, 0x43494d31352e49454336313937302e4f7065726174696f6e616c4c696d6974732e4f7065726174696f6e616c4c696d6974, 0x43494d31352e49454336313937302e436f72652e4964656e7469666965644f626a656374,
  [],
  [⟨0x4f7065726174696f6e616c4c696d697454797065, 0x43494d31352e49454336313937302e4f7065726174696f6e616c4c696d6974732e4f7065726174696f6e616c4c696d697454797065, false, 0x4f7065726174696f6e616c4c696d6974⟩, ⟨0x4f7065726174696f6e616c4c696d6974536574, 0x43494d31352e49454336313937302e4f7065726174696f6e616c4c696d6974732e4f7065726174696f6e616c4c696d6974536574, false, 0x4f7065726174696f6e616c4c696d697456616c7565⟩]⟩
/-- Class CIM15.IEC61970.OperationalLimits.OperationalLimitSet -/
def s_OperationalLimitSet : SClass := ⟨0x4f7065726174696f6e616c4c696d6974536574, 0x43494d31352e49454336313937302e4f7065726174696f6e616c4c696d6974732e4f7065726174696f6e616c4c696d6974536574, 0x43494d31352e49454336313937302e436f72652e4964656e7469666965644f626a656374,
  [],
  [⟨0x5465726d696e616c, 0x43494d31352e49454336313937302e436f72652e5465726d696e616c, false, 0x4f7065726174696f6e616c4c696d6974536574⟩, ⟨0x4f7065726174696f6e616c4c696d697456616c7565, 0x43494d31352e49454336313937302e4f7065726174696f6e616c4c696d6974732e4f7065726174696f6e616c4c696d6974, true, 0x4f7065726174696f6e616c4c696d6974536574⟩]⟩
/-- Class CIM15.IEC61970.OperationalLimits.OperationalLimitType -/
def s_OperationalLimitType : SClass := ⟨0x4f7065726174696f6e616c4c696d697454797065, 0x43494d31352e49454336313937302e4f7065726174696f6e616c4c696d6974732e4f7065726174696f6e616c4c696d697454797065, 0x43494d31352e49454336313937302e436f72652e4964656e7469666965644f626a656374,
  [(0x646972656374696f6e, e_OperationalLimitDirectionKind), (0x61636365707461626c654475726174696f6e, t_float)],
  [⟨0x4f7065726174696f6e616c4c696d6974, 0x43494d31352e49454336313937302e4f7065726174696f6e616c4c696d6974732e4f7065726174696f6e616c4c696d6974, true, 0x4f7065726174696f6e616c4c696d697454797065⟩]⟩
/-- Class CIM15.IEC61970.OperationalLimits.VoltageLimit -/
def s_VoltageLimit : SClass := ⟨0x566f6c746167654c696d6974, 0x43494d31352e49454336313937302e4f7065726174696f6e616c4c696d6974732e566f6c746167654c696d6974, 0x43494d31352e49454336313937302e4f7065726174696f6e616c4c696d6974732e4f7065726174696f6e616c4c696d6974,
  [(0x76616c7565, t_float)],
  [⟨0x566f6c746167654c696d6974536574, 0x43494d31352e49454336313937302e4f7065726174696f6e616c4c696d6974732e566f6c746167654c696d6974536574, false, 0x566f6c746167654c696d697473⟩]⟩
/-- Class CIM15.IEC61970.OperationalLimits.VoltageLimitSet -/
def s_VoltageLimitSet : SClass := ⟨0x566f6c746167654c696d6974536574, 0x43494d31352e49454336313937302e4f7065726174696f6e616c4c696d6974732e566f6c746167654c696d6974536574, 0x43494d31352e49454336313937302e4f7065726174696f6e616c4c696d6974732e4f7065726174696f6e616c4c696d6974536574,
  [],
  [⟨0x566f6c746167654c696d697473, 0x43494d31352e49454336313937302e4f7065726174696f6e616c4c696d6974732e566f6c746167654c696d6974, true, 0x566f6c746167654c696d6974536574⟩]⟩
/-- Class CIM15.IEC61970.Outage.ClearanceTag -/
def s_ClearanceTag : SClass := ⟨0x436c656172616e6365546167, 0x43494d31352e49454336313937302e4f75746167652e436c656172616e6365546167, 0x43494d31352e49454336313937302e436f72652e4964656e7469666965644f626a656374,
  [(0x776f726b537461727454696d65, t_java_util_Date), (0x7068617365436865636b526571466c6167, t_EBoolean), (0x6465656e657267697a65526571466c6167, t_EBoolean), (0x617574686f726974794e616d65, t_EString), (0x746167497373756554696d65, t_java_util_Date), (0x67726f756e64526571466c6167, t_EBoolean), (0x776f726b4465736372697074696f6e, t_EString), (0x776f726b456e6454696d65, t_java_util_Date)],
  [⟨0x436f6e64756374696e6745717569706d656e74, 0x43494d31352e49454336313937302e436f72652e436f6e64756374696e6745717569706d656e74, false, 0x436c656172616e636554616773⟩, ⟨0x536166657479446f63756d656e74, 0x43494d31352e49454336313937302e496e666f726d61746976652e496e664f7065726174696f6e732e536166657479446f63756d656e74, false, 0x436c656172616e636554616773⟩, ⟨0x436c656172616e636554616754797065, 0x43494d31352e49454336313937302e4f75746167652e436c656172616e636554616754797065, false, 0x436c656172616e636554616773⟩]⟩
/-- Class CIM15.IEC61970.Outage.ClearanceTagType -/
def s_ClearanceTagType : SClass := ⟨0x436c656172616e636554616754797065, 0x43494d31352e49454336313937302e4f75746167652e436c656172616e636554616754797065, 0x43494d31352e49454336313937302e436f72652e4964656e7469666965644f626a656374,
  [],
  [⟨0x436c656172616e636554616773, 0x43494d31352e49454336313937302e4f75746167652e436c656172616e6365546167, true, 0x436c656172616e636554616754797065⟩]⟩
/-- Class CIM15.IEC61970.Outage.OutageSchedule -/
def s_OutageSchedule : SClass := ⟨0x4f75746167655363686564756c65, 0x43494d31352e49454336313937302e4f75746167652e4f75746167655363686564756c65, 0x43494d31352e49454336313937302e436f72652e4972726567756c6172496e74657276616c5363686564756c65,
  [],
  [⟨0x506c616e6e65644f7574616765, 0x43494d31352e49454336313937302e496e666f726d61746976652e496e664f7065726174696f6e732e506c616e6e65644f7574616765, false, 0x4f75746167655363686564756c6573⟩, ⟨0x537769746368696e674f7065726174696f6e73, 0x43494d31352e49454336313937302e4f75746167652e537769746368696e674f7065726174696f6e, true, 0x4f75746167655363686564756c65⟩, ⟨0x506f77657253797374656d5265736f75726365, 0x43494d31352e49454336313937302e436f72652e506f77657253797374656d5265736f75726365, false, 0x4f75746167655363686564756c65⟩]⟩
/-- Class CIM15.IEC61970.Outage.SwitchingOperation -/
def s_SwitchingOperation : SClass := ⟨0x537769746368696e674f7065726174696f6e, 0x43494d31352e49454336313937302e4f75746167652e537769746368696e674f7065726174696f6e, 0x43494d31352e49454336313937302e436f72652e4964656e7469666965644f626a656374,
  [(0x6f7065726174696f6e54696d65, t_java_util_Date), (0x6e65775374617465, e_SwitchState)],
  [⟨0x4f75746167655363686564756c65, 0x43494d31352e49454336313937302e4f75746167652e4f75746167655363686564756c65, false, 0x537769746368696e674f7065726174696f6e73⟩, ⟨0x5377697463686573, 0x43494d31352e49454336313937302e57697265732e537769746368, true, 0x537769746368696e674f7065726174696f6e73⟩]⟩
/-- Class CIM15.IEC61970.Protection.CurrentRelay -/
def s_CurrentRelay : SClass := ⟨0x43757272656e7452656c6179, 0x43494d31352e49454336313937302e50726f74656374696f6e2e43757272656e7452656c6179, 0x43494d31352e49454336313937302e50726f74656374696f6e2e50726f74656374696f6e45717569706d656e74,
  [(0x63757272656e744c696d697433, t_float), (0x63757272656e744c696d697432, t_float), (0x63757272656e744c696d697431, t_float), (0x696e766572736554696d65466c6167, t_EBoolean), (0x74696d6544656c617933, t_float), (0x74696d6544656c617932, t_float), (0x74696d6544656c617931, t_float)],
  []⟩
/-- Class CIM15.IEC61970.Protection.ProtectionEquipment -/
def s_ProtectionEquipment : SClass := ⟨0x50726f74656374696f6e45717569706d656e74, 0x43494d31352e49454336313937302e50726f74656374696f6e2e50726f74656374696f6e45717569706d656e74, 0x43494d31352e49454336313937302e436f72652e45717569706d656e74,
  [(0x686967684c696d6974, t_EFloat), (0x706f776572446972656374696f6e466c6167, t_EBoolean), (0x6c6f774c696d6974, t_EFloat), (0x756e697453796d626f6c, e_UnitSymbol), (0x72656c617944656c617954696d65, t_float), (0x756e69744d756c7469706c696572, e_UnitMultiplier)],
  [⟨0x436f6e64756374696e6745717569706d656e7473, 0x43494d31352e49454336313937302e436f72652e436f6e64756374696e6745717569706d656e74, true, 0x50726f74656374696f6e45717569706d656e7473⟩, ⟨0x50726f7465637465645377697463686573, 0x43494d31352e49454336313937302e57697265732e50726f746563746564537769746368, true, 0x50726f74656374696f6e45717569706d656e7473⟩]⟩
/-- Class CIM15.IEC61970.Protection.RecloseSequence -/
def s_RecloseSequence : SClass := ⟨0x5265636c6f736553657175656e6365, 0x43494d31352e49454336313937302e50726f74656374696f6e2e5265636c6f736553657175656e6365, 0x43494d31352e49454336313937302e436f72652e4964656e7469666965644f626a656374,
  [(0x7265636c6f736553746570, t_EInt), (0x7265636c6f736544656c6179, t_float)],
  [⟨0x50726f746563746564537769746368, 0x43494d31352e49454336313937302e57697265732e50726f746563746564537769746368, false, 0x5265636c6f736553657175656e636573⟩]⟩
/-- Class CIM15.IEC61970.Protection.SynchrocheckRelay -/
def s_SynchrocheckRelay : SClass := ⟨0x53796e6368726f636865636b52656c6179, 0x43494d31352e49454336313937302e50726f74656374696f6e2e53796e6368726f636865636b52656c6179, 0x43494d31352e49454336313937302e50726f74656374696f6e2e50726f74656374696f6e45717569706d656e74,
  [(0x6d61784672657144696666, t_float), (0x6d6178416e676c6544696666, t_float), (0x6d6178566f6c7444696666, t_float)],
  []⟩
/-- Class CIM15.IEC61970.SCADA.CommunicationLink -/
def s_CommunicationLink : SClass := ⟨0x436f6d6d756e69636174696f6e4c696e6b, 0x43494d31352e49454336313937302e53434144412e436f6d6d756e69636174696f6e4c696e6b, 0x43494d31352e49454336313937302e436f72652e506f77657253797374656d5265736f75726365,
  [],
  [⟨0x52656d6f7465556e697473, 0x43494d31352e49454336313937302e53434144412e52656d6f7465556e6974, true, 0x436f6d6d756e69636174696f6e4c696e6b73⟩]⟩
/-- Class CIM15.IEC61970.SCADA.RemoteControl -/
def s_RemoteControl : SClass := ⟨0x52656d6f7465436f6e74726f6c, 0x43494d31352e49454336313937302e53434144412e52656d6f7465436f6e74726f6c, 0x43494d31352e49454336313937302e53434144412e52656d6f7465506f696e74,
  [(0x6163747561746f724d6178696d756d, t_EFloat), (0x6163747561746f724d696e696d756d, t_EFloat), (0x72656d6f7465436f6e74726f6c6c6564, t_EBoolean)],
  [⟨0x436f6e74726f6c, 0x43494d31352e49454336313937302e4d6561732e436f6e74726f6c, false, 0x52656d6f7465436f6e74726f6c⟩]⟩
/-- Class CIM15.IEC61970.SCADA.RemotePoint -/
def s_RemotePoint : SClass := ⟨0x52656d6f7465506f696e74, 0x43494d31352e49454336313937302e53434144412e52656d6f7465506f696e74, 0x43494d31352e49454336313937302e436f72652e4964656e7469666965644f626a656374,
  [],
  [⟨0x52656d6f7465556e6974, 0x43494d31352e49454336313937302e53434144412e52656d6f7465556e6974, false, 0x52656d6f7465506f696e7473⟩]⟩
/-- Class CIM15.IEC61970.SCADA.RemoteSource -/
def s_RemoteSource : SClass := ⟨0x52656d6f7465536f75726365, 0x43494d31352e49454336313937302e53434144412e52656d6f7465536f75726365, 0x43494d31352e49454336313937302e53434144412e52656d6f7465506f696e74,
  [(0x73656e736f724d696e696d756d, t_EFloat), (0x6465616462616e64, t_EFloat), (0x73656e736f724d6178696d756d, t_EFloat), (0x7363616e496e74657276616c, t_float)],
  [⟨0x4d6561737572656d656e7456616c7565, 0x43494d31352e49454336313937302e4d6561732e4d6561737572656d656e7456616c7565, false, 0x52656d6f7465536f75726365⟩]⟩
/-- Class CIM15.IEC61970.SCADA.RemoteUnit -/
def s_RemoteUnit : SClass := ⟨0x52656d6f7465556e6974, 0x43494d31352e49454336313937302e53434144412e52656d6f7465556e6974, 0x43494d31352e49454336313937302e436f72652e506f77657253797374656d5265736f75726365,
  [(0x72656d6f7465556e697454797065, e_RemoteUnitType)],
  [⟨0x52656d6f7465506f696e7473, 0x43494d31352e49454336313937302e53434144412e52656d6f7465506f696e74, true, 0x52656d6f7465556e6974⟩, ⟨0x436f6d6d756e69636174696f6e4c696e6b73, 0x43494d31352e49454336313937302e53434144412e436f6d6d756e69636174696f6e4c696e6b, true, 0x52656d6f7465556e697473⟩]⟩
/-- Class CIM15.IEC61970.StateVariables.StateVariable -/
def s_StateVariable : SClass := ⟨0x53746174655661726961626c65, 0x43494d31352e49454336313937302e53746174655661726961626c65732e53746174655661726961626c65, 0x43494d31352e456c656d656e74,
  [],
  []⟩
/-- Class CIM15.IEC61970.StateVariables.SvInjection -/
def s_SvInjection : SClass := ⟨0x5376496e6a656374696f6e, 0x43494d31352e49454336313937302e53746174655661726961626c65732e5376496e6a656374696f6e, 0x43494d31352e49454336313937302e53746174655661726961626c65732e53746174655661726961626c65,
  [(0x704e6574496e6a656374696f6e, t_float), (0x714e6574496e6a656374696f6e, t_float)],
  [⟨0x546f706f6c6f676963616c4e6f6465, 0x43494d31352e49454336313937302e546f706f6c6f67792e546f706f6c6f676963616c4e6f6465, false, 0x5376496e6a656374696f6e⟩]⟩
/-- Class CIM15.IEC61970.StateVariables.SvPowerFlow -/
def s_SvPowerFlow : SClass := ⟨0x5376506f776572466c6f77, 0x43494d31352e49454336313937302e53746174655661726961626c65732e5376506f776572466c6f77, 0x43494d31352e49454336313937302e53746174655661726961626c65732e53746174655661726961626c65,
  [(0x70, t_float), (0x71, t_float)],
  [⟨0x5465726d696e616c, 0x43494d31352e49454336313937302e436f72652e5465726d696e616c, false, 0x5376506f776572466c6f77⟩]⟩
/-- Class CIM15.IEC61970.StateVariables.SvShortCircuit -/
def s_SvShortCircuit : SClass := ⟨0x537653686f727443697263756974, 0x43494d31352e49454336313937302e53746174655661726961626c65732e537653686f727443697263756974, 0x43494d31352e49454336313937302e53746174655661726961626c65732e53746174655661726961626c65,
  [(0x7353686f727443697263756974, t_float), (0x723050657252, t_EFloat), (0x783050657258, t_EFloat), (0x7850657252, t_EFloat)],
  [⟨0x546f706f6c6f676963616c4e6f6465, 0x43494d31352e49454336313937302e546f706f6c6f67792e546f706f6c6f676963616c4e6f6465, false, 0x537653686f727443697263756974⟩]⟩
/-- Class CIM15.IEC61970.StateVariables.SvShuntCompensatorSections -/
def s_SvShuntCompensatorSections : SClass := ⟨0x53765368756e74436f6d70656e7361746f7253656374696f6e73, 0x43494d31352e49454336313937302e53746174655661726961626c65732e53765368756e74436f6d70656e7361746f7253656374696f6e73, 0x43494d31352e49454336313937302e53746174655661726961626c65732e53746174655661726961626c65,
  [(0x73656374696f6e73, t_EFloat)],
  [⟨0x5368756e74436f6d70656e7361746f72, 0x43494d31352e49454336313937302e57697265732e5368756e74436f6d70656e7361746f72, false, 0x53765368756e74436f6d70656e7361746f7253656374696f6e73⟩]⟩
/-- Class CIM15.IEC61970.StateVariables.SvStatus -/
def s_SvStatus : SClass := ⟨0x5376537461747573, 0x43494d31352e49454336313937302e53746174655661726961626c65732e5376537461747573, 0x43494d31352e49454336313937302e53746174655661726961626c65732e53746174655661726961626c65,
  [(0x696e53657276696365, t_EBoolean)],
  [⟨0x436f6e64756374696e6745717569706d656e74, 0x43494d31352e49454336313937302e436f72652e436f6e64756374696e6745717569706d656e74, false, 0x5376537461747573⟩]⟩
/-- Class CIM15.IEC61970.StateVariables.SvTapStep -/
def s_SvTapStep : SClass := ⟨0x537654617053746570, 0x43494d31352e49454336313937302e53746174655661726961626c65732e537654617053746570, 0x43494d31352e49454336313937302e53746174655661726961626c65732e53746174655661726961626c65,
  [(0x706f736974696f6e, t_EFloat)],
  [⟨0x5461704368616e676572, 0x43494d31352e49454336313937302e57697265732e5461704368616e676572, false, 0x537654617053746570⟩]⟩
/-- Class CIM15.IEC61970.StateVariables.SvVoltage -/
def s_SvVoltage : SClass := ⟨0x5376566f6c74616765, 0x43494d31352e49454336313937302e53746174655661726961626c65732e5376566f6c74616765, 0x43494d31352e49454336313937302e53746174655661726961626c65732e53746174655661726961626c65,
  [(0x616e676c65, t_float), (0x76, t_float)],
  [⟨0x546f706f6c6f676963616c4e6f6465, 0x43494d31352e49454336313937302e546f706f6c6f67792e546f706f6c6f676963616c4e6f6465, false, 0x5376566f6c74616765⟩]⟩
/-- Class CIM15.IEC61970.StateVariables.TopologicalIsland -/
def s_TopologicalIsland : SClass := ⟨0x546f706f6c6f676963616c49736c616e64, 0x43494d31352e49454336313937302e53746174655661726961626c65732e546f706f6c6f676963616c49736c616e64, 0x43494d31352e49454336313937302e436f72652e4964656e7469666965644f626a656374,
  [],
  [⟨0x416e676c655265665f546f706f6c6f676963616c4e6f6465, 0x43494d31352e49454336313937302e546f706f6c6f67792e546f706f6c6f676963616c4e6f6465, false, 0x416e676c655265665f546f706f6c6f676963616c49736c616e64⟩, ⟨0x546f706f6c6f676963616c4e6f646573, 0x43494d31352e49454336313937302e546f706f6c6f67792e546f706f6c6f676963616c4e6f6465, true, 0x546f706f6c6f676963616c49736c616e64⟩]⟩
/-- Class CIM15.IEC61970.Topology.BusNameMarker -/
def s_BusNameMarker : SClass := ⟨0x4275734e616d654d61726b6572, 0x43494d31352e49454336313937302e546f706f6c6f67792e4275734e616d654d61726b6572, 0x43494d31352e49454336313937302e436f72652e4964656e7469666965644f626a656374,
  [],
  [⟨0x5465726d696e616c, 0x43494d31352e49454336313937302e436f72652e5465726d696e616c, true, 0x4275734e616d654d61726b6572⟩, ⟨0x5265706f7274696e6747726f7570, 0x43494d31352e49454336313937302e436f72652e5265706f7274696e6747726f7570, false, 0x4275734e616d654d61726b6572⟩]⟩
/-- Class CIM15.IEC61970.Topology.TopologicalNode -/
def s_TopologicalNode : SClass := ⟨0x546f706f6c6f676963616c4e6f6465, 0x43494d31352e49454336313937302e546f706f6c6f67792e546f706f6c6f676963616c4e6f6465, 0x43494d31352e49454336313937302e436f72652e4964656e7469666965644f626a656374,
  [],
  [⟨0x537653686f727443697263756974, 0x43494d31352e49454336313937302e53746174655661726961626c65732e537653686f727443697263756974, false, 0x546f706f6c6f676963616c4e6f6465⟩, ⟨0x436f6e6e65637469766974794e6f6465436f6e7461696e6572, 0x43494d31352e49454336313937302e436f72652e436f6e6e65637469766974794e6f6465436f6e7461696e6572, false, 0x546f706f6c6f676963616c4e6f6465⟩, ⟨0x5376496e6a656374696f6e, 0x43494d31352e49454336313937302e53746174655661726961626c65732e5376496e6a656374696f6e, false, 0x546f706f6c6f676963616c4e6f6465⟩, ⟨0x436f6e6e65637469766974794e6f646573, 0x43494d31352e49454336313937302e436f72652e436f6e6e65637469766974794e6f6465, true, 0x546f706f6c6f676963616c4e6f6465⟩, ⟨0x5376566f6c74616765, 0x43494d31352e49454336313937302e53746174655661726961626c65732e5376566f6c74616765, false, 0x546f706f6c6f676963616c4e6f6465⟩, ⟨0x42617365566f6c74616765, 0x43494d31352e49454336313937302e436f72652e42617365566f6c74616765, false, 0x546f706f6c6f676963616c4e6f6465⟩, ⟨0x546f706f6c6f676963616c49736c616e64, 0x43494d31352e49454336313937302e53746174655661726961626c65732e546f706f6c6f676963616c49736c616e64, false, 0x546f706f6c6f676963616c4e6f646573⟩, ⟨0x5265706f7274696e6747726f7570, 0x43494d31352e49454336313937302e436f72652e5265706f7274696e6747726f7570, false, 0x546f706f6c6f676963616c4e6f6465⟩, ⟨0x5465726d696e616c, 0x43494d31352e49454336313937302e436f72652e5465726d696e616c, true, 0x546f706f6c6f676963616c4e6f6465⟩, ⟨0x416e676c655265665f546f706f6c6f676963616c49736c616e64, 0x43494d31352e49454336313937302e53746174655661726961626c65732e546f706f6c6f676963616c49736c616e64, false, 0x416e676c655265665f546f706f6c6f676963616c4e6f6465⟩]⟩
/-- Class CIM15.IEC61970.Wires.ACLineSegment -/
def s_ACLineSegment : SClass := ⟨0x41434c696e655365676d656e74, 0x43494d31352e49454336313937302e57697265732e41434c696e655365676d656e74, 0x43494d31352e49454336313937302e57697265732e436f6e647563746f72,
  [(0x67306368, t_float), (0x72, t_float), (0x78, t_float), (0x676368, t_float), (0x7230, t_float), (0x626368, t_float), (0x62306368, t_float), (0x7830, t_float)],
  [⟨0x53657175656e6365496d706564616e6365, 0x43494d31352e49454336313937302e57697265732e5065724c656e67746853657175656e6365496d706564616e6365, false, 0x4c696e655365676d656e7473⟩, ⟨0x436f6e647563746f72417373657473, 0x43494d31352e49454336313937302e496e666f726d61746976652e496e664173736574732e436f6e647563746f724173736574, true, 0x436f6e647563746f725365676d656e74⟩, ⟨0x436f6e647563746f72496e666f, 0x43494d31352e49454336313936382e41737365744d6f64656c732e436f6e647563746f72496e666f, false, 0x4c696e655365676d656e7473⟩, ⟨0x437574, 0x43494d31352e49454336313937302e437574734a756d706572732e437574, true, 0x41434c696e655365676d656e74⟩, ⟨0x5068617365496d706564616e6365, 0x43494d31352e49454336313937302e57697265732e5065724c656e6774685068617365496d706564616e6365, false, 0x4c696e655365676d656e7473⟩, ⟨0x436c616d70, 0x43494d31352e49454336313937302e437574734a756d706572732e436c616d70, true, 0x41434c696e655365676d656e74⟩]⟩
/-- Class CIM15.IEC61970.Wires.Breaker -/
def s_Breaker : SClass := ⟨0x427265616b6572, 0x43494d31352e49454336313937302e57697265732e427265616b6572, 0x43494d31352e49454336313937302e57697265732e50726f746563746564537769746368,
  [(0x696e5472616e73697454696d65, t_float)],
  []⟩
/-- Class CIM15.IEC61970.Wires.BusbarSection -/
def s_BusbarSection : SClass := ⟨0x42757362617253656374696f6e, 0x43494d31352e49454336313937302e57697265732e42757362617253656374696f6e, 0x43494d31352e49454336313937302e57697265732e436f6e6e6563746f72,
  [],
  [⟨0x566f6c74616765436f6e74726f6c5a6f6e65, 0x43494d31352e49454336313937302e57697265732e566f6c74616765436f6e74726f6c5a6f6e65, false, 0x42757362617253656374696f6e⟩]⟩
/-- Class CIM15.IEC61970.Wires.CompositeSwitch -/
def s_CompositeSwitch : SClass := ⟨0x436f6d706f73697465537769746368, 0x43494d31352e49454336313937302e57697265732e436f6d706f73697465537769746368, 0x43494d31352e49454336313937302e436f72652e45717569706d656e74,
  [(0x636f6d706f7369746553776974636854797065, t_java_lang_String)],
  [⟨0x5377697463686573, 0x43494d31352e49454336313937302e57697265732e537769746368, true, 0x436f6d706f73697465537769746368⟩]⟩
/-- Class CIM15.IEC61970.Wires.Conductor -/
def s_Conductor : SClass := ⟨0x436f6e647563746f72, 0x43494d31352e49454336313937302e57697265732e436f6e647563746f72, 0x43494d31352e49454336313937302e436f72652e436f6e64756374696e6745717569706d656e74,
  [(0x6c656e677468, t_float)],
  []⟩
/-- Class CIM15.IEC61970.Wires.Connector -/
def s_Connector : SClass := ⟨0x436f6e6e6563746f72, 0x43494d31352e49454336313937302e57697265732e436f6e6e6563746f72, 0x43494d31352e49454336313937302e436f72652e436f6e64756374696e6745717569706d656e74,
  [],
  []⟩
/-- Class CIM15.IEC61970.Wires.DCLineSegment -/
def s_DCLineSegment : SClass := ⟨0x44434c696e655365676d656e74, 0x43494d31352e49454336313937302e57697265732e44434c696e655365676d656e74, 0x43494d31352e49454336313937302e57697265732e436f6e647563746f72,
  [(0x64635365676d656e74496e64756374616e6365, t_float), (0x64635365676d656e74526573697374616e6365, t_float)],
  []⟩
/-- Class CIM15.IEC61970.Wires.Disconnector -/
def s_Disconnector : SClass := ⟨0x446973636f6e6e6563746f72, 0x43494d31352e49454336313937302e57697265732e446973636f6e6e6563746f72, 0x43494d31352e49454336313937302e57697265732e537769746368,
  [],
  []⟩
/-- Class CIM15.IEC61970.Wires.EnergyConsumer -/
def s_EnergyConsumer : SClass := ⟨0x456e65726779436f6e73756d6572, 0x43494d31352e49454336313937302e57697265732e456e65726779436f6e73756d6572, 0x43494d31352e49454336313937302e436f72652e436f6e64756374696e6745717569706d656e74,
  [(0x716669786564506374, t_float), (0x637573746f6d6572436f756e74, t_EInt), (0x706669786564506374, t_float), (0x706669786564, t_float), (0x716669786564, t_float)],
  [⟨0x5365727669636544656c6976657279506f696e7473, 0x43494d31352e49454336313936382e4d65746572696e672e5365727669636544656c6976657279506f696e74, true, 0x456e65726779436f6e73756d6572⟩, ⟨0x4c6f6164526573706f6e7365, 0x43494d31352e49454336313937302e4c6f61644d6f64656c2e4c6f6164526573706f6e73654368617261637465726973746963, false, 0x456e65726779436f6e73756d6572⟩, ⟨0x506f7765724375745a6f6e65, 0x43494d31352e49454336313937302e4c6f61644d6f64656c2e506f7765724375745a6f6e65, false, 0x456e65726779436f6e73756d657273⟩, ⟨0x456e65726779436f6e73756d6572506861736573, 0x43494d31352e49454336313937302e576972657350686173654d6f64656c2e456e65726779436f6e73756d65725068617365, true, 0x456e65726779436f6e73756d6572⟩]⟩
/-- Class CIM15.IEC61970.Wires.EnergySource -/
def s_EnergySource : SClass := ⟨0x456e65726779536f75726365, 0x43494d31352e49454336313937302e57697265732e456e65726779536f75726365, 0x43494d31352e49454336313937302e436f72652e436f6e64756374696e6745717569706d656e74,
  [(0x7230, t_float), (0x766f6c746167654d61676e6974756465, t_float), (0x786e, t_float), (0x6e6f6d696e616c566f6c74616765, t_float), (0x78, t_float), (0x72, t_float), (0x766f6c74616765416e676c65, t_float), (0x726e, t_float), (0x7830, t_float), (0x616374697665506f776572, t_float)],
  []⟩
/-- Class CIM15.IEC61970.Wires.FrequencyConverter -/
def s_FrequencyConverter : SClass := ⟨0x4672657175656e6379436f6e766572746572, 0x43494d31352e49454336313937302e57697265732e4672657175656e6379436f6e766572746572, 0x43494d31352e49454336313937302e57697265732e526567756c6174696e67436f6e644571,
  [(0x6d617855, t_float), (0x6d617850, t_float), (0x6672657175656e6379, t_float), (0x6d696e50, t_float), (0x6d696e55, t_float), (0x6f7065726174696e674d6f6465, t_java_lang_String)],
  []⟩
/-- Class CIM15.IEC61970.Wires.Fuse -/
def s_Fuse : SClass := ⟨0x46757365, 0x43494d31352e49454336313937302e57697265732e46757365, 0x43494d31352e49454336313937302e57697265732e537769746368,
  [],
  []⟩
/-- Class CIM15.IEC61970.Wires.Ground -/
def s_Ground : SClass := ⟨0x47726f756e64, 0x43494d31352e49454336313937302e57697265732e47726f756e64, 0x43494d31352e49454336313937302e436f72652e436f6e64756374696e6745717569706d656e74,
  [],
  [⟨0x57696e64696e67496e73756c6174696f6e73, 0x43494d31352e49454336313937302e496e666f726d61746976652e496e664173736574732e57696e64696e67496e73756c6174696f6e, true, 0x47726f756e64⟩]⟩
/-- Class CIM15.IEC61970.Wires.GroundDisconnector -/
def s_GroundDisconnector : SClass := ⟨0x47726f756e64446973636f6e6e6563746f72, 0x43494d31352e49454336313937302e57697265732e47726f756e64446973636f6e6e6563746f72, 0x43494d31352e49454336313937302e57697265732e537769746368,
  [],
  []⟩
/-- Class CIM15.IEC61970.Wires.Jumper -/
def s_Jumper : SClass := ⟨0x4a756d706572, 0x43494d31352e49454336313937302e57697265732e4a756d706572, 0x43494d31352e49454336313937302e57697265732e537769746368,
  [],
  []⟩
/-- Class CIM15.IEC61970.Wires.Junction -/
def s_Junction : SClass := ⟨0x4a756e6374696f6e, 0x43494d31352e49454336313937302e57697265732e4a756e6374696f6e, 0x43494d31352e49454336313937302e57697265732e436f6e6e6563746f72,
  [],
  []⟩
/-- Class CIM15.IEC61970.Wires.Line -/
def s_Line : SClass := ⟨0x4c696e65, 0x43494d31352e49454336313937302e57697265732e4c696e65, 0x43494d31352e49454336313937302e436f72652e45717569706d656e74436f6e7461696e6572,
  [],
  [⟨0x526567696f6e, 0x43494d31352e49454336313937302e436f72652e53756247656f67726170686963616c526567696f6e, false, 0x4c696e6573⟩]⟩
/-- Class CIM15.IEC61970.Wires.LoadBreakSwitch -/
def s_LoadBreakSwitch : SClass := ⟨0x4c6f6164427265616b537769746368, 0x43494d31352e49454336313937302e57697265732e4c6f6164427265616b537769746368, 0x43494d31352e49454336313937302e57697265732e50726f746563746564537769746368,
  [],
  []⟩
/-- Class CIM15.IEC61970.Wires.MutualCoupling -/
def s_MutualCoupling : SClass := ⟨0x4d757475616c436f75706c696e67, 0x43494d31352e49454336313937302e57697265732e4d757475616c436f75706c696e67, 0x43494d31352e49454336313937302e436f72652e4964656e7469666965644f626a656374,
  [(0x64697374616e63653132, t_float), (0x64697374616e63653131, t_float), (0x7230, t_float), (0x64697374616e63653232, t_float), (0x64697374616e63653231, t_float), (0x62306368, t_float), (0x7830, t_float), (0x67306368, t_float)],
  [⟨0x46697273745f5465726d696e616c, 0x43494d31352e49454336313937302e436f72652e5465726d696e616c, false, 0x48617346697273745f4d757475616c436f75706c696e67⟩, ⟨0x5365636f6e645f5465726d696e616c, 0x43494d31352e49454336313937302e436f72652e5465726d696e616c, false, 0x4861735365636f6e645f4d757475616c436f75706c696e67⟩]⟩
/-- Class CIM15.IEC61970.Wires.PerLengthPhaseImpedance -/
def s_PerLengthPhaseImpedance : SClass := ⟨0x5065724c656e6774685068617365496d706564616e6365, 0x43494d31352e49454336313937302e57697265732e5065724c656e6774685068617365496d706564616e6365, 0x43494d31352e49454336313937302e436f72652e4964656e7469666965644f626a656374,
  [(0x636f6e647563746f72436f756e74, t_EInt)],
  [⟨0x4c696e655365676d656e7473, 0x43494d31352e49454336313937302e57697265732e41434c696e655365676d656e74, true, 0x5068617365496d706564616e6365⟩, ⟨0x5068617365496d706564616e636544617461, 0x43494d31352e49454336313937302e57697265732e5068617365496d706564616e636544617461, true, 0x5068617365496d706564616e6365⟩]⟩
/-- Class CIM15.IEC61970.Wires.PerLengthSequenceImpedance -/
def s_PerLengthSequenceImpedance : SClass := ⟨0x5065724c656e67746853657175656e6365496d706564616e6365, 0x43494d31352e49454336313937302e57697265732e5065724c656e67746853657175656e6365496d706564616e6365, 0x43494d31352e49454336313937302e436f72652e4964656e7469666965644f626a656374,
  [(0x78, t_float), (0x72, t_float), (0x626368, t_float), (0x7230, t_float), (0x67306368, t_float), (0x62306368, t_float), (0x676368, t_float), (0x7830, t_float)],
  [⟨0x4c696e655365676d656e7473, 0x43494d31352e49454336313937302e57697265732e41434c696e655365676d656e74, true, 0x53657175656e6365496d706564616e6365⟩]⟩
/-- Class CIM15.IEC61970.Wires.PhaseImpedanceData -/
def s_PhaseImpedanceData : SClass := ⟨0x5068617365496d706564616e636544617461, 0x43494d31352e49454336313937302e57697265732e5068617365496d706564616e636544617461, 0x43494d31352e456c656d656e74,
  [(0x72, t_float), (0x78, t_float), (0x62, t_float), (0x73657175656e63654e756d626572, t_EInt)],
  [⟨0x5068617365496d706564616e6365, 0x43494d31352e49454336313937302e57697265732e5065724c656e6774685068617365496d706564616e6365, false, 0x5068617365496d706564616e636544617461⟩]⟩
/-- Class CIM15.IEC61970.Wires.PhaseTapChanger -/
def s_PhaseTapChanger : SClass := ⟨0x50686173655461704368616e676572, 0x43494d31352e49454336313937302e57697265732e50686173655461704368616e676572, 0x43494d31352e49454336313937302e57697265732e5461704368616e676572,
  [],
  [⟨0x50686173655461704368616e676572546162756c6172, 0x43494d31352e49454336313937302e57697265732e50686173655461704368616e676572546162756c6172, false, 0x50686173655461704368616e676572⟩, ⟨0x5472616e73666f726d6572456e64, 0x43494d31352e49454336313937302e57697265732e5472616e73666f726d6572456e64, false, 0x50686173655461704368616e676572⟩]⟩
/-- Class CIM15.IEC61970.Wires.PhaseTapChangerAsymetrical -/
def s_PhaseTapChangerAsymetrical : SClass := ⟨0x50686173655461704368616e6765724173796d6574726963616c, 0x43494d31352e49454336313937302e57697265732e50686173655461704368616e6765724173796d6574726963616c, 0x43494d31352e49454336313937302e57697265732e50686173655461704368616e6765724e6f6e4c696e656172,
  [(0x77696e64696e67436f6e6e656374696f6e416e676c65, t_float)],
  []⟩
/-- Class CIM15.IEC61970.Wires.PhaseTapChangerLinear -/
def s_PhaseTapChangerLinear : SClass := ⟨0x50686173655461704368616e6765724c696e656172, 0x43494d31352e49454336313937302e57697265732e50686173655461704368616e6765724c696e656172, 0x43494d31352e49454336313937302e57697265732e50686173655461704368616e676572,
  [(0x7374657050686173655368696674496e6372656d656e74, t_float)],
  []⟩
/-- Class CIM15.IEC61970.Wires.PhaseTapChangerNonLinear -/
def s_PhaseTapChangerNonLinear : SClass := ⟨0x50686173655461704368616e6765724e6f6e4c696e656172, 0x43494d31352e49454336313937302e57697265732e50686173655461704368616e6765724e6f6e4c696e656172, 0x43494d31352e49454336313937302e57697265732e50686173655461704368616e676572,
  [(0x784d656469616e, t_float), (0x766f6c7461676553746570496e6372656d656e74, t_float), (0x784d6178, t_float)],
  []⟩
/-- Class CIM15.IEC61970.Wires.PhaseTapChangerSymetrical -/
def s_PhaseTapChangerSymetrical : SClass := ⟨0x50686173655461704368616e67657253796d6574726963616c, 0x43494d31352e49454336313937302e57697265732e50686173655461704368616e67657253796d6574726963616c, 0x43494d31352e49454336313937302e57697265732e50686173655461704368616e6765724e6f6e4c696e656172,
  [],
  []⟩
/-- Class CIM15.IEC61970.Wires.PhaseTapChangerTabular -/
def s_PhaseTapChangerTabular : SClass := ⟨0x50686173655461704368616e676572546162756c6172, 0x43494d31352e49454336313937302e57697265732e50686173655461704368616e676572546162756c6172, 0x43494d31352e456c656d656e74,
  [],
  [⟨0x50686173655461704368616e676572546162756c6172506f696e74, 0x43494d31352e49454336313937302e57697265732e50686173655461704368616e676572546162756c6172506f696e74, true, 0x50686173655461704368616e676572546162756c6172⟩, ⟨0x50686173655461704368616e676572, 0x43494d31352e49454336313937302e57697265732e50686173655461704368616e676572, true, 0x50686173655461704368616e676572546162756c6172⟩]⟩
/-- Class CIM15.IEC61970.Wires.PhaseTapChangerTabularPoint -/
def s_PhaseTapChangerTabularPoint : SClass := ⟨0x50686173655461704368616e676572546162756c6172506f696e74, 0x43494d31352e49454336313937302e57697265732e50686173655461704368616e676572546162756c6172506f696e74, 0x43494d31352e456c656d656e74,
  [(0x78, t_float), (0x73746570, t_EInt), (0x616e676c65, t_float)],
  [⟨0x50686173655461704368616e676572546162756c6172, 0x43494d31352e49454336313937302e57697265732e50686173655461704368616e676572546162756c6172, false, 0x50686173655461704368616e676572546162756c6172506f696e74⟩]⟩
/-- Class CIM15.IEC61970.Wires.Plant -/
def s_Plant : SClass := ⟨0x506c616e74, 0x43494d31352e49454336313937302e57697265732e506c616e74, 0x43494d31352e49454336313937302e436f72652e45717569706d656e74436f6e7461696e6572,
  [],
  []⟩
/-- Class CIM15.IEC61970.Wires.PowerTransformer -/
def s_PowerTransformer : SClass := ⟨0x506f7765725472616e73666f726d6572, 0x43494d31352e49454336313937302e57697265732e506f7765725472616e73666f726d6572, 0x43494d31352e49454336313937302e436f72652e436f6e64756374696e6745717569706d656e74,
  [(0x766563746f7247726f7570, t_EString)],
  [⟨0x5472616e73666f726d657254616e6b73, 0x43494d31352e49454336313937302e57697265732e5472616e73666f726d657254616e6b, true, 0x506f7765725472616e73666f726d6572⟩, ⟨0x506f7765725472616e73666f726d6572496e666f, 0x43494d31352e49454336313936382e41737365744d6f64656c732e506f7765725472616e73666f726d6572496e666f, false, 0x506f7765725472616e73666f726d657273⟩, ⟨0x506f7765725472616e73666f726d6572456e64, 0x43494d31352e49454336313937302e57697265732e506f7765725472616e73666f726d6572456e64, true, 0x506f7765725472616e73666f726d6572⟩]⟩
/-- Class CIM15.IEC61970.Wires.PowerTransformerEnd -/
def s_PowerTransformerEnd : SClass := ⟨0x506f7765725472616e73666f726d6572456e64, 0x43494d31352e49454336313937302e57697265732e506f7765725472616e73666f726d6572456e64, 0x43494d31352e49454336313937302e57697265732e5472616e73666f726d6572456e64,
  [(0x7830, t_float), (0x6230, t_float), (0x6730, t_float), (0x726174656453, t_float), (0x62, t_float), (0x726174656455, t_float), (0x67, t_float), (0x72, t_float), (0x78, t_float), (0x7230, t_float), (0x636f6e6e656374696f6e4b696e64, e_WindingConnection)],
  [⟨0x506f7765725472616e73666f726d6572, 0x43494d31352e49454336313937302e57697265732e506f7765725472616e73666f726d6572, false, 0x506f7765725472616e73666f726d6572456e64⟩]⟩
/-- Class CIM15.IEC61970.Wires.ProtectedSwitch -/
def s_ProtectedSwitch : SClass := ⟨0x50726f746563746564537769746368, 0x43494d31352e49454336313937302e57697265732e50726f746563746564537769746368, 0x43494d31352e49454336313937302e57697265732e537769746368,
  [(0x627265616b696e674361706163697479, t_float)],
  [⟨0x50726f74656374696f6e45717569706d656e7473, 0x43494d31352e49454336313937302e50726f74656374696f6e2e50726f74656374696f6e45717569706d656e74, true, 0x50726f7465637465645377697463686573⟩, ⟨0x5265636c6f736553657175656e636573, 0x43494d31352e49454336313937302e50726f74656374696f6e2e5265636c6f736553657175656e6365, true, 0x50726f746563746564537769746368⟩]⟩
/-- Class CIM15.IEC61970.Wires.RatioTapChanger -/
def s_RatioTapChanger : SClass := ⟨0x526174696f5461704368616e676572, 0x43494d31352e49454336313937302e57697265732e526174696f5461704368616e676572, 0x43494d31352e49454336313937302e57697265732e5461704368616e676572,
  [(0x73746570566f6c74616765496e6372656d656e74, t_float), (0x7463756c436f6e74726f6c4d6f6465, e_TransformerControlMode)],
  [⟨0x526174696f5461704368616e676572546162756c6172, 0x43494d31352e49454336313937302e57697265732e526174696f5461704368616e676572546162756c6172, false, 0x526174696f5461704368616e676572⟩, ⟨0x5472616e73666f726d6572456e64, 0x43494d31352e49454336313937302e57697265732e5472616e73666f726d6572456e64, false, 0x526174696f5461704368616e676572⟩]⟩
/-- Class CIM15.IEC61970.Wires.RatioTapChangerTabular -/
def s_RatioTapChangerTabular : SClass := ⟨0x526174696f5461704368616e676572546162756c6172, 0x43494d31352e49454336313937302e57697265732e526174696f5461704368616e676572546162756c6172, 0x43494d31352e456c656d656e74,
  [],
  [⟨0x526174696f5461704368616e676572546162756c6172506f696e74, 0x43494d31352e49454336313937302e57697265732e526174696f5461704368616e676572546162756c6172506f696e74, true, 0x526174696f5461704368616e676572546162756c6172⟩, ⟨0x526174696f5461704368616e676572, 0x43494d31352e49454336313937302e57697265732e526174696f5461704368616e676572, true, 0x526174696f5461704368616e676572546162756c6172⟩]⟩
/-- Class CIM15.IEC61970.Wires.RatioTapChangerTabularPoint -/
def s_RatioTapChangerTabularPoint : SClass := ⟨0x526174696f5461704368616e676572546162756c6172506f696e74, 0x43494d31352e49454336313937302e57697265732e526174696f5461704368616e676572546162756c6172506f696e74, 0x43494d31352e456c656d656e74,
  [(0x78, t_float), (0x726174696f, t_EFloat), (0x73746570, t_EInt)],
  [⟨0x526174696f5461704368616e676572546162756c6172, 0x43494d31352e49454336313937302e57697265732e526174696f5461704368616e676572546162756c6172, false, 0x526174696f5461704368616e676572546162756c6172506f696e74⟩]⟩
/-- Class CIM15.IEC61970.Wires.ReactiveCapabilityCurve -/
def s_ReactiveCapabilityCurve : SClass := ⟨0x52656163746976654361706162696c6974794375727665, 0x43494d31352e49454336313937302e57697265732e52656163746976654361706162696c6974794375727665, 0x43494d31352e49454336313937302e436f72652e4375727665,
  [(0x687964726f67656e5072657373757265, t_float), (0x636f6f6c616e7454656d7065726174757265, t_float)],
  [⟨0x496e697469616c6c7955736564427953796e6368726f6e6f75734d616368696e6573, 0x43494d31352e49454336313937302e57697265732e53796e6368726f6e6f75734d616368696e65, true, 0x496e697469616c52656163746976654361706162696c6974794375727665⟩, ⟨0x53796e6368726f6e6f75734d616368696e6573, 0x43494d31352e49454336313937302e57697265732e53796e6368726f6e6f75734d616368696e65, true, 0x52656163746976654361706162696c697479437572766573⟩]⟩
/-- Class CIM15.IEC61970.Wires.Recloser -/
def s_Recloser : SClass := ⟨0x5265636c6f736572, 0x43494d31352e49454336313937302e57697265732e5265636c6f736572, 0x43494d31352e49454336313937302e57697265732e50726f746563746564537769746368,
  [],
  []⟩
/-- Class CIM15.IEC61970.Wires.RectifierInverter -/
def s_RectifierInverter : SClass := ⟨0x526563746966696572496e766572746572, 0x43494d31352e49454336313937302e57697265732e526563746966696572496e766572746572, 0x43494d31352e49454336313937302e436f72652e436f6e64756374696e6745717569706d656e74,
  [(0x726174656455, t_float), (0x6d617855, t_float), (0x62726964676573, t_EInt), (0x636f6d706f756e64526573697374616e6365, t_float), (0x636f6d6d75746174696e67526573697374616e6365, t_float), (0x6d696e50, t_float), (0x6f7065726174696e674d6f6465, t_java_lang_String), (0x6d696e55, t_float), (0x636f6d6d75746174696e675265616374616e6365, t_float), (0x6d617850, t_float), (0x6672657175656e6379, t_float), (0x6d696e436f6d706f756e64566f6c74616765, t_float)],
  []⟩
/-- Class CIM15.IEC61970.Wires.RegulatingCondEq -/
def s_RegulatingCondEq : SClass := ⟨0x526567756c6174696e67436f6e644571, 0x43494d31352e49454336313937302e57697265732e526567756c6174696e67436f6e644571, 0x43494d31352e49454336313937302e436f72652e436f6e64756374696e6745717569706d656e74,
  [],
  [⟨0x436f6e74726f6c73, 0x43494d31352e49454336313937302e4d6561732e436f6e74726f6c, true, 0x526567756c6174696e67436f6e644571⟩, ⟨0x526567756c6174696e67436f6e74726f6c, 0x43494d31352e49454336313937302e57697265732e526567756c6174696e67436f6e74726f6c, false, 0x526567756c6174696e67436f6e644571⟩]⟩
/-- Class CIM15.IEC61970.Wires.RegulatingControl -/
def s_RegulatingControl : SClass := ⟨0x526567756c6174696e67436f6e74726f6c, 0x43494d31352e49454336313937302e57697265732e526567756c6174696e67436f6e74726f6c, 0x43494d31352e49454336313937302e436f72652e506f77657253797374656d5265736f75726365,
  [(0x6d6f6465, e_RegulatingControlModeKind), (0x74617267657452616e6765, t_EFloat), (0x6469736372657465, t_EBoolean), (0x74617267657456616c7565, t_EFloat), (0x6d6f6e69746f7265645068617365, e_PhaseCode)],
  [⟨0x526567756c6174696e67436f6e644571, 0x43494d31352e49454336313937302e57697265732e526567756c6174696e67436f6e644571, true, 0x526567756c6174696e67436f6e74726f6c⟩, ⟨0x5465726d696e616c, 0x43494d31352e49454336313937302e436f72652e5465726d696e616c, false, 0x526567756c6174696e67436f6e74726f6c⟩, ⟨0x526567756c6174696f6e5363686564756c65, 0x43494d31352e49454336313937302e57697265732e526567756c6174696f6e5363686564756c65, true, 0x526567756c6174696e67436f6e74726f6c⟩]⟩
/-- Class CIM15.IEC61970.Wires.RegulationSchedule -/
def s_RegulationSchedule : SClass := ⟨0x526567756c6174696f6e5363686564756c65, 0x43494d31352e49454336313937302e57697265732e526567756c6174696f6e5363686564756c65, 0x43494d31352e49454336313937302e4c6f61644d6f64656c2e536561736f6e446179547970655363686564756c65,
  [],
  [⟨0x526567756c6174696e67436f6e74726f6c, 0x43494d31352e49454336313937302e57697265732e526567756c6174696e67436f6e74726f6c, false, 0x526567756c6174696f6e5363686564756c65⟩, ⟨0x566f6c74616765436f6e74726f6c5a6f6e6573, 0x43494d31352e49454336313937302e57697265732e566f6c74616765436f6e74726f6c5a6f6e65, true, 0x526567756c6174696f6e5363686564756c65⟩]⟩
/-- Class CIM15.IEC61970.Wires.Resistor -/
def s_Resistor : SClass := ⟨0x5265736973746f72, 0x43494d31352e49454336313937302e57697265732e5265736973746f72, 0x43494d31352e49454336313937302e436f72652e436f6e64756374696e6745717569706d656e74,
  [],
  []⟩
/-- Class CIM15.IEC61970.Wires.Sectionaliser -/
def s_Sectionaliser : SClass := ⟨0x53656374696f6e616c69736572, 0x43494d31352e49454336313937302e57697265732e53656374696f6e616c69736572, 0x43494d31352e49454336313937302e57697265732e537769746368,
  [],
  []⟩
/-- Class CIM15.IEC61970.Wires.SeriesCompensator -/
def s_SeriesCompensator : SClass := ⟨0x536572696573436f6d70656e7361746f72, 0x43494d31352e49454336313937302e57697265732e536572696573436f6d70656e7361746f72, 0x43494d31352e49454336313937302e436f72652e436f6e64756374696e6745717569706d656e74,
  [(0x78, t_float), (0x72, t_float)],
  []⟩
/-- Class CIM15.IEC61970.Wires.ShuntCompensator -/
def s_ShuntCompensator : SClass := ⟨0x5368756e74436f6d70656e7361746f72, 0x43494d31352e49454336313937302e57697265732e5368756e74436f6d70656e7361746f72, 0x43494d31352e49454336313937302e57697265732e526567756c6174696e67436f6e644571,
  [(0x6e6f6d51, t_float), (0x6d617855, t_float), (0x6750657253656374696f6e, t_float), (0x766f6c7461676553656e7369746976697479, t_float), (0x6e6f6d55, t_float), (0x623050657253656374696f6e, t_float), (0x6d6178696d756d53656374696f6e73, t_EInt), (0x6250657253656374696f6e, t_float), (0x61565244656c6179, t_float), (0x6d696e55, t_float), (0x6e6f726d616c53656374696f6e73, t_EInt), (0x726561637469766550657253656374696f6e, t_float), (0x7377697463684f6e436f756e74, t_EInt), (0x7377697463684f6e44617465, t_java_util_Date), (0x673050657253656374696f6e, t_float)],
  [⟨0x53765368756e74436f6d70656e7361746f7253656374696f6e73, 0x43494d31352e49454336313937302e53746174655661726961626c65732e53765368756e74436f6d70656e7361746f7253656374696f6e73, false, 0x5368756e74436f6d70656e7361746f72⟩, ⟨0x5368756e74436f6d70656e7361746f72506861736573, 0x43494d31352e49454336313937302e576972657350686173654d6f64656c2e5368756e74436f6d70656e7361746f725068617365, true, 0x5368756e74436f6d70656e7361746f72⟩]⟩
/-- Class CIM15.IEC61970.Wires.StaticVarCompensator -/
def s_StaticVarCompensator : SClass := ⟨0x537461746963566172436f6d70656e7361746f72, 0x43494d31352e49454336313937302e57697265732e537461746963566172436f6d70656e7361746f72, 0x43494d31352e49454336313937302e57697265732e526567756c6174696e67436f6e644571,
  [(0x736c6f7065, t_float), (0x735643436f6e74726f6c4d6f6465, e_SVCControlMode), (0x63617061636974697665526174696e67, t_float), (0x766f6c74616765536574506f696e74, t_float), (0x696e64756374697665526174696e67, t_float)],
  []⟩
/-- Class CIM15.IEC61970.Wires.Switch -/
def s_Switch : SClass := ⟨0x537769746368, 0x43494d31352e49454336313937302e57697265732e537769746368, 0x43494d31352e49454336313937302e436f72652e436f6e64756374696e6745717569706d656e74,
  [(0x7377697463684f6e44617465, t_java_util_Date), (0x6e6f726d616c4f70656e, t_EBoolean), (0x726174656443757272656e74, t_float), (0x72657461696e6564, t_EBoolean), (0x7377697463684f6e436f756e74, t_EInt)],
  [⟨0x537769746368696e674f7065726174696f6e73, 0x43494d31352e49454336313937302e4f75746167652e537769746368696e674f7065726174696f6e, true, 0x5377697463686573⟩, ⟨0x4c6f61644d676d7446756e6374696f6e73, 0x43494d31352e49454336313937302e496e666f726d61746976652e496e664c6f6164436f6e74726f6c2e4c6f61644d676d7446756e6374696f6e, true, 0x5377697463686573⟩, ⟨0x436f6e6e656374446973636f6e6e65637446756e6374696f6e73, 0x43494d31352e49454336313936382e4c6f6164436f6e74726f6c2e436f6e6e656374446973636f6e6e65637446756e6374696f6e, true, 0x5377697463686573⟩, ⟨0x5377697463685363686564756c6573, 0x43494d31352e49454336313937302e57697265732e5377697463685363686564756c65, true, 0x537769746368⟩, ⟨0x537769746368506861736573, 0x43494d31352e49454336313937302e576972657350686173654d6f64656c2e5377697463685068617365, true, 0x537769746368⟩, ⟨0x436f6d706f73697465537769746368, 0x43494d31352e49454336313937302e57697265732e436f6d706f73697465537769746368, false, 0x5377697463686573⟩]⟩
/-- Class CIM15.IEC61970.Wires.SwitchSchedule -/
def s_SwitchSchedule : SClass := ⟨0x5377697463685363686564756c65, 0x43494d31352e49454336313937302e57697265732e5377697463685363686564756c65, 0x43494d31352e49454336313937302e4c6f61644d6f64656c2e536561736f6e446179547970655363686564756c65,
  [],
  [⟨0x537769746368, 0x43494d31352e49454336313937302e57697265732e537769746368, false, 0x5377697463685363686564756c6573⟩]⟩
/-- Class CIM15.IEC61970.Wires.SynchronousMachine -/
def s_SynchronousMachine : SClass := ⟨0x53796e6368726f6e6f75734d616368696e65, 0x43494d31352e49454336313937302e57697265732e53796e6368726f6e6f75734d616368696e65, 0x43494d31352e49454336313937302e57697265732e526567756c6174696e67436f6e644571,
  [(0x726174656453, t_float), (0x7232, t_float), (0x7230, t_float), (0x6d616e75616c546f415652, t_float), (0x7150657263656e74, t_float), (0x636f6f6c616e74436f6e646974696f6e, t_EFloat), (0x636f6e64656e73657250, t_float), (0x78517561645472616e73, t_float), (0x78517561645375627472616e73, t_float), (0x785175616453796e63, t_float), (0x7844697265637453796e63, t_float), (0x6d696e51, t_float), (0x615652546f4d616e75616c4c6167, t_float), (0x64616d70696e67, t_float), (0x6f7065726174696e674d6f6465, e_SynchronousMachineOperatingMode), (0x784469726563745375627472616e73, t_float), (0x636f6f6c616e7454797065, e_CoolantType), (0x615652546f4d616e75616c4c656164, t_float), (0x6d696e55, t_float), (0x6d617851, t_float), (0x7265666572656e63655072696f72697479, t_EInt), (0x6d617855, t_float), (0x784469726563745472616e73, t_float), (0x696e6572746961, t_float), (0x6261736551, t_float), (0x74797065, e_SynchronousMachineType), (0x72, t_float), (0x7830, t_float), (0x7832, t_float), (0x78, t_float)],
  [⟨0x5072696d654d6f76657273, 0x43494d31352e49454336313937302e47656e65726174696f6e2e47656e65726174696f6e44796e616d6963732e5072696d654d6f766572, true, 0x53796e6368726f6e6f75734d616368696e6573⟩, ⟨0x47656e65726174696e67556e6974, 0x43494d31352e49454336313937302e47656e65726174696f6e2e50726f64756374696f6e2e47656e65726174696e67556e6974, false, 0x53796e6368726f6e6f75734d616368696e6573⟩, ⟨0x52656163746976654361706162696c697479437572766573, 0x43494d31352e49454336313937302e57697265732e52656163746976654361706162696c6974794375727665, true, 0x53796e6368726f6e6f75734d616368696e6573⟩, ⟨0x487964726f50756d70, 0x43494d31352e49454336313937302e47656e65726174696f6e2e50726f64756374696f6e2e487964726f50756d70, false, 0x53796e6368726f6e6f75734d616368696e65⟩, ⟨0x496e697469616c52656163746976654361706162696c6974794375727665, 0x43494d31352e49454336313937302e57697265732e52656163746976654361706162696c6974794375727665, false, 0x496e697469616c6c7955736564427953796e6368726f6e6f75734d616368696e6573⟩]⟩
/-- Class CIM15.IEC61970.Wires.TapChanger -/
def s_TapChanger : SClass := ⟨0x5461704368616e676572, 0x43494d31352e49454336313937302e57697265732e5461704368616e676572, 0x43494d31352e49454336313937302e436f72652e506f77657253797374656d5265736f75726365,
  [(0x6e65757472616c55, t_float), (0x726567756c6174696f6e537461747573, t_EBoolean), (0x73756273657175656e7444656c6179, t_float), (0x6e6f726d616c53746570, t_EInt), (0x6c7463466c6167, t_EBoolean), (0x6c6f7753746570, t_EInt), (0x6e65757472616c53746570, t_EInt), (0x696e697469616c44656c6179, t_float), (0x6869676853746570, t_EInt)],
  [⟨0x5461704368616e676572496e666f, 0x43494d31352e49454336313936382e41737365744d6f64656c732e5461704368616e676572496e666f, false, 0x5461704368616e67657273⟩, ⟨0x5461705363686564756c6573, 0x43494d31352e49454336313937302e57697265732e5461705363686564756c65, true, 0x5461704368616e676572⟩, ⟨0x5461704368616e676572436f6e74726f6c, 0x43494d31352e49454336313937302e57697265732e5461704368616e676572436f6e74726f6c, false, 0x5461704368616e676572⟩, ⟨0x537654617053746570, 0x43494d31352e49454336313937302e53746174655661726961626c65732e537654617053746570, false, 0x5461704368616e676572⟩]⟩
/-- Class CIM15.IEC61970.Wires.TapChangerControl -/
def s_TapChangerControl : SClass := ⟨0x5461704368616e676572436f6e74726f6c, 0x43494d31352e49454336313937302e57697265732e5461704368616e676572436f6e74726f6c, 0x43494d31352e49454336313937302e57697265732e526567756c6174696e67436f6e74726f6c,
  [(0x6c696e6544726f7052, t_float), (0x6c696e6544726f7058, t_float), (0x726576657273654c696e6544726f7058, t_float), (0x726576657273654c696e6544726f7052, t_float), (0x6c696e6544726f70436f6d70656e736174696f6e, t_EBoolean), (0x6c696d6974566f6c74616765, t_float)],
  [⟨0x5461704368616e676572, 0x43494d31352e49454336313937302e57697265732e5461704368616e676572, true, 0x5461704368616e676572436f6e74726f6c⟩]⟩
/-- Class CIM15.IEC61970.Wires.TapSchedule -/
def s_TapSchedule : SClass := ⟨0x5461705363686564756c65, 0x43494d31352e49454336313937302e57697265732e5461705363686564756c65, 0x43494d31352e49454336313937302e4c6f61644d6f64656c2e536561736f6e446179547970655363686564756c65,
  [],
  [⟨0x5461704368616e676572, 0x43494d31352e49454336313937302e57697265732e5461704368616e676572, false, 0x5461705363686564756c6573⟩]⟩
/-- Class CIM15.IEC61970.Wires.TransformerCoreAdmittance -/
def s_TransformerCoreAdmittance : SClass := ⟨0x5472616e73666f726d6572436f726541646d697474616e6365, 0x43494d31352e49454336313937302e57697265732e5472616e73666f726d6572436f726541646d697474616e6365, 0x43494d31352e49454336313937302e436f72652e4964656e7469666965644f626a656374,
  [(0x6730, t_float), (0x6230, t_float), (0x67, t_float), (0x62, t_float)],
  [⟨0x5472616e73666f726d6572456e64496e666f, 0x43494d31352e49454336313936382e41737365744d6f64656c732e5472616e73666f726d6572456e64496e666f, false, 0x436f726541646d697474616e6365⟩, ⟨0x5472616e73666f726d6572456e64, 0x43494d31352e49454336313937302e57697265732e5472616e73666f726d6572456e64, true, 0x436f726541646d697474616e6365⟩]⟩
/-- Class CIM15.IEC61970.Wires.TransformerEnd -/
def s_TransformerEnd : SClass := ⟨0x5472616e73666f726d6572456e64, 0x43494d31352e49454336313937302e57697265732e5472616e73666f726d6572456e64, 0x43494d31352e49454336313937302e436f72652e4964656e7469666965644f626a656374,
  [(0x656e644e756d626572, t_EInt), (0x7267726f756e64, t_float), (0x67726f756e646564, t_EBoolean), (0x6d61674261736555, t_float), (0x6d6167536174466c7578, t_float), (0x626d6167536174, t_float), (0x7867726f756e64, t_float)],
  [⟨0x5465726d696e616c, 0x43494d31352e49454336313937302e436f72652e5465726d696e616c, false, 0x5472616e73666f726d6572456e64⟩, ⟨0x46726f6d57696e64696e67496e73756c6174696f6e73, 0x43494d31352e49454336313937302e496e666f726d61746976652e496e664173736574732e57696e64696e67496e73756c6174696f6e, true, 0x46726f6d57696e64696e67⟩, ⟨0x436f726541646d697474616e6365, 0x43494d31352e49454336313937302e57697265732e5472616e73666f726d6572436f726541646d697474616e6365, false, 0x5472616e73666f726d6572456e64⟩, ⟨0x5472616e73666f726d6572456e64496e666f, 0x43494d31352e49454336313936382e41737365744d6f64656c732e5472616e73666f726d6572456e64496e666f, false, 0x5472616e73666f726d6572456e64⟩, ⟨0x50686173655461704368616e676572, 0x43494d31352e49454336313937302e57697265732e50686173655461704368616e676572, false, 0x5472616e73666f726d6572456e64⟩, ⟨0x526174696f5461704368616e676572, 0x43494d31352e49454336313937302e57697265732e526174696f5461704368616e676572, false, 0x5472616e73666f726d6572456e64⟩, ⟨0x46726f6d4d657368496d706564616e6365, 0x43494d31352e49454336313937302e57697265732e5472616e73666f726d65724d657368496d706564616e6365, true, 0x46726f6d5472616e73666f726d6572456e64⟩, ⟨0x546f57696e64696e67496e73756c6174696f6e73, 0x43494d31352e49454336313937302e496e666f726d61746976652e496e664173736574732e57696e64696e67496e73756c6174696f6e, true, 0x546f57696e64696e67⟩, ⟨0x546f4d657368496d706564616e6365, 0x43494d31352e49454336313937302e57697265732e5472616e73666f726d65724d657368496d706564616e6365, true, 0x546f5472616e73666f726d6572456e64⟩, ⟨0x53746172496d706564616e6365, 0x43494d31352e49454336313937302e57697265732e5472616e73666f726d657253746172496d706564616e6365, false, 0x5472616e73666f726d6572456e64⟩]⟩
/-- Class CIM15.IEC61970.Wires.TransformerMeshImpedance -/
def s_TransformerMeshImpedance : SClass := ⟨0x5472616e73666f726d65724d657368496d706564616e6365, 0x43494d31352e49454336313937302e57697265732e5472616e73666f726d65724d657368496d706564616e6365, 0x43494d31352e49454336313937302e436f72652e4964656e7469666965644f626a656374,
  [(0x72, t_float), (0x78, t_float), (0x7830, t_float), (0x7230, t_float)],
  [⟨0x46726f6d5472616e73666f726d6572456e64496e666f, 0x43494d31352e49454336313936382e41737365744d6f64656c732e5472616e73666f726d6572456e64496e666f, false, 0x46726f6d4d657368496d706564616e6365⟩, ⟨0x546f5472616e73666f726d6572456e64, 0x43494d31352e49454336313937302e57697265732e5472616e73666f726d6572456e64, true, 0x546f4d657368496d706564616e6365⟩, ⟨0x546f5472616e73666f726d6572456e64496e666f, 0x43494d31352e49454336313936382e41737365744d6f64656c732e5472616e73666f726d6572456e64496e666f, true, 0x546f4d657368496d706564616e6365⟩, ⟨0x46726f6d5472616e73666f726d6572456e64, 0x43494d31352e49454336313937302e57697265732e5472616e73666f726d6572456e64, false, 0x46726f6d4d657368496d706564616e6365⟩]⟩
/-- Class CIM15.IEC61970.Wires.TransformerStarImpedance -/
def s_TransformerStarImpedance : SClass := ⟨0x5472616e73666f726d657253746172496d706564616e6365, 0x43494d31352e49454336313937302e57697265732e5472616e73666f726d657253746172496d706564616e6365, 0x43494d31352e49454336313937302e436f72652e4964656e7469666965644f626a656374,
  [(0x7830, t_float), (0x78, t_float), (0x72, t_float), (0x7230, t_float)],
  [⟨0x5472616e73666f726d6572456e64, 0x43494d31352e49454336313937302e57697265732e5472616e73666f726d6572456e64, true, 0x53746172496d706564616e6365⟩]⟩
/-- Class CIM15.IEC61970.Wires.TransformerTank -/
def s_TransformerTank : SClass := ⟨0x5472616e73666f726d657254616e6b, 0x43494d31352e49454336313937302e57697265732e5472616e73666f726d657254616e6b, 0x43494d31352e49454336313937302e436f72652e45717569706d656e74,
  [],
  [⟨0x5365727669636544656c6976657279506f696e7473, 0x43494d31352e49454336313936382e4d65746572696e672e5365727669636544656c6976657279506f696e74, true, 0x5472616e73666f726d657254616e6b73⟩, ⟨0x5472616e73666f726d657254616e6b456e6473, 0x43494d31352e49454336313937302e57697265732e5472616e73666f726d657254616e6b456e64, true, 0x5472616e73666f726d657254616e6b⟩, ⟨0x506f7765725472616e73666f726d6572, 0x43494d31352e49454336313937302e57697265732e506f7765725472616e73666f726d6572, false, 0x5472616e73666f726d657254616e6b73⟩, ⟨0x5472616e73666f726d657254616e6b496e666f, 0x43494d31352e49454336313936382e41737365744d6f64656c732e5472616e73666f726d657254616e6b496e666f, false, 0x5472616e73666f726d657254616e6b73⟩, ⟨0x5472616e73666f726d65724f62736572766174696f6e73, 0x43494d31352e49454336313937302e496e666f726d61746976652e496e664173736574732e5472616e73666f726d65724f62736572766174696f6e, true, 0x5472616e73666f726d6572⟩]⟩
/-- Class CIM15.IEC61970.Wires.TransformerTankEnd -/
def s_TransformerTankEnd : SClass := ⟨0x5472616e73666f726d657254616e6b456e64, 0x43494d31352e49454336313937302e57697265732e5472616e73666f726d657254616e6b456e64, 0x43494d31352e49454336313937302e57697265732e5472616e73666f726d6572456e64,
  [(0x706861736573, e_PhaseCode)],
  [⟨0x5472616e73666f726d657254616e6b, 0x43494d31352e49454336313937302e57697265732e5472616e73666f726d657254616e6b, false, 0x5472616e73666f726d657254616e6b456e6473⟩]⟩
/-- Class CIM15.IEC61970.Wires.VoltageControlZone -/
def s_VoltageControlZone : SClass := ⟨0x566f6c74616765436f6e74726f6c5a6f6e65, 0x43494d31352e49454336313937302e57697265732e566f6c74616765436f6e74726f6c5a6f6e65, 0x43494d31352e49454336313937302e436f72652e506f77657253797374656d5265736f75726365,
  [],
  [⟨0x526567756c6174696f6e5363686564756c65, 0x43494d31352e49454336313937302e57697265732e526567756c6174696f6e5363686564756c65, false, 0x566f6c74616765436f6e74726f6c5a6f6e6573⟩, ⟨0x42757362617253656374696f6e, 0x43494d31352e49454336313937302e57697265732e42757362617253656374696f6e, false, 0x566f6c74616765436f6e74726f6c5a6f6e65⟩]⟩
/-- Class CIM15.IEC61970.WiresPhaseModel.EnergyConsumerPhase -/
def s_EnergyConsumerPhase : SClass := ⟨0x456e65726779436f6e73756d65725068617365, 0x43494d31352e49454336313937302e576972657350686173654d6f64656c2e456e65726779436f6e73756d65725068617365, 0x43494d31352e49454336313937302e436f72652e506f77657253797374656d5265736f75726365,
  [],
  [⟨0x456e65726779436f6e73756d6572, 0x43494d31352e49454336313937302e57697265732e456e65726779436f6e73756d6572, false, 0x456e65726779436f6e73756d6572506861736573⟩]⟩
/-- Class CIM15.IEC61970.WiresPhaseModel.ShuntCompensatorPhase -/
def s_ShuntCompensatorPhase : SClass := ⟨0x5368756e74436f6d70656e7361746f725068617365, 0x43494d31352e49454336313937302e576972657350686173654d6f64656c2e5368756e74436f6d70656e7361746f725068617365, 0x43494d31352e49454336313937302e436f72652e506f77657253797374656d5265736f75726365,
  [],
  [⟨0x5368756e74436f6d70656e7361746f72, 0x43494d31352e49454336313937302e57697265732e5368756e74436f6d70656e7361746f72, false, 0x5368756e74436f6d70656e7361746f72506861736573⟩]⟩
/-- Class CIM15.IEC61970.WiresPhaseModel.SwitchPhase -/
def s_SwitchPhase : SClass := ⟨0x5377697463685068617365, 0x43494d31352e49454336313937302e576972657350686173654d6f64656c2e5377697463685068617365, 0x43494d31352e49454336313937302e436f72652e506f77657253797374656d5265736f75726365,
  [(0x70686173655369646531, e_SinglePhaseKind), (0x70686173655369646532, e_SinglePhaseKind), (0x6e6f726d616c4f70656e, t_EBoolean)],
  [⟨0x537769746368, 0x43494d31352e49454336313937302e57697265732e537769746368, false, 0x537769746368506861736573⟩]⟩
/-- Class CIM15.IEC62325.IEC62325CIMVersion -/
def s_IEC62325CIMVersion : SClass := ⟨0x494543363233323543494d56657273696f6e, 0x43494d31352e49454336323332352e494543363233323543494d56657273696f6e, 0x43494d31352e456c656d656e74,
  [(0x64617465, t_java_lang_String), (0x76657273696f6e, t_EString)],
  []⟩
/-- Class CIM15.IEC62325.MarketParticipant -/
def s_MarketParticipant : SClass := ⟨0x4d61726b65745061727469636970616e74, 0x43494d31352e49454336323332352e4d61726b65745061727469636970616e74, 0x43494d31352e49454336313936382e436f6d6d6f6e2e4f7267616e69736174696f6e,
  [],
  [⟨0x4d61726b6574526f6c6573, 0x43494d31352e49454336323332352e4d61726b6574526f6c65, true, 0x4d61726b65745061727469636970616e7473⟩]⟩
/-- Class CIM15.IEC62325.MarketRole -/
def s_MarketRole : SClass := ⟨0x4d61726b6574526f6c65, 0x43494d31352e49454336323332352e4d61726b6574526f6c65, 0x43494d31352e49454336313937302e436f72652e4964656e7469666965644f626a656374,
  [(0x6b696e64, e_MarketRoleKind)],
  [⟨0x737461747573, 0x43494d31352e49454336313936382e436f6d6d6f6e2e537461747573, false, 0⟩, ⟨0x4d61726b65745061727469636970616e7473, 0x43494d31352e49454336323332352e4d61726b65745061727469636970616e74, true, 0x4d61726b6574526f6c6573⟩]⟩
/-- Class CIM15.Package -/
def s_Package : SClass := ⟨0x5061636b616765, 0x43494d31352e5061636b616765, 0x43494d31352e456c656d656e74,
  [],
  []⟩
/-- Class CIM15.PackageDependencies.PackageDependenciesCIMVeresion -/
def s_PackageDependenciesCIMVeresion : SClass := ⟨0x5061636b616765446570656e64656e6369657343494d5665726573696f6e, 0x43494d31352e5061636b616765446570656e64656e636965732e5061636b616765446570656e64656e6369657343494d5665726573696f6e, 0x43494d31352e456c656d656e74,
  [(0x766573696f6e, t_EString), (0x64617465, t_java_lang_String)],
  []⟩
/-- Class CIM15.Stereotype -/
def s_Stereotype : SClass := ⟨0x53746572656f74797065, 0x43494d31352e53746572656f74797065, 0x43494d31352e456c656d656e74,
  [],
  []⟩

def schema : Schema := [
  s_CombinedVersion,
  s_Element,
  s_CableInfo,
  s_ConcentricNeutralCableInfo,
  s_ConductorInfo,
  s_EndDeviceInfo,
  s_NoLoadTest,
  s_OpenCircuitTest,
  s_OverheadConductorInfo,
  s_PowerTransformerInfo,
  s_ShortCircuitTest,
  s_TapChangerInfo,
  s_TapeShieldCableInfo,
  s_TransformerEndInfo,
  s_TransformerTankInfo,
  s_TransformerTest,
  s_WireArrangement,
  s_WireType,
  s_AcceptanceTest,
  s_Asset,
  s_AssetContainer,
  s_AssetFunction,
  s_AssetInfo,
  s_AssetModel,
  s_ComMedia,
  s_ProductAssetModel,
  s_Seal,
  s_ActivityRecord,
  s_Agreement,
  s_CoordinateSystem,
  s_Document,
  s_ElectronicAddress,
  s_Location,
  s_Organisation,
  s_PositionPoint,
  s_PostalAddress,
  s_Status,
  s_StreetAddress,
  s_StreetDetail,
  s_TelephoneNumber,
  s_TimePoint,
  s_TimeSchedule,
  s_TownDetail,
  s_UserAttribute,
  s_Customer,
  s_CustomerAccount,
  s_CustomerAgreement,
  s_PricingStructure,
  s_ServiceCategory,
  s_ServiceLocation,
  s_Tariff,
  s_IEC61968CIMVersion,
  s_ConnectDisconnectFunction,
  s_RemoteConnectDisconnectInfo,
  s_ComFunction,
  s_DemandResponseProgram,
  s_DynamicDemand,
  s_ElectricMeteringFunction,
  s_EndDevice,
  s_EndDeviceControl,
  s_EndDeviceEvent,
  s_EndDeviceFunction,
  s_EndDeviceGroup,
  s_IntervalBlock,
  s_IntervalReading,
  s_Meter,
  s_MeterReading,
  s_MeterServiceWork,
  s_PendingCalculation,
  s_Reading,
  s_ReadingMultiplier,
  s_ReadingQuality,
  s_ReadingType,
  s_Register,
  s_SDPLocation,
  s_ServiceDeliveryPoint,
  s_SimpleEndDeviceFunction,
  s_AccountMovement,
  s_AccountingUnit,
  s_AuxiliaryAccount,
  s_AuxiliaryAgreement,
  s_BankAccountDetail,
  s_Card,
  s_Cashier,
  s_CashierShift,
  s_Charge,
  s_Cheque,
  s_ConsumptionTariffInterval,
  s_Due,
  s_LineDetail,
  s_MerchantAccount,
  s_MerchantAgreement,
  s_PointOfSale,
  s_Receipt,
  s_ServiceSupplier,
  s_Shift,
  s_TariffProfile,
  s_Tender,
  s_TimeTariffInterval,
  s_Transaction,
  s_Transactor,
  s_Vendor,
  s_VendorShift,
  s_Work,
  s_AuxiliaryEquipment,
  s_CurrentTransformer,
  s_FaultIndicator,
  s_PotentialTransformer,
  s_Sensor,
  s_SurgeProtector,
  s_Contingency,
  s_ContingencyElement,
  s_ContingencyEquipment,
  s_AltGeneratingUnitMeas,
  s_AltTieMeas,
  s_ControlArea,
  s_ControlAreaGeneratingUnit,
  s_TieFlow,
  s_BasePower,
  s_BaseVoltage,
  s_BasicIntervalSchedule,
  s_Bay,
  s_ConductingEquipment,
  s_ConnectivityNode,
  s_ConnectivityNodeContainer,
  s_Curve,
  s_CurveData,
  s_Equipment,
  s_EquipmentContainer,
  s_GeographicalRegion,
  s_IdentifiedObject,
  s_IrregularIntervalSchedule,
  s_IrregularTimePoint,
  s_Name,
  s_NameType,
  s_NameTypeAuthority,
  s_OperatingParticipant,
  s_OperatingShare,
  s_PSRType,
  s_PowerSystemResource,
  s_PsrList,
  s_RegularIntervalSchedule,
  s_RegularTimePoint,
  s_ReportingGroup,
  s_ReportingSuperGroup,
  s_SubGeographicalRegion,
  s_Substation,
  s_Terminal,
  s_VoltageLevel,
  s_Clamp,
  s_Cut,
  s_DateTimeInterval,
  s_EquivalentBranch,
  s_EquivalentEquipment,
  s_EquivalentInjection,
  s_EquivalentNetwork,
  s_EquivalentShunt,
  s_BWRSteamSupply,
  s_CTTempActivePowerCurve,
  s_CombustionTurbine,
  s_DrumBoiler,
  s_FossilSteamSupply,
  s_HeatRecoveryBoiler,
  s_HydroTurbine,
  s_PWRSteamSupply,
  s_PrimeMover,
  s_SteamSupply,
  s_SteamTurbine,
  s_Subcritical,
  s_Supercritical,
  s_AirCompressor,
  s_CAESPlant,
  s_CogenerationPlant,
  s_CombinedCyclePlant,
  s_EmissionAccount,
  s_EmissionCurve,
  s_FossilFuel,
  s_FuelAllocationSchedule,
  s_GenUnitOpCostCurve,
  s_GenUnitOpSchedule,
  s_GeneratingUnit,
  s_GrossToNetActivePowerCurve,
  s_HeatInputCurve,
  s_HeatRateCurve,
  s_HydroGeneratingEfficiencyCurve,
  s_HydroGeneratingUnit,
  s_HydroPowerPlant,
  s_HydroPump,
  s_HydroPumpOpSchedule,
  s_IncrementalHeatRateCurve,
  s_InflowForecast,
  s_LevelVsVolumeCurve,
  s_NuclearGeneratingUnit,
  s_PenstockLossCurve,
  s_Reservoir,
  s_ShutdownCurve,
  s_StartIgnFuelCurve,
  s_StartMainFuelCurve,
  s_StartRampCurve,
  s_StartupModel,
  s_SteamSendoutSchedule,
  s_TailbayLossCurve,
  s_TargetLevelSchedule,
  s_ThermalGeneratingUnit,
  s_WindGeneratingUnit,
  s_DiagramObject,
  s_DiagramObjectGluePoint,
  s_DiagramObjectPoint,
  s_DiagramObjectStyle,
  s_TextDiagramObject,
  s_VisibilityLayer,
  s_IEC61970CIMVersion,
  s_AssetModelCatalogue,
  s_AssetModelCatalogueItem,
  s_TransformerAssetModel,
  s_AssetAssetRole,
  s_AssetPropertyCurve,
  s_BreakerInfo,
  s_Bushing,
  s_BushingInsulationPF,
  s_Cabinet,
  s_ComEquipment,
  s_CompositeSwitchInfo,
  s_ConductorAsset,
  s_CurrentTransformerInfo,
  s_DimensionsInfo,
  s_DocAssetRole,
  s_Duct,
  s_DuctBank,
  s_ElectricalInfo,
  s_FACTSDevice,
  s_Facility,
  s_FailureEvent,
  s_FaultIndicatorInfo,
  s_FinancialInfo,
  s_GenericAssetModelOrMaterial,
  s_Joint,
  s_Medium,
  s_MountingConnection,
  s_MountingPoint,
  s_OrgAssetRole,
  s_Pole,
  s_PotentialTransformerInfo,
  s_PowerRating,
  s_Procedure,
  s_ProcedureDataSet,
  s_ProtectionEquipmentInfo,
  s_RecloserInfo,
  s_ReliabilityInfo,
  s_SVC,
  s_ShuntCompensatorInfo,
  s_ShuntImpedanceInfo,
  s_Specification,
  s_Streetlight,
  s_Structure,
  s_StructureSupport,
  s_SubstationAsset,
  s_SurgeProtectorInfo,
  s_SwitchInfo,
  s_TestDataSet,
  s_Tool,
  s_Tower,
  s_TransformerAsset,
  s_TransformerObservation,
  s_UndergroundStructure,
  s_Vehicle,
  s_WindingInsulation,
  s_WorkEquipment,
  s_Bank,
  s_BankAccount,
  s_BusinessPlan,
  s_BusinessRole,
  s_Craft,
  s_DocDocRole,
  s_DocPsrRole,
  s_Ratio,
  s_Role,
  s_ScheduleParameterInfo,
  s_ScheduledEvent,
  s_Skill,
  s_ModelingAuthority,
  s_ModelingAuthoritySet,
  s_ComplianceEvent,
  s_CustomerBillingInfo,
  s_ExternalCustomerAgreement,
  s_OutageHistory,
  s_PowerQualityPricing,
  s_ServiceGuarantee,
  s_StandardIndustryCode,
  s_SubscribePowerCurve,
  s_WorkBillingInfo,
  s_DocErpPersonRole,
  s_DocOrgRole,
  s_ErpBOM,
  s_ErpBankAccount,
  s_ErpBomItemData,
  s_ErpChartOfAccounts,
  s_ErpCompetency,
  s_ErpEngChangeOrder,
  s_ErpInventory,
  s_ErpInventoryCount,
  s_ErpInvoice,
  s_ErpInvoiceLineItem,
  s_ErpIssueInventory,
  s_ErpItemMaster,
  s_ErpJournal,
  s_ErpJournalEntry,
  s_ErpLedBudLineItem,
  s_ErpLedger,
  s_ErpLedgerBudget,
  s_ErpLedgerEntry,
  s_ErpOrganisation,
  s_ErpPOLineItem,
  s_ErpPayable,
  s_ErpPayableLineItem,
  s_ErpPayment,
  s_ErpPerson,
  s_ErpPersonnel,
  s_ErpProjectAccounting,
  s_ErpPurchaseOrder,
  s_ErpQuote,
  s_ErpQuoteLineItem,
  s_ErpRecDelvLineItem,
  s_ErpRecLineItem,
  s_ErpReceivable,
  s_ErpReceiveDelivery,
  s_ErpReqLineItem,
  s_ErpRequisition,
  s_ErpSalesOrder,
  s_ErpSiteLevelData,
  s_ErpTimeEntry,
  s_ErpTimeSheet,
  s_OrgErpPersonRole,
  s_OrgOrgRole,
  s_Diagram,
  s_GmlBaseSymbol,
  s_GmlColour,
  s_GmlDiagramObject,
  s_GmlFeatureStyle,
  s_GmlFeatureType,
  s_GmlFill,
  s_GmlFont,
  s_GmlGeometryStyle,
  s_GmlGraphic,
  s_GmlHalo,
  s_GmlLabelPlacement,
  s_GmlLabelStyle,
  s_GmlLineGeometry,
  s_GmlLineSymbol,
  s_GmlMark,
  s_GmlObservation,
  s_GmlPointGeometry,
  s_GmlPointSymbol,
  s_GmlPolygonGeometry,
  s_GmlPolygonSymbol,
  s_GmlPosition,
  s_GmlRasterSymbol,
  s_GmlSelector,
  s_GmlStroke,
  s_GmlSvgParameter,
  s_GmlSymbol,
  s_GmlTextSymbol,
  s_GmlTopologyStyle,
  s_GmlValue,
  s_Map,
  s_LoadLimitFunction,
  s_LoadMgmtFunction,
  s_LoadMgmtRecord,
  s_LoadShedFunction,
  s_Direction,
  s_Hazard,
  s_LandProperty,
  s_LocationGrant,
  s_OrgPropertyRole,
  s_PersonPropertyRole,
  s_RedLine,
  s_RightOfWay,
  s_Route,
  s_Zone,
  s_GasMeteringFunction,
  s_WaterMeteringFunction,
  s_CallBack,
  s_ChangeItem,
  s_ChangeSet,
  s_Circuit,
  s_CircuitSection,
  s_ErpPersonScheduleStepRole,
  s_IncidentCode,
  s_IncidentRecord,
  s_LandBase,
  s_NetworkDataSet,
  s_OperationalRestriction,
  s_OrgPsrRole,
  s_OutageCode,
  s_OutageNotification,
  s_OutageRecord,
  s_OutageReport,
  s_OutageStep,
  s_OutageStepPsrRole,
  s_PSREvent,
  s_PlannedOutage,
  s_SafetyDocument,
  s_SwitchingSchedule,
  s_SwitchingStep,
  s_TroubleTicket,
  s_GeneratorTypeAsset,
  s_TypeAssetCatalogue,
  s_AccessPermit,
  s_Appointment,
  s_Assignment,
  s_BusinessCase,
  s_CUAllowableAction,
  s_CUAsset,
  s_CUContractorItem,
  s_CUGroup,
  s_CULaborCode,
  s_CULaborItem,
  s_CUMaterialItem,
  s_CUWorkEquipmentItem,
  s_Capability,
  s_CompatibleUnit,
  s_ConditionFactor,
  s_ContractorItem,
  s_CostType,
  s_Crew,
  s_Design,
  s_DesignLocation,
  s_DesignLocationCU,
  s_DiagnosisDataSet,
  s_EquipmentItem,
  s_InfoQuestion,
  s_InspectionDataSet,
  s_LaborItem,
  s_MaintenanceDataSet,
  s_MaterialItem,
  s_MiscCostItem,
  s_NonStandardItem,
  s_OneCallRequest,
  s_OverheadCost,
  s_Project,
  s_PropertyUnit,
  s_QualificationRequirement,
  s_Regulation,
  s_Request,
  s_ShiftPattern,
  s_TypeMaterial,
  s_Usage,
  s_WorkCostDetail,
  s_WorkCostSummary,
  s_WorkFlowStep,
  s_WorkLocation,
  s_WorkStatusEntry,
  s_WorkTask,
  s_ConformLoad,
  s_ConformLoadGroup,
  s_ConformLoadSchedule,
  s_DayType,
  s_EnergyArea,
  s_LoadArea,
  s_LoadGroup,
  s_LoadResponseCharacteristic,
  s_NonConformLoad,
  s_NonConformLoadGroup,
  s_NonConformLoadSchedule,
  s_PowerCutZone,
  s_Season,
  s_SeasonDayTypeSchedule,
  s_StationSupply,
  s_SubLoadArea,
  s_Accumulator,
  s_AccumulatorLimit,
  s_AccumulatorLimitSet,
  s_AccumulatorValue,
  s_Analog,
  s_AnalogLimit,
  s_AnalogLimitSet,
  s_AnalogValue,
  s_Command,
  s_Control,
  s_ControlType,
  s_Discrete,
  s_DiscreteValue,
  s_Limit,
  s_LimitSet,
  s_Measurement,
  s_MeasurementValue,
  s_MeasurementValueQuality,
  s_MeasurementValueSource,
  s_Quality61850,
  s_SetPoint,
  s_StringMeasurement,
  s_StringMeasurementValue,
  s_ValueAliasSet,
  s_ValueToAlias,
  s_ActivePowerLimit,
  s_ActivePowerLimitSet,
  s_ApparentPowerLimit,
  s_ApparentPowerLimitSet,
  s_BranchGroup,
  s_BranchGroupTerminal,
  s_CurrentLimit,
  s_CurrentLimitSet,
  s_OperationalLimit,
  s_OperationalLimitSet,
  s_OperationalLimitType,
  s_VoltageLimit,
  s_VoltageLimitSet,
  s_ClearanceTag,
  s_ClearanceTagType,
  s_OutageSchedule,
  s_SwitchingOperation,
  s_CurrentRelay,
  s_ProtectionEquipment,
  s_RecloseSequence,
  s_SynchrocheckRelay,
  s_CommunicationLink,
  s_RemoteControl,
  s_RemotePoint,
  s_RemoteSource,
  s_RemoteUnit,
  s_StateVariable,
  s_SvInjection,
  s_SvPowerFlow,
  s_SvShortCircuit,
  s_SvShuntCompensatorSections,
  s_SvStatus,
  s_SvTapStep,
  s_SvVoltage,
  s_TopologicalIsland,
  s_BusNameMarker,
  s_TopologicalNode,
  s_ACLineSegment,
  s_Breaker,
  s_BusbarSection,
  s_CompositeSwitch,
  s_Conductor,
  s_Connector,
  s_DCLineSegment,
  s_Disconnector,
  s_EnergyConsumer,
  s_EnergySource,
  s_FrequencyConverter,
  s_Fuse,
  s_Ground,
  s_GroundDisconnector,
  s_Jumper,
  s_Junction,
  s_Line,
  s_LoadBreakSwitch,
  s_MutualCoupling,
  s_PerLengthPhaseImpedance,
  s_PerLengthSequenceImpedance,
  s_PhaseImpedanceData,
  s_PhaseTapChanger,
  s_PhaseTapChangerAsymetrical,
  s_PhaseTapChangerLinear,
  s_PhaseTapChangerNonLinear,
  s_PhaseTapChangerSymetrical,
  s_PhaseTapChangerTabular,
  s_PhaseTapChangerTabularPoint,
  s_Plant,
  s_PowerTransformer,
  s_PowerTransformerEnd,
  s_ProtectedSwitch,
  s_RatioTapChanger,
  s_RatioTapChangerTabular,
  s_RatioTapChangerTabularPoint,
  s_ReactiveCapabilityCurve,
  s_Recloser,
  s_RectifierInverter,
  s_RegulatingCondEq,
  s_RegulatingControl,
  s_RegulationSchedule,
  s_Resistor,
  s_Sectionaliser,
  s_SeriesCompensator,
  s_ShuntCompensator,
  s_StaticVarCompensator,
  s_Switch,
  s_SwitchSchedule,
  s_SynchronousMachine,
  s_TapChanger,
  s_TapChangerControl,
  s_TapSchedule,
  s_TransformerCoreAdmittance,
  s_TransformerEnd,
  s_TransformerMeshImpedance,
  s_TransformerStarImpedance,
  s_TransformerTank,
  s_TransformerTankEnd,
  s_VoltageControlZone,
  s_EnergyConsumerPhase,
  s_ShuntCompensatorPhase,
  s_SwitchPhase,
  s_IEC62325CIMVersion,
  s_MarketParticipant,
  s_MarketRole,
  s_Package,
  s_PackageDependenciesCIMVeresion,
  s_Stereotype]

end Verif.Gen.Model_CIM15
