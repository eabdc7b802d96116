import Verif.Spec.Schema
/-! Generated by tools/ecore.py from /repo/Model/CIM14/ENTSOE/Dynamics.ecore: do not edit. -/
namespace Verif.Gen.Model_CIM14_ENTSOE_Dynamics
open Spec
set_option maxRecDepth 10000

/-- Enumeration CIM14.ENTSOE.Dynamics.IEC61970.Core.CorePhaseCode -/
def e_CorePhaseCode : SType := .enum 0x436f72655068617365436f6465 [0x414243, 0x73706c69745365636f6e64617279324e, 0x41424e, 0x434e, 0x41434e, 0x4243, 0x414e, 0x424e, 0x4142, 0x73706c69745365636f6e64617279314e, 0x4e, 0x43, 0x4143, 0x4142434e, 0x73706c69745365636f6e6461727931324e, 0x41, 0x42, 0x42434e]
/-- Enumeration CIM14.ENTSOE.Dynamics.IEC61970.Dynamics.DynamicsBlockKind -/
def e_DynamicsBlockKind : SType := .enum 0x44796e616d696373426c6f636b4b696e64 []
/-- Enumeration CIM14.ENTSOE.Dynamics.IEC61970.Dynamics.Generators.GeneratorsParametersFormType -/
def e_GeneratorsParametersFormType : SType := .enum 0x47656e657261746f7273506172616d6574657273466f726d54797065 [0x6571756976616c656e7443697263756974, 0x74696d65436f6e7374616e745265616374616e6365]
/-- Enumeration CIM14.ENTSOE.Dynamics.IEC61970.Dynamics.Loads.LoadsStaticLoadType -/
def e_LoadsStaticLoadType : SType := .enum 0x4c6f6164735374617469634c6f616454797065 []
/-- Data type with values of EBoolean -/
def t_EBoolean : SType := .prim 0x45426f6f6c65616e
/-- Data type with values of EFloat -/
def t_EFloat : SType := .prim 0x45466c6f6174
/-- Data type with values of EShort -/
def t_EShort : SType := .prim 0x4553686f7274
/-- Data type with values of EString -/
def t_EString : SType := .prim 0x45537472696e67
/-- Data type with values of float -/
def t_float : SType := .prim 0x666c6f6174

/-- Class CIM14.ENTSOE.Dynamics.Element -/
def s_Element : SClass := ⟨0x456c656d656e74, 0x43494d31342e454e54534f452e44796e616d6963732e456c656d656e74, 0,
  [(0x55554944, t_EString)],
  []⟩
/-- Class CIM14.ENTSOE.Dynamics.IEC61968.Assets.AssetsAsset -/
def s_AssetsAsset : SClass := ⟨0x4173736574734173736574, 0x43494d31342e454e54534f452e44796e616d6963732e49454336313936382e4173736574732e4173736574734173736574, 0x43494d31342e454e54534f452e44796e616d6963732e49454336313937302e436f72652e436f72654964656e7469666965644f626a656374,
  [],
  [⟨0x506f77657253797374656d5265736f7572636573, 0x43494d31342e454e54534f452e44796e616d6963732e49454336313937302e436f72652e436f7265506f77657253797374656d5265736f75726365, true, 0x417373657473⟩]⟩
/-- Class CIM14.ENTSOE.Dynamics.IEC61968.Common.CommonLocation -/
def s_CommonLocation : SClass := ⟨0x436f6d6d6f6e4c6f636174696f6e, 0x43494d31342e454e54534f452e44796e616d6963732e49454336313936382e436f6d6d6f6e2e436f6d6d6f6e4c6f636174696f6e, 0x43494d31342e454e54534f452e44796e616d6963732e49454336313937302e436f72652e436f72654964656e7469666965644f626a656374,
  [],
  [⟨0x506f77657253797374656d5265736f7572636573, 0x43494d31342e454e54534f452e44796e616d6963732e49454336313937302e436f72652e436f7265506f77657253797374656d5265736f75726365, true, 0x4c6f636174696f6e⟩]⟩
/-- Class CIM14.ENTSOE.Dynamics.IEC61968.Customers.CustomersCustomerAgreement -/
def s_CustomersCustomerAgreement : SClass := ⟨0x437573746f6d657273437573746f6d657241677265656d656e74, 0x43494d31342e454e54534f452e44796e616d6963732e49454336313936382e437573746f6d6572732e437573746f6d657273437573746f6d657241677265656d656e74, 0x43494d31342e454e54534f452e44796e616d6963732e49454336313937302e436f72652e436f72654964656e7469666965644f626a656374,
  [],
  [⟨0x45717569706d656e7473, 0x43494d31342e454e54534f452e44796e616d6963732e49454336313937302e436f72652e436f726545717569706d656e74, true, 0x437573746f6d657241677265656d656e7473⟩]⟩
/-- Class CIM14.ENTSOE.Dynamics.IEC61970.Contingency.ContingencyContingencyEquipment -/
def s_ContingencyContingencyEquipment : SClass := ⟨0x436f6e74696e67656e6379436f6e74696e67656e637945717569706d656e74, 0x43494d31342e454e54534f452e44796e616d6963732e49454336313937302e436f6e74696e67656e63792e436f6e74696e67656e6379436f6e74696e67656e637945717569706d656e74, 0x43494d31342e454e54534f452e44796e616d6963732e49454336313937302e436f72652e436f72654964656e7469666965644f626a656374,
  [],
  [⟨0x45717569706d656e74, 0x43494d31342e454e54534f452e44796e616d6963732e49454336313937302e436f72652e436f726545717569706d656e74, false, 0x436f6e74696e67656e637945717569706d656e74⟩]⟩
/-- Class CIM14.ENTSOE.Dynamics.IEC61970.Core.CoreBaseVoltage -/
def s_CoreBaseVoltage : SClass := ⟨0x436f726542617365566f6c74616765, 0x43494d31342e454e54534f452e44796e616d6963732e49454336313937302e436f72652e436f726542617365566f6c74616765, 0x43494d31342e454e54534f452e44796e616d6963732e49454336313937302e436f72652e436f72654964656e7469666965644f626a656374,
  [],
  [⟨0x436f6e64756374696e6745717569706d656e74, 0x43494d31342e454e54534f452e44796e616d6963732e49454336313937302e436f72652e436f7265436f6e64756374696e6745717569706d656e74, true, 0x42617365566f6c74616765⟩]⟩
/-- Class CIM14.ENTSOE.Dynamics.IEC61970.Core.CoreConductingEquipment -/
def s_CoreConductingEquipment : SClass := ⟨0x436f7265436f6e64756374696e6745717569706d656e74, 0x43494d31342e454e54534f452e44796e616d6963732e49454336313937302e436f72652e436f7265436f6e64756374696e6745717569706d656e74, 0x43494d31342e454e54534f452e44796e616d6963732e49454336313937302e436f72652e436f726545717569706d656e74,
  [(0x706861736573, e_CorePhaseCode)],
  [⟨0x5376537461747573, 0x43494d31342e454e54534f452e44796e616d6963732e49454336313937302e53746174655661726961626c65732e53746174655661726961626c65735376537461747573, false, 0x436f6e64756374696e6745717569706d656e74⟩, ⟨0x436c656172616e636554616773, 0x43494d31342e454e54534f452e44796e616d6963732e49454336313937302e4f75746167652e4f7574616765436c656172616e6365546167, true, 0x436f6e64756374696e6745717569706d656e74⟩, ⟨0x5465726d696e616c73, 0x43494d31342e454e54534f452e44796e616d6963732e49454336313937302e436f72652e436f72655465726d696e616c, true, 0x436f6e64756374696e6745717569706d656e74⟩, ⟨0x50726f74656374696f6e45717569706d656e7473, 0x43494d31342e454e54534f452e44796e616d6963732e49454336313937302e50726f74656374696f6e2e50726f74656374696f6e50726f74656374696f6e45717569706d656e74, true, 0x436f6e64756374696e6745717569706d656e7473⟩, ⟨0x42617365566f6c74616765, 0x43494d31342e454e54534f452e44796e616d6963732e49454336313937302e436f72652e436f726542617365566f6c74616765, false, 0x436f6e64756374696e6745717569706d656e74⟩]⟩
/-- Class CIM14.ENTSOE.Dynamics.IEC61970.Core.CoreEquipment -/
def s_CoreEquipment : SClass := ⟨0x436f726545717569706d656e74, 0x43494d31342e454e54534f452e44796e616d6963732e49454336313937302e436f72652e436f726545717569706d656e74, 0x43494d31342e454e54534f452e44796e616d6963732e49454336313937302e436f72652e436f7265506f77657253797374656d5265736f75726365,
  [(0x6e6f726d61496c79496e53657276696365, t_EBoolean), (0x616767726567617465, t_EBoolean)],
  [⟨0x436f6e74696e67656e637945717569706d656e74, 0x43494d31342e454e54534f452e44796e616d6963732e49454336313937302e436f6e74696e67656e63792e436f6e74696e67656e6379436f6e74696e67656e637945717569706d656e74, true, 0x45717569706d656e74⟩, ⟨0x45717569706d656e74436f6e7461696e6572, 0x43494d31342e454e54534f452e44796e616d6963732e49454336313937302e436f72652e436f726545717569706d656e74436f6e7461696e6572, false, 0x45717569706d656e7473⟩, ⟨0x437573746f6d657241677265656d656e7473, 0x43494d31342e454e54534f452e44796e616d6963732e49454336313936382e437573746f6d6572732e437573746f6d657273437573746f6d657241677265656d656e74, true, 0x45717569706d656e7473⟩, ⟨0x4f7065726174696f6e616c4c696d6974536574, 0x43494d31342e454e54534f452e44796e616d6963732e49454336313937302e4f7065726174696f6e616c4c696d6974732e4f7065726174696f6e616c4c696d6974734f7065726174696f6e616c4c696d6974536574, true, 0x45717569706d656e74⟩]⟩
/-- Class CIM14.ENTSOE.Dynamics.IEC61970.Core.CoreEquipmentContainer -/
def s_CoreEquipmentContainer : SClass := ⟨0x436f726545717569706d656e74436f6e7461696e6572, 0x43494d31342e454e54534f452e44796e616d6963732e49454336313937302e436f72652e436f726545717569706d656e74436f6e7461696e6572, 0x43494d31342e454e54534f452e44796e616d6963732e49454336313937302e436f72652e436f7265506f77657253797374656d5265736f75726365,
  [],
  [⟨0x45717569706d656e7473, 0x43494d31342e454e54534f452e44796e616d6963732e49454336313937302e436f72652e436f726545717569706d656e74, true, 0x45717569706d656e74436f6e7461696e6572⟩]⟩
/-- Class CIM14.ENTSOE.Dynamics.IEC61970.Core.CoreIdentifiedObject -/
def s_CoreIdentifiedObject : SClass := ⟨0x436f72654964656e7469666965644f626a656374, 0x43494d31342e454e54534f452e44796e616d6963732e49454336313937302e436f72652e436f72654964656e7469666965644f626a656374, 0x43494d31342e454e54534f452e44796e616d6963732e456c656d656e74,
  [(0x6d524944, t_EString), (0x6465736372697074696f6e, t_EString), (0x6e616d65, t_EString), (0x6c6f63616c4e616d65, t_EString), (0x616c6961734e616d65, t_EString), (0x706174684e616d65, t_EString)],
  [⟨0x4d6f64656c696e67417574686f72697479536574, 0x43494d31342e454e54534f452e44796e616d6963732e49454336313937302e496e666f726d61746976652e496e66436f72652e496e66436f72654d6f64656c696e67417574686f72697479536574, false, 0x4964656e7469666965644f626a65637473⟩]⟩
/-- Class CIM14.ENTSOE.Dynamics.IEC61970.Core.CoreOperatingShare -/
def s_CoreOperatingShare : SClass := ⟨0x436f72654f7065726174696e675368617265, 0x43494d31342e454e54534f452e44796e616d6963732e49454336313937302e436f72652e436f72654f7065726174696e675368617265, 0x43494d31342e454e54534f452e44796e616d6963732e456c656d656e74,
  [],
  [⟨0x506f77657253797374656d5265736f75726365, 0x43494d31342e454e54534f452e44796e616d6963732e49454336313937302e436f72652e436f7265506f77657253797374656d5265736f75726365, false, 0x4f7065726174696e675368617265⟩]⟩
/-- Class CIM14.ENTSOE.Dynamics.IEC61970.Core.CorePSRType -/
def s_CorePSRType : SClass := ⟨0x436f726550535254797065, 0x43494d31342e454e54534f452e44796e616d6963732e49454336313937302e436f72652e436f726550535254797065, 0x43494d31342e454e54534f452e44796e616d6963732e49454336313937302e436f72652e436f72654964656e7469666965644f626a656374,
  [],
  [⟨0x506f77657253797374656d5265736f7572636573, 0x43494d31342e454e54534f452e44796e616d6963732e49454336313937302e436f72652e436f7265506f77657253797374656d5265736f75726365, true, 0x50535254797065⟩]⟩
/-- Class CIM14.ENTSOE.Dynamics.IEC61970.Core.CorePowerSystemResource -/
def s_CorePowerSystemResource : SClass := ⟨0x436f7265506f77657253797374656d5265736f75726365, 0x43494d31342e454e54534f452e44796e616d6963732e49454336313937302e436f72652e436f7265506f77657253797374656d5265736f75726365, 0x43494d31342e454e54534f452e44796e616d6963732e49454336313937302e436f72652e436f72654964656e7469666965644f626a656374,
  [],
  [⟨0x426c6f636b, 0x43494d31342e454e54534f452e44796e616d6963732e49454336313937302e44796e616d6963732e44796e616d696373426c6f636b, true, 0x506f77657253797374656d5265736f75726365⟩, ⟨0x4c6f636174696f6e, 0x43494d31342e454e54534f452e44796e616d6963732e49454336313936382e436f6d6d6f6e2e436f6d6d6f6e4c6f636174696f6e, false, 0x506f77657253797374656d5265736f7572636573⟩, ⟨0x5265706f7274696e6747726f7570, 0x43494d31342e454e54534f452e44796e616d6963732e49454336313937302e436f72652e436f72655265706f7274696e6747726f7570, true, 0x506f77657253797374656d5265736f75726365⟩, ⟨0x5073724c69737473, 0x43494d31342e454e54534f452e44796e616d6963732e49454336313937302e436f72652e436f72655073724c697374, true, 0x506f77657253797374656d5265736f7572636573⟩, ⟨0x4f7065726174696e675368617265, 0x43494d31342e454e54534f452e44796e616d6963732e49454336313937302e436f72652e436f72654f7065726174696e675368617265, true, 0x506f77657253797374656d5265736f75726365⟩, ⟨0x4f75746167655363686564756c65, 0x43494d31342e454e54534f452e44796e616d6963732e49454336313937302e4f75746167652e4f75746167654f75746167655363686564756c65, false, 0x506f77657253797374656d5265736f75726365⟩, ⟨0x4d6561737572656d656e7473, 0x43494d31342e454e54534f452e44796e616d6963732e49454336313937302e4d6561732e4d6561734d6561737572656d656e74, true, 0x506f77657253797374656d5265736f75726365⟩, ⟨0x417373657473, 0x43494d31342e454e54534f452e44796e616d6963732e49454336313936382e4173736574732e4173736574734173736574, true, 0x506f77657253797374656d5265736f7572636573⟩, ⟨0x50535254797065, 0x43494d31342e454e54534f452e44796e616d6963732e49454336313937302e436f72652e436f726550535254797065, false, 0x506f77657253797374656d5265736f7572636573⟩]⟩
/-- Class CIM14.ENTSOE.Dynamics.IEC61970.Core.CorePsrList -/
def s_CorePsrList : SClass := ⟨0x436f72655073724c697374, 0x43494d31342e454e54534f452e44796e616d6963732e49454336313937302e436f72652e436f72655073724c697374, 0x43494d31342e454e54534f452e44796e616d6963732e49454336313937302e436f72652e436f72654964656e7469666965644f626a656374,
  [],
  [⟨0x506f77657253797374656d5265736f7572636573, 0x43494d31342e454e54534f452e44796e616d6963732e49454336313937302e436f72652e436f7265506f77657253797374656d5265736f75726365, true, 0x5073724c69737473⟩]⟩
/-- Class CIM14.ENTSOE.Dynamics.IEC61970.Core.CoreReportingGroup -/
def s_CoreReportingGroup : SClass := ⟨0x436f72655265706f7274696e6747726f7570, 0x43494d31342e454e54534f452e44796e616d6963732e49454336313937302e436f72652e436f72655265706f7274696e6747726f7570, 0x43494d31342e454e54534f452e44796e616d6963732e49454336313937302e436f72652e436f72654964656e7469666965644f626a656374,
  [],
  [⟨0x506f77657253797374656d5265736f75726365, 0x43494d31342e454e54534f452e44796e616d6963732e49454336313937302e436f72652e436f7265506f77657253797374656d5265736f75726365, true, 0x5265706f7274696e6747726f7570⟩]⟩
/-- Class CIM14.ENTSOE.Dynamics.IEC61970.Core.CoreTerminal -/
def s_CoreTerminal : SClass := ⟨0x436f72655465726d696e616c, 0x43494d31342e454e54534f452e44796e616d6963732e49454336313937302e436f72652e436f72655465726d696e616c, 0x43494d31342e454e54534f452e44796e616d6963732e49454336313937302e436f72652e436f72654964656e7469666965644f626a656374,
  [],
  [⟨0x436f6e64756374696e6745717569706d656e74, 0x43494d31342e454e54534f452e44796e616d6963732e49454336313937302e436f72652e436f7265436f6e64756374696e6745717569706d656e74, false, 0x5465726d696e616c73⟩]⟩
/-- Class CIM14.ENTSOE.Dynamics.IEC61970.Dynamics.DynamicsAsynchronousMachine -/
def s_DynamicsAsynchronousMachine : SClass := ⟨0x44796e616d6963734173796e6368726f6e6f75734d616368696e65, 0x43494d31342e454e54534f452e44796e616d6963732e49454336313937302e44796e616d6963732e44796e616d6963734173796e6368726f6e6f75734d616368696e65, 0x43494d31342e454e54534f452e44796e616d6963732e49454336313937302e44796e616d6963732e44796e616d696373526f746174696e674d616368696e65,
  [(0x727231, t_float), (0x7870, t_float), (0x74706f, t_float), (0x786d, t_float), (0x7873, t_float), (0x727232, t_float), (0x786c7231, t_float), (0x786c7232, t_float), (0x7470706f, t_float), (0x787070, t_float)],
  []⟩
/-- Class CIM14.ENTSOE.Dynamics.IEC61970.Dynamics.DynamicsAttributeBlockParameter -/
def s_DynamicsAttributeBlockParameter : SClass := ⟨0x44796e616d696373417474726962757465426c6f636b506172616d65746572, 0x43494d31342e454e54534f452e44796e616d6963732e49454336313937302e44796e616d6963732e44796e616d696373417474726962757465426c6f636b506172616d65746572, 0x43494d31342e454e54534f452e44796e616d6963732e49454336313937302e44796e616d6963732e44796e616d6963734d657461426c6f636b506172616d65746572,
  [(0x6174747269627574654e616d65, t_EString)],
  []⟩
/-- Class CIM14.ENTSOE.Dynamics.IEC61970.Dynamics.DynamicsBlock -/
def s_DynamicsBlock : SClass := ⟨0x44796e616d696373426c6f636b, 0x43494d31342e454e54534f452e44796e616d6963732e49454336313937302e44796e616d6963732e44796e616d696373426c6f636b, 0x43494d31342e454e54534f452e44796e616d6963732e49454336313937302e436f72652e436f7265506f77657253797374656d5265736f75726365,
  [(0x696e53657276696365, t_EBoolean), (0x706f736974697665466c6f77496e, t_EBoolean)],
  [⟨0x426c6f636b506172616d65746572, 0x43494d31342e454e54534f452e44796e616d6963732e49454336313937302e44796e616d6963732e44796e616d696373426c6f636b506172616d65746572, true, 0x4d656d6265724f665f426c6f636b⟩, ⟨0x506f77657253797374656d5265736f75726365, 0x43494d31342e454e54534f452e44796e616d6963732e49454336313937302e436f72652e436f7265506f77657253797374656d5265736f75726365, false, 0x426c6f636b⟩, ⟨0x426c6f636b436f6e6e656374696f6e, 0x43494d31342e454e54534f452e44796e616d6963732e49454336313937302e44796e616d6963732e44796e616d696373426c6f636b436f6e6e656374696f6e, true, 0x426c6f636b⟩, ⟨0x4d656d6265724f665f426c6f636b436f6e6e6563746976697479, 0x43494d31342e454e54534f452e44796e616d6963732e49454336313937302e44796e616d6963732e44796e616d696373426c6f636b436f6e6e6563746976697479, false, 0x426c6f636b⟩, ⟨0x4d657461426c6f636b, 0x43494d31342e454e54534f452e44796e616d6963732e49454336313937302e44796e616d6963732e44796e616d6963734d657461426c6f636b, false, 0x426c6f636b⟩]⟩
/-- Class CIM14.ENTSOE.Dynamics.IEC61970.Dynamics.DynamicsBlockConnection -/
def s_DynamicsBlockConnection : SClass := ⟨0x44796e616d696373426c6f636b436f6e6e656374696f6e, 0x43494d31342e454e54534f452e44796e616d6963732e49454336313937302e44796e616d6963732e44796e616d696373426c6f636b436f6e6e656374696f6e, 0x43494d31342e454e54534f452e44796e616d6963732e49454336313937302e436f72652e436f72654964656e7469666965644f626a656374,
  [],
  [⟨0x4d656d6265724f665f426c6f636b436f6e6e6563746976697479, 0x43494d31342e454e54534f452e44796e616d6963732e49454336313937302e44796e616d6963732e44796e616d696373426c6f636b436f6e6e6563746976697479, false, 0x426c6f636b436f6e6e656374696f6e⟩, ⟨0x4d657461426c6f636b436f6e6e656374696f6e, 0x43494d31342e454e54534f452e44796e616d6963732e49454336313937302e44796e616d6963732e44796e616d6963734d657461426c6f636b436f6e6e656374696f6e, false, 0x426c6f636b436f6e6e656374696f6e⟩, ⟨0x426c6f636b, 0x43494d31342e454e54534f452e44796e616d6963732e49454336313937302e44796e616d6963732e44796e616d696373426c6f636b, false, 0x426c6f636b436f6e6e656374696f6e⟩]⟩
/-- Class CIM14.ENTSOE.Dynamics.IEC61970.Dynamics.DynamicsBlockConnectivity -/
def s_DynamicsBlockConnectivity : SClass := ⟨0x44796e616d696373426c6f636b436f6e6e6563746976697479, 0x43494d31342e454e54534f452e44796e616d6963732e49454336313937302e44796e616d6963732e44796e616d696373426c6f636b436f6e6e6563746976697479, 0x43494d31342e454e54534f452e44796e616d6963732e49454336313937302e436f72652e436f72654964656e7469666965644f626a656374,
  [],
  [⟨0x426c6f636b, 0x43494d31342e454e54534f452e44796e616d6963732e49454336313937302e44796e616d6963732e44796e616d696373426c6f636b, true, 0x4d656d6265724f665f426c6f636b436f6e6e6563746976697479⟩, ⟨0x426c6f636b436f6e6e656374696f6e, 0x43494d31342e454e54534f452e44796e616d6963732e49454336313937302e44796e616d6963732e44796e616d696373426c6f636b436f6e6e656374696f6e, true, 0x4d656d6265724f665f426c6f636b436f6e6e6563746976697479⟩, ⟨0x4d657461426c6f636b436f6e6e6563746976697479, 0x43494d31342e454e54534f452e44796e616d6963732e49454336313937302e44796e616d6963732e44796e616d6963734d657461426c6f636b436f6e6e6563746976697479, false, 0x426c6f636b436f6e6e6563746976697479⟩]⟩
/-- Class CIM14.ENTSOE.Dynamics.IEC61970.Dynamics.DynamicsBlockParameter -/
def s_DynamicsBlockParameter : SClass := ⟨0x44796e616d696373426c6f636b506172616d65746572, 0x43494d31342e454e54534f452e44796e616d6963732e49454336313937302e44796e616d6963732e44796e616d696373426c6f636b506172616d65746572, 0x43494d31342e454e54534f452e44796e616d6963732e49454336313937302e436f72652e436f72654964656e7469666965644f626a656374,
  [(0x76616c7565, t_EFloat)],
  [⟨0x4d657461426c6f636b506172616d65746572, 0x43494d31342e454e54534f452e44796e616d6963732e49454336313937302e44796e616d6963732e44796e616d6963734d657461426c6f636b506172616d65746572, false, 0x426c6f636b506172616d65746572⟩, ⟨0x4d656d6265724f665f4d657461426c6f636b5265666572656e6365, 0x43494d31342e454e54534f452e44796e616d6963732e49454336313937302e44796e616d6963732e44796e616d6963734d657461426c6f636b5265666572656e6365, false, 0x426c6f636b506172616d65746572⟩, ⟨0x4d656d6265724f665f426c6f636b, 0x43494d31342e454e54534f452e44796e616d6963732e49454336313937302e44796e616d6963732e44796e616d696373426c6f636b, false, 0x426c6f636b506172616d65746572⟩]⟩
/-- Class CIM14.ENTSOE.Dynamics.IEC61970.Dynamics.DynamicsMetaBlock -/
def s_DynamicsMetaBlock : SClass := ⟨0x44796e616d6963734d657461426c6f636b, 0x43494d31342e454e54534f452e44796e616d6963732e49454336313937302e44796e616d6963732e44796e616d6963734d657461426c6f636b, 0x43494d31342e454e54534f452e44796e616d6963732e49454336313937302e436f72652e436f72654964656e7469666965644f626a656374,
  [(0x626c6f636b4b696e64, e_DynamicsBlockKind), (0x70726f7072696574617279, t_EBoolean)],
  [⟨0x426c6f636b, 0x43494d31342e454e54534f452e44796e616d6963732e49454336313937302e44796e616d6963732e44796e616d696373426c6f636b, true, 0x4d657461426c6f636b⟩, ⟨0x4d657461426c6f636b5369676e616c, 0x43494d31342e454e54534f452e44796e616d6963732e49454336313937302e44796e616d6963732e44796e616d6963734d657461426c6f636b5369676e616c, true, 0x4d656d6265724f665f4d657461426c6f636b⟩, ⟨0x4d657461426c6f636b5265666572656e6365, 0x43494d31342e454e54534f452e44796e616d6963732e49454336313937302e44796e616d6963732e44796e616d6963734d657461426c6f636b5265666572656e6365, true, 0x4d656d6265724f665f4d657461426c6f636b⟩, ⟨0x4d657461426c6f636b506172616d65746572, 0x43494d31342e454e54534f452e44796e616d6963732e49454336313937302e44796e616d6963732e44796e616d6963734d657461426c6f636b506172616d65746572, true, 0x4d656d6265724f665f4d657461426c6f636b⟩, ⟨0x4d657461426c6f636b4f7574707574, 0x43494d31342e454e54534f452e44796e616d6963732e49454336313937302e44796e616d6963732e44796e616d6963734d657461426c6f636b4f7574707574, true, 0x4d656d6265724f665f4d657461426c6f636b⟩, ⟨0x4d657461426c6f636b496e707574, 0x43494d31342e454e54534f452e44796e616d6963732e49454336313937302e44796e616d6963732e44796e616d6963734d657461426c6f636b496e707574, true, 0x4d656d6265724f665f4d657461426c6f636b⟩, ⟨0x4d657461426c6f636b5374617465, 0x43494d31342e454e54534f452e44796e616d6963732e49454336313937302e44796e616d6963732e44796e616d6963734d657461426c6f636b5374617465, true, 0x4d656d6265724f665f4d657461426c6f636b⟩]⟩
/-- Class CIM14.ENTSOE.Dynamics.IEC61970.Dynamics.DynamicsMetaBlockConInput -/
def s_DynamicsMetaBlockConInput : SClass := ⟨0x44796e616d6963734d657461426c6f636b436f6e496e707574, 0x43494d31342e454e54534f452e44796e616d6963732e49454336313937302e44796e616d6963732e44796e616d6963734d657461426c6f636b436f6e496e707574, 0x43494d31342e454e54534f452e44796e616d6963732e49454336313937302e436f72652e436f72654964656e7469666965644f626a656374,
  [],
  [⟨0x4d657461426c6f636b436f6e5369676e616c, 0x43494d31342e454e54534f452e44796e616d6963732e49454336313937302e44796e616d6963732e44796e616d6963734d657461426c6f636b436f6e5369676e616c, false, 0x4d657461426c6f636b436f6e496e707574⟩, ⟨0x4d656d6265724f665f4d657461426c6f636b436f6e6e656374696f6e, 0x43494d31342e454e54534f452e44796e616d6963732e49454336313937302e44796e616d6963732e44796e616d6963734d657461426c6f636b436f6e6e656374696f6e, false, 0x4d657461426c6f636b436f6e496e707574⟩]⟩
/-- Class CIM14.ENTSOE.Dynamics.IEC61970.Dynamics.DynamicsMetaBlockConOutput -/
def s_DynamicsMetaBlockConOutput : SClass := ⟨0x44796e616d6963734d657461426c6f636b436f6e4f7574707574, 0x43494d31342e454e54534f452e44796e616d6963732e49454336313937302e44796e616d6963732e44796e616d6963734d657461426c6f636b436f6e4f7574707574, 0x43494d31342e454e54534f452e44796e616d6963732e49454336313937302e436f72652e436f72654964656e7469666965644f626a656374,
  [],
  [⟨0x4d656d6265724f665f4d657461426c6f636b436f6e6e656374696f6e, 0x43494d31342e454e54534f452e44796e616d6963732e49454336313937302e44796e616d6963732e44796e616d6963734d657461426c6f636b436f6e6e656374696f6e, false, 0x4d657461426c6f636b436f6e4f7574707574⟩, ⟨0x4d657461426c6f636b436f6e5369676e616c, 0x43494d31342e454e54534f452e44796e616d6963732e49454336313937302e44796e616d6963732e44796e616d6963734d657461426c6f636b436f6e5369676e616c, true, 0x4d657461426c6f636b436f6e4f7574707574⟩]⟩
/-- Class CIM14.ENTSOE.Dynamics.IEC61970.Dynamics.DynamicsMetaBlockConSignal -/
def s_DynamicsMetaBlockConSignal : SClass := ⟨0x44796e616d6963734d657461426c6f636b436f6e5369676e616c, 0x43494d31342e454e54534f452e44796e616d6963732e49454336313937302e44796e616d6963732e44796e616d6963734d657461426c6f636b436f6e5369676e616c, 0x43494d31342e454e54534f452e44796e616d6963732e49454336313937302e436f72652e436f72654964656e7469666965644f626a656374,
  [],
  [⟨0x4d657461426c6f636b436f6e496e707574, 0x43494d31342e454e54534f452e44796e616d6963732e49454336313937302e44796e616d6963732e44796e616d6963734d657461426c6f636b436f6e496e707574, false, 0x4d657461426c6f636b436f6e5369676e616c⟩, ⟨0x4d657461426c6f636b436f6e4f7574707574, 0x43494d31342e454e54534f452e44796e616d6963732e49454336313937302e44796e616d6963732e44796e616d6963734d657461426c6f636b436f6e4f7574707574, false, 0x4d657461426c6f636b436f6e5369676e616c⟩]⟩
/-- Class CIM14.ENTSOE.Dynamics.IEC61970.Dynamics.DynamicsMetaBlockConnectable -/
def s_DynamicsMetaBlockConnectable : SClass := ⟨0x44796e616d6963734d657461426c6f636b436f6e6e65637461626c65, 0x43494d31342e454e54534f452e44796e616d6963732e49454336313937302e44796e616d6963732e44796e616d6963734d657461426c6f636b436f6e6e65637461626c65, 0x43494d31342e454e54534f452e44796e616d6963732e49454336313937302e436f72652e436f72654964656e7469666965644f626a656374,
  [],
  [⟨0x4d657461426c6f636b506172616d657465725265666572656e6365, 0x43494d31342e454e54534f452e44796e616d6963732e49454336313937302e44796e616d6963732e44796e616d6963734d657461426c6f636b506172616d657465725265666572656e6365, true, 0x4d657461426c6f636b436f6e6e65637461626c65⟩, ⟨0x5374616e64617264436f6e74726f6c426c6f636b5f4d657461426c6f636b496e7075745265666572656e6365, 0x43494d31342e454e54534f452e44796e616d6963732e49454336313937302e44796e616d6963732e44796e616d6963734d657461426c6f636b496e7075745265666572656e6365, true, 0x5374616e64617264436f6e74726f6c426c6f636b5f4d657461426c6f636b436f6e6e65637461626c65⟩, ⟨0x4d657461426c6f636b53746174655265666572656e6365, 0x43494d31342e454e54534f452e44796e616d6963732e49454336313937302e44796e616d6963732e44796e616d6963734d657461426c6f636b53746174655265666572656e6365, true, 0x4d657461426c6f636b436f6e6e65637461626c65⟩, ⟨0x5374616e64617264436f6e74726f6c426c6f636b5f4d657461426c6f636b53746174655265666572656e6365, 0x43494d31342e454e54534f452e44796e616d6963732e49454336313937302e44796e616d6963732e44796e616d6963734d657461426c6f636b53746174655265666572656e6365, true, 0x5374616e64617264436f6e74726f6c426c6f636b5f4d657461426c6f636b436f6e6e65637461626c65⟩, ⟨0x4d657461426c6f636b496e7075745265666572656e6365, 0x43494d31342e454e54534f452e44796e616d6963732e49454336313937302e44796e616d6963732e44796e616d6963734d657461426c6f636b496e7075745265666572656e6365, true, 0x4d657461426c6f636b436f6e6e65637461626c65⟩, ⟨0x5374616e64617264436f6e74726f6c426c6f636b5f4d657461426c6f636b506172616d657465725265666572656e6365, 0x43494d31342e454e54534f452e44796e616d6963732e49454336313937302e44796e616d6963732e44796e616d6963734d657461426c6f636b506172616d657465725265666572656e6365, true, 0x5374616e64617264436f6e74726f6c426c6f636b5f4d657461426c6f636b436f6e6e65637461626c65⟩, ⟨0x5374616e64617264436f6e74726f6c426c6f636b5f4d657461426c6f636b4f75747075745265666572656e6365, 0x43494d31342e454e54534f452e44796e616d6963732e49454336313937302e44796e616d6963732e44796e616d6963734d657461426c6f636b4f75747075745265666572656e6365, true, 0x5374616e64617264436f6e74726f6c426c6f636b5f4d657461426c6f636b436f6e6e65637461626c65⟩, ⟨0x4d657461426c6f636b4f75747075745265666572656e6365, 0x43494d31342e454e54534f452e44796e616d6963732e49454336313937302e44796e616d6963732e44796e616d6963734d657461426c6f636b4f75747075745265666572656e6365, true, 0x4d657461426c6f636b436f6e6e65637461626c65⟩]⟩
/-- Class CIM14.ENTSOE.Dynamics.IEC61970.Dynamics.DynamicsMetaBlockConnection -/
def s_DynamicsMetaBlockConnection : SClass := ⟨0x44796e616d6963734d657461426c6f636b436f6e6e656374696f6e, 0x43494d31342e454e54534f452e44796e616d6963732e49454336313937302e44796e616d6963732e44796e616d6963734d657461426c6f636b436f6e6e656374696f6e, 0x43494d31342e454e54534f452e44796e616d6963732e49454336313937302e436f72652e436f72654964656e7469666965644f626a656374,
  [],
  [⟨0x4d657461426c6f636b436f6e4f7574707574, 0x43494d31342e454e54534f452e44796e616d6963732e49454336313937302e44796e616d6963732e44796e616d6963734d657461426c6f636b436f6e4f7574707574, true, 0x4d656d6265724f665f4d657461426c6f636b436f6e6e656374696f6e⟩, ⟨0x4d656d6265724f665f4d657461426c6f636b436f6e6e6563746976697479, 0x43494d31342e454e54534f452e44796e616d6963732e49454336313937302e44796e616d6963732e44796e616d6963734d657461426c6f636b436f6e6e6563746976697479, false, 0x4d657461426c6f636b436f6e6e656374696f6e⟩, ⟨0x426c6f636b436f6e6e656374696f6e, 0x43494d31342e454e54534f452e44796e616d6963732e49454336313937302e44796e616d6963732e44796e616d696373426c6f636b436f6e6e656374696f6e, true, 0x4d657461426c6f636b436f6e6e656374696f6e⟩, ⟨0x4d657461426c6f636b436f6e496e707574, 0x43494d31342e454e54534f452e44796e616d6963732e49454336313937302e44796e616d6963732e44796e616d6963734d657461426c6f636b436f6e496e707574, true, 0x4d656d6265724f665f4d657461426c6f636b436f6e6e656374696f6e⟩]⟩
/-- Class CIM14.ENTSOE.Dynamics.IEC61970.Dynamics.DynamicsMetaBlockConnectivity -/
def s_DynamicsMetaBlockConnectivity : SClass := ⟨0x44796e616d6963734d657461426c6f636b436f6e6e6563746976697479, 0x43494d31342e454e54534f452e44796e616d6963732e49454336313937302e44796e616d6963732e44796e616d6963734d657461426c6f636b436f6e6e6563746976697479, 0x43494d31342e454e54534f452e44796e616d6963732e49454336313937302e436f72652e436f72654964656e7469666965644f626a656374,
  [],
  [⟨0x426c6f636b436f6e6e6563746976697479, 0x43494d31342e454e54534f452e44796e616d6963732e49454336313937302e44796e616d6963732e44796e616d696373426c6f636b436f6e6e6563746976697479, true, 0x4d657461426c6f636b436f6e6e6563746976697479⟩, ⟨0x4d657461426c6f636b436f6e6e656374696f6e, 0x43494d31342e454e54534f452e44796e616d6963732e49454336313937302e44796e616d6963732e44796e616d6963734d657461426c6f636b436f6e6e656374696f6e, true, 0x4d656d6265724f665f4d657461426c6f636b436f6e6e6563746976697479⟩]⟩
/-- Class CIM14.ENTSOE.Dynamics.IEC61970.Dynamics.DynamicsMetaBlockInput -/
def s_DynamicsMetaBlockInput : SClass := ⟨0x44796e616d6963734d657461426c6f636b496e707574, 0x43494d31342e454e54534f452e44796e616d6963732e49454336313937302e44796e616d6963732e44796e616d6963734d657461426c6f636b496e707574, 0x43494d31342e454e54534f452e44796e616d6963732e49454336313937302e44796e616d6963732e44796e616d6963734d657461426c6f636b436f6e6e65637461626c65,
  [],
  [⟨0x4d656d6265724f665f4d657461426c6f636b, 0x43494d31342e454e54534f452e44796e616d6963732e49454336313937302e44796e616d6963732e44796e616d6963734d657461426c6f636b, false, 0x4d657461426c6f636b496e707574⟩]⟩
/-- Class CIM14.ENTSOE.Dynamics.IEC61970.Dynamics.DynamicsMetaBlockInputReference -/
def s_DynamicsMetaBlockInputReference : SClass := ⟨0x44796e616d6963734d657461426c6f636b496e7075745265666572656e6365, 0x43494d31342e454e54534f452e44796e616d6963732e49454336313937302e44796e616d6963732e44796e616d6963734d657461426c6f636b496e7075745265666572656e6365, 0x43494d31342e454e54534f452e44796e616d6963732e49454336313937302e436f72652e436f72654964656e7469666965644f626a656374,
  [],
  [⟨0x4d656d6265724f665f4d657461426c6f636b5265666572656e6365, 0x43494d31342e454e54534f452e44796e616d6963732e49454336313937302e44796e616d6963732e44796e616d6963734d657461426c6f636b5265666572656e6365, false, 0x4d657461426c6f636b496e7075745265666572656e6365⟩, ⟨0x4d657461426c6f636b5369676e616c, 0x43494d31342e454e54534f452e44796e616d6963732e49454336313937302e44796e616d6963732e44796e616d6963734d657461426c6f636b5369676e616c, false, 0x46726f6d⟩, ⟨0x4d657461426c6f636b436f6e6e65637461626c65, 0x43494d31342e454e54534f452e44796e616d6963732e49454336313937302e44796e616d6963732e44796e616d6963734d657461426c6f636b436f6e6e65637461626c65, false, 0x4d657461426c6f636b496e7075745265666572656e6365⟩, ⟨0x5374616e64617264436f6e74726f6c426c6f636b5f4d657461426c6f636b436f6e6e65637461626c65, 0x43494d31342e454e54534f452e44796e616d6963732e49454336313937302e44796e616d6963732e44796e616d6963734d657461426c6f636b436f6e6e65637461626c65, false, 0x5374616e64617264436f6e74726f6c426c6f636b5f4d657461426c6f636b496e7075745265666572656e6365⟩]⟩
/-- Class CIM14.ENTSOE.Dynamics.IEC61970.Dynamics.DynamicsMetaBlockOutput -/
def s_DynamicsMetaBlockOutput : SClass := ⟨0x44796e616d6963734d657461426c6f636b4f7574707574, 0x43494d31342e454e54534f452e44796e616d6963732e49454336313937302e44796e616d6963732e44796e616d6963734d657461426c6f636b4f7574707574, 0x43494d31342e454e54534f452e44796e616d6963732e49454336313937302e44796e616d6963732e44796e616d6963734d657461426c6f636b436f6e6e65637461626c65,
  [],
  [⟨0x4d656d6265724f665f4d657461426c6f636b, 0x43494d31342e454e54534f452e44796e616d6963732e49454336313937302e44796e616d6963732e44796e616d6963734d657461426c6f636b, false, 0x4d657461426c6f636b4f7574707574⟩]⟩
/-- Class CIM14.ENTSOE.Dynamics.IEC61970.Dynamics.DynamicsMetaBlockOutputReference -/
def s_DynamicsMetaBlockOutputReference : SClass := ⟨0x44796e616d6963734d657461426c6f636b4f75747075745265666572656e6365, 0x43494d31342e454e54534f452e44796e616d6963732e49454336313937302e44796e616d6963732e44796e616d6963734d657461426c6f636b4f75747075745265666572656e6365, 0x43494d31342e454e54534f452e44796e616d6963732e49454336313937302e436f72652e436f72654964656e7469666965644f626a656374,
  [],
  [⟨0x4d657461426c6f636b5369676e616c, 0x43494d31342e454e54534f452e44796e616d6963732e49454336313937302e44796e616d6963732e44796e616d6963734d657461426c6f636b5369676e616c, true, 0x546f⟩, ⟨0x4d657461426c6f636b436f6e6e65637461626c65, 0x43494d31342e454e54534f452e44796e616d6963732e49454336313937302e44796e616d6963732e44796e616d6963734d657461426c6f636b436f6e6e65637461626c65, false, 0x4d657461426c6f636b4f75747075745265666572656e6365⟩, ⟨0x5374616e64617264436f6e74726f6c426c6f636b5f4d657461426c6f636b436f6e6e65637461626c65, 0x43494d31342e454e54534f452e44796e616d6963732e49454336313937302e44796e616d6963732e44796e616d6963734d657461426c6f636b436f6e6e65637461626c65, false, 0x5374616e64617264436f6e74726f6c426c6f636b5f4d657461426c6f636b4f75747075745265666572656e6365⟩, ⟨0x4d656d6265724f665f4d657461426c6f636b5265666572656e6365, 0x43494d31342e454e54534f452e44796e616d6963732e49454336313937302e44796e616d6963732e44796e616d6963734d657461426c6f636b5265666572656e6365, false, 0x4d657461426c6f636b4f75747075745265666572656e6365⟩]⟩
/-- Class CIM14.ENTSOE.Dynamics.IEC61970.Dynamics.DynamicsMetaBlockParameter -/
def s_DynamicsMetaBlockParameter : SClass := ⟨0x44796e616d6963734d657461426c6f636b506172616d65746572, 0x43494d31342e454e54534f452e44796e616d6963732e49454336313937302e44796e616d6963732e44796e616d6963734d657461426c6f636b506172616d65746572, 0x43494d31342e454e54534f452e44796e616d6963732e49454336313937302e44796e616d6963732e44796e616d6963734d657461426c6f636b436f6e6e65637461626c65,
  [],
  [⟨0x4d656d6265724f665f4d657461426c6f636b, 0x43494d31342e454e54534f452e44796e616d6963732e49454336313937302e44796e616d6963732e44796e616d6963734d657461426c6f636b, false, 0x4d657461426c6f636b506172616d65746572⟩, ⟨0x426c6f636b506172616d65746572, 0x43494d31342e454e54534f452e44796e616d6963732e49454336313937302e44796e616d6963732e44796e616d696373426c6f636b506172616d65746572, true, 0x4d657461426c6f636b506172616d65746572⟩]⟩
/-- Class CIM14.ENTSOE.Dynamics.IEC61970.Dynamics.DynamicsMetaBlockParameterReference -/
def s_DynamicsMetaBlockParameterReference : SClass := ⟨0x44796e616d6963734d657461426c6f636b506172616d657465725265666572656e6365, 0x43494d31342e454e54534f452e44796e616d6963732e49454336313937302e44796e616d6963732e44796e616d6963734d657461426c6f636b506172616d657465725265666572656e6365, 0x43494d31342e454e54534f452e44796e616d6963732e49454336313937302e436f72652e436f72654964656e7469666965644f626a656374,
  [],
  [⟨0x5374616e64617264436f6e74726f6c426c6f636b5f4d657461426c6f636b436f6e6e65637461626c65, 0x43494d31342e454e54534f452e44796e616d6963732e49454336313937302e44796e616d6963732e44796e616d6963734d657461426c6f636b436f6e6e65637461626c65, false, 0x5374616e64617264436f6e74726f6c426c6f636b5f4d657461426c6f636b506172616d657465725265666572656e6365⟩, ⟨0x4d657461426c6f636b436f6e6e65637461626c65, 0x43494d31342e454e54534f452e44796e616d6963732e49454336313937302e44796e616d6963732e44796e616d6963734d657461426c6f636b436f6e6e65637461626c65, false, 0x4d657461426c6f636b506172616d657465725265666572656e6365⟩, ⟨0x4d656d6265724f665f4d657461426c6f636b5265666572656e6365, 0x43494d31342e454e54534f452e44796e616d6963732e49454336313937302e44796e616d6963732e44796e616d6963734d657461426c6f636b5265666572656e6365, false, 0x4d657461426c6f636b506172616d657465725265666572656e6365⟩]⟩
/-- Class CIM14.ENTSOE.Dynamics.IEC61970.Dynamics.DynamicsMetaBlockReference -/
def s_DynamicsMetaBlockReference : SClass := ⟨0x44796e616d6963734d657461426c6f636b5265666572656e6365, 0x43494d31342e454e54534f452e44796e616d6963732e49454336313937302e44796e616d6963732e44796e616d6963734d657461426c6f636b5265666572656e6365, 0x43494d31342e454e54534f452e44796e616d6963732e49454336313937302e436f72652e436f72654964656e7469666965644f626a656374,
  [(0x6571756174696f6e54797065, t_EString)],
  [⟨0x4d657461426c6f636b53746174655265666572656e6365, 0x43494d31342e454e54534f452e44796e616d6963732e49454336313937302e44796e616d6963732e44796e616d6963734d657461426c6f636b53746174655265666572656e6365, true, 0x4d656d6265724f665f4d657461426c6f636b5265666572656e6365⟩, ⟨0x4d656d6265724f665f4d657461426c6f636b, 0x43494d31342e454e54534f452e44796e616d6963732e49454336313937302e44796e616d6963732e44796e616d6963734d657461426c6f636b, false, 0x4d657461426c6f636b5265666572656e6365⟩, ⟨0x4d657461426c6f636b496e7075745265666572656e6365, 0x43494d31342e454e54534f452e44796e616d6963732e49454336313937302e44796e616d6963732e44796e616d6963734d657461426c6f636b496e7075745265666572656e6365, true, 0x4d656d6265724f665f4d657461426c6f636b5265666572656e6365⟩, ⟨0x426c6f636b506172616d65746572, 0x43494d31342e454e54534f452e44796e616d6963732e49454336313937302e44796e616d6963732e44796e616d696373426c6f636b506172616d65746572, true, 0x4d656d6265724f665f4d657461426c6f636b5265666572656e6365⟩, ⟨0x4d657461426c6f636b, 0x43494d31342e454e54534f452e44796e616d6963732e5468696e67, true, 0⟩, ⟨0x4d657461426c6f636b4f75747075745265666572656e6365, 0x43494d31342e454e54534f452e44796e616d6963732e49454336313937302e44796e616d6963732e44796e616d6963734d657461426c6f636b4f75747075745265666572656e6365, true, 0x4d656d6265724f665f4d657461426c6f636b5265666572656e6365⟩, ⟨0x4d657461426c6f636b506172616d657465725265666572656e6365, 0x43494d31342e454e54534f452e44796e616d6963732e49454336313937302e44796e616d6963732e44796e616d6963734d657461426c6f636b506172616d657465725265666572656e6365, true, 0x4d656d6265724f665f4d657461426c6f636b5265666572656e6365⟩]⟩
/-- Class CIM14.ENTSOE.Dynamics.IEC61970.Dynamics.DynamicsMetaBlockSignal -/
def s_DynamicsMetaBlockSignal : SClass := ⟨0x44796e616d6963734d657461426c6f636b5369676e616c, 0x43494d31342e454e54534f452e44796e616d6963732e49454336313937302e44796e616d6963732e44796e616d6963734d657461426c6f636b5369676e616c, 0x43494d31342e454e54534f452e44796e616d6963732e49454336313937302e436f72652e436f72654964656e7469666965644f626a656374,
  [],
  [⟨0x546f, 0x43494d31342e454e54534f452e44796e616d6963732e49454336313937302e44796e616d6963732e44796e616d6963734d657461426c6f636b4f75747075745265666572656e6365, false, 0x4d657461426c6f636b5369676e616c⟩, ⟨0x46726f6d, 0x43494d31342e454e54534f452e44796e616d6963732e49454336313937302e44796e616d6963732e44796e616d6963734d657461426c6f636b496e7075745265666572656e6365, false, 0x4d657461426c6f636b5369676e616c⟩, ⟨0x4d656d6265724f665f4d657461426c6f636b, 0x43494d31342e454e54534f452e44796e616d6963732e49454336313937302e44796e616d6963732e44796e616d6963734d657461426c6f636b, false, 0x4d657461426c6f636b5369676e616c⟩]⟩
/-- Class CIM14.ENTSOE.Dynamics.IEC61970.Dynamics.DynamicsMetaBlockState -/
def s_DynamicsMetaBlockState : SClass := ⟨0x44796e616d6963734d657461426c6f636b5374617465, 0x43494d31342e454e54534f452e44796e616d6963732e49454336313937302e44796e616d6963732e44796e616d6963734d657461426c6f636b5374617465, 0x43494d31342e454e54534f452e44796e616d6963732e49454336313937302e44796e616d6963732e44796e616d6963734d657461426c6f636b436f6e6e65637461626c65,
  [],
  [⟨0x4d656d6265724f665f4d657461426c6f636b, 0x43494d31342e454e54534f452e44796e616d6963732e49454336313937302e44796e616d6963732e44796e616d6963734d657461426c6f636b, false, 0x4d657461426c6f636b5374617465⟩]⟩
/-- Class CIM14.ENTSOE.Dynamics.IEC61970.Dynamics.DynamicsMetaBlockStateReference -/
def s_DynamicsMetaBlockStateReference : SClass := ⟨0x44796e616d6963734d657461426c6f636b53746174655265666572656e6365, 0x43494d31342e454e54534f452e44796e616d6963732e49454336313937302e44796e616d6963732e44796e616d6963734d657461426c6f636b53746174655265666572656e6365, 0x43494d31342e454e54534f452e44796e616d6963732e49454336313937302e436f72652e436f72654964656e7469666965644f626a656374,
  [(0x706f736974697665466c6f77496e, t_EBoolean)],
  [⟨0x4d657461426c6f636b436f6e6e65637461626c65, 0x43494d31342e454e54534f452e44796e616d6963732e49454336313937302e44796e616d6963732e44796e616d6963734d657461426c6f636b436f6e6e65637461626c65, false, 0x4d657461426c6f636b53746174655265666572656e6365⟩, ⟨0x5374616e64617264436f6e74726f6c426c6f636b5f4d657461426c6f636b436f6e6e65637461626c65, 0x43494d31342e454e54534f452e44796e616d6963732e49454336313937302e44796e616d6963732e44796e616d6963734d657461426c6f636b436f6e6e65637461626c65, false, 0x5374616e64617264436f6e74726f6c426c6f636b5f4d657461426c6f636b53746174655265666572656e6365⟩, ⟨0x4d656d6265724f665f4d657461426c6f636b5265666572656e6365, 0x43494d31342e454e54534f452e44796e616d6963732e49454336313937302e44796e616d6963732e44796e616d6963734d657461426c6f636b5265666572656e6365, false, 0x4d657461426c6f636b53746174655265666572656e6365⟩]⟩
/-- Class CIM14.ENTSOE.Dynamics.IEC61970.Dynamics.DynamicsRotatingMachine -/
def s_DynamicsRotatingMachine : SClass := ⟨0x44796e616d696373526f746174696e674d616368696e65, 0x43494d31342e454e54534f452e44796e616d6963732e49454336313937302e44796e616d6963732e44796e616d696373526f746174696e674d616368696e65, 0x43494d31342e454e54534f452e44796e616d6963732e49454336313937302e57697265732e5769726573526567756c6174696e67436f6e644571,
  [(0x726174656453, t_float), (0x7331, t_EFloat), (0x733132, t_EFloat), (0x68, t_float), (0x706172616d6574657273466f726d54797065, e_GeneratorsParametersFormType), (0x64, t_EFloat), (0x7273, t_float), (0x786c73, t_float)],
  []⟩
/-- Class CIM14.ENTSOE.Dynamics.IEC61970.Dynamics.ExcitationSystems.ExcitationSystemsExcAC1A -/
def s_ExcitationSystemsExcAC1A : SClass := ⟨0x45786369746174696f6e53797374656d7345786341433141, 0x43494d31342e454e54534f452e44796e616d6963732e49454336313937302e44796e616d6963732e45786369746174696f6e53797374656d732e45786369746174696f6e53797374656d7345786341433141, 0x43494d31342e454e54534f452e44796e616d6963732e49454336313937302e436f72652e436f7265506f77657253797374656d5265736f75726365,
  [(0x736531, t_EFloat), (0x736532, t_EFloat), (0x6532, t_EFloat), (0x6531, t_EFloat), (0x7472, t_float), (0x76616d696e, t_EFloat), (0x76616d6178, t_EFloat), (0x76726d6178, t_EFloat), (0x7462, t_float), (0x6b64, t_EFloat), (0x7463, t_float), (0x6b63, t_EFloat), (0x6b66, t_EFloat), (0x7461, t_float), (0x76726d696e, t_EFloat), (0x6b65, t_EFloat), (0x7465, t_float), (0x7466, t_float), (0x6b61, t_EFloat)],
  []⟩
/-- Class CIM14.ENTSOE.Dynamics.IEC61970.Dynamics.ExcitationSystems.ExcitationSystemsExcAC2A -/
def s_ExcitationSystemsExcAC2A : SClass := ⟨0x45786369746174696f6e53797374656d7345786341433241, 0x43494d31342e454e54534f452e44796e616d6963732e49454336313937302e44796e616d6963732e45786369746174696f6e53797374656d732e45786369746174696f6e53797374656d7345786341433241, 0x43494d31342e454e54534f452e44796e616d6963732e49454336313937302e436f72652e436f7265506f77657253797374656d5265736f75726365,
  [(0x7462, t_float), (0x6531, t_EFloat), (0x7461, t_float), (0x76726d696e, t_EFloat), (0x6532, t_EFloat), (0x7666656d6178, t_EFloat), (0x76726d6178, t_EFloat), (0x6b61, t_EFloat), (0x736531, t_EFloat), (0x736532, t_EFloat), (0x6b66, t_EFloat), (0x6b68, t_EFloat), (0x6b63, t_EFloat), (0x76616d696e, t_EFloat), (0x6b62, t_EFloat), (0x6b65, t_EFloat), (0x7472, t_float), (0x6b64, t_EFloat), (0x7465, t_float), (0x7463, t_float), (0x76616d6178, t_EFloat), (0x7466, t_float)],
  []⟩
/-- Class CIM14.ENTSOE.Dynamics.IEC61970.Dynamics.ExcitationSystems.ExcitationSystemsExcAC3A -/
def s_ExcitationSystemsExcAC3A : SClass := ⟨0x45786369746174696f6e53797374656d7345786341433341, 0x43494d31342e454e54534f452e44796e616d6963732e49454336313937302e44796e616d6963732e45786369746174696f6e53797374656d732e45786369746174696f6e53797374656d7345786341433341, 0x43494d31342e454e54534f452e44796e616d6963732e49454336313937302e436f72652e436f7265506f77657253797374656d5265736f75726365,
  [(0x7461, t_float), (0x6b61, t_EFloat), (0x6b64, t_EFloat), (0x736531, t_EFloat), (0x6b63, t_EFloat), (0x736532, t_EFloat), (0x7465, t_float), (0x7466, t_float), (0x7462, t_float), (0x7463, t_float), (0x76616d6178, t_EFloat), (0x6b66, t_EFloat), (0x76656d696e, t_EFloat), (0x6b65, t_EFloat), (0x7666656d6178, t_EFloat), (0x7472, t_float), (0x6532, t_EFloat), (0x6531, t_EFloat), (0x6b6e, t_EFloat), (0x76616d696e, t_EFloat), (0x6b72, t_EFloat), (0x6566646e, t_EFloat)],
  []⟩
/-- Class CIM14.ENTSOE.Dynamics.IEC61970.Dynamics.ExcitationSystems.ExcitationSystemsExcAC4A -/
def s_ExcitationSystemsExcAC4A : SClass := ⟨0x45786369746174696f6e53797374656d7345786341433441, 0x43494d31342e454e54534f452e44796e616d6963732e49454336313937302e44796e616d6963732e45786369746174696f6e53797374656d732e45786369746174696f6e53797374656d7345786341433441, 0x43494d31342e454e54534f452e44796e616d6963732e49454336313937302e436f72652e436f7265506f77657253797374656d5265736f75726365,
  [(0x7462, t_float), (0x7461, t_float), (0x7463, t_float), (0x76726d696e, t_EFloat), (0x76696d6178, t_EFloat), (0x76726d6178, t_EFloat), (0x7472, t_float), (0x6b63, t_EFloat), (0x76696d696e, t_EFloat), (0x6b61, t_EFloat)],
  []⟩
/-- Class CIM14.ENTSOE.Dynamics.IEC61970.Dynamics.ExcitationSystems.ExcitationSystemsExcAC5A -/
def s_ExcitationSystemsExcAC5A : SClass := ⟨0x45786369746174696f6e53797374656d7345786341433541, 0x43494d31342e454e54534f452e44796e616d6963732e49454336313937302e44796e616d6963732e45786369746174696f6e53797374656d732e45786369746174696f6e53797374656d7345786341433541, 0x43494d31342e454e54534f452e44796e616d6963732e49454336313937302e436f72652e436f7265506f77657253797374656d5265736f75726365,
  [(0x7461, t_float), (0x76726d6178, t_EFloat), (0x6b61, t_EFloat), (0x76726d696e, t_EFloat), (0x7472, t_float), (0x746631, t_float), (0x6b65, t_EFloat), (0x746632, t_float), (0x7465, t_float), (0x6b66, t_EFloat), (0x6531, t_EFloat), (0x746633, t_float), (0x6532, t_EFloat), (0x736531, t_EFloat), (0x736532, t_EFloat)],
  []⟩
/-- Class CIM14.ENTSOE.Dynamics.IEC61970.Dynamics.ExcitationSystems.ExcitationSystemsExcAC6A -/
def s_ExcitationSystemsExcAC6A : SClass := ⟨0x45786369746174696f6e53797374656d7345786341433641, 0x43494d31342e454e54534f452e44796e616d6963732e49454336313937302e44796e616d6963732e45786369746174696f6e53797374656d732e45786369746174696f6e53797374656d7345786341433641, 0x43494d31342e454e54534f452e44796e616d6963732e49454336313937302e436f72652e436f7265506f77657253797374656d5265736f75726365,
  [(0x76616d6178, t_EFloat), (0x7666656c696d, t_EFloat), (0x7472, t_float), (0x6532, t_EFloat), (0x6531, t_EFloat), (0x76616d696e, t_EFloat), (0x76686d6178, t_EFloat), (0x76726d6178, t_EFloat), (0x736531, t_EFloat), (0x736532, t_EFloat), (0x76726d696e, t_EFloat), (0x7465, t_float), (0x6b68, t_EFloat), (0x7462, t_float), (0x7463, t_float), (0x7461, t_float), (0x6b61, t_EFloat), (0x6b63, t_EFloat), (0x746a, t_float), (0x746b, t_float), (0x6b65, t_EFloat), (0x7468, t_float), (0x6b64, t_EFloat)],
  []⟩
/-- Class CIM14.ENTSOE.Dynamics.IEC61970.Dynamics.ExcitationSystems.ExcitationSystemsExcAC7B -/
def s_ExcitationSystemsExcAC7B : SClass := ⟨0x45786369746174696f6e53797374656d7345786341433742, 0x43494d31342e454e54534f452e44796e616d6963732e49454336313937302e44796e616d6963732e45786369746174696f6e53797374656d732e45786369746174696f6e53797374656d7345786341433742, 0x43494d31342e454e54534f452e44796e616d6963732e49454336313937302e436f72652e436f7265506f77657253797374656d5265736f75726365,
  [(0x6b64, t_EFloat), (0x6b63, t_EFloat), (0x76726d696e, t_EFloat), (0x6b6472, t_EFloat), (0x76726d6178, t_EFloat), (0x6b7072, t_EFloat), (0x76656d696e, t_EFloat), (0x6b6c, t_EFloat), (0x6b6631, t_EFloat), (0x6b6961, t_EFloat), (0x6b6633, t_EFloat), (0x736531, t_EFloat), (0x7666656d6178, t_EFloat), (0x6b6632, t_EFloat), (0x7465, t_float), (0x7466, t_float), (0x6b65, t_EFloat), (0x6b7061, t_EFloat), (0x6532, t_EFloat), (0x736532, t_EFloat), (0x6b70, t_EFloat), (0x6531, t_EFloat), (0x6b6972, t_EFloat), (0x7472, t_float), (0x746472, t_float), (0x76616d696e, t_EFloat), (0x76616d6178, t_EFloat)],
  []⟩
/-- Class CIM14.ENTSOE.Dynamics.IEC61970.Dynamics.ExcitationSystems.ExcitationSystemsExcAC8B -/
def s_ExcitationSystemsExcAC8B : SClass := ⟨0x45786369746174696f6e53797374656d7345786341433842, 0x43494d31342e454e54534f452e44796e616d6963732e49454336313937302e44796e616d6963732e45786369746174696f6e53797374656d732e45786369746174696f6e53797374656d7345786341433842, 0x43494d31342e454e54534f452e44796e616d6963732e49454336313937302e436f72652e436f7265506f77657253797374656d5265736f75726365,
  [(0x6b6472, t_EFloat), (0x7472, t_float), (0x6531, t_EFloat), (0x6532, t_EFloat), (0x6b6972, t_EFloat), (0x6b63, t_EFloat), (0x76726d6178, t_EFloat), (0x6b61, t_EFloat), (0x736532, t_EFloat), (0x746472, t_float), (0x6b7072, t_EFloat), (0x76656d696e, t_EFloat), (0x6b64, t_EFloat), (0x7465, t_float), (0x736531, t_EFloat), (0x6b65, t_EFloat), (0x7666656d6178, t_EFloat), (0x7461, t_float), (0x76726d696e, t_EFloat), (0x76746d756c74, t_EFloat)],
  []⟩
/-- Class CIM14.ENTSOE.Dynamics.IEC61970.Dynamics.ExcitationSystems.ExcitationSystemsExcDC1A -/
def s_ExcitationSystemsExcDC1A : SClass := ⟨0x45786369746174696f6e53797374656d7345786344433141, 0x43494d31342e454e54534f452e44796e616d6963732e49454336313937302e44796e616d6963732e45786369746174696f6e53797374656d732e45786369746174696f6e53797374656d7345786344433141, 0x43494d31342e454e54534f452e44796e616d6963732e49454336313937302e436f72652e436f7265506f77657253797374656d5265736f75726365,
  [(0x6578636c696d, t_EFloat), (0x76726d696e, t_EFloat), (0x7463, t_float), (0x7461, t_float), (0x7462, t_float), (0x6b61, t_EFloat), (0x6b65, t_EFloat), (0x736532, t_EFloat), (0x7465, t_float), (0x736531, t_EFloat), (0x7466, t_float), (0x6b66, t_EFloat), (0x75656c696e, t_EFloat), (0x7472, t_float), (0x6531, t_EFloat), (0x76726d6178, t_EFloat), (0x6532, t_EFloat)],
  []⟩
/-- Class CIM14.ENTSOE.Dynamics.IEC61970.Dynamics.ExcitationSystems.ExcitationSystemsExcDC2A -/
def s_ExcitationSystemsExcDC2A : SClass := ⟨0x45786369746174696f6e53797374656d7345786344433241, 0x43494d31342e454e54534f452e44796e616d6963732e49454336313937302e44796e616d6963732e45786369746174696f6e53797374656d732e45786369746174696f6e53797374656d7345786344433241, 0x43494d31342e454e54534f452e44796e616d6963732e49454336313937302e436f72652e436f7265506f77657253797374656d5265736f75726365,
  [(0x7465, t_float), (0x7466, t_float), (0x6b61, t_EFloat), (0x7463, t_float), (0x76726d696e, t_EFloat), (0x7461, t_float), (0x7462, t_float), (0x76726d6178, t_EFloat), (0x6b66, t_EFloat), (0x6b65, t_EFloat), (0x75656c696e, t_EFloat), (0x736531, t_EFloat), (0x7472, t_float), (0x736532, t_EFloat), (0x6578636c696d, t_EFloat), (0x6532, t_EFloat), (0x6531, t_EFloat)],
  []⟩
/-- Class CIM14.ENTSOE.Dynamics.IEC61970.Dynamics.ExcitationSystems.ExcitationSystemsExcDC3A -/
def s_ExcitationSystemsExcDC3A : SClass := ⟨0x45786369746174696f6e53797374656d7345786344433341, 0x43494d31342e454e54534f452e44796e616d6963732e49454336313937302e44796e616d6963732e45786369746174696f6e53797374656d732e45786369746174696f6e53797374656d7345786344433341, 0x43494d31342e454e54534f452e44796e616d6963732e49454336313937302e436f72652e436f7265506f77657253797374656d5265736f75726365,
  [(0x76726d6178, t_EFloat), (0x6b65, t_EFloat), (0x7465, t_float), (0x6578636c696d, t_EFloat), (0x736531, t_EFloat), (0x736532, t_EFloat), (0x747268, t_float), (0x6b76, t_EFloat), (0x6531, t_EFloat), (0x6532, t_EFloat), (0x76726d696e, t_EFloat), (0x7472, t_float)],
  []⟩
/-- Class CIM14.ENTSOE.Dynamics.IEC61970.Dynamics.ExcitationSystems.ExcitationSystemsExcDC4B -/
def s_ExcitationSystemsExcDC4B : SClass := ⟨0x45786369746174696f6e53797374656d7345786344433442, 0x43494d31342e454e54534f452e44796e616d6963732e49454336313937302e44796e616d6963732e45786369746174696f6e53797374656d732e45786369746174696f6e53797374656d7345786344433442, 0x43494d31342e454e54534f452e44796e616d6963732e49454336313937302e436f72652e436f7265506f77657253797374656d5265736f75726365,
  [(0x76726d696e, t_EFloat), (0x75656c696e, t_EFloat), (0x6b69, t_EFloat), (0x6b70, t_EFloat), (0x6532, t_EFloat), (0x6f656c696e, t_EFloat), (0x76726d6178, t_EFloat), (0x6b66, t_EFloat), (0x7465, t_float), (0x6b65, t_EFloat), (0x76656d696e, t_EFloat), (0x7466, t_float), (0x6b64, t_EFloat), (0x736532, t_EFloat), (0x7461, t_float), (0x7472, t_float), (0x6b61, t_EFloat), (0x736531, t_EFloat), (0x7464, t_float), (0x6531, t_EFloat)],
  []⟩
/-- Class CIM14.ENTSOE.Dynamics.IEC61970.Dynamics.ExcitationSystems.ExcitationSystemsExcSCRX -/
def s_ExcitationSystemsExcSCRX : SClass := ⟨0x45786369746174696f6e53797374656d7345786353435258, 0x43494d31342e454e54534f452e44796e616d6963732e49454336313937302e44796e616d6963732e45786369746174696f6e53797374656d732e45786369746174696f6e53797374656d7345786353435258, 0x43494d31342e454e54534f452e44796e616d6963732e49454336313937302e436f72652e436f7265506f77657253797374656d5265736f75726365,
  [(0x7465, t_float), (0x7462, t_float), (0x656d6178, t_EFloat), (0x63737769746368, t_EBoolean), (0x7263726664, t_EFloat), (0x74617462, t_EFloat), (0x6b, t_EFloat), (0x656d696e, t_EFloat)],
  []⟩
/-- Class CIM14.ENTSOE.Dynamics.IEC61970.Dynamics.ExcitationSystems.ExcitationSystemsExcSEXS -/
def s_ExcitationSystemsExcSEXS : SClass := ⟨0x45786369746174696f6e53797374656d7345786353455853, 0x43494d31342e454e54534f452e44796e616d6963732e49454336313937302e44796e616d6963732e45786369746174696f6e53797374656d732e45786369746174696f6e53797374656d7345786353455853, 0x43494d31342e454e54534f452e44796e616d6963732e49454336313937302e436f72652e436f7265506f77657253797374656d5265736f75726365,
  [(0x6b, t_EFloat), (0x74617462, t_EFloat), (0x6566646d696e, t_EFloat), (0x7465, t_float), (0x7463, t_float), (0x6b63, t_EFloat), (0x7462, t_float), (0x656d696e, t_EFloat), (0x656d6178, t_EFloat), (0x6566646d6178, t_EFloat)],
  []⟩
/-- Class CIM14.ENTSOE.Dynamics.IEC61970.Dynamics.ExcitationSystems.ExcitationSystemsExcST1A -/
def s_ExcitationSystemsExcST1A : SClass := ⟨0x45786369746174696f6e53797374656d7345786353543141, 0x43494d31342e454e54534f452e44796e616d6963732e49454336313937302e44796e616d6963732e45786369746174696f6e53797374656d732e45786369746174696f6e53797374656d7345786353543141, 0x43494d31342e454e54534f452e44796e616d6963732e49454336313937302e436f72652e436f7265506f77657253797374656d5265736f75726365,
  [(0x76726d696e, t_EFloat), (0x6b63, t_EFloat), (0x76696d696e, t_EFloat), (0x75656c696e, t_EFloat), (0x7466, t_float), (0x6b66, t_EFloat), (0x746331, t_float), (0x707373696e, t_EFloat), (0x7463, t_float), (0x7462, t_float), (0x6b61, t_EFloat), (0x7461, t_float), (0x7472, t_float), (0x696c72, t_EFloat), (0x76616d696e, t_EFloat), (0x6b6c72, t_EFloat), (0x746231, t_float), (0x76616d6178, t_EFloat), (0x76726d6178, t_EFloat), (0x76696d6178, t_EFloat)],
  []⟩
/-- Class CIM14.ENTSOE.Dynamics.IEC61970.Dynamics.ExcitationSystems.ExcitationSystemsExcST2A -/
def s_ExcitationSystemsExcST2A : SClass := ⟨0x45786369746174696f6e53797374656d7345786353543241, 0x43494d31342e454e54534f452e44796e616d6963732e49454336313937302e44796e616d6963732e45786369746174696f6e53797374656d732e45786369746174696f6e53797374656d7345786353543241, 0x43494d31342e454e54534f452e44796e616d6963732e49454336313937302e436f72652e436f7265506f77657253797374656d5265736f75726365,
  [(0x76726d696e, t_EFloat), (0x7463, t_float), (0x7462, t_float), (0x7461, t_float), (0x6b61, t_EFloat), (0x6b65, t_EFloat), (0x75656c696e, t_EFloat), (0x6b63, t_EFloat), (0x7465, t_float), (0x6b69, t_EFloat), (0x6b66, t_EFloat), (0x7466, t_float), (0x76726d6178, t_EFloat), (0x6566646d6178, t_EFloat), (0x7472, t_float), (0x6b70, t_EFloat)],
  []⟩
/-- Class CIM14.ENTSOE.Dynamics.IEC61970.Dynamics.ExcitationSystems.ExcitationSystemsExcST3A -/
def s_ExcitationSystemsExcST3A : SClass := ⟨0x45786369746174696f6e53797374656d7345786353543341, 0x43494d31342e454e54534f452e44796e616d6963732e49454336313937302e44796e616d6963732e45786369746174696f6e53797374656d732e45786369746174696f6e53797374656d7345786353543341, 0x43494d31342e454e54534f452e44796e616d6963732e49454336313937302e436f72652e436f7265506f77657253797374656d5265736f75726365,
  [(0x76726d696e, t_EFloat), (0x6b63, t_EFloat), (0x6b61, t_EFloat), (0x76626d6178, t_EFloat), (0x76696d696e, t_EFloat), (0x786c, t_EFloat), (0x76676d6178, t_EFloat), (0x616e6770, t_EFloat), (0x766d6d696e, t_EFloat), (0x76726d6178, t_EFloat), (0x6b70, t_EFloat), (0x6b6d, t_EFloat), (0x76696d6178, t_EFloat), (0x7472, t_float), (0x766d6d6178, t_EFloat), (0x6b69, t_EFloat), (0x746d, t_float), (0x7461, t_float), (0x7462, t_float), (0x6b67, t_EFloat), (0x7463, t_float)],
  []⟩
/-- Class CIM14.ENTSOE.Dynamics.IEC61970.Dynamics.ExcitationSystems.ExcitationSystemsExcST4B -/
def s_ExcitationSystemsExcST4B : SClass := ⟨0x45786369746174696f6e53797374656d7345786353543442, 0x43494d31342e454e54534f452e44796e616d6963732e49454336313937302e44796e616d6963732e45786369746174696f6e53797374656d732e45786369746174696f6e53797374656d7345786353543442, 0x43494d31342e454e54534f452e44796e616d6963732e49454336313937302e436f72652e436f7265506f77657253797374656d5265736f75726365,
  [(0x6b70, t_EFloat), (0x786c, t_EFloat), (0x76626d6178, t_EFloat), (0x6b69, t_EFloat), (0x6b6972, t_EFloat), (0x76726d696e, t_EFloat), (0x766d6d696e, t_EFloat), (0x6b696d, t_EFloat), (0x7461, t_float), (0x6b67, t_EFloat), (0x7472, t_float), (0x6b63, t_EFloat), (0x76726d6178, t_EFloat), (0x616e6770, t_EFloat), (0x6b7072, t_EFloat), (0x76676d6178, t_EFloat), (0x6b706d, t_EFloat), (0x766d6d6178, t_EFloat)],
  []⟩
/-- Class CIM14.ENTSOE.Dynamics.IEC61970.Dynamics.ExcitationSystems.ExcitationSystemsExcST5B -/
def s_ExcitationSystemsExcST5B : SClass := ⟨0x45786369746174696f6e53797374656d7345786353543542, 0x43494d31342e454e54534f452e44796e616d6963732e49454336313937302e44796e616d6963732e45786369746174696f6e53797374656d732e45786369746174696f6e53797374656d7345786353543542, 0x43494d31342e454e54534f452e44796e616d6963732e49454336313937302e436f72652e436f7265506f77657253797374656d5265736f75726365,
  [(0x746f6332, t_float), (0x746f6331, t_float), (0x746331, t_float), (0x76726d696e, t_EFloat), (0x746332, t_float), (0x6b63, t_EFloat), (0x746232, t_float), (0x746f6231, t_float), (0x76726d6178, t_EFloat), (0x746f6232, t_float), (0x746231, t_float), (0x74756231, t_float), (0x74756232, t_float), (0x74756331, t_float), (0x74756332, t_float), (0x6b72, t_EFloat), (0x7472, t_float), (0x7431, t_float)],
  []⟩
/-- Class CIM14.ENTSOE.Dynamics.IEC61970.Dynamics.ExcitationSystems.ExcitationSystemsExcST6B -/
def s_ExcitationSystemsExcST6B : SClass := ⟨0x45786369746174696f6e53797374656d7345786353543642, 0x43494d31342e454e54534f452e44796e616d6963732e49454336313937302e44796e616d6963732e45786369746174696f6e53797374656d732e45786369746174696f6e53797374656d7345786353543642, 0x43494d31342e454e54534f452e44796e616d6963732e49454336313937302e436f72652e436f7265506f77657253797374656d5265736f75726365,
  [(0x76616d696e, t_EFloat), (0x76726d696e, t_EFloat), (0x6b6d, t_EFloat), (0x7473, t_float), (0x6b67, t_EFloat), (0x7472, t_float), (0x6b636c, t_EFloat), (0x6b6c72, t_EFloat), (0x76726d6178, t_EFloat), (0x696c72, t_EFloat), (0x6b7061, t_EFloat), (0x7467, t_float), (0x76616d6178, t_EFloat), (0x6f656c696e, t_EFloat), (0x6b6666, t_EFloat), (0x766d756c74, t_EFloat), (0x6b6961, t_EFloat)],
  []⟩
/-- Class CIM14.ENTSOE.Dynamics.IEC61970.Dynamics.ExcitationSystems.ExcitationSystemsExcST7B -/
def s_ExcitationSystemsExcST7B : SClass := ⟨0x45786369746174696f6e53797374656d7345786353543742, 0x43494d31342e454e54534f452e44796e616d6963732e49454336313937302e44796e616d6963732e45786369746174696f6e53797374656d732e45786369746174696f6e53797374656d7345786353543742, 0x43494d31342e454e54534f452e44796e616d6963732e49454336313937302e436f72652e436f7265506f77657253797374656d5265736f75726365,
  [(0x7467, t_float), (0x6b7061, t_EFloat), (0x766d696e, t_EFloat), (0x76726d6178, t_EFloat), (0x6b6c, t_EFloat), (0x7472, t_float), (0x6b68, t_EFloat), (0x7473, t_float), (0x76726d696e, t_EFloat), (0x6f656c696e, t_EFloat), (0x75656c696e, t_EFloat), (0x746961, t_float), (0x7462, t_float), (0x7463, t_float), (0x7466, t_float), (0x6b6961, t_EFloat), (0x766d6178, t_EFloat)],
  []⟩
/-- Class CIM14.ENTSOE.Dynamics.IEC61970.Dynamics.Generators.GeneratorsGenEquiv -/
def s_GeneratorsGenEquiv : SClass := ⟨0x47656e657261746f727347656e4571756976, 0x43494d31342e454e54534f452e44796e616d6963732e49454336313937302e44796e616d6963732e47656e657261746f72732e47656e657261746f727347656e4571756976, 0x43494d31342e454e54534f452e44796e616d6963732e49454336313937302e44796e616d6963732e44796e616d696373526f746174696e674d616368696e65,
  [(0x7870, t_float)],
  []⟩
/-- Class CIM14.ENTSOE.Dynamics.IEC61970.Dynamics.Loads.LoadsLoadMotor -/
def s_LoadsLoadMotor : SClass := ⟨0x4c6f6164734c6f61644d6f746f72, 0x43494d31342e454e54534f452e44796e616d6963732e49454336313937302e44796e616d6963732e4c6f6164732e4c6f6164734c6f61644d6f746f72, 0x43494d31342e454e54534f452e44796e616d6963732e49454336313937302e436f72652e436f7265506f77657253797374656d5265736f75726365,
  [(0x6c666163, t_EFloat), (0x7261, t_float), (0x64, t_EFloat), (0x6c73, t_float), (0x7470706f, t_float), (0x74626b72, t_float), (0x6c7070, t_float), (0x74706f, t_float), (0x6c70, t_float), (0x68, t_float), (0x7674, t_float), (0x7066726163, t_EFloat), (0x7476, t_float)],
  []⟩
/-- Class CIM14.ENTSOE.Dynamics.IEC61970.Dynamics.Loads.LoadsLoadStatic -/
def s_LoadsLoadStatic : SClass := ⟨0x4c6f6164734c6f6164537461746963, 0x43494d31342e454e54534f452e44796e616d6963732e49454336313937302e44796e616d6963732e4c6f6164732e4c6f6164734c6f6164537461746963, 0x43494d31342e454e54534f452e44796e616d6963732e49454336313937302e436f72652e436f7265506f77657253797374656d5265736f75726365,
  [(0x657032, t_EFloat), (0x657031, t_EFloat), (0x6b7032, t_EFloat), (0x657033, t_EFloat), (0x6b7031, t_EFloat), (0x6b7134, t_EFloat), (0x6b7133, t_EFloat), (0x6b7132, t_EFloat), (0x6b7131, t_EFloat), (0x657131, t_EFloat), (0x657132, t_EFloat), (0x6b7034, t_EFloat), (0x6b7033, t_EFloat), (0x657133, t_EFloat), (0x7374617469634c6f616454797065, e_LoadsStaticLoadType), (0x6b7166, t_EFloat), (0x6b7066, t_EFloat)],
  []⟩
/-- Class CIM14.ENTSOE.Dynamics.IEC61970.Dynamics.Motors.MotorsMechLoad1 -/
def s_MotorsMechLoad1 : SClass := ⟨0x4d6f746f72734d6563684c6f616431, 0x43494d31342e454e54534f452e44796e616d6963732e49454336313937302e44796e616d6963732e4d6f746f72732e4d6f746f72734d6563684c6f616431, 0x43494d31342e454e54534f452e44796e616d6963732e49454336313937302e436f72652e436f7265506f77657253797374656d5265736f75726365,
  [(0x62, t_EFloat), (0x61, t_EFloat), (0x64, t_EFloat), (0x65, t_EFloat)],
  []⟩
/-- Class CIM14.ENTSOE.Dynamics.IEC61970.Dynamics.PowerSystemStabilizers.PowerSystemStabilizersPssIEEE2B -/
def s_PowerSystemStabilizersPssIEEE2B : SClass := ⟨0x506f77657253797374656d53746162696c697a657273507373494545453242, 0x43494d31342e454e54534f452e44796e616d6963732e49454336313937302e44796e616d6963732e506f77657253797374656d53746162696c697a6572732e506f77657253797374656d53746162696c697a657273507373494545453242, 0x43494d31342e454e54534f452e44796e616d6963732e49454336313937302e436f72652e436f7265506f77657253797374656d5265736f75726365,
  [(0x743130, t_float), (0x61, t_EFloat), (0x6b7331, t_EFloat), (0x6b7333, t_EFloat), (0x743131, t_float), (0x6b7332, t_EFloat), (0x7673746d696e, t_EFloat), (0x767369316d6178, t_EFloat), (0x767369326d6178, t_EFloat), (0x7462, t_float), (0x7432, t_float), (0x7461, t_float), (0x7431, t_float), (0x7434, t_float), (0x6e, t_EShort), (0x7433, t_float), (0x6d, t_EShort), (0x6a31, t_EShort), (0x7436, t_float), (0x6a32, t_EShort), (0x7438, t_float), (0x767369316d696e, t_EFloat), (0x7437, t_float), (0x7439, t_float), (0x6b7334, t_EFloat), (0x747732, t_float), (0x747731, t_float), (0x747734, t_float), (0x767369326d696e, t_EFloat), (0x747733, t_float), (0x7673746d6178, t_EFloat)],
  []⟩
/-- Class CIM14.ENTSOE.Dynamics.IEC61970.Dynamics.TurbineGovernors.TurbineGovernorsGovCT1 -/
def s_TurbineGovernorsGovCT1 : SClass := ⟨0x54757262696e65476f7665726e6f7273476f76435431, 0x43494d31342e454e54534f452e44796e616d6963732e49454336313937302e44796e616d6963732e54757262696e65476f7665726e6f72732e54757262696e65476f7665726e6f7273476f76435431, 0x43494d31342e454e54534f452e44796e616d6963732e49454336313937302e436f72652e436f7265506f77657253797374656d5265736f75726365,
  [(0x72646f776e, t_EFloat), (0x766d6178, t_EFloat), (0x77666e6c, t_EFloat), (0x7464676f76, t_float), (0x61736574, t_EFloat), (0x72, t_EFloat), (0x7766737064, t_EBoolean), (0x6b70676f76, t_EFloat), (0x6d696e657272, t_EFloat), (0x747361, t_float), (0x74616374, t_float), (0x747362, t_float), (0x6c64726566, t_EFloat), (0x6b696d77, t_EFloat), (0x6d6178657272, t_EFloat), (0x766d696e, t_EFloat), (0x6d7762617365, t_float), (0x72636c6f7365, t_EFloat), (0x7470656c6563, t_float), (0x727570, t_EFloat), (0x7462, t_float), (0x6b61, t_EFloat), (0x7461, t_float), (0x6b64676f76, t_EFloat), (0x6b74757262, t_EFloat), (0x6462, t_EFloat), (0x74656e67, t_float), (0x7463, t_float), (0x726f70656e, t_EFloat), (0x646d, t_EFloat), (0x6b696c6f6164, t_EFloat), (0x706d77736574, t_float), (0x7273656c656374, t_EBoolean), (0x6b69676f76, t_EFloat), (0x6b706c6f6164, t_EFloat), (0x74666c6f6164, t_float)],
  []⟩
/-- Class CIM14.ENTSOE.Dynamics.IEC61970.Dynamics.TurbineGovernors.TurbineGovernorsGovHydro1 -/
def s_TurbineGovernorsGovHydro1 : SClass := ⟨0x54757262696e65476f7665726e6f7273476f76487964726f31, 0x43494d31342e454e54534f452e44796e616d6963732e49454336313937302e44796e616d6963732e54757262696e65476f7665726e6f72732e54757262696e65476f7665726e6f7273476f76487964726f31, 0x43494d31342e454e54534f452e44796e616d6963732e49454336313937302e436f72652e436f7265506f77657253797374656d5265736f75726365,
  [(0x727065726d, t_EFloat), (0x7467, t_float), (0x7466, t_float), (0x6d7762617365, t_float), (0x676d6178, t_EFloat), (0x6174, t_EFloat), (0x676d696e, t_EFloat), (0x716e6c, t_EFloat), (0x76656c6d, t_EFloat), (0x7477, t_float), (0x6474757262, t_EFloat), (0x7274656d70, t_EFloat), (0x7472, t_float)],
  []⟩
/-- Class CIM14.ENTSOE.Dynamics.IEC61970.Dynamics.TurbineGovernors.TurbineGovernorsGovHydro2 -/
def s_TurbineGovernorsGovHydro2 : SClass := ⟨0x54757262696e65476f7665726e6f7273476f76487964726f32, 0x43494d31342e454e54534f452e44796e616d6963732e49454336313937302e44796e616d6963732e54757262696e65476f7665726e6f72732e54757262696e65476f7665726e6f7273476f76487964726f32, 0x43494d31342e454e54534f452e44796e616d6963732e49454336313937302e436f72652e436f7265506f77657253797374656d5265736f75726365,
  [(0x6274757262, t_EFloat), (0x7274656d70, t_EFloat), (0x7477, t_float), (0x727065726d, t_EFloat), (0x677631, t_EFloat), (0x677632, t_EFloat), (0x7472, t_float), (0x6174757262, t_EFloat), (0x7470, t_float), (0x756f, t_EFloat), (0x677636, t_EFloat), (0x677635, t_EFloat), (0x70677635, t_EFloat), (0x677634, t_EFloat), (0x70677636, t_EFloat), (0x677633, t_EFloat), (0x70677632, t_EFloat), (0x70677631, t_EFloat), (0x646231, t_float), (0x70677634, t_EFloat), (0x6b74757262, t_EFloat), (0x646232, t_float), (0x7467, t_float), (0x706d6178, t_EFloat), (0x70677633, t_EFloat), (0x6d7762617365, t_float), (0x7563, t_EFloat), (0x706d696e, t_EFloat), (0x657073, t_float)],
  []⟩
/-- Class CIM14.ENTSOE.Dynamics.IEC61970.Dynamics.TurbineGovernors.TurbineGovernorsGovSteam0 -/
def s_TurbineGovernorsGovSteam0 : SClass := ⟨0x54757262696e65476f7665726e6f7273476f76537465616d30, 0x43494d31342e454e54534f452e44796e616d6963732e49454336313937302e44796e616d6963732e54757262696e65476f7665726e6f72732e54757262696e65476f7665726e6f7273476f76537465616d30, 0x43494d31342e454e54534f452e44796e616d6963732e49454336313937302e436f72652e436f7265506f77657253797374656d5265736f75726365,
  [(0x7432, t_float), (0x7433, t_float), (0x7431, t_float), (0x766d6178, t_EFloat), (0x6474, t_EFloat), (0x72, t_EFloat), (0x766d696e, t_EFloat), (0x6d7762617365, t_float)],
  []⟩
/-- Class CIM14.ENTSOE.Dynamics.IEC61970.Dynamics.TurbineGovernors.TurbineGovernorsGovSteam1 -/
def s_TurbineGovernorsGovSteam1 : SClass := ⟨0x54757262696e65476f7665726e6f7273476f76537465616d31, 0x43494d31342e454e54534f452e44796e616d6963732e49454336313937302e44796e616d6963732e54757262696e65476f7665726e6f72732e54757262696e65476f7665726e6f7273476f76537465616d31, 0x43494d31342e454e54534f452e44796e616d6963732e49454336313937302e436f72652e436f7265506f77657253797374656d5265736f75726365,
  [(0x657073, t_float), (0x7563, t_EFloat), (0x6d7762617365, t_float), (0x706d696e, t_EFloat), (0x6b33, t_EFloat), (0x6b, t_EFloat), (0x6b32, t_EFloat), (0x6b31, t_EFloat), (0x70677631, t_EFloat), (0x6b37, t_EFloat), (0x6b36, t_EFloat), (0x706d6178, t_EFloat), (0x6b35, t_EFloat), (0x6b34, t_EFloat), (0x677636, t_EFloat), (0x7436, t_float), (0x70677636, t_EFloat), (0x7437, t_float), (0x677635, t_EFloat), (0x6b38, t_EFloat), (0x677631, t_EFloat), (0x7431, t_float), (0x7432, t_float), (0x70677633, t_EFloat), (0x646231, t_float), (0x7433, t_float), (0x756f, t_EFloat), (0x70677632, t_EFloat), (0x677634, t_EFloat), (0x70677635, t_EFloat), (0x7434, t_float), (0x677632, t_EFloat), (0x677633, t_EFloat), (0x7435, t_float), (0x70677634, t_EFloat), (0x646232, t_float)],
  []⟩
/-- Class CIM14.ENTSOE.Dynamics.IEC61970.Dynamics.VoltageCompensator.VoltageCompensatorVcompCross -/
def s_VoltageCompensatorVcompCross : SClass := ⟨0x566f6c74616765436f6d70656e7361746f7256636f6d7043726f7373, 0x43494d31342e454e54534f452e44796e616d6963732e49454336313937302e44796e616d6963732e566f6c74616765436f6d70656e7361746f722e566f6c74616765436f6d70656e7361746f7256636f6d7043726f7373, 0x43494d31342e454e54534f452e44796e616d6963732e49454336313937302e436f72652e436f7265506f77657253797374656d5265736f75726365,
  [(0x78636f6d7032, t_float), (0x72636f6d7032, t_float)],
  []⟩
/-- Class CIM14.ENTSOE.Dynamics.IEC61970.Dynamics.VoltageCompensator.VoltageCompensatorVcompIEEE -/
def s_VoltageCompensatorVcompIEEE : SClass := ⟨0x566f6c74616765436f6d70656e7361746f7256636f6d7049454545, 0x43494d31342e454e54534f452e44796e616d6963732e49454336313937302e44796e616d6963732e566f6c74616765436f6d70656e7361746f722e566f6c74616765436f6d70656e7361746f7256636f6d7049454545, 0x43494d31342e454e54534f452e44796e616d6963732e49454336313937302e436f72652e436f7265506f77657253797374656d5265736f75726365,
  [(0x78636f6d70, t_float), (0x72636f6d70, t_float)],
  []⟩
/-- Class CIM14.ENTSOE.Dynamics.IEC61970.Informative.InfCore.InfCoreModelingAuthoritySet -/
def s_InfCoreModelingAuthoritySet : SClass := ⟨0x496e66436f72654d6f64656c696e67417574686f72697479536574, 0x43494d31342e454e54534f452e44796e616d6963732e49454336313937302e496e666f726d61746976652e496e66436f72652e496e66436f72654d6f64656c696e67417574686f72697479536574, 0x43494d31342e454e54534f452e44796e616d6963732e49454336313937302e436f72652e436f72654964656e7469666965644f626a656374,
  [],
  [⟨0x4964656e7469666965644f626a65637473, 0x43494d31342e454e54534f452e44796e616d6963732e49454336313937302e436f72652e436f72654964656e7469666965644f626a656374, true, 0x4d6f64656c696e67417574686f72697479536574⟩]⟩
/-- Class CIM14.ENTSOE.Dynamics.IEC61970.Meas.MeasControl -/
def s_MeasControl : SClass := ⟨0x4d656173436f6e74726f6c, 0x43494d31342e454e54534f452e44796e616d6963732e49454336313937302e4d6561732e4d656173436f6e74726f6c, 0x43494d31342e454e54534f452e44796e616d6963732e49454336313937302e436f72652e436f72654964656e7469666965644f626a656374,
  [],
  [⟨0x526567756c6174696e67436f6e644571, 0x43494d31342e454e54534f452e44796e616d6963732e49454336313937302e57697265732e5769726573526567756c6174696e67436f6e644571, false, 0x436f6e74726f6c73⟩]⟩
/-- Class CIM14.ENTSOE.Dynamics.IEC61970.Meas.MeasMeasurement -/
def s_MeasMeasurement : SClass := ⟨0x4d6561734d6561737572656d656e74, 0x43494d31342e454e54534f452e44796e616d6963732e49454336313937302e4d6561732e4d6561734d6561737572656d656e74, 0x43494d31342e454e54534f452e44796e616d6963732e49454336313937302e436f72652e436f72654964656e7469666965644f626a656374,
  [],
  [⟨0x506f77657253797374656d5265736f75726365, 0x43494d31342e454e54534f452e44796e616d6963732e49454336313937302e436f72652e436f7265506f77657253797374656d5265736f75726365, false, 0x4d6561737572656d656e7473⟩]⟩
/-- Class CIM14.ENTSOE.Dynamics.IEC61970.OperationalLimits.OperationalLimitsOperationalLimitSet -/
def s_OperationalLimitsOperationalLimitSet : SClass := ⟨0x4f7065726174696f6e616c4c696d6974734f7065726174696f6e616c4c696d6974536574, 0x43494d31342e454e54534f452e44796e616d6963732e49454336313937302e4f7065726174696f6e616c4c696d6974732e4f7065726174696f6e616c4c696d6974734f7065726174696f6e616c4c696d6974536574, 0x43494d31342e454e54534f452e44796e616d6963732e49454336313937302e436f72652e436f72654964656e7469666965644f626a656374,
  [],
  [⟨0x45717569706d656e74, 0x43494d31342e454e54534f452e44796e616d6963732e49454336313937302e436f72652e436f726545717569706d656e74, false, 0x4f7065726174696f6e616c4c696d6974536574⟩]⟩
/-- Class CIM14.ENTSOE.Dynamics.IEC61970.Outage.OutageClearanceTag -/
def s_OutageClearanceTag : SClass := ⟨0x4f7574616765436c656172616e6365546167, 0x43494d31342e454e54534f452e44796e616d6963732e49454336313937302e4f75746167652e4f7574616765436c656172616e6365546167, 0x43494d31342e454e54534f452e44796e616d6963732e49454336313937302e436f72652e436f72654964656e7469666965644f626a656374,
  [],
  [⟨0x436f6e64756374696e6745717569706d656e74, 0x43494d31342e454e54534f452e44796e616d6963732e49454336313937302e436f72652e436f7265436f6e64756374696e6745717569706d656e74, false, 0x436c656172616e636554616773⟩]⟩
/-- Class CIM14.ENTSOE.Dynamics.IEC61970.Outage.OutageOutageSchedule -/
def s_OutageOutageSchedule : SClass := ⟨0x4f75746167654f75746167655363686564756c65, 0x43494d31342e454e54534f452e44796e616d6963732e49454336313937302e4f75746167652e4f75746167654f75746167655363686564756c65, 0x43494d31342e454e54534f452e44796e616d6963732e49454336313937302e436f72652e436f72654964656e7469666965644f626a656374,
  [],
  [⟨0x506f77657253797374656d5265736f75726365, 0x43494d31342e454e54534f452e44796e616d6963732e49454336313937302e436f72652e436f7265506f77657253797374656d5265736f75726365, false, 0x4f75746167655363686564756c65⟩]⟩
/-- Class CIM14.ENTSOE.Dynamics.IEC61970.Protection.ProtectionProtectionEquipment -/
def s_ProtectionProtectionEquipment : SClass := ⟨0x50726f74656374696f6e50726f74656374696f6e45717569706d656e74, 0x43494d31342e454e54534f452e44796e616d6963732e49454336313937302e50726f74656374696f6e2e50726f74656374696f6e50726f74656374696f6e45717569706d656e74, 0x43494d31342e454e54534f452e44796e616d6963732e49454336313937302e436f72652e436f726545717569706d656e74,
  [],
  [⟨0x436f6e64756374696e6745717569706d656e7473, 0x43494d31342e454e54534f452e44796e616d6963732e49454336313937302e436f72652e436f7265436f6e64756374696e6745717569706d656e74, true, 0x50726f74656374696f6e45717569706d656e7473⟩]⟩
/-- Class CIM14.ENTSOE.Dynamics.IEC61970.StateVariables.StateVariablesSvStatus -/
def s_StateVariablesSvStatus : SClass := ⟨0x53746174655661726961626c65735376537461747573, 0x43494d31342e454e54534f452e44796e616d6963732e49454336313937302e53746174655661726961626c65732e53746174655661726961626c65735376537461747573, 0x43494d31342e454e54534f452e44796e616d6963732e456c656d656e74,
  [],
  [⟨0x436f6e64756374696e6745717569706d656e74, 0x43494d31342e454e54534f452e44796e616d6963732e49454336313937302e436f72652e436f7265436f6e64756374696e6745717569706d656e74, false, 0x5376537461747573⟩]⟩
/-- Class CIM14.ENTSOE.Dynamics.IEC61970.Wires.WiresRegulatingCondEq -/
def s_WiresRegulatingCondEq : SClass := ⟨0x5769726573526567756c6174696e67436f6e644571, 0x43494d31342e454e54534f452e44796e616d6963732e49454336313937302e57697265732e5769726573526567756c6174696e67436f6e644571, 0x43494d31342e454e54534f452e44796e616d6963732e49454336313937302e436f72652e436f7265436f6e64756374696e6745717569706d656e74,
  [],
  [⟨0x436f6e74726f6c73, 0x43494d31342e454e54534f452e44796e616d6963732e49454336313937302e4d6561732e4d656173436f6e74726f6c, true, 0x526567756c6174696e67436f6e644571⟩, ⟨0x526567756c6174696e67436f6e74726f6c, 0x43494d31342e454e54534f452e44796e616d6963732e49454336313937302e57697265732e5769726573526567756c6174696e67436f6e74726f6c, false, 0x526567756c6174696e67436f6e644571⟩]⟩
/-- Class CIM14.ENTSOE.Dynamics.IEC61970.Wires.WiresRegulatingControl -/
def s_WiresRegulatingControl : SClass := ⟨0x5769726573526567756c6174696e67436f6e74726f6c, 0x43494d31342e454e54534f452e44796e616d6963732e49454336313937302e57697265732e5769726573526567756c6174696e67436f6e74726f6c, 0x43494d31342e454e54534f452e44796e616d6963732e49454336313937302e436f72652e436f7265506f77657253797374656d5265736f75726365,
  [],
  [⟨0x526567756c6174696e67436f6e644571, 0x43494d31342e454e54534f452e44796e616d6963732e49454336313937302e57697265732e5769726573526567756c6174696e67436f6e644571, true, 0x526567756c6174696e67436f6e74726f6c⟩]⟩
/-- Class CIM14.ENTSOE.Dynamics.IEC61970.Wires.WiresSynchronousMachine -/
def s_WiresSynchronousMachine : SClass := ⟨0x576972657353796e6368726f6e6f75734d616368696e65, 0x43494d31342e454e54534f452e44796e616d6963732e49454336313937302e57697265732e576972657353796e6368726f6e6f75734d616368696e65, 0x43494d31342e454e54534f452e44796e616d6963732e49454336313937302e44796e616d6963732e44796e616d696373526f746174696e674d616368696e65,
  [(0x7844697265637453796e63, t_float), (0x784469726563745472616e73, t_float), (0x78517561645472616e73, t_float), (0x785175616453796e63, t_float), (0x78517561645375627472616e73, t_float), (0x784469726563745375627472616e73, t_float)],
  []⟩
/-- Class CIM14.ENTSOE.Dynamics.Thing -/
def s_Thing : SClass := ⟨0x5468696e67, 0x43494d31342e454e54534f452e44796e616d6963732e5468696e67, 0x43494d31342e454e54534f452e44796e616d6963732e456c656d656e74,
  [],
  [⟨0x5363686564756c655374657073, 0x43494d31342e454e54534f452e44796e616d6963732e5468696e67, true, 0⟩, ⟨0x73796e6368726f6e6f757347656e657261746f7254797065, 0x43494d31342e454e54534f452e44796e616d6963732e5468696e67, true, 0⟩, ⟨0x7470716f, 0x43494d31342e454e54534f452e44796e616d6963732e5468696e67, true, 0⟩, ⟨0x456c656374726963616c417373657473, 0x43494d31342e454e54534f452e44796e616d6963732e5468696e67, true, 0⟩, ⟨0x454149445f34423435453737355f373935415f343033305f383635465f3041423332303030304444442d42, 0x43494d31342e454e54534f452e44796e616d6963732e5468696e67, true, 0⟩, ⟨0x536166657479446f63756d656e7473, 0x43494d31342e454e54534f452e44796e616d6963732e5468696e67, true, 0⟩, ⟨0x726174656453, 0x43494d31342e454e54534f452e44796e616d6963732e5468696e67, true, 0⟩, ⟨0x747070646f, 0x43494d31342e454e54534f452e44796e616d6963732e5468696e67, true, 0⟩, ⟨0x7470646f, 0x43494d31342e454e54534f452e44796e616d6963732e5468696e67, true, 0⟩, ⟨0x4368616e67654974656d73, 0x43494d31342e454e54534f452e44796e616d6963732e5468696e67, true, 0⟩, ⟨0x4572704f7267616e69736174696f6e526f6c6573, 0x43494d31342e454e54534f452e44796e616d6963732e5468696e67, true, 0⟩, ⟨0x4369726375697453656374696f6e73, 0x43494d31342e454e54534f452e44796e616d6963732e5468696e67, true, 0⟩, ⟨0x747070716f, 0x43494d31342e454e54534f452e44796e616d6963732e5468696e67, true, 0⟩, ⟨0x446f63756d656e74526f6c6573, 0x43494d31342e454e54534f452e44796e616d6963732e5468696e67, true, 0⟩, ⟨0x5053524576656e74, 0x43494d31342e454e54534f452e44796e616d6963732e5468696e67, true, 0⟩, ⟨0x4f757461676553746570526f6c6573, 0x43494d31342e454e54534f452e44796e616d6963732e5468696e67, true, 0⟩, ⟨0x4e6574776f726b4461746153657473, 0x43494d31342e454e54534f452e44796e616d6963732e5468696e67, true, 0⟩]⟩

def schema : Schema := [
  s_Element,
  s_AssetsAsset,
  s_CommonLocation,
  s_CustomersCustomerAgreement,
  s_ContingencyContingencyEquipment,
  s_CoreBaseVoltage,
  s_CoreConductingEquipment,
  s_CoreEquipment,
  s_CoreEquipmentContainer,
  s_CoreIdentifiedObject,
  s_CoreOperatingShare,
  s_CorePSRType,
  s_CorePowerSystemResource,
  s_CorePsrList,
  s_CoreReportingGroup,
  s_CoreTerminal,
  s_DynamicsAsynchronousMachine,
  s_DynamicsAttributeBlockParameter,
  s_DynamicsBlock,
  s_DynamicsBlockConnection,
  s_DynamicsBlockConnectivity,
  s_DynamicsBlockParameter,
  s_DynamicsMetaBlock,
  s_DynamicsMetaBlockConInput,
  s_DynamicsMetaBlockConOutput,
  s_DynamicsMetaBlockConSignal,
  s_DynamicsMetaBlockConnectable,
  s_DynamicsMetaBlockConnection,
  s_DynamicsMetaBlockConnectivity,
  s_DynamicsMetaBlockInput,
  s_DynamicsMetaBlockInputReference,
  s_DynamicsMetaBlockOutput,
  s_DynamicsMetaBlockOutputReference,
  s_DynamicsMetaBlockParameter,
  s_DynamicsMetaBlockParameterReference,
  s_DynamicsMetaBlockReference,
  s_DynamicsMetaBlockSignal,
  s_DynamicsMetaBlockState,
  s_DynamicsMetaBlockStateReference,
  s_DynamicsRotatingMachine,
  s_ExcitationSystemsExcAC1A,
  s_ExcitationSystemsExcAC2A,
  s_ExcitationSystemsExcAC3A,
  s_ExcitationSystemsExcAC4A,
  s_ExcitationSystemsExcAC5A,
  s_ExcitationSystemsExcAC6A,
  s_ExcitationSystemsExcAC7B,
  s_ExcitationSystemsExcAC8B,
  s_ExcitationSystemsExcDC1A,
  s_ExcitationSystemsExcDC2A,
  s_ExcitationSystemsExcDC3A,
  s_ExcitationSystemsExcDC4B,
  s_ExcitationSystemsExcSCRX,
  s_ExcitationSystemsExcSEXS,
  s_ExcitationSystemsExcST1A,
  s_ExcitationSystemsExcST2A,
  s_ExcitationSystemsExcST3A,
  s_ExcitationSystemsExcST4B,
  s_ExcitationSystemsExcST5B,
  s_ExcitationSystemsExcST6B,
  s_ExcitationSystemsExcST7B,
  s_GeneratorsGenEquiv,
  s_LoadsLoadMotor,
  s_LoadsLoadStatic,
  s_MotorsMechLoad1,
  s_PowerSystemStabilizersPssIEEE2B,
  s_TurbineGovernorsGovCT1,
  s_TurbineGovernorsGovHydro1,
  s_TurbineGovernorsGovHydro2,
  s_TurbineGovernorsGovSteam0,
  s_TurbineGovernorsGovSteam1,
  s_VoltageCompensatorVcompCross,
  s_VoltageCompensatorVcompIEEE,
  s_InfCoreModelingAuthoritySet,
  s_MeasControl,
  s_MeasMeasurement,
  s_OperationalLimitsOperationalLimitSet,
  s_OutageClearanceTag,
  s_OutageOutageSchedule,
  s_ProtectionProtectionEquipment,
  s_StateVariablesSvStatus,
  s_WiresRegulatingCondEq,
  s_WiresRegulatingControl,
  s_WiresSynchronousMachine,
  s_Thing]

end Verif.Gen.Model_CIM14_ENTSOE_Dynamics
