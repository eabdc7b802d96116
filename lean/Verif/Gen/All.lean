import Verif.Gen.CIM14
import Verif.Gen.CIM14_CDPSM_Balanced
import Verif.Gen.CIM14_CDPSM_GIS_Connectivity
import Verif.Gen.CIM14_CDPSM_Unbalanced
import Verif.Gen.CIM14_CPSM_Equipment
import Verif.Gen.CIM14_CPSM_StateVariables
import Verif.Gen.CIM14_CPSM_Topology
import Verif.Gen.CIM14_ENTSOE_Dynamics
import Verif.Gen.CIM14_ENTSOE_Equipment
import Verif.Gen.CIM14_ENTSOE_StateVariables
import Verif.Gen.CIM14_ENTSOE_Topology
import Verif.Gen.CIM15
import Verif.Gen.CIM15_CDPSM_Asset
import Verif.Gen.CIM15_CDPSM_Balanced
import Verif.Gen.CIM15_CDPSM_Connectivity
import Verif.Gen.CIM15_CDPSM_Geographical
import Verif.Gen.Wf
/-
All packages, and the kernel-checked facts about them.
-/
namespace Verif
namespace Gen
open Cim

/-- The sixteen packages and profiles of the repository. -/
def packages : List RPkg := [
  CIM14.pkg,
  CIM14_CDPSM_Balanced.pkg,
  CIM14_CDPSM_GIS_Connectivity.pkg,
  CIM14_CDPSM_Unbalanced.pkg,
  CIM14_CPSM_Equipment.pkg,
  CIM14_CPSM_StateVariables.pkg,
  CIM14_CPSM_Topology.pkg,
  CIM14_ENTSOE_Dynamics.pkg,
  CIM14_ENTSOE_Equipment.pkg,
  CIM14_ENTSOE_StateVariables.pkg,
  CIM14_ENTSOE_Topology.pkg,
  CIM15.pkg,
  CIM15_CDPSM_Asset.pkg,
  CIM15_CDPSM_Balanced.pkg,
  CIM15_CDPSM_Connectivity.pkg,
  CIM15_CDPSM_Geographical.pkg]

set_option maxRecDepth 100000

theorem wf_all : kall (fun p => kall wfB p.classes) packages = true := by decide +kernel

end Gen
end Verif
