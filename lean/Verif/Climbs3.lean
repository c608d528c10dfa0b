import Verif.Alg.Simple5
import Verif.Alg.Simple6
import Verif.Alg.Simple7
import Verif.Alg.Simple8
import Verif.Alg.Simple9
import Verif.Climb

/-! Generated by tools/climbs.py: populations that never lose ground, class by class. -/

set_option linter.unusedVariables false

namespace Mealpy
open Spec

variable {d : Nat} {K : Type} [Num K] {c : Cfg d K}

namespace OriginalEVO
theorem climbs (hE : c.E.Lawful) (ep : Nat) (q : List _) : Up q (evolve ep : M c Unit Unit Unit) := by climb
end OriginalEVO

namespace OriginalFFO
theorem climbs (hE : c.E.Lawful) (ep : Nat) (q : List _) : Up q (evolve ep : M c Unit Unit Unit) := by climb
end OriginalFFO

namespace OriginalTDO
theorem climbs (hE : c.E.Lawful) (ep : Nat) (q : List _) : Up q (evolve ep : M c Unit Unit Unit) := by climb
end OriginalTDO

namespace OriginalCoatiOA
theorem climbs (hE : c.E.Lawful) (ep : Nat) (q : List _) : Up q (evolve ep : M c Unit Unit Unit) := by climb
end OriginalCoatiOA

namespace OriginalSBOA
theorem climbs (hE : c.E.Lawful) (ep : Nat) (q : List _) : Up q (evolve ep : M c Unit Unit Unit) := by climb
end OriginalSBOA

namespace OriginalTOA
theorem climbs (hE : c.E.Lawful) (ep : Nat) (q : List _) : Up q (evolve ep : M c Unit Unit Unit) := by climb
end OriginalTOA

namespace OriginalHGS
theorem climbs (hE : c.E.Lawful) (p : Params K) (ep : Nat) (q : List _) : Up q (evolve p ep : M c K Unit Unit) := by climb
end OriginalHGS

namespace OriginalHHO
theorem climbs (hE : c.E.Lawful) (ep : Nat) (q : List _) : Up q (evolve ep : M c Unit Unit Unit) := by climb
end OriginalHHO

namespace OriginalZOA
theorem climbs (hE : c.E.Lawful) (ep : Nat) (q : List _) : Up q (evolve ep : M c Unit Unit Unit) := by climb
end OriginalZOA

namespace OriginalBWO
theorem climbs (hE : c.E.Lawful) (ep : Nat) (q : List _) : Up q (evolve ep : M c Unit Unit Unit) := by climb
end OriginalBWO

namespace OriginalFA
theorem climbs (hE : c.E.Lawful) (p : Params K) (ep : Nat) (q : List _) : Up q (evolve p ep : M c Unit Unit Unit) := by climb
end OriginalFA

namespace OriginalFDO
theorem climbs (hE : c.E.Lawful) (p : K) (ep : Nat) (q : List _) : Up q (evolve p ep : M c Unit Unit Unit) := by climb
end OriginalFDO

namespace DevSOA
theorem climbs (hE : c.E.Lawful) (p : K) (ep : Nat) (q : List _) : Up q (evolve p ep : M c Unit Unit Unit) := by climb
end DevSOA

namespace OriginalDBO
theorem climbs (hE : c.E.Lawful) (p : Params K) (ep : Nat) (q : List _) : Up q (evolve p ep : M c Unit (List (Vec d K)) Unit) := by climb
end OriginalDBO

namespace OriginalSOO
theorem climbs (hE : c.E.Lawful) (ep : Nat) (q : List _) : Up q (evolve ep : M c Unit Unit Unit) := by climb
end OriginalSOO

namespace OriginalArchOA
theorem climbs (hE : c.E.Lawful) (p : Params K) (ep : Nat) (q : List _) : Up q (evolve p ep : M c (OriginalArchOA.Att d K) Unit Unit) := by climb
end OriginalArchOA

namespace OriginalAPO
theorem climbs (hE : c.E.Lawful) (p : Params K) (ep : Nat) (q : List _) : Up q (evolve p ep : M c Unit Unit Unit) := by climb
end OriginalAPO

namespace DevSSpiderA
theorem climbs (hE : c.E.Lawful) (p : Params K) (ep : Nat) (q : List _) : Up q (evolve p ep : M c (DevSSpiderA.Att d K) Unit Unit) := by climb
end DevSSpiderA

namespace OriginalPSO
theorem climbs (hE : c.E.Lawful) (p : Params K) (ep : Nat) (q : List _) : Up q (evolve p ep : M c (Bird d K) Unit Unit) := by climb
end OriginalPSO

namespace AIW_PSO
theorem climbs (hE : c.E.Lawful) (p : Params K) (ep : Nat) (q : List _) : Up q (evolve p ep : M c (Bird d K) Unit Unit) := by climb
end AIW_PSO

namespace LDW_PSO
theorem climbs (hE : c.E.Lawful) (p : Params K) (ep : Nat) (q : List _) : Up q (evolve p ep : M c (Bird d K) Unit Unit) := by climb
end LDW_PSO

namespace P_PSO
theorem climbs (hE : c.E.Lawful) (ep : Nat) (q : List _) : Up q (evolve ep : M c (Bird d K) (Vec d K × List K) Unit) := by climb
end P_PSO

namespace HPSO_TVAC
theorem climbs (hE : c.E.Lawful) (p : Params K) (ep : Nat) (q : List _) : Up q (evolve p ep : M c (Bird d K) (Vec d K × List K) Unit) := by climb
end HPSO_TVAC

namespace C_PSO
theorem climbs (hE : c.E.Lawful) (p : Params K) (ep : Nat) (q : List _) : Up q (evolve p ep : M c (Bird d K) (Vec d K × Vec d K) Unit) := by climb
end C_PSO

namespace CL_PSO
theorem climbs (hE : c.E.Lawful) (p : Params K) (ep : Nat) (q : List _) : Up q (evolve p ep : M c (Bird d K) Unit Unit) := by climb
end CL_PSO

namespace OriginalAO
theorem climbs (hE : c.E.Lawful) (ep : Nat) (q : List _) : Up q (evolve ep : M c Unit Unit Unit) := by climb
end OriginalAO

namespace AAO
theorem climbs (hE : c.E.Lawful) (p : Params K) (ep : Nat) (q : List _) : Up q (evolve p ep : M c Unit Unit Unit) := by climb
end AAO

namespace OriginalARO
theorem climbs (hE : c.E.Lawful) (ep : Nat) (q : List _) : Up q (evolve ep : M c Unit Unit Unit) := by climb
end OriginalARO

namespace LARO
theorem climbs (hE : c.E.Lawful) (ep : Nat) (q : List _) : Up q (evolve ep : M c Unit Unit Unit) := by climb
end LARO

namespace IARO
theorem climbs (hE : c.E.Lawful) (ep : Nat) (q : List _) : Up q (evolve ep : M c Unit Unit Unit) := by climb
end IARO

namespace OriginalBES
theorem climbs (hE : c.E.Lawful) (p : Params K) (ep : Nat) (q : List _) : Up q (evolve p ep : M c Unit Unit Unit) := by climb
end OriginalBES

namespace DevMVO
theorem climbs (hE : c.E.Lawful) (p : Params K) (ep : Nat) (q : List _) : Up q (evolve p ep : M c Unit Unit Unit) := by climb
end DevMVO

namespace OriginalMVO
theorem climbs (hE : c.E.Lawful) (p : DevMVO.Params K) (ep : Nat) (q : List _) : Up q (evolve p ep : M c Unit Unit Unit) := by climb
end OriginalMVO

namespace OriginalKOA
theorem climbs (hE : c.E.Lawful) (p : Params K) (ep : Nat) (q : List _) : Up q (evolve p ep : M c Unit (Ext K) Unit) := by climb
end OriginalKOA

namespace DevSMA
theorem climbs (hE : c.E.Lawful) (p : K) (ep : Nat) (q : List _) : Up q (evolve p ep : M c Unit Unit Unit) := by climb
end DevSMA

namespace DevSBO
theorem climbs (hE : c.E.Lawful) (p : Params K) (ep : Nat) (q : List _) : Up q (evolve p ep : M c Unit Unit Unit) := by climb
end DevSBO

namespace OriginalTLO
theorem climbs (hE : c.E.Lawful) (ep : Nat) (q : List _) : Up q (evolve ep : M c Unit Unit Unit) := by climb
end OriginalTLO

namespace OriginalBBO
theorem climbs (hE : c.E.Lawful) (p : Params K) (ep : Nat) (q : List _) : Up q (evolve p ep : M c Unit Unit Unit) := by climb
end OriginalBBO

namespace DevBBO
theorem climbs (hE : c.E.Lawful) (p : OriginalBBO.Params K) (ep : Nat) (q : List _) : Up q (evolve p ep : M c Unit Unit Unit) := by climb
end DevBBO

namespace OriginalNMRA
theorem climbs (hE : c.E.Lawful) (p : K) (ep : Nat) (q : List _) : Up q (evolve p ep : M c Unit Unit Unit) := by climb
end OriginalNMRA

namespace ImprovedNMRA
theorem climbs (hE : c.E.Lawful) (p : Params K) (ep : Nat) (q : List _) : Up q (evolve p ep : M c Unit Unit Unit) := by climb
end ImprovedNMRA

namespace OriginalCEO
theorem climbs (hE : c.E.Lawful) (p : Params K) (ep : Nat) (q : List _) : Up q (evolve p ep : M c Unit Unit Unit) := by climb
end OriginalCEO

namespace OriginalSFOA
theorem climbs (hE : c.E.Lawful) (p : K) (ep : Nat) (q : List _) : Up q (evolve p ep : M c Unit Unit Unit) := by climb
end OriginalSFOA

namespace OriginalEEFO
theorem climbs (hE : c.E.Lawful) (ep : Nat) (q : List _) : Up q (evolve ep : M c Unit Unit Unit) := by climb
end OriginalEEFO

namespace DevGCO
theorem climbs (hE : c.E.Lawful) (p : Params K) (ep : Nat) (q : List _) : Up q (evolve p ep : M c Unit Unit Unit) := by climb
end DevGCO

namespace OriginalGCO
theorem climbs (hE : c.E.Lawful) (p : DevGCO.Params K) (ep : Nat) (q : List _) : Up q (evolve p ep : M c Unit (Ext K) Unit) := by climb
end OriginalGCO

namespace OriginalRUN
theorem climbs (hE : c.E.Lawful) (ep : Nat) (q : List _) : Up q (evolve ep : M c Unit Unit Unit) := by climb
end OriginalRUN

namespace OriginalGBO
theorem climbs (hE : c.E.Lawful) (p : Params K) (ep : Nat) (q : List _) : Up q (evolve p ep : M c Unit (Option (Vec d K)) Unit) := by climb
end OriginalGBO

end Mealpy
