import Verif.Alg.Simple15
import Verif.Alg.Simple16
import Verif.Alg.Simple17
import Verif.Alg.Simple18
import Verif.Alg.Simple2
import Verif.Alg.Simple20
import Verif.Alg.Simple3
import Verif.Alg.Simple4
import Verif.Alg.Simple5
import Verif.Climb

/-! Generated by tools/climbs.py: populations that never lose ground, class by class. -/

set_option linter.unusedVariables false

namespace Mealpy
open Spec

variable {d : Nat} {K : Type} [Num K] {c : Cfg d K}

namespace Matlab102GTO
theorem climbs (hE : c.E.Lawful) (ep : Nat) (q : List _) : Up q (evolve ep : M c Unit Unit Unit) := by climb
end Matlab102GTO

namespace OriginalWSO
theorem climbs (hE : c.E.Lawful) (p : Params K) (ep : Nat) (q : List _) : Up q (evolve p ep : M c Unit Unit Unit) := by climb
end OriginalWSO

namespace OriginalMSO
theorem climbs (hE : c.E.Lawful) (ep : Nat) (q : List _) : Up q (evolve ep : M c Unit Unit Unit) := by climb
end OriginalMSO

namespace OriginalNRO
theorem climbs (hE : c.E.Lawful) (ep : Nat) (q : List _) : Up q (evolve ep : M c Unit Unit Unit) := by climb
end OriginalNRO

namespace OriginalSHADE
theorem climbs (hE : c.E.Lawful) (p : Params K) (ep : Nat) (q : List _) : Up q (evolve p ep : M c Unit (Attr d K) Unit) := by climb
end OriginalSHADE

namespace L_SHADE
open OriginalSHADE (Params Attr Sized)
theorem climbs (hE : c.E.Lawful) (p : Params K) (ep : Nat) (q : List _) : Up q (evolve p ep : M c Unit (Attr d K) Unit) := by climb
end L_SHADE

namespace OriginalES
theorem climbs (hE : c.E.Lawful) (p : Params) (ep : Nat) (q : List _) : Up q (evolve p ep : M c (Vec d K) Unit Unit) := by climb
end OriginalES

namespace LevyES
theorem climbs (hE : c.E.Lawful) (p : OriginalES.Params) (ep : Nat) (q : List _) : Up q (evolve p ep : M c (Vec d K) Unit Unit) := by climb
end LevyES

namespace Simple_CMA_ES
theorem climbs (hE : c.E.Lawful) (ep : Nat) (q : List _) : Up q (evolve ep : M c Unit Unit Unit) := by climb
end Simple_CMA_ES

namespace CleverBookBeesA
theorem climbs (hE : c.E.Lawful) (p : Params K) (ep : Nat) (q : List _) : Up q (evolve p ep : M c Unit Unit Unit) := by climb
end CleverBookBeesA

namespace OriginalBSA
theorem climbs (hE : c.E.Lawful) (p : Params K) (ep : Nat) (q : List _) : Up q (evolve p ep : M c (Own d K) Unit Unit) := by climb
end OriginalBSA

namespace DevHS
theorem climbs (hE : c.E.Lawful) (p : Params K) (ep : Nat) (q : List _) : Up q (evolve p ep : M c Unit (Vec d K) Unit) := by climb
end DevHS

namespace OriginalHS
theorem climbs (hE : c.E.Lawful) (p : DevHS.Params K) (ep : Nat) (q : List _) : Up q (evolve p ep : M c Unit (Vec d K) Unit) := by climb
end OriginalHS

namespace DevWOA
theorem climbs (hE : c.E.Lawful) (ep : Nat) (q : List _) : Up q (evolve ep : M c Unit Unit Unit) := by climb
end DevWOA

namespace OriginalPOA
theorem climbs (hE : c.E.Lawful) (ep : Nat) (q : List _) : Up q (evolve ep : M c Unit Unit Unit) := by climb
end OriginalPOA

namespace DevVCS
theorem climbs (hE : c.E.Lawful) (p : Params K) (ep : Nat) (q : List _) : Up q (evolve p ep : M c Unit Unit Unit) := by climb
end DevVCS

namespace OriginalVCS
theorem climbs (hE : c.E.Lawful) (p : DevVCS.Params K) (ep : Nat) (q : List _) : Up q (evolve p ep : M c Unit Unit Unit) := by climb
end OriginalVCS

namespace OriginalSPBO
theorem climbs (hE : c.E.Lawful) (ep : Nat) (q : List _) : Up q (evolve ep : M c Unit Unit Unit) := by climb
end OriginalSPBO

namespace DevSPBO
theorem climbs (hE : c.E.Lawful) (ep : Nat) (q : List _) : Up q (evolve ep : M c Unit Unit Unit) := by climb
end DevSPBO

namespace OriginalAOA
theorem climbs (hE : c.E.Lawful) (p : Params K) (ep : Nat) (q : List _) : Up q (evolve p ep : M c Unit Unit Unit) := by climb
end OriginalAOA

namespace OriginalCEM
theorem climbs (hE : c.E.Lawful) (p : Params K) (ep : Nat) (q : List _) : Up q (evolve p ep : M c Unit (Vec d K × Vec d K) Unit) := by climb
end OriginalCEM

namespace OriginalEO
theorem climbs (hE : c.E.Lawful) (ep : Nat) (q : List _) : Up q (evolve ep : M c Unit Unit Unit) := by climb
end OriginalEO

namespace AdaptiveEO
theorem climbs (hE : c.E.Lawful) (ep : Nat) (q : List _) : Up q (evolve ep : M c Unit Unit Unit) := by climb
end AdaptiveEO

namespace DevEPC
theorem climbs (hE : c.E.Lawful) (p : Params K) (ep : Nat) (q : List _) : Up q (evolve p ep : M c Unit K Unit) := by climb
end DevEPC

namespace QleSCA
theorem climbs (hE : c.E.Lawful) (p : Params K) (ep : Nat) (q : List _) : Up q (evolve p ep : M c (Table K) Unit Unit) := by climb
end QleSCA

namespace OriginalILA
theorem climbs (hE : c.E.Lawful) (p : Params K) (ep : Nat) (q : List _) : Up q (evolve p ep : M c Unit (Vars d K) Unit) := by climb
end OriginalILA

namespace OriginalSSO
theorem climbs (hE : c.E.Lawful) (ep : Nat) (q : List _) : Up q (evolve ep : M c Unit Unit Unit) := by climb
end OriginalSSO

namespace OriginalMFO
theorem climbs (hE : c.E.Lawful) (ep : Nat) (q : List _) : Up q (evolve ep : M c Unit Unit Unit) := by climb
end OriginalMFO

namespace OriginalPFA
theorem climbs (hE : c.E.Lawful) (ep : Nat) (q : List _) : Up q (evolve ep : M c Unit Unit Unit) := by climb
end OriginalPFA

namespace OriginalRSA
theorem climbs (hE : c.E.Lawful) (p : Params K) (ep : Nat) (q : List _) : Up q (evolve p ep : M c Unit Unit Unit) := by climb
end OriginalRSA

namespace OriginalWarSO
theorem climbs (hE : c.E.Lawful) (p : Params K) (ep : Nat) (q : List _) : Up q (evolve p ep : M c Unit (List (K × K)) Unit) := by climb
end OriginalWarSO

namespace OriginalSOS
theorem climbs (hE : c.E.Lawful) (ep : Nat) (q : List _) : Up q (evolve ep : M c Unit Unit Unit) := by climb
end OriginalSOS

namespace OriginalChOA
theorem climbs (hE : c.E.Lawful) (ep : Nat) (q : List _) : Up q (evolve ep : M c Unit Unit Unit) := by climb
end OriginalChOA

namespace OriginalSSDO
theorem climbs (hE : c.E.Lawful) (ep : Nat) (q : List _) : Up q (evolve ep : M c (Vec d K × Vec d K) Unit Unit) := by climb
end OriginalSSDO

namespace OriginalEAO
theorem climbs (hE : c.E.Lawful) (p : Params K) (ep : Nat) (q : List _) : Up q (evolve p ep : M c Unit Unit Unit) := by climb
end OriginalEAO

namespace OriginalGOA
theorem climbs (hE : c.E.Lawful) (p : Params K) (ep : Nat) (q : List _) : Up q (evolve p ep : M c Unit Unit Unit) := by climb
end OriginalGOA

namespace OriginalHBA
theorem climbs (hE : c.E.Lawful) (ep : Nat) (q : List _) : Up q (evolve ep : M c Unit Unit Unit) := by climb
end OriginalHBA

namespace OriginalServalOA
theorem climbs (hE : c.E.Lawful) (ep : Nat) (q : List _) : Up q (evolve ep : M c Unit Unit Unit) := by climb
end OriginalServalOA

namespace OriginalKLA
theorem climbs (hE : c.E.Lawful) (ep : Nat) (q : List _) : Up q (evolve ep : M c Unit Unit Unit) := by climb
end OriginalKLA

namespace OriginalBBOA
theorem climbs (hE : c.E.Lawful) (ep : Nat) (q : List _) : Up q (evolve ep : M c Unit Unit Unit) := by climb
end OriginalBBOA

namespace OriginalWaOA
theorem climbs (hE : c.E.Lawful) (ep : Nat) (q : List _) : Up q (evolve ep : M c Unit Unit Unit) := by climb
end OriginalWaOA

namespace OriginalCrayfishOA
theorem climbs (hE : c.E.Lawful) (ep : Nat) (q : List _) : Up q (evolve ep : M c Unit (Vec d K) Unit) := by climb
end OriginalCrayfishOA

namespace OriginalCGO
theorem climbs (hE : c.E.Lawful) (ep : Nat) (q : List _) : Up q (evolve ep : M c Unit Unit Unit) := by climb
end OriginalCGO

namespace OriginalWDO
theorem climbs (hE : c.E.Lawful) (p : Params K) (ep : Nat) (q : List _) : Up q (evolve p ep : M c Unit (List (Vec d K)) Unit) := by climb
end OriginalWDO

namespace OriginalMPA
theorem climbs (hE : c.E.Lawful) (ep : Nat) (q : List _) : Up q (evolve ep : M c Unit Unit Unit) := by climb
end OriginalMPA

namespace OriginalACOR
theorem climbs (hE : c.E.Lawful) (p : Params K) (ep : Nat) (q : List _) : Up q (evolve p ep : M c Unit Unit Unit) := by climb
end OriginalACOR

namespace OriginalNGO
theorem climbs (hE : c.E.Lawful) (ep : Nat) (q : List _) : Up q (evolve ep : M c Unit Unit Unit) := by climb
end OriginalNGO

namespace OriginalSTO
theorem climbs (hE : c.E.Lawful) (ep : Nat) (q : List _) : Up q (evolve ep : M c Unit Unit Unit) := by climb
end OriginalSTO

namespace OriginalOOA
theorem climbs (hE : c.E.Lawful) (ep : Nat) (q : List _) : Up q (evolve ep : M c Unit Unit Unit) := by climb
end OriginalOOA

namespace OriginalTSeedA
theorem climbs (hE : c.E.Lawful) (p : Params K) (ep : Nat) (q : List _) : Up q (evolve p ep : M c Unit Unit Unit) := by climb
end OriginalTSeedA

end Mealpy
