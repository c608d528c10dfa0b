import Verif.Alg.DE
import Verif.Alg.GWO
import Verif.Alg.GWO2
import Verif.Alg.SA
import Verif.Alg.Simple1
import Verif.Alg.Simple11
import Verif.Alg.Simple12
import Verif.Alg.Simple13
import Verif.Alg.Simple15
import Verif.Climb

/-! Generated by tools/climbs.py: populations that never lose ground, class by class. -/

set_option linter.unusedVariables false

namespace Mealpy
open Spec

variable {d : Nat} {K : Type} [Num K] {c : Cfg d K}

namespace OriginalDE
theorem climbs (hE : c.E.Lawful) (p : Params K) (ep : Nat) (q : List _) : Up q (evolve p ep : M c Unit Unit Unit) := by climb
end OriginalDE

namespace JADE
theorem climbs (hE : c.E.Lawful) (p : Params K) (ep : Nat) (q : List _) : Up q (evolve p ep : M c Unit (Attr d K) Unit) := by climb
end JADE

namespace SADE
theorem climbs (hE : c.E.Lawful) (ep : Nat) (q : List _) : Up q (evolve ep : M c Unit (Attr K) Unit) := by climb
end SADE

namespace OriginalGWO
theorem climbs (hE : c.E.Lawful) (ep : Nat) (q : List _) : Up q (evolve ep : M c Unit Unit Unit) := by climb
end OriginalGWO

namespace RW_GWO
theorem climbs (hE : c.E.Lawful) (ep : Nat) (q : List _) : Up q (evolve ep : M c Unit Unit Unit) := by climb
end RW_GWO

namespace GWO_WOA
theorem climbs (hE : c.E.Lawful) (ep : Nat) (q : List _) : Up q (evolve ep : M c Unit Unit Unit) := by climb
end GWO_WOA

namespace IGWO
theorem climbs (hE : c.E.Lawful) (p : Params K) (ep : Nat) (q : List _) : Up q (evolve p ep : M c Unit Unit Unit) := by climb
end IGWO

namespace ChaoticGWO
theorem climbs (hE : c.E.Lawful) (p : Params K) (ep : Nat) (q : List _) : Up q (evolve p ep : M c Unit K Unit) := by climb
end ChaoticGWO

namespace FuzzyGWO
theorem climbs (hE : c.E.Lawful) (b : Bool) (ep : Nat) (q : List _) : Up q (evolve b ep : M c Unit Unit Unit) := by climb
end FuzzyGWO

namespace IncrementalGWO
theorem climbs (hE : c.E.Lawful) (p : Params K) (ep : Nat) (q : List _) : Up q (evolve p ep : M c Unit Unit Unit) := by climb
end IncrementalGWO

namespace ExGWO
theorem climbs (hE : c.E.Lawful) (ep : Nat) (q : List _) : Up q (evolve ep : M c Unit Unit Unit) := by climb
end ExGWO

namespace ER_GWO
theorem climbs (hE : c.E.Lawful) (p : Params K) (ep : Nat) (q : List _) : Up q (evolve p ep : M c Unit Unit Unit) := by climb
end ER_GWO

namespace CG_GWO
theorem climbs (hE : c.E.Lawful) (ep : Nat) (q : List _) : Up q (evolve ep : M c Unit Unit Unit) := by climb
end CG_GWO

namespace OGWO
theorem climbs (hE : c.E.Lawful) (p : Params K) (ep : Nat) (q : List _) : Up q (evolve p ep : M c Unit Unit Unit) := by climb
end OGWO

namespace SwarmHC
theorem climbs (hE : c.E.Lawful) (p : Params c.popSize) (ep : Nat) (q : List _) : Up q (evolve p ep : M c Unit Unit Unit) := by climb
end SwarmHC

namespace OriginalFPA
theorem climbs (hE : c.E.Lawful) (p : Params K) (ep : Nat) (q : List _) : Up q (evolve p ep : M c Unit Unit Unit) := by climb
end OriginalFPA

namespace OriginalMGOA
theorem climbs (hE : c.E.Lawful) (p : Params K) (ep : Nat) (q : List _) : Up q (evolve p ep : M c Unit Unit Unit) := by climb
end OriginalMGOA

namespace OriginalRIME
theorem climbs (hE : c.E.Lawful) (p : Params K) (ep : Nat) (q : List _) : Up q (evolve p ep : M c Unit Unit Unit) := by climb
end OriginalRIME

namespace DevJA
theorem climbs (hE : c.E.Lawful) (ep : Nat) (q : List _) : Up q (evolve ep : M c Unit Unit Unit) := by climb
end DevJA

namespace LevyJA
theorem climbs (hE : c.E.Lawful) (ep : Nat) (q : List _) : Up q (evolve ep : M c Unit Unit Unit) := by climb
end LevyJA

namespace DevSCA
theorem climbs (hE : c.E.Lawful) (ep : Nat) (q : List _) : Up q (evolve ep : M c Unit Unit Unit) := by climb
end DevSCA

namespace OriginalSCA
theorem climbs (hE : c.E.Lawful) (ep : Nat) (q : List _) : Up q (evolve ep : M c Unit Unit Unit) := by climb
end OriginalSCA

namespace OriginalLCO
theorem climbs (hE : c.E.Lawful) (p : Params K) (ep : Nat) (q : List _) : Up q (evolve p ep : M c Unit Unit Unit) := by climb
end OriginalLCO

namespace DevLCO
theorem climbs (hE : c.E.Lawful) (p : OriginalLCO.Params K) (ep : Nat) (q : List _) : Up q (evolve p ep : M c Unit Unit Unit) := by climb
end DevLCO

namespace DevQSA
theorem climbs (hE : c.E.Lawful) (ep : Nat) (q : List _) : Up q (evolve ep : M c Unit Unit Unit) := by climb
end DevQSA

namespace OppoQSA
theorem climbs (hE : c.E.Lawful) (ep : Nat) (q : List _) : Up q (evolve ep : M c Unit Unit Unit) := by climb
end OppoQSA

namespace LevyQSA
theorem climbs (hE : c.E.Lawful) (ep : Nat) (q : List _) : Up q (evolve ep : M c Unit Unit Unit) := by climb
end LevyQSA

namespace ImprovedQSA
theorem climbs (hE : c.E.Lawful) (ep : Nat) (q : List _) : Up q (evolve ep : M c Unit Unit Unit) := by climb
end ImprovedQSA

namespace OriginalQSA
theorem climbs (hE : c.E.Lawful) (ep : Nat) (q : List _) : Up q (evolve ep : M c Unit Unit Unit) := by climb
end OriginalQSA

namespace DevSSA
theorem climbs (hE : c.E.Lawful) (p : Params K) (ep : Nat) (q : List _) : Up q (evolve p ep : M c Unit Unit Unit) := by climb
end DevSSA

namespace OriginalSSA
theorem climbs (hE : c.E.Lawful) (p : DevSSA.Params K) (ep : Nat) (q : List _) : Up q (evolve p ep : M c Unit Unit Unit) := by climb
end OriginalSSA

namespace OriginalSLO
theorem climbs (hE : c.E.Lawful) (ep : Nat) (q : List _) : Up q (evolve ep : M c Unit Unit Unit) := by climb
end OriginalSLO

namespace DevGSKA
theorem climbs (hE : c.E.Lawful) (p : Params K) (ep : Nat) (q : List _) : Up q (evolve p ep : M c Unit Unit Unit) := by climb
end DevGSKA

namespace OriginalGSKA
theorem climbs (hE : c.E.Lawful) (p : Params K) (ep : Nat) (q : List _) : Up q (evolve p ep : M c Unit Unit Unit) := by climb
end OriginalGSKA

namespace DevFBIO
theorem climbs (hE : c.E.Lawful) (ep : Nat) (q : List _) : Up q (evolve ep : M c Unit Unit Unit) := by climb
end DevFBIO

namespace OriginalFBIO
theorem climbs (hE : c.E.Lawful) (ep : Nat) (q : List _) : Up q (evolve ep : M c Unit Unit Unit) := by climb
end OriginalFBIO

namespace OriginalMRFO
theorem climbs (hE : c.E.Lawful) (p : K) (ep : Nat) (q : List _) : Up q (evolve p ep : M c Unit Unit Unit) := by climb
end OriginalMRFO

namespace WMQIMRFO
theorem climbs (hE : c.E.Lawful) (p : Params K) (ep : Nat) (q : List _) : Up q (evolve p ep : M c Unit Unit Unit) := by climb
end WMQIMRFO

namespace OriginalBA
theorem climbs (hE : c.E.Lawful) (p : Params K) (ep : Nat) (q : List _) : Up q (evolve p ep : M c (OriginalBA.Att d K) Unit Unit) := by climb
end OriginalBA

namespace AdaptiveBA
theorem climbs (hE : c.E.Lawful) (p : Params K) (ep : Nat) (q : List _) : Up q (evolve p ep : M c (AdaptiveBA.Att d K) Unit Unit) := by climb
end AdaptiveBA

namespace DevEFO
theorem climbs (hE : c.E.Lawful) (p : Params K) (ep : Nat) (q : List _) : Up q (evolve p ep : M c Unit Unit Unit) := by climb
end DevEFO

namespace OriginalNWOA
theorem climbs (hE : c.E.Lawful) (p : Params K) (ep : Nat) (q : List _) : Up q (evolve p ep : M c Unit K Unit) := by climb
end OriginalNWOA

namespace OriginalNO
theorem climbs (hE : c.E.Lawful) (p : Params K) (ep : Nat) (q : List _) : Up q (evolve p ep : M c Unit Unit Unit) := by climb
end OriginalNO

namespace OriginalLSO
theorem climbs (hE : c.E.Lawful) (p : Params K) (ep : Nat) (q : List _) : Up q (evolve p ep : M c Unit Unit Unit) := by climb
end OriginalLSO

namespace DevLSO
theorem climbs (hE : c.E.Lawful) (p : Params K) (ep : Nat) (q : List _) : Up q (evolve p ep : M c Unit Unit Unit) := by climb
end DevLSO

namespace OriginalFLA
theorem climbs (hE : c.E.Lawful) (p : Params K) (ep : Nat) (q : List _) : Up q (evolve p ep : M c Unit Unit Unit) := by climb
end OriginalFLA

namespace OriginalSFO
theorem climbs (hE : c.E.Lawful) (p : Params K) (ep : Nat) (q : List _) : Up q (evolve p ep : M c Unit (Sardines d K) Unit) := by climb
end OriginalSFO

namespace ImprovedSFO
theorem climbs (hE : c.E.Lawful) (p : K) (ep : Nat) (q : List _) : Up q (evolve p ep : M c Unit (OriginalSFO.Sardines d K) Unit) := by climb
end ImprovedSFO

namespace OriginalAGTO
theorem climbs (hE : c.E.Lawful) (p : Params K) (ep : Nat) (q : List _) : Up q (evolve p ep : M c Unit Unit Unit) := by climb
end OriginalAGTO

namespace OriginalGTO
theorem climbs (hE : c.E.Lawful) (p : Params K) (ep : Nat) (q : List _) : Up q (evolve p ep : M c Unit Unit Unit) := by climb
end OriginalGTO

end Mealpy
