import Verif.Rescale
import Verif.Alg.DE
import Verif.Alg.GWO
import Verif.Alg.SA
import Verif.Alg.Simple1
import Verif.Alg.Simple12
import Verif.Alg.Simple13
import Verif.Alg.Simple15
import Verif.Alg.Simple16
import Verif.Alg.Simple2
import Verif.Alg.Simple3
import Verif.Alg.Simple4
import Verif.Alg.Simple5
import Verif.Alg.Simple6
import Verif.Alg.Simple8

/-!
# Algorithms that use fitness values only to compare agents

For each of them `sim` shows that `evolve` on another fitness scale does the same (`Algo.Sim`).
-/

set_option linter.unusedVariables false

namespace Mealpy

variable {d : Nat} {K : Type} [Num K] {c : Cfg d K} {g : K → K}

namespace OriginalDE

theorem sim (hg : OrderKept c g) (p : Params K) : (algo p : Algo c Unit Unit).Sim (g := g) (algo p) := by
  refine Algo.Sim.plain fun ep => ?_
  unfold evolve
  simm hg
  repeat (any_goals (first | (at_head OriginalDE.mutation; unfold OriginalDE.mutation) | (at_head OriginalDE.mk; unfold OriginalDE.mk) | (at_head OriginalDE.evolve; unfold OriginalDE.evolve) | (at_head wolves; unfold wolves) | (at_head oppositionSol; unfold oppositionSol) | (at_head pickWithout; unfold pickWithout) | (at_head meanOfBest; unfold meanOfBest) | (at_head repM; unfold repM)); all_goals (try simm hg); all_goals (try simd hg))

end OriginalDE

namespace OriginalGWO

theorem sim (hg : OrderKept c g)  : (algo  : Algo c Unit Unit).Sim (g := g) (algo ) := by
  refine Algo.Sim.plain fun ep => ?_
  unfold evolve
  simm hg
  repeat (any_goals (first | (at_head OriginalGWO.evolve; unfold OriginalGWO.evolve) | (at_head wolves; unfold wolves) | (at_head oppositionSol; unfold oppositionSol) | (at_head pickWithout; unfold pickWithout) | (at_head meanOfBest; unfold meanOfBest) | (at_head repM; unfold repM)); all_goals (try simm hg); all_goals (try simd hg))

end OriginalGWO

namespace GWO_WOA

theorem sim (hg : OrderKept c g)  : (algo  : Algo c Unit Unit).Sim (g := g) (algo ) := by
  refine Algo.Sim.plain fun ep => ?_
  unfold evolve
  simm hg
  repeat (any_goals (first | (at_head GWO_WOA.evolve; unfold GWO_WOA.evolve) | (at_head wolves; unfold wolves) | (at_head oppositionSol; unfold oppositionSol) | (at_head pickWithout; unfold pickWithout) | (at_head meanOfBest; unfold meanOfBest) | (at_head repM; unfold repM)); all_goals (try simm hg); all_goals (try simd hg))

end GWO_WOA

namespace IGWO

theorem sim (hg : OrderKept c g) (p : Params K) : (algo p : Algo c Unit Unit).Sim (g := g) (algo p) := by
  refine Algo.Sim.plain fun ep => ?_
  unfold evolve
  simm hg
  repeat (any_goals (first | (at_head IGWO.evolve; unfold IGWO.evolve) | (at_head wolves; unfold wolves) | (at_head oppositionSol; unfold oppositionSol) | (at_head pickWithout; unfold pickWithout) | (at_head meanOfBest; unfold meanOfBest) | (at_head repM; unfold repM)); all_goals (try simm hg); all_goals (try simd hg))

end IGWO

namespace FuzzyGWO

theorem sim (hg : OrderKept c g) (increase : Bool) : (algo increase : Algo c Unit Unit).Sim (g := g) (algo increase) := by
  refine Algo.Sim.plain fun ep => ?_
  unfold evolve
  simm hg
  repeat (any_goals (first | (at_head FuzzyGWO.evolve; unfold FuzzyGWO.evolve) | (at_head wolves; unfold wolves) | (at_head oppositionSol; unfold oppositionSol) | (at_head pickWithout; unfold pickWithout) | (at_head meanOfBest; unfold meanOfBest) | (at_head repM; unfold repM)); all_goals (try simm hg); all_goals (try simd hg))

end FuzzyGWO

namespace IncrementalGWO

theorem sim (hg : OrderKept c g) (p : Params K) : (algo p : Algo c Unit Unit).Sim (g := g) (algo p) := by
  refine Algo.Sim.plain fun ep => ?_
  unfold evolve
  simm hg
  repeat (any_goals (first | (at_head IncrementalGWO.evolve; unfold IncrementalGWO.evolve) | (at_head wolves; unfold wolves) | (at_head oppositionSol; unfold oppositionSol) | (at_head pickWithout; unfold pickWithout) | (at_head meanOfBest; unfold meanOfBest) | (at_head repM; unfold repM)); all_goals (try simm hg); all_goals (try simd hg))

end IncrementalGWO

namespace ExGWO

theorem sim (hg : OrderKept c g)  : (algo  : Algo c Unit Unit).Sim (g := g) (algo ) := by
  refine Algo.Sim.plain fun ep => ?_
  unfold evolve
  simm hg
  repeat (any_goals (first | (at_head ExGWO.around; unfold ExGWO.around) | (at_head ExGWO.evolve; unfold ExGWO.evolve) | (at_head wolves; unfold wolves) | (at_head oppositionSol; unfold oppositionSol) | (at_head pickWithout; unfold pickWithout) | (at_head meanOfBest; unfold meanOfBest) | (at_head repM; unfold repM)); all_goals (try simm hg); all_goals (try simd hg))

end ExGWO

namespace ER_GWO

theorem sim (hg : OrderKept c g) (p : Params K) : (algo p : Algo c Unit Unit).Sim (g := g) (algo p) := by
  refine Algo.Sim.plain fun ep => ?_
  unfold evolve
  simm hg
  repeat (any_goals (first | (at_head ER_GWO.norm; unfold ER_GWO.norm) | (at_head ER_GWO.evolve; unfold ER_GWO.evolve) | (at_head wolves; unfold wolves) | (at_head oppositionSol; unfold oppositionSol) | (at_head pickWithout; unfold pickWithout) | (at_head meanOfBest; unfold meanOfBest) | (at_head repM; unfold repM)); all_goals (try simm hg); all_goals (try simd hg))

end ER_GWO

namespace OriginalHC

theorem sim (hg : OrderKept c g) (p : Params) : (algo p : Algo c Unit Unit).Sim (g := g) (algo p) := by
  refine Algo.Sim.plain fun ep => ?_
  unfold evolve
  simm hg
  repeat (any_goals (first | (at_head OriginalHC.evolve; unfold OriginalHC.evolve) | (at_head OriginalHC.inv; unfold OriginalHC.inv) | (at_head wolves; unfold wolves) | (at_head oppositionSol; unfold oppositionSol) | (at_head pickWithout; unfold pickWithout) | (at_head meanOfBest; unfold meanOfBest) | (at_head repM; unfold repM)); all_goals (try simm hg); all_goals (try simd hg))

end OriginalHC

namespace OriginalBMO

theorem sim (hg : OrderKept c g) (p : Params) : (algo p : Algo c Unit Unit).Sim (g := g) (algo p) := by
  refine Algo.Sim.plain fun ep => ?_
  unfold evolve
  simm hg
  repeat (any_goals (first | (at_head OriginalBMO.evolve; unfold OriginalBMO.evolve) | (at_head wolves; unfold wolves) | (at_head oppositionSol; unfold oppositionSol) | (at_head pickWithout; unfold pickWithout) | (at_head meanOfBest; unfold meanOfBest) | (at_head repM; unfold repM)); all_goals (try simm hg); all_goals (try simd hg))

end OriginalBMO

namespace OriginalFPA

theorem sim (hg : OrderKept c g) (p : Params K) : (algo p : Algo c Unit Unit).Sim (g := g) (algo p) := by
  refine Algo.Sim.plain fun ep => ?_
  unfold evolve
  simm hg
  repeat (any_goals (first | (at_head OriginalFPA.amend; unfold OriginalFPA.amend) | (at_head OriginalFPA.evolve; unfold OriginalFPA.evolve) | (at_head wolves; unfold wolves) | (at_head oppositionSol; unfold oppositionSol) | (at_head pickWithout; unfold pickWithout) | (at_head meanOfBest; unfold meanOfBest) | (at_head repM; unfold repM)); all_goals (try simm hg); all_goals (try simd hg))

end OriginalFPA

namespace OriginalTSA

theorem sim (hg : OrderKept c g)  : (algo  : Algo c Unit Unit).Sim (g := g) (algo ) := by
  refine Algo.Sim.plain fun ep => ?_
  unfold evolve
  simm hg
  repeat (any_goals (first | (at_head OriginalTSA.evolve; unfold OriginalTSA.evolve) | (at_head wolves; unfold wolves) | (at_head oppositionSol; unfold oppositionSol) | (at_head pickWithout; unfold pickWithout) | (at_head meanOfBest; unfold meanOfBest) | (at_head repM; unfold repM)); all_goals (try simm hg); all_goals (try simd hg))

end OriginalTSA

namespace OriginalMGOA

theorem sim (hg : OrderKept c g) (p : Params K) : (algo p : Algo c Unit Unit).Sim (g := g) (algo p) := by
  refine Algo.Sim.plain fun ep => ?_
  unfold evolve
  simm hg
  repeat (any_goals (first | (at_head OriginalMGOA.nDims; unfold OriginalMGOA.nDims) | (at_head OriginalMGOA.evolve; unfold OriginalMGOA.evolve) | (at_head wolves; unfold wolves) | (at_head oppositionSol; unfold oppositionSol) | (at_head pickWithout; unfold pickWithout) | (at_head meanOfBest; unfold meanOfBest) | (at_head repM; unfold repM)); all_goals (try simm hg); all_goals (try simd hg))

end OriginalMGOA

namespace OriginalCircleSA

theorem sim (hg : OrderKept c g) (p : Params K) : (algo p : Algo c Unit Unit).Sim (g := g) (algo p) := by
  refine Algo.Sim.plain fun ep => ?_
  unfold evolve
  simm hg
  repeat (any_goals (first | (at_head OriginalCircleSA.evolve; unfold OriginalCircleSA.evolve) | (at_head wolves; unfold wolves) | (at_head oppositionSol; unfold oppositionSol) | (at_head pickWithout; unfold pickWithout) | (at_head meanOfBest; unfold meanOfBest) | (at_head repM; unfold repM)); all_goals (try simm hg); all_goals (try simd hg))

end OriginalCircleSA

namespace OriginalSCSO

theorem sim (hg : OrderKept c g)  : (algo  : Algo c Unit Unit).Sim (g := g) (algo ) := by
  refine Algo.Sim.plain fun ep => ?_
  unfold evolve
  simm hg
  repeat (any_goals (first | (at_head OriginalSCSO.evolve; unfold OriginalSCSO.evolve) | (at_head wolves; unfold wolves) | (at_head oppositionSol; unfold oppositionSol) | (at_head pickWithout; unfold pickWithout) | (at_head meanOfBest; unfold meanOfBest) | (at_head repM; unfold repM)); all_goals (try simm hg); all_goals (try simd hg))

end OriginalSCSO

namespace DevSCA

theorem sim (hg : OrderKept c g)  : (algo  : Algo c Unit Unit).Sim (g := g) (algo ) := by
  refine Algo.Sim.plain fun ep => ?_
  unfold evolve
  simm hg
  repeat (any_goals (first | (at_head DevSCA.evolve; unfold DevSCA.evolve) | (at_head wolves; unfold wolves) | (at_head oppositionSol; unfold oppositionSol) | (at_head pickWithout; unfold pickWithout) | (at_head meanOfBest; unfold meanOfBest) | (at_head repM; unfold repM)); all_goals (try simm hg); all_goals (try simd hg))

end DevSCA

namespace OriginalSCA

theorem sim (hg : OrderKept c g)  : (algo  : Algo c Unit Unit).Sim (g := g) (algo ) := by
  refine Algo.Sim.plain fun ep => ?_
  unfold evolve
  simm hg
  repeat (any_goals (first | (at_head OriginalSCA.evolve; unfold OriginalSCA.evolve) | (at_head wolves; unfold wolves) | (at_head oppositionSol; unfold oppositionSol) | (at_head pickWithout; unfold pickWithout) | (at_head meanOfBest; unfold meanOfBest) | (at_head repM; unfold repM)); all_goals (try simm hg); all_goals (try simd hg))

end OriginalSCA

namespace OriginalLCO

theorem sim (hg : OrderKept c g) (p : Params K) : (algo p : Algo c Unit Unit).Sim (g := g) (algo p) := by
  refine Algo.Sim.plain fun ep => ?_
  unfold evolve
  simm hg
  repeat (any_goals (first | (at_head OriginalLCO.evolve; unfold OriginalLCO.evolve) | (at_head wolves; unfold wolves) | (at_head oppositionSol; unfold oppositionSol) | (at_head pickWithout; unfold pickWithout) | (at_head meanOfBest; unfold meanOfBest) | (at_head repM; unfold repM)); all_goals (try simm hg); all_goals (try simd hg))

end OriginalLCO

namespace DevLCO

theorem sim (hg : OrderKept c g) (p : OriginalLCO.Params K) : (algo p : Algo c Unit Unit).Sim (g := g) (algo p) := by
  refine Algo.Sim.plain fun ep => ?_
  unfold evolve
  simm hg
  repeat (any_goals (first | (at_head DevLCO.evolve; unfold DevLCO.evolve) | (at_head wolves; unfold wolves) | (at_head oppositionSol; unfold oppositionSol) | (at_head pickWithout; unfold pickWithout) | (at_head meanOfBest; unfold meanOfBest) | (at_head repM; unfold repM)); all_goals (try simm hg); all_goals (try simd hg))

end DevLCO

namespace OriginalSLO

theorem sim (hg : OrderKept c g)  : (algo  : Algo c Unit Unit).Sim (g := g) (algo ) := by
  refine Algo.Sim.plain fun ep => ?_
  unfold evolve
  simm hg
  repeat (any_goals (first | (at_head OriginalSLO.move; unfold OriginalSLO.move) | (at_head OriginalSLO.evolve; unfold OriginalSLO.evolve) | (at_head wolves; unfold wolves) | (at_head oppositionSol; unfold oppositionSol) | (at_head pickWithout; unfold pickWithout) | (at_head meanOfBest; unfold meanOfBest) | (at_head repM; unfold repM)); all_goals (try simm hg); all_goals (try simd hg))

end OriginalSLO

namespace DevGSKA

theorem sim (hg : OrderKept c g) (p : Params K) : (algo p : Algo c Unit Unit).Sim (g := g) (algo p) := by
  refine Algo.Sim.plain fun ep => ?_
  unfold evolve
  simm hg
  repeat (any_goals (first | (at_head DevGSKA.id1; unfold DevGSKA.id1) | (at_head DevGSKA.id2; unfold DevGSKA.id2) | (at_head DevGSKA.near; unfold DevGSKA.near) | (at_head DevGSKA.Groups; unfold DevGSKA.Groups) | (at_head DevGSKA.share; unfold DevGSKA.share) | (at_head DevGSKA.evolve; unfold DevGSKA.evolve) | (at_head wolves; unfold wolves) | (at_head oppositionSol; unfold oppositionSol) | (at_head pickWithout; unfold pickWithout) | (at_head meanOfBest; unfold meanOfBest) | (at_head repM; unfold repM)); all_goals (try simm hg); all_goals (try simd hg))

end DevGSKA

namespace DevEFO

theorem sim (hg : OrderKept c g) (p : Params K) : (algo p : Algo c Unit Unit).Sim (g := g) (algo p) := by
  refine Algo.Sim.plain fun ep => ?_
  unfold evolve
  simm hg
  repeat (any_goals (first | (at_head DevEFO.top; unfold DevEFO.top) | (at_head DevEFO.mid; unfold DevEFO.mid) | (at_head DevEFO.low; unfold DevEFO.low) | (at_head DevEFO.phi; unfold DevEFO.phi) | (at_head DevEFO.Fields; unfold DevEFO.Fields) | (at_head DevEFO.move; unfold DevEFO.move) | (at_head DevEFO.evolve; unfold DevEFO.evolve) | (at_head wolves; unfold wolves) | (at_head oppositionSol; unfold oppositionSol) | (at_head pickWithout; unfold pickWithout) | (at_head meanOfBest; unfold meanOfBest) | (at_head repM; unfold repM)); all_goals (try simm hg); all_goals (try simd hg))

end DevEFO

namespace OriginalNO

theorem sim (hg : OrderKept c g) (p : Params K) : (algo p : Algo c Unit Unit).Sim (g := g) (algo p) := by
  refine Algo.Sim.plain fun ep => ?_
  unfold evolve
  simm hg
  repeat (any_goals (first | (at_head OriginalNO.move; unfold OriginalNO.move) | (at_head OriginalNO.evolve; unfold OriginalNO.evolve) | (at_head wolves; unfold wolves) | (at_head oppositionSol; unfold oppositionSol) | (at_head pickWithout; unfold pickWithout) | (at_head meanOfBest; unfold meanOfBest) | (at_head repM; unfold repM)); all_goals (try simm hg); all_goals (try simd hg))

end OriginalNO

namespace OriginalWSO

theorem sim (hg : OrderKept c g) (p : Params K) : (algo p : Algo c Unit Unit).Sim (g := g) (algo p) := by
  refine Algo.Sim.plain fun ep => ?_
  unfold evolve
  simm hg
  repeat (any_goals (first | (at_head OriginalWSO.Indexes; unfold OriginalWSO.Indexes) | (at_head OriginalWSO.moves; unfold OriginalWSO.moves) | (at_head OriginalWSO.evolve; unfold OriginalWSO.evolve) | (at_head wolves; unfold wolves) | (at_head oppositionSol; unfold oppositionSol) | (at_head pickWithout; unfold pickWithout) | (at_head meanOfBest; unfold meanOfBest) | (at_head repM; unfold repM)); all_goals (try simm hg); all_goals (try simd hg))

end OriginalWSO

namespace Simple_CMA_ES

theorem sim (hg : OrderKept c g)  : (algo  : Algo c Unit Unit).Sim (g := g) (algo ) := by
  refine Algo.Sim.plain fun ep => ?_
  unfold evolve
  simm hg
  repeat (any_goals (first | (at_head Simple_CMA_ES.evolve; unfold Simple_CMA_ES.evolve) | (at_head wolves; unfold wolves) | (at_head oppositionSol; unfold oppositionSol) | (at_head pickWithout; unfold pickWithout) | (at_head meanOfBest; unfold meanOfBest) | (at_head repM; unfold repM)); all_goals (try simm hg); all_goals (try simd hg))

end Simple_CMA_ES

namespace OriginalWOA

theorem sim (hg : OrderKept c g)  : (algo  : Algo c Unit Unit).Sim (g := g) (algo ) := by
  refine Algo.Sim.plain fun ep => ?_
  unfold evolve
  simm hg
  repeat (any_goals (first | (at_head OriginalWOA.move; unfold OriginalWOA.move) | (at_head OriginalWOA.evolve; unfold OriginalWOA.evolve) | (at_head wolves; unfold wolves) | (at_head oppositionSol; unfold oppositionSol) | (at_head pickWithout; unfold pickWithout) | (at_head meanOfBest; unfold meanOfBest) | (at_head repM; unfold repM)); all_goals (try simm hg); all_goals (try simd hg))

end OriginalWOA

namespace DevWOA

theorem sim (hg : OrderKept c g)  : (algo  : Algo c Unit Unit).Sim (g := g) (algo ) := by
  refine Algo.Sim.plain fun ep => ?_
  unfold evolve
  simm hg
  repeat (any_goals (first | (at_head DevWOA.evolve; unfold DevWOA.evolve) | (at_head wolves; unfold wolves) | (at_head oppositionSol; unfold oppositionSol) | (at_head pickWithout; unfold pickWithout) | (at_head meanOfBest; unfold meanOfBest) | (at_head repM; unfold repM)); all_goals (try simm hg); all_goals (try simd hg))

end DevWOA

namespace OriginalPOA

theorem sim (hg : OrderKept c g)  : (algo  : Algo c Unit Unit).Sim (g := g) (algo ) := by
  refine Algo.Sim.plain fun ep => ?_
  unfold evolve
  simm hg
  repeat (any_goals (first | (at_head OriginalPOA.evolve; unfold OriginalPOA.evolve) | (at_head wolves; unfold wolves) | (at_head oppositionSol; unfold oppositionSol) | (at_head pickWithout; unfold pickWithout) | (at_head meanOfBest; unfold meanOfBest) | (at_head repM; unfold repM)); all_goals (try simm hg); all_goals (try simd hg))

end OriginalPOA

namespace DevVCS

theorem sim (hg : OrderKept c g) (p : Params K) : (algo p : Algo c Unit Unit).Sim (g := g) (algo p) := by
  refine Algo.Sim.plain fun ep => ?_
  unfold evolve
  simm hg
  repeat (any_goals (first | (at_head DevVCS.xmean; unfold DevVCS.xmean) | (at_head DevVCS.third; unfold DevVCS.third) | (at_head DevVCS.evolve; unfold DevVCS.evolve) | (at_head wolves; unfold wolves) | (at_head oppositionSol; unfold oppositionSol) | (at_head pickWithout; unfold pickWithout) | (at_head meanOfBest; unfold meanOfBest) | (at_head repM; unfold repM)); all_goals (try simm hg); all_goals (try simd hg))

end DevVCS

namespace DevSPBO

theorem sim (hg : OrderKept c g)  : (algo  : Algo c Unit Unit).Sim (g := g) (algo ) := by
  refine Algo.Sim.plain fun ep => ?_
  unfold evolve
  simm hg
  repeat (any_goals (first | (at_head DevSPBO.evolve; unfold DevSPBO.evolve) | (at_head wolves; unfold wolves) | (at_head oppositionSol; unfold oppositionSol) | (at_head pickWithout; unfold pickWithout) | (at_head meanOfBest; unfold meanOfBest) | (at_head repM; unfold repM)); all_goals (try simm hg); all_goals (try simd hg))

end DevSPBO

namespace OriginalAOA

theorem sim (hg : OrderKept c g) (p : Params K) : (algo p : Algo c Unit Unit).Sim (g := g) (algo p) := by
  refine Algo.Sim.plain fun ep => ?_
  unfold evolve
  simm hg
  repeat (any_goals (first | (at_head OriginalAOA.evolve; unfold OriginalAOA.evolve) | (at_head wolves; unfold wolves) | (at_head oppositionSol; unfold oppositionSol) | (at_head pickWithout; unfold pickWithout) | (at_head meanOfBest; unfold meanOfBest) | (at_head repM; unfold repM)); all_goals (try simm hg); all_goals (try simd hg))

end OriginalAOA

namespace OriginalSSO

theorem sim (hg : OrderKept c g)  : (algo  : Algo c Unit Unit).Sim (g := g) (algo ) := by
  refine Algo.Sim.plain fun ep => ?_
  unfold evolve
  simm hg
  repeat (any_goals (first | (at_head OriginalSSO.evolve; unfold OriginalSSO.evolve) | (at_head wolves; unfold wolves) | (at_head oppositionSol; unfold oppositionSol) | (at_head pickWithout; unfold pickWithout) | (at_head meanOfBest; unfold meanOfBest) | (at_head repM; unfold repM)); all_goals (try simm hg); all_goals (try simd hg))

end OriginalSSO

namespace OriginalMFO

theorem sim (hg : OrderKept c g)  : (algo  : Algo c Unit Unit).Sim (g := g) (algo ) := by
  refine Algo.Sim.plain fun ep => ?_
  unfold evolve
  simm hg
  repeat (any_goals (first | (at_head OriginalMFO.evolve; unfold OriginalMFO.evolve) | (at_head wolves; unfold wolves) | (at_head oppositionSol; unfold oppositionSol) | (at_head pickWithout; unfold pickWithout) | (at_head meanOfBest; unfold meanOfBest) | (at_head repM; unfold repM)); all_goals (try simm hg); all_goals (try simd hg))

end OriginalMFO

namespace OriginalRSA

theorem sim (hg : OrderKept c g) (p : Params K) : (algo p : Algo c Unit Unit).Sim (g := g) (algo p) := by
  refine Algo.Sim.plain fun ep => ?_
  unfold evolve
  simm hg
  repeat (any_goals (first | (at_head OriginalRSA.evolve; unfold OriginalRSA.evolve) | (at_head wolves; unfold wolves) | (at_head oppositionSol; unfold oppositionSol) | (at_head pickWithout; unfold pickWithout) | (at_head meanOfBest; unfold meanOfBest) | (at_head repM; unfold repM)); all_goals (try simm hg); all_goals (try simd hg))

end OriginalRSA

namespace OriginalChOA

theorem sim (hg : OrderKept c g)  : (algo  : Algo c Unit Unit).Sim (g := g) (algo ) := by
  refine Algo.Sim.plain fun ep => ?_
  unfold evolve
  simm hg
  repeat (any_goals (first | (at_head OriginalChOA.pull; unfold OriginalChOA.pull) | (at_head OriginalChOA.evolve; unfold OriginalChOA.evolve) | (at_head wolves; unfold wolves) | (at_head oppositionSol; unfold oppositionSol) | (at_head pickWithout; unfold pickWithout) | (at_head meanOfBest; unfold meanOfBest) | (at_head repM; unfold repM)); all_goals (try simm hg); all_goals (try simd hg))

end OriginalChOA

namespace OriginalGOA

theorem sim (hg : OrderKept c g) (p : Params K) : (algo p : Algo c Unit Unit).Sim (g := g) (algo p) := by
  refine Algo.Sim.plain fun ep => ?_
  unfold evolve
  simm hg
  repeat (any_goals (first | (at_head OriginalGOA.sFun; unfold OriginalGOA.sFun) | (at_head OriginalGOA.evolve; unfold OriginalGOA.evolve) | (at_head wolves; unfold wolves) | (at_head oppositionSol; unfold oppositionSol) | (at_head pickWithout; unfold pickWithout) | (at_head meanOfBest; unfold meanOfBest) | (at_head repM; unfold repM)); all_goals (try simm hg); all_goals (try simd hg))

end OriginalGOA

namespace OriginalHBA

theorem sim (hg : OrderKept c g)  : (algo  : Algo c Unit Unit).Sim (g := g) (algo ) := by
  refine Algo.Sim.plain fun ep => ?_
  unfold evolve
  simm hg
  repeat (any_goals (first | (at_head OriginalHBA.intensity; unfold OriginalHBA.intensity) | (at_head OriginalHBA.evolve; unfold OriginalHBA.evolve) | (at_head wolves; unfold wolves) | (at_head oppositionSol; unfold oppositionSol) | (at_head pickWithout; unfold pickWithout) | (at_head meanOfBest; unfold meanOfBest) | (at_head repM; unfold repM)); all_goals (try simm hg); all_goals (try simd hg))

end OriginalHBA

namespace OriginalServalOA

theorem sim (hg : OrderKept c g)  : (algo  : Algo c Unit Unit).Sim (g := g) (algo ) := by
  refine Algo.Sim.plain fun ep => ?_
  unfold evolve
  simm hg
  repeat (any_goals (first | (at_head OriginalServalOA.round; unfold OriginalServalOA.round) | (at_head OriginalServalOA.evolve; unfold OriginalServalOA.evolve) | (at_head wolves; unfold wolves) | (at_head oppositionSol; unfold oppositionSol) | (at_head pickWithout; unfold pickWithout) | (at_head meanOfBest; unfold meanOfBest) | (at_head repM; unfold repM)); all_goals (try simm hg); all_goals (try simd hg))

end OriginalServalOA

namespace OriginalWaOA

theorem sim (hg : OrderKept c g)  : (algo  : Algo c Unit Unit).Sim (g := g) (algo ) := by
  refine Algo.Sim.plain fun ep => ?_
  unfold evolve
  simm hg
  repeat (any_goals (first | (at_head OriginalWaOA.round; unfold OriginalWaOA.round) | (at_head OriginalWaOA.evolve; unfold OriginalWaOA.evolve) | (at_head wolves; unfold wolves) | (at_head oppositionSol; unfold oppositionSol) | (at_head pickWithout; unfold pickWithout) | (at_head meanOfBest; unfold meanOfBest) | (at_head repM; unfold repM)); all_goals (try simm hg); all_goals (try simd hg))

end OriginalWaOA

namespace OriginalACOR

theorem sim (hg : OrderKept c g) (p : Params K) : (algo p : Algo c Unit Unit).Sim (g := g) (algo p) := by
  refine Algo.Sim.plain fun ep => ?_
  unfold evolve
  simm hg
  repeat (any_goals (first | (at_head OriginalACOR.probs; unfold OriginalACOR.probs) | (at_head OriginalACOR.evolve; unfold OriginalACOR.evolve) | (at_head wolves; unfold wolves) | (at_head oppositionSol; unfold oppositionSol) | (at_head pickWithout; unfold pickWithout) | (at_head meanOfBest; unfold meanOfBest) | (at_head repM; unfold repM)); all_goals (try simm hg); all_goals (try simd hg))

end OriginalACOR

namespace OriginalFFO

theorem sim (hg : OrderKept c g)  : (algo  : Algo c Unit Unit).Sim (g := g) (algo ) := by
  refine Algo.Sim.plain fun ep => ?_
  unfold evolve
  simm hg
  repeat (any_goals (first | (at_head OriginalFFO.round; unfold OriginalFFO.round) | (at_head OriginalFFO.evolve; unfold OriginalFFO.evolve) | (at_head wolves; unfold wolves) | (at_head oppositionSol; unfold oppositionSol) | (at_head pickWithout; unfold pickWithout) | (at_head meanOfBest; unfold meanOfBest) | (at_head repM; unfold repM)); all_goals (try simm hg); all_goals (try simd hg))

end OriginalFFO

namespace OriginalTDO

theorem sim (hg : OrderKept c g)  : (algo  : Algo c Unit Unit).Sim (g := g) (algo ) := by
  refine Algo.Sim.plain fun ep => ?_
  unfold evolve
  simm hg
  repeat (any_goals (first | (at_head OriginalTDO.round; unfold OriginalTDO.round) | (at_head OriginalTDO.evolve; unfold OriginalTDO.evolve) | (at_head wolves; unfold wolves) | (at_head oppositionSol; unfold oppositionSol) | (at_head pickWithout; unfold pickWithout) | (at_head meanOfBest; unfold meanOfBest) | (at_head repM; unfold repM)); all_goals (try simm hg); all_goals (try simd hg))

end OriginalTDO

namespace OriginalSBOA

theorem sim (hg : OrderKept c g)  : (algo  : Algo c Unit Unit).Sim (g := g) (algo ) := by
  refine Algo.Sim.plain fun ep => ?_
  unfold evolve
  simm hg
  repeat (any_goals (first | (at_head OriginalSBOA.evolve; unfold OriginalSBOA.evolve) | (at_head wolves; unfold wolves) | (at_head oppositionSol; unfold oppositionSol) | (at_head pickWithout; unfold pickWithout) | (at_head meanOfBest; unfold meanOfBest) | (at_head repM; unfold repM)); all_goals (try simm hg); all_goals (try simd hg))

end OriginalSBOA

namespace OriginalZOA

theorem sim (hg : OrderKept c g)  : (algo  : Algo c Unit Unit).Sim (g := g) (algo ) := by
  refine Algo.Sim.plain fun ep => ?_
  unfold evolve
  simm hg
  repeat (any_goals (first | (at_head OriginalZOA.evolve; unfold OriginalZOA.evolve) | (at_head wolves; unfold wolves) | (at_head oppositionSol; unfold oppositionSol) | (at_head pickWithout; unfold pickWithout) | (at_head meanOfBest; unfold meanOfBest) | (at_head repM; unfold repM)); all_goals (try simm hg); all_goals (try simd hg))

end OriginalZOA

namespace OriginalAVOA

theorem sim (hg : OrderKept c g) (p : Params K) : (algo p : Algo c Unit Unit).Sim (g := g) (algo p) := by
  refine Algo.Sim.plain fun ep => ?_
  unfold evolve
  simm hg
  repeat (any_goals (first | (at_head OriginalAVOA.evolve; unfold OriginalAVOA.evolve) | (at_head wolves; unfold wolves) | (at_head oppositionSol; unfold oppositionSol) | (at_head pickWithout; unfold pickWithout) | (at_head meanOfBest; unfold meanOfBest) | (at_head repM; unfold repM)); all_goals (try simm hg); all_goals (try simd hg))

end OriginalAVOA

namespace DevSOA

theorem sim (hg : OrderKept c g) (p : K) : (algo p : Algo c Unit Unit).Sim (g := g) (algo p) := by
  refine Algo.Sim.plain fun ep => ?_
  unfold evolve
  simm hg
  repeat (any_goals (first | (at_head DevSOA.spiral; unfold DevSOA.spiral) | (at_head DevSOA.evolve; unfold DevSOA.evolve) | (at_head wolves; unfold wolves) | (at_head oppositionSol; unfold oppositionSol) | (at_head pickWithout; unfold pickWithout) | (at_head meanOfBest; unfold meanOfBest) | (at_head repM; unfold repM)); all_goals (try simm hg); all_goals (try simd hg))

end DevSOA

namespace OriginalSOA

theorem sim (hg : OrderKept c g) (p : K) : (algo p : Algo c Unit Unit).Sim (g := g) (algo p) := by
  refine Algo.Sim.plain fun ep => ?_
  unfold evolve
  simm hg
  repeat (any_goals (first | (at_head OriginalSOA.evolve; unfold OriginalSOA.evolve) | (at_head wolves; unfold wolves) | (at_head oppositionSol; unfold oppositionSol) | (at_head pickWithout; unfold pickWithout) | (at_head meanOfBest; unfold meanOfBest) | (at_head repM; unfold repM)); all_goals (try simm hg); all_goals (try simd hg))

end OriginalSOA

namespace OriginalSOO

theorem sim (hg : OrderKept c g)  : (algo  : Algo c Unit Unit).Sim (g := g) (algo ) := by
  refine Algo.Sim.plain fun ep => ?_
  unfold evolve
  simm hg
  repeat (any_goals (first | (at_head OriginalSOO.evolve; unfold OriginalSOO.evolve) | (at_head wolves; unfold wolves) | (at_head oppositionSol; unfold oppositionSol) | (at_head pickWithout; unfold pickWithout) | (at_head meanOfBest; unfold meanOfBest) | (at_head repM; unfold repM)); all_goals (try simm hg); all_goals (try simd hg))

end OriginalSOO

namespace OriginalARO

theorem sim (hg : OrderKept c g)  : (algo  : Algo c Unit Unit).Sim (g := g) (algo ) := by
  refine Algo.Sim.plain fun ep => ?_
  unfold evolve
  simm hg
  repeat (any_goals (first | (at_head OriginalARO.mask; unfold OriginalARO.mask) | (at_head OriginalARO.move; unfold OriginalARO.move) | (at_head OriginalARO.same; unfold OriginalARO.same) | (at_head OriginalARO.evolve; unfold OriginalARO.evolve) | (at_head wolves; unfold wolves) | (at_head oppositionSol; unfold oppositionSol) | (at_head pickWithout; unfold pickWithout) | (at_head meanOfBest; unfold meanOfBest) | (at_head repM; unfold repM)); all_goals (try simm hg); all_goals (try simd hg))

end OriginalARO

namespace OriginalBES

theorem sim (hg : OrderKept c g) (p : Params K) : (algo p : Algo c Unit Unit).Sim (g := g) (algo p) := by
  refine Algo.Sim.plain fun ep => ?_
  unfold evolve
  simm hg
  repeat (any_goals (first | (at_head OriginalBES.swoop; unfold OriginalBES.swoop) | (at_head OriginalBES.evolve; unfold OriginalBES.evolve) | (at_head wolves; unfold wolves) | (at_head oppositionSol; unfold oppositionSol) | (at_head pickWithout; unfold pickWithout) | (at_head meanOfBest; unfold meanOfBest) | (at_head repM; unfold repM)); all_goals (try simm hg); all_goals (try simd hg))

end OriginalBES

namespace DevDandelionO

theorem sim (hg : OrderKept c g)  : (algo  : Algo c Unit Unit).Sim (g := g) (algo ) := by
  refine Algo.Sim.plain fun ep => ?_
  unfold evolve
  simm hg
  repeat (any_goals (first | (at_head DevDandelionO.rise; unfold DevDandelionO.rise) | (at_head DevDandelionO.pdf; unfold DevDandelionO.pdf) | (at_head DevDandelionO.evolve; unfold DevDandelionO.evolve) | (at_head wolves; unfold wolves) | (at_head oppositionSol; unfold oppositionSol) | (at_head pickWithout; unfold pickWithout) | (at_head meanOfBest; unfold meanOfBest) | (at_head repM; unfold repM)); all_goals (try simm hg); all_goals (try simd hg))

end DevDandelionO

namespace OriginalTLO

theorem sim (hg : OrderKept c g)  : (algo  : Algo c Unit Unit).Sim (g := g) (algo ) := by
  refine Algo.Sim.plain fun ep => ?_
  unfold evolve
  simm hg
  repeat (any_goals (first | (at_head OriginalTLO.round; unfold OriginalTLO.round) | (at_head OriginalTLO.evolve; unfold OriginalTLO.evolve) | (at_head wolves; unfold wolves) | (at_head oppositionSol; unfold oppositionSol) | (at_head pickWithout; unfold pickWithout) | (at_head meanOfBest; unfold meanOfBest) | (at_head repM; unfold repM)); all_goals (try simm hg); all_goals (try simd hg))

end OriginalTLO

/-- algorithms that use fitness values only to compare agents -/
inductive RankBased : (∀ c : Cfg d K, Algo c Unit Unit) → Prop
  | originalDE (p) : RankBased (fun c => OriginalDE.algo (c := c) p)
  | originalGWO : RankBased (fun c => OriginalGWO.algo (c := c))
  | gWO_WOA : RankBased (fun c => GWO_WOA.algo (c := c))
  | iGWO (p) : RankBased (fun c => IGWO.algo (c := c) p)
  | fuzzyGWO (increase) : RankBased (fun c => FuzzyGWO.algo (c := c) increase)
  | incrementalGWO (p) : RankBased (fun c => IncrementalGWO.algo (c := c) p)
  | exGWO : RankBased (fun c => ExGWO.algo (c := c))
  | eR_GWO (p) : RankBased (fun c => ER_GWO.algo (c := c) p)
  | originalHC (p) : RankBased (fun c => OriginalHC.algo (c := c) p)
  | originalBMO (p) : RankBased (fun c => OriginalBMO.algo (c := c) p)
  | originalFPA (p) : RankBased (fun c => OriginalFPA.algo (c := c) p)
  | originalTSA : RankBased (fun c => OriginalTSA.algo (c := c))
  | originalMGOA (p) : RankBased (fun c => OriginalMGOA.algo (c := c) p)
  | originalCircleSA (p) : RankBased (fun c => OriginalCircleSA.algo (c := c) p)
  | originalSCSO : RankBased (fun c => OriginalSCSO.algo (c := c))
  | devSCA : RankBased (fun c => DevSCA.algo (c := c))
  | originalSCA : RankBased (fun c => OriginalSCA.algo (c := c))
  | originalLCO (p) : RankBased (fun c => OriginalLCO.algo (c := c) p)
  | devLCO (p) : RankBased (fun c => DevLCO.algo (c := c) p)
  | originalSLO : RankBased (fun c => OriginalSLO.algo (c := c))
  | devGSKA (p) : RankBased (fun c => DevGSKA.algo (c := c) p)
  | devEFO (p) : RankBased (fun c => DevEFO.algo (c := c) p)
  | originalNO (p) : RankBased (fun c => OriginalNO.algo (c := c) p)
  | originalWSO (p) : RankBased (fun c => OriginalWSO.algo (c := c) p)
  | simple_CMA_ES : RankBased (fun c => Simple_CMA_ES.algo (c := c))
  | originalWOA : RankBased (fun c => OriginalWOA.algo (c := c))
  | devWOA : RankBased (fun c => DevWOA.algo (c := c))
  | originalPOA : RankBased (fun c => OriginalPOA.algo (c := c))
  | devVCS (p) : RankBased (fun c => DevVCS.algo (c := c) p)
  | devSPBO : RankBased (fun c => DevSPBO.algo (c := c))
  | originalAOA (p) : RankBased (fun c => OriginalAOA.algo (c := c) p)
  | originalSSO : RankBased (fun c => OriginalSSO.algo (c := c))
  | originalMFO : RankBased (fun c => OriginalMFO.algo (c := c))
  | originalRSA (p) : RankBased (fun c => OriginalRSA.algo (c := c) p)
  | originalChOA : RankBased (fun c => OriginalChOA.algo (c := c))
  | originalGOA (p) : RankBased (fun c => OriginalGOA.algo (c := c) p)
  | originalHBA : RankBased (fun c => OriginalHBA.algo (c := c))
  | originalServalOA : RankBased (fun c => OriginalServalOA.algo (c := c))
  | originalWaOA : RankBased (fun c => OriginalWaOA.algo (c := c))
  | originalACOR (p) : RankBased (fun c => OriginalACOR.algo (c := c) p)
  | originalFFO : RankBased (fun c => OriginalFFO.algo (c := c))
  | originalTDO : RankBased (fun c => OriginalTDO.algo (c := c))
  | originalSBOA : RankBased (fun c => OriginalSBOA.algo (c := c))
  | originalZOA : RankBased (fun c => OriginalZOA.algo (c := c))
  | originalAVOA (p) : RankBased (fun c => OriginalAVOA.algo (c := c) p)
  | devSOA (p) : RankBased (fun c => DevSOA.algo (c := c) p)
  | originalSOA (p) : RankBased (fun c => OriginalSOA.algo (c := c) p)
  | originalSOO : RankBased (fun c => OriginalSOO.algo (c := c))
  | originalARO : RankBased (fun c => OriginalARO.algo (c := c))
  | originalBES (p) : RankBased (fun c => OriginalBES.algo (c := c) p)
  | devDandelionO : RankBased (fun c => DevDandelionO.algo (c := c))
  | originalTLO : RankBased (fun c => OriginalTLO.algo (c := c))

theorem RankBased.sim {A : ∀ c : Cfg d K, Algo c Unit Unit} (hA : RankBased A) (hg : OrderKept c g) : (A c).Sim (A (c.rescale g)) := by
  cases hA
  case originalDE p => exact OriginalDE.sim hg p
  case originalGWO => exact OriginalGWO.sim hg
  case gWO_WOA => exact GWO_WOA.sim hg
  case iGWO p => exact IGWO.sim hg p
  case fuzzyGWO increase => exact FuzzyGWO.sim hg increase
  case incrementalGWO p => exact IncrementalGWO.sim hg p
  case exGWO => exact ExGWO.sim hg
  case eR_GWO p => exact ER_GWO.sim hg p
  case originalHC p => exact OriginalHC.sim hg p
  case originalBMO p => exact OriginalBMO.sim hg p
  case originalFPA p => exact OriginalFPA.sim hg p
  case originalTSA => exact OriginalTSA.sim hg
  case originalMGOA p => exact OriginalMGOA.sim hg p
  case originalCircleSA p => exact OriginalCircleSA.sim hg p
  case originalSCSO => exact OriginalSCSO.sim hg
  case devSCA => exact DevSCA.sim hg
  case originalSCA => exact OriginalSCA.sim hg
  case originalLCO p => exact OriginalLCO.sim hg p
  case devLCO p => exact DevLCO.sim hg p
  case originalSLO => exact OriginalSLO.sim hg
  case devGSKA p => exact DevGSKA.sim hg p
  case devEFO p => exact DevEFO.sim hg p
  case originalNO p => exact OriginalNO.sim hg p
  case originalWSO p => exact OriginalWSO.sim hg p
  case simple_CMA_ES => exact Simple_CMA_ES.sim hg
  case originalWOA => exact OriginalWOA.sim hg
  case devWOA => exact DevWOA.sim hg
  case originalPOA => exact OriginalPOA.sim hg
  case devVCS p => exact DevVCS.sim hg p
  case devSPBO => exact DevSPBO.sim hg
  case originalAOA p => exact OriginalAOA.sim hg p
  case originalSSO => exact OriginalSSO.sim hg
  case originalMFO => exact OriginalMFO.sim hg
  case originalRSA p => exact OriginalRSA.sim hg p
  case originalChOA => exact OriginalChOA.sim hg
  case originalGOA p => exact OriginalGOA.sim hg p
  case originalHBA => exact OriginalHBA.sim hg
  case originalServalOA => exact OriginalServalOA.sim hg
  case originalWaOA => exact OriginalWaOA.sim hg
  case originalACOR p => exact OriginalACOR.sim hg p
  case originalFFO => exact OriginalFFO.sim hg
  case originalTDO => exact OriginalTDO.sim hg
  case originalSBOA => exact OriginalSBOA.sim hg
  case originalZOA => exact OriginalZOA.sim hg
  case originalAVOA p => exact OriginalAVOA.sim hg p
  case devSOA p => exact DevSOA.sim hg p
  case originalSOA p => exact OriginalSOA.sim hg p
  case originalSOO => exact OriginalSOO.sim hg
  case originalARO => exact OriginalARO.sim hg
  case originalBES p => exact OriginalBES.sim hg p
  case devDandelionO => exact DevDandelionO.sim hg
  case originalTLO => exact OriginalTLO.sim hg

end Mealpy
