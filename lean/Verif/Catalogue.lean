import Verif.Alg.GWO2
import Verif.Alg.DE
import Verif.Alg.SA
import Verif.Alg.GA
import Verif.Alg.FFA
import Verif.Alg.FOA
import Verif.Alg.GA2
import Verif.Alg.ICA
import Verif.Alg.Hang
import Verif.Alg.ORCA
import Verif.Alg.SARO
import Verif.Alg.Risky
import Verif.Alg.SAPDE
import Verif.Alg.Raise6
import Verif.Alg.Uneven
import Verif.Alg.SLOPool
import Verif.Alg.Sharing
import Verif.Alg.Simple1
import Verif.Alg.Simple2
import Verif.Alg.Simple3
import Verif.Alg.Simple4
import Verif.Alg.Simple5
import Verif.Alg.Simple6
import Verif.Alg.Simple7
import Verif.Alg.Simple8
import Verif.Alg.Simple9
import Verif.Alg.Careless
import Verif.Alg.Enhanced
import Verif.Alg.LSHADEcn
import Verif.Alg.Simple10
import Verif.Alg.Simple11
import Verif.Alg.Simple12
import Verif.Alg.Simple13
import Verif.Alg.Simple14
import Verif.Alg.Simple15
import Verif.Alg.Simple16
import Verif.Alg.Simple17
import Verif.Alg.Simple18
import Verif.Alg.Simple19
import Verif.Alg.Simple20
import Verif.Alg.Simple21
import Verif.Alg.Tolerant
import Verif.Alg.Tolerant2
import Verif.Alg.SingleMode
import Verif.Alg.Cover
import Verif.RunLemmas

/-!
# The modelled algorithms

`Elitist c A b`: `A` is one of the modelled algorithms, with parameters its constructor accepts, for which
the contract `Algo.Ok` is proved.  `Tracked c A b`: likewise, for the contract `Algo.WOk`.  `Resizing`: likewise, but the population may be
resized.  `Loose` and `Keeping`: likewise, but the algorithm may leave the box or resize its population.  `b` gives the number of objective evaluations before the first
epoch and per epoch.  The constructors and case analyses are written by `tools/catalogue.py`.
-/

set_option linter.unusedSectionVars false
set_option linter.unusedVariables false

namespace Mealpy
open Spec

variable {d : Nat} {K : Type} [Num K] {c : Cfg d K} {X Y : Type}

/-- numbers of objective evaluations: before the first epoch (at least, at most) and per epoch (at least,
at most) -/
structure Budget where
  first : Nat
  firstMax : Nat
  lo : Nat
  hi : Nat

/-- `a` evaluations before the first epoch, between `lo` and `hi` per epoch -/
abbrev Budget.of (a lo hi : Nat) : Budget := ⟨a, a, lo, hi⟩

/-- between `a` and `b` evaluations before the first epoch, between `lo` and `hi` per epoch -/
abbrev Budget.of2 (a b lo hi : Nat) : Budget := ⟨a, b, lo, hi⟩

/-- the modelled algorithms that never forget a good point -/
inductive Elitist (c : Cfg d K) : {X Y : Type} → Algo c X Y → Budget → Prop
-- BEGIN Elitist
  | originalGWO : Accepted c 5 → Elitist c OriginalGWO.algo (.of c.popSize c.popSize c.popSize)
  | rwGWO : Accepted c 5 → Elitist c RW_GWO.algo (.of c.popSize (3 + c.popSize) (3 + c.popSize))
  | gwoWOA : Accepted c 5 → Elitist c GWO_WOA.algo (.of c.popSize c.popSize c.popSize)
  | iGWO (p) : Accepted c 5 → Elitist c (IGWO.algo p) (.of c.popSize c.popSize c.popSize)
  | chaoticGWO (p) : Accepted c 5 → Elitist c (ChaoticGWO.algo p) (.of c.popSize c.popSize c.popSize)
  | fuzzyGWO (p) : Accepted c 5 → Elitist c (FuzzyGWO.algo p) (.of c.popSize c.popSize c.popSize)
  | incrementalGWO (p) : Accepted c 5 → Elitist c (IncrementalGWO.algo p) (.of c.popSize c.popSize c.popSize)
  | exGWO : Accepted c 5 → Elitist c ExGWO.algo (.of c.popSize c.popSize c.popSize)
  | erGWO (p) : Accepted c 5 → Elitist c (ER_GWO.algo p) (.of c.popSize c.popSize c.popSize)
  | oGWO (p) : Accepted c 5 → MirrorsBox c → Elitist c (OGWO.algo p) (.of (2 * c.popSize) c.popSize (2 * c.popSize))
  | originalDE (p) : Accepted c 5 → (p.strategy = 3 → 6 ≤ c.popSize) → Elitist c (OriginalDE.algo p) (.of c.popSize c.popSize c.popSize)
  | jade (p) : Accepted c 5 → 0 < d → 0 < JADE.top c p ∧ JADE.top c p ≤ c.popSize → Elitist c (JADE.algo p) (.of c.popSize c.popSize c.popSize)
  | sade : Accepted c 5 → 0 < d → Elitist c SADE.algo (.of c.popSize c.popSize c.popSize)
  | swarmHC (p) : Accepted c 5 → Elitist c (SwarmHC.algo p) (.of c.popSize (c.popSize * p.neighbours) (c.popSize * p.neighbours))
  | baseGA (p) : Accepted c 5 → 10 ≤ c.popSize → c.popSize % 2 = 0 → p.Pure → p.Two c.popSize → p.Dims d → Elitist c (BaseGA.algo p) (.of c.popSize c.popSize c.popSize)
  | multiGA (p) : Accepted c 5 → 10 ≤ c.popSize → c.popSize % 2 = 0 → ({ p with multi := true } : GA.Params K).Pure → p.Two c.popSize → p.Dims d → Elitist c (MultiGA.algo p) (.of c.popSize c.popSize c.popSize)
  | eliteMultiGA (p) (e) : Accepted c 5 → ({ p with multi := true } : GA.Params K).Pure → e.Fits { p with multi := true } c.popSize → p.Dims d → Elitist c (EliteMultiGA.algo p e) (.of c.popSize (c.popSize - e.nBest) c.popSize)
  | originalGA : Accepted c 5 → Elitist c OriginalGA.algo (.of c.popSize 0 0)
  | originalBMO (p) : Accepted c 5 → Elitist c (OriginalBMO.algo p) (.of c.popSize c.popSize c.popSize)
  | originalFPA (p) : Accepted c 5 → Elitist c (OriginalFPA.algo p) (.of c.popSize c.popSize c.popSize)
  | originalTSA : Accepted c 5 → Elitist c OriginalTSA.algo (.of c.popSize c.popSize c.popSize)
  | originalMGOA (p) : Accepted c 5 → 0 < d → OriginalMGOA.nDims d p ≤ d → Elitist c (OriginalMGOA.algo p) (.of c.popSize c.popSize c.popSize)
  | originalRIME (p) : Accepted c 5 → Elitist c (OriginalRIME.algo p) (.of c.popSize c.popSize c.popSize)
  | originalSHIO : Accepted c 5 → Elitist c OriginalSHIO.algo (.of c.popSize c.popSize c.popSize)
  | originalCircleSA (p) : Accepted c 5 → Elitist c (OriginalCircleSA.algo p) (.of c.popSize c.popSize c.popSize)
  | originalSCSO : Accepted c 5 → Elitist c OriginalSCSO.algo (.of c.popSize c.popSize c.popSize)
  | originalGJO : Accepted c 5 → Elitist c OriginalGJO.algo (.of c.popSize c.popSize c.popSize)
  | devJA : Accepted c 5 → Elitist c DevJA.algo (.of c.popSize c.popSize c.popSize)
  | originalJA : Accepted c 5 → Elitist c OriginalJA.algo (.of c.popSize c.popSize c.popSize)
  | levyJA : Accepted c 5 → Elitist c LevyJA.algo (.of c.popSize c.popSize c.popSize)
  | devSCA : Accepted c 5 → Elitist c DevSCA.algo (.of c.popSize c.popSize c.popSize)
  | originalSCA : Accepted c 5 → Elitist c OriginalSCA.algo (.of c.popSize c.popSize c.popSize)
  | originalLCO (p) : Accepted c 5 → Elitist c (OriginalLCO.algo p) (.of c.popSize c.popSize c.popSize)
  | devLCO (p) : Accepted c 5 → Elitist c (DevLCO.algo p) (.of c.popSize c.popSize c.popSize)
  | devHS (p) : Accepted c 5 → (∀ j, 0 ≤ c.P.ub j) → Elitist c (DevHS.algo p) (.of c.popSize c.popSize c.popSize)
  | originalHS (p) : Accepted c 5 → Elitist c (OriginalHS.algo p) (.of c.popSize c.popSize c.popSize)
  | originalWOA : Accepted c 5 → Elitist c OriginalWOA.algo (.of c.popSize c.popSize c.popSize)
  | devWOA : Accepted c 5 → Elitist c DevWOA.algo (.of c.popSize c.popSize c.popSize)
  | originalPOA : Accepted c 5 → Elitist c OriginalPOA.algo (.of c.popSize (2 * c.popSize) (2 * c.popSize))
  | devVCS (p) : Accepted c 5 → Elitist c (DevVCS.algo p) (.of c.popSize (3 * c.popSize) (3 * c.popSize))
  | originalVCS (p) : Accepted c 5 → Elitist c (OriginalVCS.algo p) (.of c.popSize (3 * c.popSize) (3 * c.popSize))
  | originalSPBO : Accepted c 5 → Elitist c OriginalSPBO.algo (.of c.popSize (d * c.popSize) (d * c.popSize))
  | devSPBO : Accepted c 5 → Elitist c DevSPBO.algo (.of c.popSize c.popSize c.popSize)
  | originalAOA (p) : Accepted c 10 → Elitist c (OriginalAOA.algo p) (.of c.popSize c.popSize c.popSize)
  | originalCEM (p) : Accepted c 10 → Elitist c (OriginalCEM.algo p) (.of c.popSize c.popSize c.popSize)
  | originalSSO : Accepted c 5 → Elitist c OriginalSSO.algo (.of c.popSize c.popSize c.popSize)
  | originalMFO : Accepted c 5 → Elitist c OriginalMFO.algo (.of c.popSize c.popSize c.popSize)
  | originalPFA : Accepted c 5 → Elitist c OriginalPFA.algo (.of c.popSize c.popSize c.popSize)
  | originalRSA (p) : Accepted c 5 → Elitist c (OriginalRSA.algo p) (.of c.popSize c.popSize c.popSize)
  | originalWarSO (p) : Accepted c 5 → Elitist c (OriginalWarSO.algo p) (.of c.popSize c.popSize c.popSize)
  | originalCSA (p) : Accepted c 5 → (p.nCut < c.popSize) → Elitist c (OriginalCSA.algo p) (.of c.popSize (c.popSize + p.nCut) (c.popSize + p.nCut))
  | originalCDO : Accepted c 5 → Elitist c OriginalCDO.algo (.of c.popSize c.popSize c.popSize)
  | originalSOS : Accepted c 5 → (0 < d) → Elitist c OriginalSOS.algo (.of c.popSize (4 * c.popSize) (4 * c.popSize))
  | originalChOA : Accepted c 5 → Elitist c OriginalChOA.algo (.of c.popSize c.popSize c.popSize)
  | originalSSDO : Accepted c 5 → Elitist c OriginalSSDO.algo (.of c.popSize c.popSize c.popSize)
  | originalEOA (p) : Accepted c 5 → (2 ≤ p.nBest) → (p.nBest ≤ c.popSize / 2) → Elitist c (OriginalEOA.algo p) (.of c.popSize (c.popSize + (c.popSize - p.nBest)) (c.popSize + (c.popSize - p.nBest)))
  | originalEAO (p) : Accepted c 5 → Elitist c (OriginalEAO.algo p) (.of c.popSize (c.popSize * 3) (c.popSize * 3))
  | originalGOA (p) : Accepted c 5 → Elitist c (OriginalGOA.algo p) (.of c.popSize c.popSize c.popSize)
  | originalHBA : Accepted c 5 → Elitist c OriginalHBA.algo (.of c.popSize c.popSize c.popSize)
  | originalServalOA : Accepted c 5 → Elitist c OriginalServalOA.algo (.of c.popSize (c.popSize * 2) (c.popSize * 2))
  | originalKLA : Accepted c 5 → Elitist c OriginalKLA.algo (.of c.popSize c.popSize c.popSize)
  | originalBBOA : Accepted c 5 → Elitist c OriginalBBOA.algo (.of c.popSize (2 * c.popSize) (2 * c.popSize))
  | originalDSO (p) : Accepted c 5 → Elitist c (OriginalDSO.algo p) (.of c.popSize 0 c.popSize)
  | originalWaOA : Accepted c 5 → Elitist c OriginalWaOA.algo (.of c.popSize (c.popSize * 2) (c.popSize * 2))
  | originalCrayfishOA : Accepted c 5 → Elitist c OriginalCrayfishOA.algo (.of c.popSize c.popSize c.popSize)
  | originalCGO : Accepted c 5 → (0 < d) → Elitist c OriginalCGO.algo (.of c.popSize (c.popSize * 4) (c.popSize * 4))
  | originalEHO (p) : Accepted c 5 → (p.nClans * p.nInd = c.popSize ∧ 2 ≤ p.nInd) → Elitist c (OriginalEHO.algo p) (.of c.popSize (c.popSize + p.nClans) (c.popSize + p.nClans))
  | originalWDO (p) : Accepted c 5 → (0 < d) → Elitist c (OriginalWDO.algo p) (.of c.popSize c.popSize c.popSize)
  | originalMPA : Accepted c 5 → Elitist c OriginalMPA.algo (.of c.popSize c.popSize c.popSize)
  | originalACOR (p) : Accepted c 5 → Elitist c (OriginalACOR.algo p) (.of c.popSize p.sampleCount p.sampleCount)
  | originalAFT : Accepted c 5 → Elitist c OriginalAFT.algo (.of c.popSize c.popSize c.popSize)
  | originalIWO (p) : Accepted c 5 → (OriginalIWO.Sows p) → Elitist c (OriginalIWO.algo p) (.of c.popSize (c.popSize * 1) (c.popSize * c.popSize.sqrt))
  | originalMGO : Accepted c 5 → Elitist c OriginalMGO.algo (.of c.popSize (c.popSize * 4) (c.popSize * 4))
  | originalNGO : Accepted c 5 → Elitist c OriginalNGO.algo (.of c.popSize (c.popSize * 2) (c.popSize * 2))
  | originalSeaHO : Accepted c 5 → Elitist c OriginalSeaHO.algo (.of c.popSize (c.popSize + c.popSize / 2) (c.popSize + c.popSize / 2))
  | originalSTO : Accepted c 5 → Elitist c OriginalSTO.algo (.of c.popSize (c.popSize * 2) (c.popSize * 2))
  | originalOOA : Accepted c 5 → Elitist c OriginalOOA.algo (.of c.popSize (c.popSize * 2) (c.popSize * 2))
  | originalOSA (p) : Accepted c 5 → Elitist c (OriginalOSA.algo p) (.of c.popSize c.popSize c.popSize)
  | originalTSeedA (p) : Accepted c 5 → (c.swarmLike = true) → Elitist c (OriginalTSeedA.algo p) (.of c.popSize (c.popSize * max 1 (c.popSize / 10)) (c.popSize * max 2 (c.popSize / 4)))
  | originalMSA (p) : Accepted c 5 → (p.nBest ≤ c.popSize / 2) → Elitist c (OriginalMSA.algo p) (.of c.popSize c.popSize c.popSize)
  | originalEVO : Accepted c 5 → (0 < d) → Elitist c OriginalEVO.algo (.of c.popSize (c.popSize * 1) (c.popSize * 2))
  | originalFFO : Accepted c 5 → Elitist c OriginalFFO.algo (.of c.popSize (c.popSize * 2) (c.popSize * 2))
  | originalTDO : Accepted c 5 → Elitist c OriginalTDO.algo (.of c.popSize (c.popSize * 2) (c.popSize * 2))
  | originalFHO : Accepted c 5 → Elitist c OriginalFHO.algo (.of c.popSize c.popSize c.popSize)
  | originalSBOA : Accepted c 5 → Elitist c OriginalSBOA.algo (.of c.popSize (2 * c.popSize) (2 * c.popSize))
  | originalRFO (p) : Accepted c 5 → Elitist c (OriginalRFO.algo p) (.of c.popSize (c.popSize + max 1 (c.popSize / 20)) (2 * c.popSize + max 1 (c.popSize / 20)))
  | originalTSO : Accepted c 5 → Elitist c OriginalTSO.algo (.of c.popSize c.popSize c.popSize)
  | originalHGS (p) : Accepted c 5 → Elitist c (OriginalHGS.algo p) (.of c.popSize c.popSize c.popSize)
  | originalZOA : Accepted c 5 → Elitist c OriginalZOA.algo (.of c.popSize (2 * c.popSize) (2 * c.popSize))
  | originalAVOA (p) : Accepted c 5 → Elitist c (OriginalAVOA.algo p) (.of c.popSize c.popSize c.popSize)
  | originalBWO : Accepted c 5 → (0 < d) → Elitist c OriginalBWO.algo (.of c.popSize c.popSize (c.popSize + c.popSize))
  | originalFA (p) : Accepted c 5 → (0 < d) → (RoundMono K) → Elitist c (OriginalFA.algo p) (.of c.popSize p.mSparks (c.popSize * (c.popSize * OriginalFA.cap p) + (c.popSize * OriginalFA.cap p + p.mSparks)))
  | originalBWOA (p) : Accepted c 5 → (0 < d) → (2 ≤ p.nPar) → Elitist c (OriginalBWOA.algo p) (.of c.popSize (p.nPar * 2 + p.nMut) (p.nPar * 2 + p.nMut))
  | originalFDO (p) : Accepted c 5 → Elitist c (OriginalFDO.algo p) (.of c.popSize c.popSize (c.popSize * 3))
  | devSOA (p) : Accepted c 5 → Elitist c (DevSOA.algo p) (.of c.popSize c.popSize c.popSize)
  | originalSOA (p) : Accepted c 5 → Elitist c (OriginalSOA.algo p) (.of c.popSize c.popSize c.popSize)
  | originalCDDO (p) : Accepted c 5 → (0 < d) → (1 ≤ p.pattern ∧ p.pattern ≤ c.popSize) → (Num.trunc (Vec.at c.P.lb 0) < Num.trunc (Vec.at c.P.ub 0 + 1)) → Elitist c (OriginalCDDO.algo p) (.of c.popSize c.popSize c.popSize)
  | originalDBO (p) : Accepted c 5 → Elitist c (OriginalDBO.algo p) (.of c.popSize c.popSize c.popSize)
  | originalSOO : Accepted c 5 → Elitist c OriginalSOO.algo (.of c.popSize (c.popSize + c.popSize) (c.popSize + c.popSize))
  | originalArchOA (p) : Accepted c 5 → (c.swarmLike = true) → Elitist c (OriginalArchOA.algo p) (.of c.popSize c.popSize c.popSize)
  | originalAPO (p) : Accepted c 5 → (0 < d) → Elitist c (OriginalAPO.algo p) (.of c.popSize c.popSize c.popSize)
  | devSSpiderA (p) : Accepted c 5 → Elitist c (DevSSpiderA.algo p) (.of c.popSize c.popSize c.popSize)
  | originalPSO (p) : Accepted c 5 → Elitist c (OriginalPSO.algo p) (.of c.popSize c.popSize c.popSize)
  | aIWPSO (p) : Accepted c 5 → Elitist c (AIW_PSO.algo p) (.of c.popSize c.popSize c.popSize)
  | lDWPSO (p) : Accepted c 5 → Elitist c (LDW_PSO.algo p) (.of c.popSize c.popSize c.popSize)
  | pPSO : Accepted c 5 → Elitist c P_PSO.algo (.of c.popSize c.popSize c.popSize)
  | hPSOTVAC (p) : Accepted c 5 → Elitist c (HPSO_TVAC.algo p) (.of c.popSize c.popSize c.popSize)
  | cLPSO (p) : Accepted c 5 → Elitist c (CL_PSO.algo p) (.of c.popSize c.popSize c.popSize)
  | originalAO : Accepted c 5 → (1 < c.epoch) → Elitist c OriginalAO.algo (.of c.popSize c.popSize c.popSize)
  | aAO (p) : Accepted c 5 → (1 < c.epoch) → Elitist c (AAO.algo p) (.of c.popSize c.popSize c.popSize)
  | originalARO : Accepted c 5 → (0 < d) → Elitist c OriginalARO.algo (.of c.popSize c.popSize c.popSize)
  | lARO : Accepted c 5 → (0 < d) → Elitist c LARO.algo (.of c.popSize c.popSize (c.popSize + c.popSize))
  | iARO : Accepted c 5 → (0 < d) → Elitist c IARO.algo (.of c.popSize c.popSize c.popSize)
  | originalBES (p) : Accepted c 5 → Elitist c (OriginalBES.algo p) (.of c.popSize (c.popSize * 3) (c.popSize * 3))
  | devMVO (p) : Accepted c 5 → Elitist c (DevMVO.algo p) (.of c.popSize c.popSize c.popSize)
  | originalMVO (p) : Accepted c 5 → Elitist c (OriginalMVO.algo p) (.of c.popSize c.popSize c.popSize)
  | originalKOA (p) : Accepted c 5 → Elitist c (OriginalKOA.algo p) (.of c.popSize c.popSize c.popSize)
  | devSMA (p) : Accepted c 5 → Elitist c (DevSMA.algo p) (.of c.popSize c.popSize c.popSize)
  | originalSMA (p) : Accepted c 5 → Elitist c (OriginalSMA.algo p) (.of c.popSize c.popSize c.popSize)
  | devSBO (p) : Accepted c 5 → Elitist c (DevSBO.algo p) (.of c.popSize c.popSize c.popSize)
  | originalFOX (p) : Accepted c 5 → Elitist c (OriginalFOX.algo p) (.of c.popSize c.popSize c.popSize)
  | devFOX (p) : Accepted c 5 → Elitist c (DevFOX.algo p) (.of c.popSize c.popSize c.popSize)
  | originalDandelionO : Accepted c 5 → (1 < c.epoch) → Elitist c OriginalDandelionO.algo (.of c.popSize c.popSize c.popSize)
  | devDandelionO : Accepted c 5 → Elitist c DevDandelionO.algo (.of c.popSize c.popSize c.popSize)
  | originalINFO : Accepted c 5 → (6 ≤ c.popSize) → Elitist c OriginalINFO.algo (.of c.popSize c.popSize c.popSize)
  | originalTLO : Accepted c 5 → Elitist c OriginalTLO.algo (.of c.popSize (c.popSize * 2) (c.popSize * 2))
  | originalALO : Accepted c 5 → (1 < c.epoch) → Elitist c OriginalALO.algo (.of c.popSize c.popSize c.popSize)
  | devALO : Accepted c 5 → Elitist c DevALO.algo (.of c.popSize c.popSize c.popSize)
  | originalBBO (p) : Accepted c 5 → Elitist c (OriginalBBO.algo p) (.of c.popSize c.popSize c.popSize)
  | devBBO (p) : Accepted c 5 → Elitist c (DevBBO.algo p) (.of c.popSize c.popSize c.popSize)
  | originalCEO (p) : Accepted c 5 → Elitist c (OriginalCEO.algo p) (.of c.popSize c.popSize (c.popSize + c.popSize))
  | originalSFOA (p) : Accepted c 5 → (0 < d) → Elitist c (OriginalSFOA.algo p) (.of c.popSize c.popSize c.popSize)
  | originalEEFO : Accepted c 5 → (0 < d) → Elitist c OriginalEEFO.algo (.of c.popSize c.popSize c.popSize)
  | devGCO (p) : Accepted c 5 → Elitist c (DevGCO.algo p) (.of c.popSize c.popSize c.popSize)
  | originalGCO (p) : Accepted c 5 → Elitist c (OriginalGCO.algo p) (.of c.popSize c.popSize c.popSize)
  | originalRUN : Accepted c 5 → (0 < d) → Elitist c OriginalRUN.algo (.of c.popSize c.popSize (c.popSize * 3))
  | originalGBO (p) : Accepted c 5 → Elitist c (OriginalGBO.algo p) (.of c.popSize c.popSize c.popSize)
  | eTLBO (p) : Accepted c 5 → (p < c.popSize) → Elitist c (ETLBO.algo p) (.of c.popSize (c.popSize + c.popSize) (c.popSize + c.popSize + c.popSize))
  | originalAEO : Accepted c 5 → Elitist c OriginalAEO.algo (.of c.popSize (c.popSize + c.popSize) (c.popSize + c.popSize))
  | improvedAEO : Accepted c 5 → Elitist c ImprovedAEO.algo (.of c.popSize (c.popSize + c.popSize) (c.popSize + c.popSize))
  | enhancedAEO : Accepted c 5 → Elitist c EnhancedAEO.algo (.of c.popSize (c.popSize + c.popSize) (c.popSize + c.popSize))
  | modifiedAEO : Accepted c 5 → Elitist c ModifiedAEO.algo (.of c.popSize (c.popSize + c.popSize) (c.popSize + c.popSize))
  | augmentedAEO : Accepted c 5 → Elitist c AugmentedAEO.algo (.of c.popSize (c.popSize + c.popSize) (c.popSize + c.popSize))
  | devQSA : Accepted c 5 → Elitist c DevQSA.algo (.of c.popSize (c.popSize + c.popSize + c.popSize) (c.popSize + c.popSize + c.popSize))
  | oppoQSA : Accepted c 5 → Elitist c OppoQSA.algo (.of c.popSize (c.popSize + c.popSize + c.popSize + c.popSize) (c.popSize + c.popSize + c.popSize + c.popSize))
  | levyQSA : Accepted c 5 → Elitist c LevyQSA.algo (.of c.popSize (c.popSize + c.popSize + c.popSize) (c.popSize + c.popSize + c.popSize))
  | improvedQSA : Accepted c 5 → Elitist c ImprovedQSA.algo (.of c.popSize (c.popSize + c.popSize + c.popSize + c.popSize) (c.popSize + c.popSize + c.popSize + c.popSize))
  | originalQSA : Accepted c 5 → Elitist c OriginalQSA.algo (.of c.popSize (c.popSize + c.popSize + c.popSize) (c.popSize + c.popSize + c.popSize))
  | devSSA (p) : Accepted c 5 → Elitist c (DevSSA.algo p) (.of c.popSize (c.popSize + (c.popSize - DevSSA.n2 c p)) (c.popSize + (c.popSize - DevSSA.n2 c p)))
  | originalSSA (p) : Accepted c 5 → Elitist c (OriginalSSA.algo p) (.of c.popSize (c.popSize + (c.popSize - DevSSA.n2 c p)) (c.popSize + (c.popSize - DevSSA.n2 c p)))
  | originalSLO : Accepted c 5 → Elitist c OriginalSLO.algo (.of c.popSize c.popSize c.popSize)
  | devGSKA (p) : Accepted c 5 → (DevGSKA.Groups c p.pb) → Elitist c (DevGSKA.algo p) (.of c.popSize c.popSize c.popSize)
  | originalGSKA (p) : Accepted c 5 → (DevGSKA.Groups c p.pb) → Elitist c (OriginalGSKA.algo p) (.of c.popSize c.popSize c.popSize)
  | devFBIO : Accepted c 5 → (0 < d) → Elitist c DevFBIO.algo (.of c.popSize (4 * c.popSize) (4 * c.popSize))
  | originalFBIO : Accepted c 5 → (0 < d) → Elitist c OriginalFBIO.algo (.of c.popSize (4 * c.popSize) (4 * c.popSize))
  | devBA (p) : Accepted c 5 → Elitist c (DevBA.algo p) (.of c.popSize c.popSize (c.popSize + c.popSize))
  | devEFO (p) : Accepted c 5 → (0 < d) → (DevEFO.Fields c p) → Elitist c (DevEFO.algo p) (.of c.popSize c.popSize c.popSize)
  | originalNWOA (p) : Accepted c 5 → Elitist c (OriginalNWOA.algo p) (.of c.popSize c.popSize c.popSize)
  | originalNO (p) : Accepted c 5 → Elitist c (OriginalNO.algo p) (.of c.popSize c.popSize c.popSize)
  | originalLSO (p) : Accepted c 5 → Elitist c (OriginalLSO.algo p) (.of c.popSize (c.popSize + c.popSize) (c.popSize + c.popSize))
  | devLSO (p) : Accepted c 5 → Elitist c (DevLSO.algo p) (.of c.popSize (c.popSize + c.popSize) (c.popSize + c.popSize))
  | originalFLA (p) : Accepted c 5 → (OriginalFLA.Calm c p) → Elitist c (OriginalFLA.algo p) (.of c.popSize c.popSize c.popSize)
  | originalMShOA : Accepted c 5 → Elitist c OriginalMShOA.algo (.of c.popSize c.popSize c.popSize)
  | devMShOA (p) : Accepted c 5 → Elitist c (DevMShOA.algo p) (.of c.popSize c.popSize c.popSize)
  | originalWSO (p) : Accepted c 5 → (OriginalWSO.Indexes c) → Elitist c (OriginalWSO.algo p) (.of c.popSize c.popSize c.popSize)
  | originalMSO : Accepted c 5 → Elitist c OriginalMSO.algo (.of c.popSize c.popSize (c.popSize - 1 + c.popSize))
  | originalSHADE (p) : Accepted c 5 → (0 < d) → (OriginalSHADE.Tops c) → Elitist c (OriginalSHADE.algo p) (.of c.popSize c.popSize c.popSize)
  | lSHADE (p) : Accepted c 5 → (0 < d) → (L_SHADE.Tops c) → Elitist c (L_SHADE.algo p) (.of c.popSize c.popSize c.popSize)
  | originalES (p) : Accepted c 5 → (p.child ≤ c.popSize) → Elitist c (OriginalES.algo p) (.of c.popSize p.child p.child)
  | levyES (p) : Accepted c 5 → (p.child ≤ c.popSize) → Elitist c (LevyES.algo p) (.of c.popSize (p.child + p.child) (p.child + p.child))
  | simpleCMAES : Accepted c 5 → Elitist c Simple_CMA_ES.algo (.of c.popSize c.popSize c.popSize)
  | cleverBookBeesA (p) : Accepted c 5 → (2 ≤ d) → (1 ≤ p.elites) → (1 ≤ p.others) → Elitist c (CleverBookBeesA.algo p) (.of c.popSize c.popSize (c.popSize * p.most))
  | devWOAmM (p) : Accepted c 5 → (c.mode = .single) → Elitist c (DevWOAmM.algo p) (.of c.popSize (c.popSize * 3) (c.popSize * 3 + OriginalWOAmM.restarts c p.rate))
  | originalBSA (p) : Accepted c 5 → Elitist c (OriginalBSA.algo p) (.of c.popSize c.popSize c.popSize)
  | originalPO (p) : Accepted c 4 → (c.popSize = p.parties * p.parties) → (2 ≤ p.parties) → Elitist c (OriginalPO.algo p) (.of c.popSize (c.popSize + p.parties) (c.popSize + p.parties))
  | originalChameleonSA (p) : Accepted c 5 → Elitist c (OriginalChameleonSA.algo p) (.of c.popSize c.popSize c.popSize)
  | improvedLCO : Accepted c 5 → Elitist c ImprovedLCO.algo (.of c.popSize (c.popSize + c.popSize / 2 + c.popSize / 2) (c.popSize + c.popSize))
  | devEPC (p) : Accepted c 5 → Elitist c (DevEPC.algo p) (.of c.popSize 0 (c.popSize * c.popSize))
  | originalILA (p) : Accepted c 5 → Elitist c (OriginalILA.algo p) (.of c.popSize (c.popSize * 2) (c.popSize * 2))
-- END Elitist

/-- the modelled algorithms for which the basic contract is proved: every position is corrected before it is
evaluated and the population keeps its size -/
inductive Tracked (c : Cfg d K) : {X Y : Type} → Algo c X Y → Budget → Prop
-- BEGIN Tracked
  | cgGWO : Accepted c 5 → Tracked c CG_GWO.algo (.of c.popSize (3 + c.popSize) (3 + 2 * c.popSize))
  | ioblGWO : Accepted c 5 → MirrorsBox c → Tracked c IOBL_GWO.algo (.of c.popSize (3 + c.popSize) (3 + 2 * c.popSize))
  | dsGWO (p) : Accepted c 10 → p.nGroups ≤ c.popSize → Tracked c (DS_GWO.algo p) (.of c.popSize 0 0)
  | swarmSA (p) : Accepted c 5 → 0 < d → Tracked c (SwarmSA.algo p) (.of c.popSize (p.maxSubIter * (c.popSize * p.moveCount)) (p.maxSubIter * (c.popSize * p.moveCount)))
  | hIWOA (p) : Accepted c 5 → Tracked c (HI_WOA.algo p) (.of c.popSize c.popSize (c.popSize + c.popSize / 2))
  | originalEO : Accepted c 5 → Tracked c OriginalEO.algo (.of c.popSize (1 + c.popSize) (1 + c.popSize))
  | modifiedEO : Accepted c 5 → Tracked c ModifiedEO.algo (.of c.popSize (1 + c.popSize + 2 * (c.popSize / 3)) (1 + c.popSize + 2 * (c.popSize / 3)))
  | adaptiveEO : Accepted c 5 → Tracked c AdaptiveEO.algo (.of c.popSize (1 + c.popSize) (1 + c.popSize))
  | originalSHO (p) : Accepted c 5 → (p.nTrials + 1 ≤ c.popSize) → Tracked c (OriginalSHO.algo p) (.of c.popSize (c.popSize * (0 + 1)) (c.popSize * (p.nTrials + 1)))
  | originalABC (p) : Accepted c 5 → Tracked c (OriginalABC.algo p) (.of c.popSize (2 * c.popSize) (3 * c.popSize))
  | originalCA (p) : Accepted c 5 → (1 ≤ p.nAcc) → Tracked c (OriginalCA.algo p) (.of c.popSize c.popSize c.popSize)
  | originalCoatiOA : Accepted c 5 → Tracked c OriginalCoatiOA.algo (.of c.popSize (3 * c.popSize - c.popSize / 2) (3 * c.popSize - c.popSize / 2))
  | originalTOA : Accepted c 5 → Tracked c OriginalTOA.algo (.of c.popSize (c.popSize * 3) (c.popSize * 4))
  | originalHHO : Accepted c 5 → Tracked c OriginalHHO.algo (.of c.popSize (c.popSize * 0 + c.popSize) (c.popSize * 2 + c.popSize))
  | originalESO : Accepted c 5 → (OriginalESO.Calm c) → Tracked c OriginalESO.algo (.of c.popSize (c.popSize * 2) (c.popSize * 3))
  | originalESOA : Accepted c 5 → Tracked c OriginalESOA.algo (.of c.popSize (c.popSize * 3) (c.popSize * 3))
  | originalGJA (p) : Accepted c 5 → Tracked c (OriginalGJA.algo p) (.of c.popSize c.popSize (c.popSize + c.popSize))
  | originalCOA (p) : Accepted c 5 → (p.packs * p.coyotes = c.popSize) → (3 ≤ p.coyotes) → Tracked c (OriginalCOA.algo p) (.of c.popSize (p.packs * (p.coyotes + 1)) (p.packs * (p.coyotes + 1)))
  | originalASO (p) : Accepted c 5 → Tracked c (OriginalASO.algo p) (.of c.popSize c.popSize c.popSize)
  | cPSO (p) : Accepted c 5 → Tracked c (C_PSO.algo p) (.of c.popSize (c.popSize + 1 + (c.popSize - c.popSize / 5)) (c.popSize + 1 + (c.popSize - c.popSize / 5)))
  | originalNMRA (p) : Accepted c 5 → Tracked c (OriginalNMRA.algo p) (.of c.popSize (c.popSize * 2) (c.popSize * 2))
  | improvedNMRA (p) : Accepted c 5 → (2 ≤ d) → Tracked c (ImprovedNMRA.algo p) (.of c.popSize (c.popSize * 2) (c.popSize * 2))
  | originalGRSA (p) : Accepted c 5 → (1 ≤ p.geometries ∧ p.geometries ≤ c.popSize / 2) → Tracked c (OriginalGRSA.algo p) (.of c.popSize c.popSize (c.popSize + c.popSize))
  | originalEP (p) : Accepted c 5 → Tracked c (OriginalEP.algo p) (.of c.popSize c.popSize c.popSize)
  | levyEP (p) : Accepted c 5 → Tracked c (LevyEP.algo p) (.of c.popSize (c.popSize + c.popSize / 2) (c.popSize + c.popSize / 2))
  | originalAHO (p) : Accepted c 5 → (0 < d) → Tracked c (OriginalAHO.algo p) (.of c.popSize 0 (c.popSize * (c.popSize + 1)))
  | enhancedTWO : Accepted c 5 → (c.swarmLike = true) → Tracked c EnhancedTWO.algo (.of (c.popSize + c.popSize) (c.popSize + c.popSize) (c.popSize + c.popSize * 2))
  | originalCSO (p) : Accepted c 5 → (0 < d) → (2 ≤ p.smp) → (p.strategy = 1 → 4 ≤ p.smp) → Tracked c (OriginalCSO.algo p) (.of c.popSize c.popSize (c.popSize * (2 * p.smp + 1)))
  | originalMA (p) : Accepted c 5 → (c.popSize % 2 = 0) → Tracked c (OriginalMA.algo p) (.of c.popSize c.popSize (c.popSize + c.popSize * p.maxLocalGens))
  | originalHGSO (p) : Accepted c 5 → (p * (c.popSize / p) = c.popSize) → Tracked c (OriginalHGSO.algo p) (.of c.popSize c.popSize (c.popSize + c.popSize))
  | originalDOA : Accepted c 5 → (c.popSize ≤ d) → Tracked c OriginalDOA.algo (.of c.popSize c.popSize c.popSize)
  | originalCCO (p) : Accepted c 5 → Tracked c (OriginalCCO.algo p) (.of c.popSize c.popSize c.popSize)
  | improvedTLO (p) : Accepted c 5 → (2 ≤ p) → (p ∣ c.popSize) → ((p + 1) * (p + 1) ≤ c.popSize) → Tracked c (ImprovedTLO.algo p) (.of c.popSize (c.popSize - p + (c.popSize - p)) (c.popSize - p + (c.popSize - p)))
  | devTPO (p) : Accepted c 5 → Tracked c (DevTPO.algo p) (.of2 (c.popSize * DevTPO.leafs c) (c.popSize * DevTPO.leafs c + c.popSize) (c.popSize * DevTPO.leafs c) (c.popSize * DevTPO.leafs c))
  | originalDO : Accepted c 5 → Tracked c OriginalDO.algo (.of (c.popSize + c.popSize) (c.popSize + c.popSize) (c.popSize + c.popSize))
  | originalMRFO (p) : Accepted c 5 → Tracked c (OriginalMRFO.algo p) (.of c.popSize (c.popSize + c.popSize) (c.popSize + c.popSize))
  | wMQIMRFO (p) : Accepted c 5 → Tracked c (WMQIMRFO.algo p) (.of c.popSize (3 * c.popSize) (3 * c.popSize))
  | originalBA (p) : Accepted c 5 → Tracked c (OriginalBA.algo p) (.of c.popSize c.popSize c.popSize)
  | adaptiveBA (p) : Accepted c 5 → Tracked c (AdaptiveBA.algo p) (.of c.popSize c.popSize c.popSize)
  | originalEFO (p) : Accepted c 5 → (0 < d) → (DevEFO.Fields c p) → Tracked c (OriginalEFO.algo p) (.of c.popSize 1 1)
  | originalDMOA (p) : Accepted c 5 → (p.sitters ≤ c.popSize) → Tracked c (OriginalDMOA.algo p) (.of c.popSize (c.popSize + c.popSize + c.popSize) (c.popSize + c.popSize + p.sitters + c.popSize))
  | devDMOA (p) : Accepted c 5 → Tracked c (DevDMOA.algo p) (.of c.popSize (c.popSize + c.popSize + c.popSize) (c.popSize + c.popSize + c.popSize + c.popSize))
  | devBRO (p) : Accepted c 5 → Tracked c (DevBRO.algo p) (.of c.popSize c.popSize (c.popSize * 3))
  | originalBRO (p) : Accepted c 5 → Tracked c (OriginalBRO.algo p) (.of c.popSize c.popSize c.popSize)
  | originalSFO (p) : Accepted c 5 → (0 < d) → (c.popSize ≤ OriginalSFO.size c p.pp) → (OriginalSFO.Narrow c p) → Tracked c (OriginalSFO.algo p) (.of (c.popSize + OriginalSFO.size c p.pp) c.popSize (c.popSize + OriginalSFO.size c p.pp + c.popSize))
  | improvedSFO (p) : Accepted c 5 → (c.popSize ≤ OriginalSFO.size c p) → Tracked c (ImprovedSFO.algo p) (.of (c.popSize + OriginalSFO.size c p) (c.popSize + OriginalSFO.size c p) (c.popSize + OriginalSFO.size c p + c.popSize))
  | mLFAGD (p) : Accepted c 5 → (p.females ≤ MLFA_GD.half c) → Tracked c (MLFA_GD.algo p) (.of c.popSize (MLFA_GD.half c + 1 + MLFA_GD.evaluated c + p.rw) (MLFA_GD.half c + 1 + MLFA_GD.evaluated c + p.rw))
  | improvedBSO (p) : Accepted c 5 → (ImprovedBSO.Even c p.m) → Tracked c (ImprovedBSO.algo p) (.of c.popSize c.popSize (c.popSize + 1))
  | originalBSO (p) : Accepted c 5 → (ImprovedBSO.Even c p.base.m) → Tracked c (OriginalBSO.algo p) (.of c.popSize c.popSize (c.popSize + 1))
  | originalTWO : Accepted c 5 → Tracked c OriginalTWO.algo (.of c.popSize c.popSize c.popSize)
  | oppoTWO : Accepted c 5 → (c.popSize % 2 = 0) → (c.swarmLike = true) → Tracked c OppoTWO.algo (.of (c.popSize + c.popSize / 2) (c.popSize + c.popSize) (c.popSize + c.popSize))
  | levyTWO : Accepted c 5 → (c.swarmLike = true) → Tracked c LevyTWO.algo (.of c.popSize c.popSize (c.popSize + c.popSize))
  | originalSRSR : Accepted c 5 → (OriginalSRSR.Calm c) → Tracked c OriginalSRSR.algo (.of c.popSize (c.popSize + c.popSize + 5) (c.popSize + c.popSize + 5))
  | originalAGTO (p) : Accepted c 5 → Tracked c (OriginalAGTO.algo p) (.of c.popSize (c.popSize + c.popSize) (c.popSize + c.popSize))
  | mGTO (p) : Accepted c 5 → Tracked c (MGTO.algo p) (.of c.popSize (c.popSize + c.popSize + c.popSize) (c.popSize + c.popSize + c.popSize))
  | originalGTO (p) : Accepted c 5 → Tracked c (OriginalGTO.algo p) (.of c.popSize (c.popSize + c.popSize + c.popSize) (c.popSize + c.popSize + c.popSize))
  | matlab102GTO : Accepted c 5 → Tracked c Matlab102GTO.algo (.of c.popSize (c.popSize + c.popSize + c.popSize) (c.popSize + c.popSize + c.popSize))
  | matlab101GTO : Accepted c 5 → Tracked c Matlab101GTO.algo (.of c.popSize (c.popSize * (c.popSize - 1) + c.popSize + c.popSize * (c.popSize - 1)) (c.popSize * (c.popSize - 1) + c.popSize + c.popSize * (c.popSize - 1)))
  | originalPSS (p) : Accepted c 5 → (p.mc = false) → Tracked c (OriginalPSS.algo p) (.of2 c.popSize (c.popSize + c.popSize) c.popSize c.popSize)
  | originalOrcaPA (p) : Accepted c 5 → Tracked c (OriginalOrcaPA.algo p) (.of c.popSize (c.popSize + c.popSize) (c.popSize + c.popSize + c.popSize))
  | originalWOAmM (p) : Accepted c 5 → Tracked c (OriginalWOAmM.algo p) (.of c.popSize (c.popSize * 3) (c.popSize * 3 + OriginalWOAmM.restarts c p.rate))
  | originalCRO (p) : Accepted c 5 → (2 ≤ d) → (OriginalCRO.Rates c p) → Tracked c (OriginalCRO.algo p) (.of c.popSize 0 c.popSize)
  | oCRO (p) : Accepted c 5 → (2 ≤ d) → (OriginalCRO.Rates c p.base) → Tracked c (OCRO.algo p) (.of c.popSize 0 (c.popSize + c.popSize + c.popSize + c.popSize))
  | originalBFO (p) : Accepted c 5 → (c.popSize % 2 = 0) → (2 ≤ p.ns) → Tracked c (OriginalBFO.algo p) (.of c.popSize (p.nc * c.popSize) (p.nc * (c.popSize * p.ns + c.popSize)))
  | iChameleonSA (p) : Accepted c 5 → Tracked c (IChameleonSA.algo p) (.of c.popSize (3 * c.popSize) (3 * c.popSize))
  | modifiedSLO : Accepted c 5 → (c.swarmLike = false) → Tracked c ModifiedSLO.algo (.of (c.popSize * 2) c.popSize c.popSize)
  | improvedSLO (p) : Accepted c 5 → (c.swarmLike = false) → Tracked c (ImprovedSLO.algo p) (.of (c.popSize * 2) c.popSize (c.popSize * 3))
  | originalSSpiderO (p) : Accepted c 5 → (OriginalSSpiderO.Shares c p) → Tracked c (OriginalSSpiderO.algo p) (.of c.popSize (c.popSize + c.popSize) (c.popSize + 2 * (c.popSize * c.popSize)))
  | originalIMODE (p) : Accepted c 5 → (0 < d) → (2 ≤ p.memory) → Tracked c (OriginalIMODE.algo p) (.of c.popSize c.popSize c.popSize)
-- END Tracked

/-- the modelled algorithms that stay in the box but resize the population -/
inductive Resizing (c : Cfg d K) : {X Y : Type} → Algo c X Y → Budget → Prop
-- BEGIN Resizing
  | originalFFA (p) : Accepted c 5 → Resizing c (OriginalFFA.algo p) (.of c.popSize (c.popSize * c.popSize) (c.popSize * c.popSize))
  | originalOrcaOA (p) : Accepted c 5 → (1 ≤ p.removes) → Resizing c (OriginalOrcaOA.algo p) (.of c.popSize (c.popSize - 1) (c.popSize - 1))
  | devSARO (p) : Accepted c 5 → Resizing c (DevSARO.algo p) (.of (2 * c.popSize) (2 * c.popSize) (3 * c.popSize))
  | originalSARO (p) : Accepted c 5 → (0 < d) → Resizing c (OriginalSARO.algo p) (.of (2 * c.popSize) (2 * c.popSize) (3 * c.popSize))
  | sAPDE (p) : Accepted c 8 → (SAP_DE.Small K) → Resizing c (SAP_DE.algo p) (.of c.popSize 0 (16 * c.popSize))
  | originalHGSO (p) : Accepted c 5 → (1 ≤ p) → (p ≤ c.popSize / 5) → Resizing c (OriginalHGSO.algo p) (.of c.popSize (p * (c.popSize / p)) (p * (c.popSize / p) + c.popSize))
  | improvedTLO (p) : Accepted c 5 → (2 ≤ p) → ((p + 1) * (p + 1) ≤ c.popSize) → Resizing c (ImprovedTLO.algo p) (.of c.popSize (p * ImprovedTLO.teamSize c p + p * ImprovedTLO.teamSize c p) (p * ImprovedTLO.teamSize c p + p * ImprovedTLO.teamSize c p))
  | originalLSHADEcnEpSin (p) : Accepted c 5 → (2 ≤ d) → (1 ≤ p.memory) → (4 ≤ p.min) → (p.min ≤ c.popSize) → Resizing c (OriginalLSHADEcnEpSin.algo p) (.of c.popSize p.min c.popSize)
-- END Resizing

/-- the modelled algorithms that may leave the box or resize the population -/
inductive Loose (c : Cfg d K) : {X Y : Type} → Algo c X Y → Budget → Prop
-- BEGIN Loose
  | originalFOA : Accepted c 5 → (c.swarmLike = true) → (∀ j, 0 ≤ c.P.ub j) → Loose c OriginalFOA.algo (.of c.popSize c.popSize c.popSize)
  | devFOA : Accepted c 5 → (c.swarmLike = true) → (∀ j, 0 ≤ c.P.ub j) → Loose c DevFOA.algo (.of c.popSize c.popSize c.popSize)
  | whaleFOA : Accepted c 5 → (c.swarmLike = true) → Loose c WhaleFOA.algo (.of c.popSize c.popSize c.popSize)
  | originalWHO (p) : Accepted c 5 → (1 ≤ p.explore) → (1 ≤ p.exploit) → (c.swarmLike = true) → Loose c (OriginalWHO.algo p) (.of c.popSize (c.popSize * (p.explore + 1) + c.popSize * p.exploit) (c.popSize * (p.explore + 1) + c.popSize + c.popSize * (p.exploit + 2)))
-- END Loose

/-- likewise, but whatever they evaluate in an epoch is covered by the population at its end -/
inductive Keeping (c : Cfg d K) : {X Y : Type} → Algo c X Y → Budget → Prop
-- BEGIN Keeping
  | originalSA (p) : Accepted c 2 → Keeping c (OriginalSA.algo p) (.of c.popSize 1 1)
  | gaussianSA (p) : Accepted c 2 → Keeping c (GaussianSA.algo p) (.of c.popSize 1 1)
  | originalHC (p) : Accepted c 2 → Keeping c (OriginalHC.algo p) (.of c.popSize p.neighbours p.neighbours)
-- END Keeping

/-- the modelled algorithms that stay in the box and keep their population size, but may raise the exceptions listed -/
inductive Fallible (c : Cfg d K) : {X Y : Type} → Algo c X Y → Budget → List Err → Prop
-- BEGIN Fallible
  | originalHCO (p) : Accepted c 5 → Fallible c (OriginalHCO.algo p) (.of2 (c.popSize + c.popSize) (c.popSize + c.popSize + c.popSize * p.fuel) c.popSize c.popSize) [.hang]
  | devSMO (p) : Accepted c 5 → (0 < d) → (2 ≤ p.maxGroups) → Fallible c (DevSMO.algo p) (.of c.popSize (c.popSize + DevSMO.G c p * DevSMO.gSize c p) (c.popSize + DevSMO.G c p * DevSMO.gSize c p + c.popSize)) [.index, .value, .hang]
  | devSMOEven (p) : Accepted c 5 → (0 < d) → (2 ≤ p.maxGroups) → (DevSMO.Even c p) → Fallible c (DevSMO.algo p) (.of c.popSize (c.popSize + DevSMO.G c p * DevSMO.gSize c p) (c.popSize + DevSMO.G c p * DevSMO.gSize c p + c.popSize)) [.hang]
  | modifiedSLOPool : Accepted c 5 → (c.swarmLike = true) → Fallible c ModifiedSLOPool.algo (.of2 c.popSize (c.popSize * 2) c.popSize c.popSize) [.attribute]
  | improvedSLOPool (p) : Accepted c 5 → (c.swarmLike = true) → Fallible c (ImprovedSLOPool.algo p) (.of2 c.popSize (c.popSize * 2) c.popSize (c.popSize * 3)) [.attribute]
  | originalSBO (p) : Accepted c 5 → (c.swarmLike = true) → Fallible c (OriginalSBO.algo p) (.of c.popSize c.popSize c.popSize) [.index]
  | originalNRO : Accepted c 5 → Fallible c OriginalNRO.algo (.of c.popSize (c.popSize + c.popSize + c.popSize) (c.popSize + c.popSize + c.popSize)) [.value]
  | originalSquirrelSA (p) : Accepted c 5 → (2 ≤ p.food ∧ p.food + 3 ≤ c.popSize) → Fallible c (OriginalSquirrelSA.algo p) (.of c.popSize c.popSize c.popSize) [.type]
  | cMAES : Accepted c 5 → Fallible c CMA_ES.algo (.of c.popSize c.popSize c.popSize) [.value]
  | originalCHIO (p) : Accepted c 5 → Fallible c (OriginalCHIO.algo p) (.of c.popSize c.popSize (c.popSize + c.popSize)) [.value]
  | devCHIO (p) : Accepted c 5 → Fallible c (DevCHIO.algo p) (.of c.popSize c.popSize (c.popSize + c.popSize)) [.value]
  | originalWCA (p) : Accepted c 5 → (2 ≤ p.nsr ∧ p.nsr ≤ c.popSize) → Fallible c (OriginalWCA.algo p) (.of c.popSize c.popSize (c.popSize + (p.nsr - 1))) [.value, .index]
  | qleSCA (p) : Accepted c 5 → Fallible c (QleSCA.algo p) (.of c.popSize c.popSize c.popSize) [.stopIteration]
  | devGSKA (p) : Accepted c 5 → Fallible c (DevGSKA.algo p) (.of c.popSize c.popSize c.popSize) [.value, .index]
  | originalGSKA (p) : Accepted c 5 → Fallible c (OriginalGSKA.algo p) (.of c.popSize c.popSize c.popSize) [.value, .index]
  | originalSHO (p) : Accepted c 5 → Fallible c (OriginalSHO.algo p) (.of c.popSize (c.popSize * (0 + 1)) (c.popSize * (p.nTrials + 1))) [.value]
  | improvedNMRA (p) : Accepted c 5 → Fallible c (ImprovedNMRA.algo p) (.of c.popSize (c.popSize * 2) (c.popSize * 2)) [.value]
  | originalINFO : Accepted c 5 → Fallible c OriginalINFO.algo (.of c.popSize c.popSize c.popSize) [.index]
  | originalCSO (p) : Accepted c 5 → (0 < d) → (2 ≤ p.smp) → Fallible c (OriginalCSO.algo p) (.of c.popSize c.popSize (c.popSize * (2 * p.smp + 1))) [.value]
  | originalDOA : Accepted c 5 → (0 < d) → Fallible c OriginalDOA.algo (.of c.popSize c.popSize c.popSize) [.value, .index]
  | originalMA (p) : Accepted c 5 → Fallible c (OriginalMA.algo p) (.of c.popSize c.popSize (c.popSize + c.popSize * p.maxLocalGens)) [.index]
  | devEFO (p) : Accepted c 5 → Fallible c (DevEFO.algo p) (.of c.popSize c.popSize c.popSize) [.value, .index]
  | originalEFO (p) : Accepted c 5 → Fallible c (OriginalEFO.algo p) (.of c.popSize 1 1) [.value, .index]
  | originalFLA (p) : Accepted c 5 → Fallible c (OriginalFLA.algo p) (.of c.popSize c.popSize c.popSize) [.index]
  | originalSRSR : Accepted c 5 → Fallible c OriginalSRSR.algo (.of c.popSize (c.popSize + c.popSize + 5) (c.popSize + c.popSize + 5)) [.value]
  | originalESO : Accepted c 5 → Fallible c OriginalESO.algo (.of c.popSize (c.popSize * 2) (c.popSize * 3)) [.value]
  | originalCDDO (p) : Accepted c 5 → (0 < d) → (1 ≤ p.pattern ∧ p.pattern ≤ c.popSize) → Fallible c (OriginalCDDO.algo p) (.of c.popSize c.popSize c.popSize) [.value]
  | cleverBookBeesA (p) : Accepted c 5 → (1 ≤ p.elites) → (1 ≤ p.others) → Fallible c (CleverBookBeesA.algo p) (.of c.popSize c.popSize (c.popSize * p.most)) [.value]
  | originalCRO (p) : Accepted c 5 → (OriginalCRO.Rates c p) → Fallible c (OriginalCRO.algo p) (.of c.popSize 0 c.popSize) [.value]
  | oCRO (p) : Accepted c 5 → (OriginalCRO.Rates c p.base) → Fallible c (OCRO.algo p) (.of c.popSize 0 (c.popSize + c.popSize + c.popSize + c.popSize)) [.value]
  | originalSHADE (p) : Accepted c 5 → (0 < d) → Fallible c (OriginalSHADE.algo p) (.of c.popSize c.popSize c.popSize) [.value, .index]
  | originalSFO (p) : Accepted c 5 → (c.popSize ≤ OriginalSFO.size c p.pp) → Fallible c (OriginalSFO.algo p) (.of (c.popSize + OriginalSFO.size c p.pp) c.popSize (c.popSize + OriginalSFO.size c p.pp + c.popSize)) [.value]
-- END Fallible

/-- the modelled algorithms that stay in the box but may resize their population and may raise the exceptions listed -/
inductive Risky (c : Cfg d K) : {X Y : Type} → Algo c X Y → Budget → List Err → Prop
-- BEGIN Risky
  | originalTS (p) : Accepted c 2 → (2 ≤ p.tabu) → Risky c (OriginalTS.algo p) (.of c.popSize 1 p.neighbours) [.index]
  | aBFO (p) : Accepted c 5 → (5 ≤ p.split) → Risky c (ABFO.algo p) (.of c.popSize (c.popSize * p.ns) (c.popSize * (p.ns + 1))) [.index, .zeroDiv]
  | originalLSHADEcnEpSin (p) : Accepted c 5 → (0 < d) → (1 ≤ p.memory) → (4 ≤ p.min) → Risky c (OriginalLSHADEcnEpSin.algo p) (.of c.popSize (min p.min c.popSize) c.popSize) [.value, .index]
  | originalBSO (p) : Accepted c 5 → (2 ≤ p.base.m) → (p.base.m ≤ c.popSize / 5) → Risky c (OriginalBSO.algo p) (.of c.popSize (p.base.m * (c.popSize / p.base.m)) (c.popSize + 1)) [.index]
-- END Risky

/-- the modelled algorithms that evaluate feasible points only and keep their population size, but whose agents may carry the target of
another position; each may raise the exceptions listed -/
inductive Careless (c : Cfg d K) : {X Y : Type} → Algo c X Y → Budget → List Err → Prop
-- BEGIN Careless
  | originalWHO (p) : Accepted c 5 → (1 ≤ p.explore) → (c.swarmLike = false) → Careless c (OriginalWHO.algo p) (.of c.popSize (c.popSize * (p.explore + 1) + c.popSize * p.exploit) (c.popSize * (p.explore + 1) + c.popSize + c.popSize * (p.exploit + 2))) []
  | originalSBO (p) : Accepted c 5 → (c.swarmLike = false) → Careless c (OriginalSBO.algo p) (.of c.popSize c.popSize c.popSize) [.index]
  | originalAAA (p) : Accepted c 5 → (3 ≤ d) → Careless c (OriginalAAA.algo p) (.of c.popSize 0 (c.popSize * p.fuel + 1)) [.hang]
-- END Careless

/-- likewise, and they also write into position arrays that agents of the history share -/
inductive InPlace (c : Cfg d K) : {X Y : Type} → Algo c X Y → Budget → List Err → Prop
-- BEGIN InPlace
  | baseGA (p) : Accepted c 5 → InPlace c (BaseGA.algo p) (.of c.popSize (c.popSize - 1) c.popSize) [.value, .index]
  | multiGA (p) : Accepted c 5 → InPlace c (MultiGA.algo p) (.of c.popSize (c.popSize - 1) c.popSize) [.value, .index]
  | singleGA (p) : Accepted c 5 → InPlace c (SingleGA.algo p) (.of c.popSize (c.popSize - 1) c.popSize) [.value, .index]
  | eliteSingleGA (p) (e) : Accepted c 5 → (c.swarmLike = false) → InPlace c (EliteSingleGA.algo p e) (.of c.popSize (c.popSize - e.nBest) (c.popSize - e.nBest)) [.value, .index]
  | eliteMultiGA (p) (e) : Accepted c 5 → (c.swarmLike = false) → InPlace c (EliteMultiGA.algo p e) (.of c.popSize (c.popSize - e.nBest) (c.popSize - e.nBest)) [.value, .index]
  | originalHBO (p) (q) : Accepted c 5 → InPlace c (OriginalHBO.algo p q) (.of c.popSize (c.popSize - 1) (c.popSize - 1)) [.value, .index]
  | originalBeesA (p) : Accepted c 5 → 0 < d → (1 ≤ p.selectedLocal) → (1 ≤ p.eliteLocal) → InPlace c (OriginalBeesA.algo p) (.of c.popSize c.popSize (c.popSize * max p.selectedLocal p.eliteLocal)) []
  | probBeesA (p) : Accepted c 5 → 0 < d → InPlace c (ProbBeesA.algo p) (.of c.popSize c.popSize (c.popSize * c.popSize)) []
  | originalTHRO : Accepted c 10 → InPlace c OriginalTHRO.algo (.of c.popSize (c.popSize / 2 * 2 + c.popSize / 2 * 2) (c.popSize / 2 * 2 + c.popSize / 2 * 2)) []
-- END InPlace

/-- the modelled algorithms that keep their population size, but may evaluate points outside the box and whose agents may carry the
target of another position; each may raise the exceptions listed -/
inductive Wild (c : Cfg d K) : {X Y : Type} → Algo c X Y → Budget → List Err → Prop
-- BEGIN Wild
  | originalFOA : Accepted c 5 → Wild c OriginalFOA.algo (.of c.popSize c.popSize c.popSize) [.value]
  | devFOA : Accepted c 5 → Wild c DevFOA.algo (.of c.popSize c.popSize c.popSize) [.value]
  | whaleFOA : Accepted c 5 → Wild c WhaleFOA.algo (.of c.popSize c.popSize c.popSize) []
  | originalBCO (p) : Accepted c 5 → Wild c (OriginalBCO.algo p) (.of c.popSize c.popSize (c.popSize * (1 + p.swim) + c.popSize + c.popSize)) []
  | enhancedTWO : Accepted c 5 → Wild c EnhancedTWO.algo (.of (c.popSize + c.popSize) (c.popSize + c.popSize) (c.popSize + c.popSize * 2)) []
  | oppoTWO : Accepted c 5 → (c.popSize % 2 = 0) → Wild c OppoTWO.algo (.of (c.popSize + c.popSize / 2) (c.popSize + c.popSize) (c.popSize + c.popSize)) []
  | levyTWO : Accepted c 5 → Wild c LevyTWO.algo (.of c.popSize c.popSize (c.popSize + c.popSize)) []
  | originalTSeedA (p) : Accepted c 5 → Wild c (OriginalTSeedA.algo p) (.of c.popSize (c.popSize * max 1 (c.popSize / 10)) (c.popSize * max 2 (c.popSize / 4))) []
  | originalArchOA (p) : Accepted c 5 → Wild c (OriginalArchOA.algo p) (.of c.popSize c.popSize c.popSize) []
-- END Wild

/-- as `InPlace`, and the population may shrink -/
inductive Shrinking (c : Cfg d K) : {X Y : Type} → Algo c X Y → Budget → List Err → Prop
-- BEGIN Shrinking
  | originalICA (p) : Accepted c 10 → (2 ≤ p.empires) → (p.empires ≤ 2 + c.popSize / 5) → Shrinking c (OriginalICA.algo p) (.of c.popSize c.popSize (2 * (c.popSize + c.epoch))) [.value, .overflow, .index]
-- END Shrinking

/-- a modelled algorithm that stays in the box and may raise the exceptions listed -/
def MayRaise (c : Cfg d K) (A : Algo c X Y) (b : Budget) (es : List Err) : Prop := Fallible c A b es ∨ Risky c A b es

/-- a modelled algorithm that stays in the box and keeps its population size -/
def Modelled (c : Cfg d K) (A : Algo c X Y) (b : Budget) : Prop := Elitist c A b ∨ Tracked c A b

/-- a modelled algorithm that stays in the box -/
def Boxed (c : Cfg d K) (A : Algo c X Y) (b : Budget) : Prop := Modelled c A b ∨ Resizing c A b

/-- any modelled algorithm -/
def AnyModelled (c : Cfg d K) (A : Algo c X Y) (b : Budget) : Prop := Boxed c A b ∨ Loose c A b ∨ Keeping c A b

/-- a modelled algorithm that stays in the box, whether or not it may raise -/
def Contained (c : Cfg d K) (A : Algo c X Y) (b : Budget) : Prop := Boxed c A b ∨ ∃ e, MayRaise c A b e

/-- a modelled algorithm that keeps its population size, whether or not it may raise -/
def Sized (c : Cfg d K) (A : Algo c X Y) (b : Budget) : Prop := Modelled c A b ∨ ∃ e, Fallible c A b e

/-- any algorithm of the catalogue whose agents carry the targets of their own positions -/
def Listed (c : Cfg d K) (A : Algo c X Y) (b : Budget) : Prop := AnyModelled c A b ∨ ∃ e, MayRaise c A b e

/-- a modelled algorithm whose agents may carry the target of another position -/
def Untidy (c : Cfg d K) (A : Algo c X Y) (b : Budget) (es : List Err) : Prop := Careless c A b es ∨ InPlace c A b es ∨ Wild c A b es ∨ Shrinking c A b es

/-- a modelled algorithm that evaluates feasible points only -/
def StaysIn (c : Cfg d K) (A : Algo c X Y) (b : Budget) : Prop :=
  Contained c A b ∨ ∃ es, Careless c A b es ∨ InPlace c A b es ∨ Shrinking c A b es

/-- a modelled algorithm that keeps its population size -/
def KeepsSize (c : Cfg d K) (A : Algo c X Y) (b : Budget) : Prop :=
  Sized c A b ∨ ∃ es, Careless c A b es ∨ InPlace c A b es ∨ Wild c A b es

/-- a modelled algorithm that leaves the agents of the history alone -/
def KeepsHistory (c : Cfg d K) (A : Algo c X Y) (b : Budget) : Prop := Listed c A b ∨ ∃ es, Careless c A b es ∨ Wild c A b es

/-- any algorithm of the catalogue, untidy ones included -/
def Catalogued (c : Cfg d K) (A : Algo c X Y) (b : Budget) : Prop := Listed c A b ∨ ∃ es, Untidy c A b es

/-- a modelled algorithm that returns the best point it evaluated -/
def ReturnsBest (c : Cfg d K) (A : Algo c X Y) (b : Budget) : Prop := Elitist c A b ∨ Keeping c A b

/-- what is proved of an elitist algorithm -/
structure ElitistFacts (A : Algo c X Y) (b : Budget) : Prop where
  ok : ∃ F J0 J1 J, A.Ok F J0 J1 J b.first b.lo b.hi ∧ ∀ a : Agent d K X, F a → Feas c a.sol
  first : b.first = b.firstMax
  disc : Disciplined true A
  pos : 0 < c.popSize
  epochs : 0 < c.epoch

theorem ElitistFacts.of {A : Algo c X Y} {lo : Nat} (h : Accepted c lo) (h0 : 0 < lo) {F : Agent d K X → Prop} {J0 J1 J : Y → Prop}
    {n a b : Nat} (hok : A.Ok F J0 J1 J n a b) (hF : ∀ a : Agent d K X, F a → Feas c a.sol) (hb : Framed true A.beforeMain)
    (hf : ∀ ep, Framed true (A.evolve ep)) : ElitistFacts A (.of n a b) where
  ok := ⟨F, J0, J1, J, hok, hF⟩
  first := rfl
  disc := ⟨hb, hf⟩
  pos := by have := h.pop; omega
  epochs := by have := h.epoch; omega

/-- what is proved of a tracked algorithm -/
structure TrackedFacts (A : Algo c X Y) (b : Budget) : Prop where
  ok : ∃ I J0 J1 i1 i2 b1 b2, A.WOk noErr I J0 J1 i1 i2 b1 b2 b.lo b.hi ∧ b.first = i1 + b1 ∧ b.firstMax = i2 + b2 ∧
    (∀ x, I.pos x → Feas c x) ∧ (∀ n, I.size n → n = c.popSize) ∧ ∀ a : Agent d K X, I.agent a → Feas c a.sol
  disc : ∃ q, Disciplined q A
  pos : 0 < c.popSize
  epochs : 0 < c.epoch

theorem TrackedFacts.of {A : Algo c X Y} {lo : Nat} (h : Accepted c lo) (h0 : 0 < lo) {J0 J1 J : Y → Prop}
    {n m a b : Nat} (hok : A.WOk noErr (Inv.std c X J) J0 J1 n m 0 0 a b) {q : Bool} (hb : Framed q A.beforeMain)
    (hf : ∀ ep, Framed q (A.evolve ep)) : TrackedFacts A ⟨n, m, a, b⟩ where
  ok := ⟨_, _, _, _, _, _, _, hok, rfl, rfl, fun x h => h, fun n h => h, fun a h => h⟩
  disc := ⟨q, hb, hf⟩
  pos := by have := h.pop; omega
  epochs := by have := h.epoch; omega

/-- what is proved of an algorithm that resizes its population -/
structure ResizingFacts (A : Algo c X Y) (b : Budget) : Prop where
  ok : ∃ I J0 J1 i1 i2 b1 b2, A.WOk noErr I J0 J1 i1 i2 b1 b2 b.lo b.hi ∧ b.first = i1 + b1 ∧ b.firstMax = i2 + b2 ∧
    (∀ x, I.pos x → Feas c x) ∧ ∀ a : Agent d K X, I.agent a → Feas c a.sol
  disc : ∃ q, Disciplined q A
  pos : 0 < c.popSize
  epochs : 0 < c.epoch

theorem ResizingFacts.of {A : Algo c X Y} {lo : Nat} (h : Accepted c lo) (h0 : 0 < lo) {sz : Nat → Prop} {J J0 J1 : Y → Prop}
    {n m a b : Nat} (hok : A.WOk noErr (⟨Feas c, sz, FA c, J⟩ : Inv c X Y) J0 J1 n m 0 0 a b) {q : Bool} (hb : Framed q A.beforeMain)
    (hf : ∀ ep, Framed q (A.evolve ep)) : ResizingFacts A ⟨n, m, a, b⟩ where
  ok := ⟨_, _, _, _, _, _, _, hok, rfl, rfl, fun x h => h, fun a h => h⟩
  disc := ⟨q, hb, hf⟩
  pos := by have := h.pop; omega
  epochs := by have := h.epoch; omega

/-- what is proved of an algorithm that may raise one of `es` -/
structure FallibleFacts (A : Algo c X Y) (b : Budget) (es : List Err) : Prop where
  ok : ∃ I J0 J1 i1 i2 b1 b2, A.WOk (only es) I J0 J1 i1 i2 b1 b2 b.lo b.hi ∧ b.first = i1 + b1 ∧ b.firstMax = i2 + b2 ∧
    (∀ x, I.pos x → Feas c x) ∧ (∀ n, I.size n → n = c.popSize) ∧ ∀ a : Agent d K X, I.agent a → Feas c a.sol
  disc : ∃ q, Disciplined q A
  pos : 0 < c.popSize
  epochs : 0 < c.epoch

theorem FallibleFacts.of {A : Algo c X Y} {es : List Err} {lo : Nat} (h : Accepted c lo) (h0 : 0 < lo) {J0 J1 J : Y → Prop}
    {n m a b : Nat} (hok : A.WOk (only es) (Inv.std c X J) J0 J1 n m 0 0 a b) {q : Bool} (hb : Framed q A.beforeMain)
    (hf : ∀ ep, Framed q (A.evolve ep)) : FallibleFacts A ⟨n, m, a, b⟩ es where
  ok := ⟨_, _, _, _, _, _, _, hok, rfl, rfl, fun x h => h, fun n h => h, fun a h => h⟩
  disc := ⟨q, hb, hf⟩
  pos := by have := h.pop; omega
  epochs := by have := h.epoch; omega

/-- what is proved of an algorithm that may resize its population and may raise one of `es` -/
structure RiskyFacts (A : Algo c X Y) (b : Budget) (es : List Err) : Prop where
  ok : ∃ I J0 J1 i1 i2 b1 b2, A.WOk (only es) I J0 J1 i1 i2 b1 b2 b.lo b.hi ∧ b.first = i1 + b1 ∧ b.firstMax = i2 + b2 ∧
    (∀ x, I.pos x → Feas c x) ∧ ∀ a : Agent d K X, I.agent a → Feas c a.sol
  disc : ∃ q, Disciplined q A
  pos : 0 < c.popSize
  epochs : 0 < c.epoch

theorem RiskyFacts.of {A : Algo c X Y} {es : List Err} {lo : Nat} (h : Accepted c lo) (h0 : 0 < lo) {sz : Nat → Prop} {F : Agent d K X → Prop} {J J0 J1 : Y → Prop}
    {n m a b : Nat} (hok : A.WOk (only es) (⟨Feas c, sz, fun x => FA c x ∧ F x, J⟩ : Inv c X Y) J0 J1 n m 0 0 a b) {q : Bool} (hb : Framed q A.beforeMain)
    (hf : ∀ ep, Framed q (A.evolve ep)) : RiskyFacts A ⟨n, m, a, b⟩ es where
  ok := ⟨_, _, _, _, _, _, _, hok, rfl, rfl, fun x h => h, fun a h => h.1⟩
  disc := ⟨q, hb, hf⟩
  pos := by have := h.pop; omega
  epochs := by have := h.epoch; omega

theorem RiskyFacts.ofSized {A : Algo c X Y} {es : List Err} {lo : Nat} (h : Accepted c lo) (h0 : 0 < lo) {sz : Nat → Prop} {J J0 J1 : Y → Prop}
    {n m a b : Nat} (hok : A.WOk (only es) (⟨Feas c, sz, FA c, J⟩ : Inv c X Y) J0 J1 n m 0 0 a b) {q : Bool} (hb : Framed q A.beforeMain)
    (hf : ∀ ep, Framed q (A.evolve ep)) : RiskyFacts A ⟨n, m, a, b⟩ es where
  ok := ⟨_, _, _, _, _, _, _, hok, rfl, rfl, fun x h => h, fun a h => h⟩
  disc := ⟨q, hb, hf⟩
  pos := by have := h.pop; omega
  epochs := by have := h.epoch; omega

/-- what is proved of any modelled algorithm -/
structure LooseFacts (A : Algo c X Y) (b : Budget) : Prop where
  ok : ∃ I J0 J1 i1 i2 b1 b2, A.WOk noErr I J0 J1 i1 i2 b1 b2 b.lo b.hi ∧ b.first = i1 + b1 ∧ b.firstMax = i2 + b2
  disc : ∃ q, Disciplined q A
  pos : 0 < c.popSize
  epochs : 0 < c.epoch

theorem LooseFacts.of {A : Algo c X Y} {lo : Nat} (h : Accepted c lo) (h0 : 0 < lo) {I : Inv c X Y} {J0 J1 : Y → Prop}
    {n a b : Nat} (hok : A.WOk noErr I J0 J1 n n 0 0 a b) {q : Bool} (hb : Framed q A.beforeMain)
    (hf : ∀ ep, Framed q (A.evolve ep)) : LooseFacts A (.of n a b) where
  ok := ⟨_, _, _, _, _, _, _, hok, rfl, rfl⟩
  disc := ⟨q, hb, hf⟩
  pos := by have := h.pop; omega
  epochs := by have := h.epoch; omega

/-- what is proved of an untidy algorithm; `boxed` if it evaluates feasible points only, `sized` if it keeps its population size -/
structure LightFacts (boxed sized : Bool) (A : Algo c X Y) (b : Budget) (es : List Err) : Prop where
  ok : ∃ I J J0 J1 i1 i2 b1 b2, A.LOkE (only es) I J J0 J1 i1 i2 b1 b2 b.lo b.hi ∧ b.first = i1 + b1 ∧ b.firstMax = i2 + b2 ∧
    (sized = true → ∀ n, I.size n → n = c.popSize) ∧ (boxed = true → ∀ x, I.pos x → Feas c x)
  pos : 0 < c.popSize
  epochs : 0 < c.epoch

theorem LightFacts.of {boxed : Bool} {A : Algo c X Y} {es : List Err} {lo : Nat} (h : Accepted c lo) (h0 : 0 < lo) {I : LInv d K Y} {J0 J1 : Y → Prop}
    {n m a b : Nat} (hok : A.LOk (only es) I J0 J1 n m 0 0 a b) (hs : ∀ n, I.size n → n = c.popSize)
    (hx : boxed = true → ∀ x, I.pos x → Feas c x) : LightFacts boxed true A ⟨n, m, a, b⟩ es where
  ok := ⟨_, _, _, _, _, _, _, _, hok.each, rfl, rfl, fun _ => hs, hx⟩
  pos := by have := h.pop; omega
  epochs := by have := h.epoch; omega

theorem LightFacts.ofE {boxed : Bool} {A : Algo c X Y} {es : List Err} {lo : Nat} (h : Accepted c lo) (h0 : 0 < lo) {I : LInv d K Y} {J : Nat → Y → Prop}
    {J0 J1 : Y → Prop} {n m a b : Nat} (hok : A.LOkE (only es) I J J0 J1 n m 0 0 a b) (hx : boxed = true → ∀ x, I.pos x → Feas c x) :
    LightFacts boxed false A ⟨n, m, a, b⟩ es where
  ok := ⟨_, _, _, _, _, _, _, _, hok, rfl, rfl, (fun h => Bool.noConfusion h), hx⟩
  pos := by have := h.pop; omega
  epochs := by have := h.epoch; omega

/-- what is evaluated in an epoch is covered by the population at its end -/
structure KeepFacts (A : Algo c X Y) : Prop where
  init : A.initialization = defaultInit A.mkExt
  before : ∀ s, Wp (fun _ => True) A.beforeMain s (fun _ s' => s'.hist = s.hist ∧ s'.base.log = s.base.log)
  evolve : ∀ ep s, Wp (fun _ => True) (A.evolve ep) s (fun _ s' => Covers s s')

theorem Elitist.facts (hE : c.E.Lawful) (hP : c.P.Lawful) {A : Algo c X Y} {b : Budget} (h : Elitist c A b) :
    ElitistFacts A b := by
  cases h with
-- BEGIN Elitist facts
  | originalGWO h => exact .of h (by omega) (OriginalGWO.ok hE hP h) (fun _ h => h) Framed.pure (OriginalGWO.framed hE)
  | rwGWO h => exact .of h (by omega) (RW_GWO.ok hE hP h) (fun _ h => h) Framed.pure (RW_GWO.framed hE)
  | gwoWOA h => exact .of h (by omega) (GWO_WOA.ok hE hP h) (fun _ h => h) Framed.pure (GWO_WOA.framed hE)
  | iGWO p h => exact .of h (by omega) (IGWO.ok hE hP h p) (fun _ h => h) Framed.pure (IGWO.framed hE p)
  | chaoticGWO p h => exact .of h (by omega) (ChaoticGWO.ok hE hP h p) (fun _ h => h) Framed.pure (ChaoticGWO.framed hE p)
  | fuzzyGWO p h => exact .of h (by omega) (FuzzyGWO.ok hE hP h p) (fun _ h => h) Framed.pure (FuzzyGWO.framed hE p)
  | incrementalGWO p h => exact .of h (by omega) (IncrementalGWO.ok hE hP h p) (fun _ h => h) Framed.pure (IncrementalGWO.framed hE p)
  | exGWO h => exact .of h (by omega) (ExGWO.ok hE hP h) (fun _ h => h) Framed.pure (ExGWO.framed hE)
  | erGWO p h => exact .of h (by omega) (ER_GWO.ok hE hP h p) (fun _ h => h) Framed.pure (ER_GWO.framed hE p)
  | oGWO p h hM => exact .of h (by omega) (OGWO.ok hE hP h hM p) (fun _ h => h) Framed.pure (OGWO.framed hE p)
  | originalDE p h h3 => exact .of h (by omega) (OriginalDE.ok hE hP h p h3) (fun _ h => h) Framed.pure (OriginalDE.framed hE p)
  | jade p h hd ht => exact .of h (by omega) (JADE.ok hE hP hd h p ht) (fun _ h => h) Framed.pure (JADE.framed hE p)
  | sade h hd => exact .of h (by omega) (SADE.ok hE hP hd h) (fun _ h => h) Framed.pure (SADE.framed hE)
  | swarmHC p h => exact .of h (by omega) (SwarmHC.ok hE hP h p) (fun _ h => h) Framed.pure (SwarmHC.framed hE p)
  | baseGA p h h10 hev hp h2 hd => exact .of h (by omega) (BaseGA.ok hE hP h p h10 hev hp h2 hd) (fun _ h => h) Framed.pure (BaseGA.framed hE p hp)
  | multiGA p h h10 hev hp h2 hd => exact .of h (by omega) (MultiGA.ok hE hP h p h10 hev hp h2 hd) (fun _ h => h) Framed.pure (MultiGA.framed hE p hp)
  | eliteMultiGA p e h hp he hd => exact .of h (by omega) (EliteMultiGA.ok hE hP h p e hp he hd) (fun _ h => h) Framed.pure (EliteMultiGA.framed hE p e hp)
  | originalGA h => exact .of h (by omega) (OriginalGA.ok hE hP h) (fun _ h => h) Framed.pure (OriginalGA.framed hE)
  | originalBMO p h => exact .of h (by omega) (OriginalBMO.ok hE hP h p) (fun _ h => h) Framed.pure (OriginalBMO.framed hE p)
  | originalFPA p h => exact .of h (by omega) (OriginalFPA.ok hE hP h p) (fun _ h => h) Framed.pure (OriginalFPA.framed hE p)
  | originalTSA h => exact .of h (by omega) (OriginalTSA.ok hE hP h) (fun _ h => h) Framed.pure (OriginalTSA.framed hE)
  | originalMGOA p h hd hk => exact .of h (by omega) (OriginalMGOA.ok hE hP h p hd hk) (fun _ h => h) Framed.pure (OriginalMGOA.framed hE p)
  | originalRIME p h => exact .of h (by omega) (OriginalRIME.ok hE hP h p) (fun _ h => h) Framed.pure (OriginalRIME.framed hE p)
  | originalSHIO h => exact .of h (by omega) (OriginalSHIO.ok hE hP h) (fun _ h => h) Framed.pure (OriginalSHIO.framed hE)
  | originalCircleSA p h => exact .of h (by omega) (OriginalCircleSA.ok hE hP h p) (fun _ h => h) Framed.pure (OriginalCircleSA.framed hE p)
  | originalSCSO h => exact .of h (by omega) (OriginalSCSO.ok hE hP h) (fun _ h => h) Framed.pure (OriginalSCSO.framed hE)
  | originalGJO h => exact .of h (by omega) (OriginalGJO.ok hE hP h) (fun _ h => h) Framed.pure (OriginalGJO.framed hE)
  | devJA h => exact .of h (by omega) (DevJA.ok hE hP h) (fun _ h => h) Framed.pure (DevJA.framed hE)
  | originalJA h => exact .of h (by omega) (OriginalJA.ok hE hP h) (fun _ h => h) Framed.pure (OriginalJA.framed hE)
  | levyJA h => exact .of h (by omega) (LevyJA.ok hE hP h) (fun _ h => h) Framed.pure (LevyJA.framed hE)
  | devSCA h => exact .of h (by omega) (DevSCA.ok hE hP h) (fun _ h => h) Framed.pure (DevSCA.framed hE)
  | originalSCA h => exact .of h (by omega) (OriginalSCA.ok hE hP h) (fun _ h => h) Framed.pure (OriginalSCA.framed hE)
  | originalLCO p h => exact .of h (by omega) (OriginalLCO.ok hE hP h p) (fun _ h => h) Framed.pure (OriginalLCO.framed hE p)
  | devLCO p h => exact .of h (by omega) (DevLCO.ok hE hP h p) (fun _ h => h) Framed.pure (DevLCO.framed hE p)
  | devHS p h hu => exact .of h (by omega) (DevHS.ok hE hP h p hu) (fun _ h => h) Framed.pure (DevHS.framed hE p)
  | originalHS p h => exact .of h (by omega) (OriginalHS.ok hE hP h p) (fun _ h => h) Framed.pure (OriginalHS.framed hE p)
  | originalWOA h => exact .of h (by omega) (OriginalWOA.ok hE hP h) (fun _ h => h) Framed.pure (OriginalWOA.framed hE)
  | devWOA h => exact .of h (by omega) (DevWOA.ok hE hP h) (fun _ h => h) Framed.pure (DevWOA.framed hE)
  | originalPOA h => exact .of h (by omega) (OriginalPOA.ok hE hP h) (fun _ h => h) Framed.pure (OriginalPOA.framed hE)
  | devVCS p h => exact .of h (by omega) (DevVCS.ok hE hP h p) (fun _ h => h) Framed.pure (DevVCS.framed hE p)
  | originalVCS p h => exact .of h (by omega) (OriginalVCS.ok hE hP h p) (fun _ h => h) Framed.pure (OriginalVCS.framed hE p)
  | originalSPBO h => exact .of h (by omega) (OriginalSPBO.ok hE hP h) (fun _ h => h) Framed.pure (OriginalSPBO.framed hE)
  | devSPBO h => exact .of h (by omega) (DevSPBO.ok hE hP h) (fun _ h => h) Framed.pure (DevSPBO.framed hE)
  | originalAOA p h => exact .of h (by omega) (OriginalAOA.ok hE hP h p) (fun _ h => h) Framed.pure (OriginalAOA.framed hE p)
  | originalCEM p h => exact .of h (by omega) (OriginalCEM.ok hE hP h p) (fun _ h => h) Framed.pure (OriginalCEM.framed hE p)
  | originalSSO h => exact .of h (by omega) (OriginalSSO.ok hE hP h) (fun _ h => h) Framed.pure (OriginalSSO.framed hE)
  | originalMFO h => exact .of h (by omega) (OriginalMFO.ok hE hP h) (fun _ h => h) Framed.pure (OriginalMFO.framed hE)
  | originalPFA h => exact .of h (by omega) (OriginalPFA.ok hE hP h) (fun _ h => h) Framed.pure (OriginalPFA.framed hE)
  | originalRSA p h => exact .of h (by omega) (OriginalRSA.ok hE hP h p) (fun _ h => h) Framed.pure (OriginalRSA.framed hE p)
  | originalWarSO p h => exact .of h (by omega) (OriginalWarSO.ok hE hP h p) (fun _ h => h) Framed.pure (OriginalWarSO.framed hE p)
  | originalCSA p h hn => exact .of h (by omega) (OriginalCSA.ok hE hP h p hn) (fun _ h => h) Framed.pure (OriginalCSA.framed hE p)
  | originalCDO h => exact .of h (by omega) (OriginalCDO.ok hE hP h) (fun _ h => h) Framed.pure (OriginalCDO.framed hE)
  | originalSOS h hd => exact .of h (by omega) (OriginalSOS.ok hE hP h hd) (fun _ h => h) Framed.pure (OriginalSOS.framed hE)
  | originalChOA h => exact .of h (by omega) (OriginalChOA.ok hE hP h) (fun _ h => h) Framed.pure (OriginalChOA.framed hE)
  | originalSSDO h => exact .of h (by omega) (OriginalSSDO.ok hE hP h) (fun _ h => h) Framed.pure (OriginalSSDO.framed hE)
  | originalEOA p h hn1 hn2 => exact .of h (by omega) (OriginalEOA.ok hE hP h p hn1 hn2) (fun _ h => h) Framed.pure (OriginalEOA.framed hE p)
  | originalEAO p h => exact .of h (by omega) (OriginalEAO.ok hE hP h p) (fun _ h => h) Framed.pure (OriginalEAO.framed hE p)
  | originalGOA p h => exact .of h (by omega) (OriginalGOA.ok hE hP h p) (fun _ h => h) Framed.pure (OriginalGOA.framed hE p)
  | originalHBA h => exact .of h (by omega) (OriginalHBA.ok hE hP h) (fun _ h => h) Framed.pure (OriginalHBA.framed hE)
  | originalServalOA h => exact .of h (by omega) (OriginalServalOA.ok hE hP h) (fun _ h => h) Framed.pure (OriginalServalOA.framed hE)
  | originalKLA h => exact .of h (by omega) (OriginalKLA.ok hE hP h) (fun _ h => h) Framed.pure (OriginalKLA.framed hE)
  | originalBBOA h => exact .of h (by omega) (OriginalBBOA.ok hE hP h) (fun _ h => h) Framed.pure (OriginalBBOA.framed hE)
  | originalDSO p h => exact .of h (by omega) (OriginalDSO.ok hE hP h p) (fun _ h => h) Framed.preBefore (OriginalDSO.framed hE p)
  | originalWaOA h => exact .of h (by omega) (OriginalWaOA.ok hE hP h) (fun _ h => h) Framed.pure (OriginalWaOA.framed hE)
  | originalCrayfishOA h => exact .of h (by omega) (OriginalCrayfishOA.ok hE hP h) (fun _ h => h) Framed.pure (OriginalCrayfishOA.framed hE)
  | originalCGO h hd => exact .of h (by omega) (OriginalCGO.ok hE hP h hd) (fun _ h => h) Framed.pure (OriginalCGO.framed hE)
  | originalEHO p h hk => exact .of h (by omega) (OriginalEHO.ok hE hP h p hk) (fun _ h => h) Framed.pure (OriginalEHO.framed hE p)
  | originalWDO p h hd => exact .of h (by omega) (OriginalWDO.ok hE hP h p hd) (fun _ h => h) Framed.pure (OriginalWDO.framed hE p)
  | originalMPA h => exact .of h (by omega) (OriginalMPA.ok hE hP h) (fun _ h => h) Framed.pure (OriginalMPA.framed hE)
  | originalACOR p h => exact .of h (by omega) (OriginalACOR.ok hE hP h p) (fun _ h => h) Framed.pure (OriginalACOR.framed hE p)
  | originalAFT h => exact .of h (by omega) (OriginalAFT.ok hE hP h) (fun _ h => h) Framed.preBefore (OriginalAFT.framed hE)
  | originalIWO p h hs => exact .of h (by omega) (OriginalIWO.ok hE hP h p hs) (fun _ h => h) Framed.pure (OriginalIWO.framed hE p)
  | originalMGO h => exact .of h (by omega) (OriginalMGO.ok hE hP h) (fun _ h => h) Framed.pure (OriginalMGO.framed hE)
  | originalNGO h => exact .of h (by omega) (OriginalNGO.ok hE hP h) (fun _ h => h) Framed.pure (OriginalNGO.framed hE)
  | originalSeaHO h => exact .of h (by omega) (OriginalSeaHO.ok hE hP h) (fun _ h => h) Framed.pure (OriginalSeaHO.framed hE)
  | originalSTO h => exact .of h (by omega) (OriginalSTO.ok hE hP h) (fun _ h => h) Framed.pure (OriginalSTO.framed hE)
  | originalOOA h => exact .of h (by omega) (OriginalOOA.ok hE hP h) (fun _ h => h) Framed.pure (OriginalOOA.framed hE)
  | originalOSA p h => exact .of h (by omega) (OriginalOSA.ok hE hP h p) (fun _ h => h) Framed.pure (OriginalOSA.framed hE p)
  | originalTSeedA p h hm => exact .of h (by omega) (OriginalTSeedA.ok hE hP h p hm) (fun _ h => h) Framed.pure (OriginalTSeedA.framed hE p)
  | originalMSA p h hn => exact .of h (by omega) (OriginalMSA.ok hE hP h p hn) (fun _ h => h) Framed.pure (OriginalMSA.framed hE p)
  | originalEVO h hd => exact .of h (by omega) (OriginalEVO.ok hE hP h hd) (fun _ h => h) Framed.pure (OriginalEVO.framed hE)
  | originalFFO h => exact .of h (by omega) (OriginalFFO.ok hE hP h) (fun _ h => h) Framed.pure (OriginalFFO.framed hE)
  | originalTDO h => exact .of h (by omega) (OriginalTDO.ok hE hP h) (fun _ h => h) Framed.pure (OriginalTDO.framed hE)
  | originalFHO h => exact .of h (by omega) (OriginalFHO.ok hE hP h) (fun _ h => h) Framed.pure (OriginalFHO.framed hE)
  | originalSBOA h => exact .of h (by omega) (OriginalSBOA.ok hE hP h) (fun _ h => h) Framed.pure (OriginalSBOA.framed hE)
  | originalRFO p h => exact .of h (by omega) (OriginalRFO.ok hE hP h p) (fun _ h => h) Framed.pure (OriginalRFO.framed hE p)
  | originalTSO h => exact .of h (by omega) (OriginalTSO.ok hE hP h) (fun _ h => h) Framed.pure (OriginalTSO.framed hE)
  | originalHGS p h => exact .of h (by omega) (OriginalHGS.ok hE hP h p) (fun _ h => h) Framed.pure (OriginalHGS.framed hE p)
  | originalZOA h => exact .of h (by omega) (OriginalZOA.ok hE hP h) (fun _ h => h) Framed.pure (OriginalZOA.framed hE)
  | originalAVOA p h => exact .of h (by omega) (OriginalAVOA.ok hE hP h p) (fun _ h => h) Framed.pure (OriginalAVOA.framed hE p)
  | originalBWO h hd => exact .of h (by omega) (OriginalBWO.ok hE hP h hd) (fun _ h => h) Framed.pure (OriginalBWO.framed hE)
  | originalFA p h hd hr => exact .of h (by omega) (OriginalFA.ok hE hP h p hd hr) (fun _ h => h) Framed.pure (OriginalFA.framed hE p)
  | originalBWOA p h hd hp => exact .of h (by omega) (OriginalBWOA.ok hE hP h p hd hp) (fun _ h => h) Framed.pure (OriginalBWOA.framed hE p)
  | originalFDO p h => exact .of h (by omega) (OriginalFDO.ok hE hP h p) (fun _ h => h) Framed.pure (OriginalFDO.framed hE p)
  | devSOA p h => exact .of h (by omega) (DevSOA.ok hE hP h p) (fun _ h => h) Framed.pure (DevSOA.framed hE p)
  | originalSOA p h => exact .of h (by omega) (OriginalSOA.ok hE hP h p) (fun _ h => h) Framed.pure (OriginalSOA.framed hE p)
  | originalCDDO p h hd hp hb => exact .of h (by omega) (OriginalCDDO.ok hE hP h p hd hp hb) (fun _ h => h) Framed.preBefore (OriginalCDDO.framed hE p)
  | originalDBO p h => exact .of h (by omega) (OriginalDBO.ok hE hP h p) (fun _ h => h) Framed.preBefore (OriginalDBO.framed hE p)
  | originalSOO h => exact .of h (by omega) (OriginalSOO.ok hE hP h) (fun _ h => h) Framed.pure (OriginalSOO.framed hE)
  | originalArchOA p h hsw => exact .of h (by omega) (OriginalArchOA.ok hE hP h p hsw) (fun _ h => h) Framed.pure (OriginalArchOA.framed hE p)
  | originalAPO p h hd => exact .of h (by omega) (OriginalAPO.ok hE hP h p hd) (fun _ h => h) Framed.pure (OriginalAPO.framed hE p)
  | devSSpiderA p h => exact .of h (by omega) (DevSSpiderA.ok hE hP h p) (fun _ h => h) Framed.pure (DevSSpiderA.framed hE p)
  | originalPSO p h => exact .of h (by omega) (OriginalPSO.ok hE hP h p) (fun _ h => h) Framed.pure (OriginalPSO.framed hE p)
  | aIWPSO p h => exact .of h (by omega) (AIW_PSO.ok hE hP h p) (fun _ h => h) Framed.pure (AIW_PSO.framed hE p)
  | lDWPSO p h => exact .of h (by omega) (LDW_PSO.ok hE hP h p) (fun _ h => h) Framed.pure (LDW_PSO.framed hE p)
  | pPSO h => exact .of h (by omega) (P_PSO.ok hE hP h) (fun _ h => h) Framed.pure (P_PSO.framed hE)
  | hPSOTVAC p h => exact .of h (by omega) (HPSO_TVAC.ok hE hP h p) (fun _ h => h) Framed.pure (HPSO_TVAC.framed hE p)
  | cLPSO p h => exact .of h (by omega) (CL_PSO.ok hE hP h p) (fun _ h => h) Framed.pure (CL_PSO.framed hE p)
  | originalAO h he => exact .of h (by omega) (OriginalAO.ok hE hP h he) (fun _ h => h) Framed.pure (OriginalAO.framed hE)
  | aAO p h he => exact .of h (by omega) (AAO.ok hE hP h p he) (fun _ h => h) Framed.pure (AAO.framed hE p)
  | originalARO h hd => exact .of h (by omega) (OriginalARO.ok hE hP h hd) (fun _ h => h) Framed.pure (OriginalARO.framed hE)
  | lARO h hd => exact .of h (by omega) (LARO.ok hE hP h hd) (fun _ h => h) Framed.pure (LARO.framed hE)
  | iARO h hd => exact .of h (by omega) (IARO.ok hE hP h hd) (fun _ h => h) Framed.pure (IARO.framed hE)
  | originalBES p h => exact .of h (by omega) (OriginalBES.ok hE hP h p) (fun _ h => h) Framed.pure (OriginalBES.framed hE p)
  | devMVO p h => exact .of h (by omega) (DevMVO.ok hE hP h p) (fun _ h => h) Framed.pure (DevMVO.framed hE p)
  | originalMVO p h => exact .of h (by omega) (OriginalMVO.ok hE hP h p) (fun _ h => h) Framed.pure (OriginalMVO.framed hE p)
  | originalKOA p h => exact .of h (by omega) (OriginalKOA.ok hE hP h p) (fun _ h => h) Framed.pure (OriginalKOA.framed hE p)
  | devSMA p h => exact .of h (by omega) (DevSMA.ok hE hP h p) (fun _ h => h) Framed.pure (DevSMA.framed hE p)
  | originalSMA p h => exact .of h (by omega) (OriginalSMA.ok hE hP h p) (fun _ h => h) Framed.pure (OriginalSMA.framed hE p)
  | devSBO p h => exact .of h (by omega) (DevSBO.ok hE hP h p) (fun _ h => h) Framed.pure (DevSBO.framed hE p)
  | originalFOX p h => exact .of h (by omega) (OriginalFOX.ok hE hP h p) (fun _ h => h) Framed.pure (OriginalFOX.framed hE p)
  | devFOX p h => exact .of h (by omega) (DevFOX.ok hE hP h p) (fun _ h => h) Framed.pure (DevFOX.framed hE p)
  | originalDandelionO h he => exact .of h (by omega) (OriginalDandelionO.ok hE hP h he) (fun _ h => h) Framed.pure (OriginalDandelionO.framed hE)
  | devDandelionO h => exact .of h (by omega) (DevDandelionO.ok hE hP h) (fun _ h => h) Framed.pure (DevDandelionO.framed hE)
  | originalINFO h h6 => exact .of h (by omega) (OriginalINFO.ok hE hP h h6) (fun _ h => h) Framed.pure (OriginalINFO.framed hE)
  | originalTLO h => exact .of h (by omega) (OriginalTLO.ok hE hP h) (fun _ h => h) Framed.pure (OriginalTLO.framed hE)
  | originalALO h he => exact .of h (by omega) (OriginalALO.ok hE hP h he) (fun _ h => h) Framed.pure (OriginalALO.framed hE)
  | devALO h => exact .of h (by omega) (DevALO.ok hE hP h) (fun _ h => h) Framed.pure (DevALO.framed hE)
  | originalBBO p h => exact .of h (by omega) (OriginalBBO.ok hE hP h p) (fun _ h => h) Framed.pure (OriginalBBO.framed hE p)
  | devBBO p h => exact .of h (by omega) (DevBBO.ok hE hP h p) (fun _ h => h) Framed.pure (DevBBO.framed hE p)
  | originalCEO p h => exact .of h (by omega) (OriginalCEO.ok hE hP h p) (fun _ h => h) Framed.pure (OriginalCEO.framed hE p)
  | originalSFOA p h hd => exact .of h (by omega) (OriginalSFOA.ok hE hP h p hd) (fun _ h => h) Framed.pure (OriginalSFOA.framed hE p)
  | originalEEFO h hd => exact .of h (by omega) (OriginalEEFO.ok hE hP h hd) (fun _ h => h) Framed.pure (OriginalEEFO.framed hE)
  | devGCO p h => exact .of h (by omega) (DevGCO.ok hE hP h p) (fun _ h => h) Framed.pure (DevGCO.framed hE p)
  | originalGCO p h => exact .of h (by omega) (OriginalGCO.ok hE hP h p) (fun _ h => h) Framed.pure (OriginalGCO.framed hE p)
  | originalRUN h hd => exact .of h (by omega) (OriginalRUN.ok hE hP h hd) (fun _ h => h) Framed.pure (OriginalRUN.framed hE)
  | originalGBO p h => exact .of h (by omega) (OriginalGBO.ok hE hP h p) (fun _ h => h) Framed.pure (OriginalGBO.framed hE p)
  | eTLBO p h hn => exact .of h (by omega) (ETLBO.ok hE hP h p hn) (fun _ h => h) Framed.pure (ETLBO.framed hE p)
  | originalAEO h => exact .of h (by omega) (OriginalAEO.ok hE hP h) (fun _ h => h) Framed.pure (OriginalAEO.framed hE)
  | improvedAEO h => exact .of h (by omega) (ImprovedAEO.ok hE hP h) (fun _ h => h) Framed.pure (ImprovedAEO.framed hE)
  | enhancedAEO h => exact .of h (by omega) (EnhancedAEO.ok hE hP h) (fun _ h => h) Framed.pure (EnhancedAEO.framed hE)
  | modifiedAEO h => exact .of h (by omega) (ModifiedAEO.ok hE hP h) (fun _ h => h) Framed.pure (ModifiedAEO.framed hE)
  | augmentedAEO h => exact .of h (by omega) (AugmentedAEO.ok hE hP h) (fun _ h => h) Framed.pure (AugmentedAEO.framed hE)
  | devQSA h => exact .of h (by omega) (DevQSA.ok hE hP h) (fun _ h => h) Framed.pure (DevQSA.framed hE)
  | oppoQSA h => exact .of h (by omega) (OppoQSA.ok hE hP h) (fun _ h => h) Framed.pure (OppoQSA.framed hE)
  | levyQSA h => exact .of h (by omega) (LevyQSA.ok hE hP h) (fun _ h => h) Framed.pure (LevyQSA.framed hE)
  | improvedQSA h => exact .of h (by omega) (ImprovedQSA.ok hE hP h) (fun _ h => h) Framed.pure (ImprovedQSA.framed hE)
  | originalQSA h => exact .of h (by omega) (OriginalQSA.ok hE hP h) (fun _ h => h) Framed.pure (OriginalQSA.framed hE)
  | devSSA p h => exact .of h (by omega) (DevSSA.ok hE hP h p) (fun _ h => h) Framed.pure (DevSSA.framed hE p)
  | originalSSA p h => exact .of h (by omega) (OriginalSSA.ok hE hP h p) (fun _ h => h) Framed.pure (OriginalSSA.framed hE p)
  | originalSLO h => exact .of h (by omega) (OriginalSLO.ok hE hP h) (fun _ h => h) Framed.pure (OriginalSLO.framed hE)
  | devGSKA p h hg => exact .of h (by omega) (DevGSKA.ok hE hP h p hg) (fun _ h => h) Framed.pure (DevGSKA.framed hE p)
  | originalGSKA p h hg => exact .of h (by omega) (OriginalGSKA.ok hE hP h p hg) (fun _ h => h) Framed.pure (OriginalGSKA.framed hE p)
  | devFBIO h hd => exact .of h (by omega) (DevFBIO.ok hE hP h hd) (fun _ h => h) Framed.pure (DevFBIO.framed hE)
  | originalFBIO h hd => exact .of h (by omega) (OriginalFBIO.ok hE hP h hd) (fun _ h => h) Framed.pure (OriginalFBIO.framed hE)
  | devBA p h => exact .of h (by omega) (DevBA.ok hE hP h p) (fun _ h => h) Framed.pure (DevBA.framed hE p)
  | devEFO p h hd hf => exact .of h (by omega) (DevEFO.ok hE hP h p hd hf) (fun _ h => h) Framed.pure (DevEFO.framed hE p)
  | originalNWOA p h => exact .of h (by omega) (OriginalNWOA.ok hE hP h p) (fun _ h => h) Framed.pure (OriginalNWOA.framed hE p)
  | originalNO p h => exact .of h (by omega) (OriginalNO.ok hE hP h p) (fun _ h => h) Framed.pure (OriginalNO.framed hE p)
  | originalLSO p h => exact .of h (by omega) (OriginalLSO.ok hE hP h p) (fun _ h => h) Framed.pure (OriginalLSO.framed hE p)
  | devLSO p h => exact .of h (by omega) (DevLSO.ok hE hP h p) (fun _ h => h) Framed.pure (DevLSO.framed hE p)
  | originalFLA p h hk => exact .of h (by omega) (OriginalFLA.ok hE hP h p hk) (fun _ h => h) Framed.pure (OriginalFLA.framed hE p)
  | originalMShOA h => exact .of h (by omega) (OriginalMShOA.ok hE hP h) (fun _ h => h) Framed.pure (OriginalMShOA.framed hE)
  | devMShOA p h => exact .of h (by omega) (DevMShOA.ok hE hP h p) (fun _ h => h) Framed.preBefore (DevMShOA.framed hE p)
  | originalWSO p h hx => exact .of h (by omega) (OriginalWSO.ok hE hP h p hx) (fun _ h => h) Framed.pure (OriginalWSO.framed hE p)
  | originalMSO h => exact .of h (by omega) (OriginalMSO.ok hE hP h) (fun _ h => h) Framed.pure (OriginalMSO.framed hE)
  | originalSHADE p h hd ht => exact .of h (by omega) (OriginalSHADE.ok hE hP h p hd ht) (fun _ h => h) Framed.pure (OriginalSHADE.framed hE p)
  | lSHADE p h hd ht => exact .of h (by omega) (L_SHADE.ok hE hP h p hd ht) (fun _ h => h) Framed.pure (L_SHADE.framed hE p)
  | originalES p h hp => exact .of h (by omega) (OriginalES.ok hE hP h p hp) (fun _ h => h) Framed.pure (OriginalES.framed hE p)
  | levyES p h hp => exact .of h (by omega) (LevyES.ok hE hP h p hp) (fun _ h => h) Framed.pure (LevyES.framed hE p)
  | simpleCMAES h => exact .of h (by omega) (Simple_CMA_ES.ok hE hP h) (fun _ h => h) Framed.pure (Simple_CMA_ES.framed hE)
  | cleverBookBeesA p h hd h1 h2 => exact .of h (by omega) (CleverBookBeesA.ok hE hP h p hd h1 h2) (fun _ h => h) Framed.pure (CleverBookBeesA.framed hE p)
  | devWOAmM p h hm => exact .of h (by omega) (DevWOAmM.ok hE hP h p hm) (fun _ h => h) Framed.preBefore (DevWOAmM.framed hE p)
  | originalBSA p h => exact .of h (by omega) (OriginalBSA.ok hE hP h p) (fun _ h => h) Framed.pure (OriginalBSA.framed hE p)
  | originalPO p h hn h2 => exact .of h (by omega) (OriginalPO.ok hE hP h p hn h2) (fun _ h => h) Framed.preBefore (OriginalPO.framed hE p)
  | originalChameleonSA p h => exact .of h (by omega) (OriginalChameleonSA.ok hE hP h p) (fun _ h => h) Framed.preBefore (OriginalChameleonSA.framed hE p)
  | improvedLCO h => exact .of h (by omega) (ImprovedLCO.ok hE hP h) (fun _ h => h) Framed.pure (ImprovedLCO.framed hE)
  | devEPC p h => exact .of h (by omega) (DevEPC.ok hE hP h p) (fun _ h => h) Framed.pure (DevEPC.framed hE p)
  | originalILA p h => exact .of h (by omega) (OriginalILA.ok hE hP h p) (fun _ h => h) Framed.preBefore (OriginalILA.framed hE p)
-- END Elitist facts

theorem Tracked.facts (hE : c.E.Lawful) (hP : c.P.Lawful) {A : Algo c X Y} {b : Budget} (h : Tracked c A b) :
    TrackedFacts A b := by
  cases h with
-- BEGIN Tracked facts
  | cgGWO h => exact .of h (by omega) (CG_GWO.wok hE hP h) Framed.pure (CG_GWO.framed hE)
  | ioblGWO h hM => exact .of h (by omega) (IOBL_GWO.wok hE hP h hM) Framed.pure (IOBL_GWO.framed hE)
  | dsGWO p h hg => exact .of h (by omega) (DS_GWO.wok hE hP h p hg) (DS_GWO.framed_before hE p) (DS_GWO.framed hE p)
  | swarmSA p h hd => exact .of h (by omega) (SwarmSA.wok hE hP hd h p) Framed.pure (SwarmSA.framed hE p)
  | hIWOA p h => exact .of h (by omega) (HI_WOA.wok hE hP h p) Framed.pure (HI_WOA.framed hE p)
  | originalEO h => exact .of h (by omega) (OriginalEO.wok hE hP h) Framed.pure (OriginalEO.framed hE)
  | modifiedEO h => exact .of h (by omega) (ModifiedEO.wok hE hP h) Framed.pure (ModifiedEO.framed hE)
  | adaptiveEO h => exact .of h (by omega) (AdaptiveEO.wok hE hP h) Framed.pure (AdaptiveEO.framed hE)
  | originalSHO p h hn => exact .of h (by omega) (OriginalSHO.wok hE hP h p hn) Framed.pure (OriginalSHO.framed hE p)
  | originalABC p h => exact .of h (by omega) (OriginalABC.wok hE hP h p) Framed.pure (OriginalABC.framed hE p)
  | originalCA p h hn => exact .of h (by omega) (OriginalCA.wok hE hP h p hn) Framed.pure (OriginalCA.framed hE p)
  | originalCoatiOA h => exact .of h (by omega) (OriginalCoatiOA.wok hE hP h) Framed.pure (OriginalCoatiOA.framed hE)
  | originalTOA h => exact .of h (by omega) (OriginalTOA.wok hE hP h) Framed.pure (OriginalTOA.framed hE)
  | originalHHO h => exact .of h (by omega) (OriginalHHO.wok hE hP h) Framed.pure (OriginalHHO.framed hE)
  | originalESO h hq => exact .of h (by omega) (OriginalESO.wok hE hP h hq) Framed.pure (OriginalESO.framed hE)
  | originalESOA h => exact .of h (by omega) (OriginalESOA.wok hE hP h) Framed.pure (OriginalESOA.framed hE)
  | originalGJA p h => exact .of h (by omega) (OriginalGJA.wok hE hP h p) Framed.pure (OriginalGJA.framed hE p)
  | originalCOA p h hn h3 => exact .of h (by omega) (OriginalCOA.wok hE hP h p hn h3) Framed.pure (OriginalCOA.framed hE p)
  | originalASO p h => exact .of h (by omega) (OriginalASO.wok hE hP h p) Framed.pure (OriginalASO.framed hE p)
  | cPSO p h => exact .of h (by omega) (C_PSO.wok hE hP h p) Framed.pure (C_PSO.framed hE p)
  | originalNMRA p h => exact .of h (by omega) (OriginalNMRA.wok hE hP h p) Framed.pure (OriginalNMRA.framed hE p)
  | improvedNMRA p h hd => exact .of h (by omega) (ImprovedNMRA.wok hE hP h p hd) Framed.pure (ImprovedNMRA.framed hE p)
  | originalGRSA p h hp => exact .of h (by omega) (OriginalGRSA.wok hE hP h p hp) Framed.preBefore (OriginalGRSA.framed hE p)
  | originalEP p h => exact .of h (by omega) (OriginalEP.wok hE hP h p) Framed.pure (OriginalEP.framed hE p)
  | levyEP p h => exact .of h (by omega) (LevyEP.wok hE hP h p) Framed.pure (LevyEP.framed hE p)
  | originalAHO p h hd => exact .of h (by omega) (OriginalAHO.wok hE hP h p hd) Framed.pure (OriginalAHO.framed hE p)
  | enhancedTWO h hm => exact .of h (by omega) (EnhancedTWO.wok hE hP h hm) Framed.pure (EnhancedTWO.framed hE)
  | originalCSO p h hd h2 h4 => exact .of h (by omega) (OriginalCSO.wok hE hP h p hd h2 h4) Framed.pure (OriginalCSO.framed hE p)
  | originalMA p h he => exact .of h (by omega) (OriginalMA.wok hE hP h p he) Framed.pure (OriginalMA.framed hE p)
  | originalHGSO p h hn => exact .of h (by omega) (OriginalHGSO.wok hE hP h p hn) Framed.pure (OriginalHGSO.framed hE p)
  | originalDOA h hd => exact .of h (by omega) (OriginalDOA.wok hE hP h hd) Framed.pure (OriginalDOA.framed hE)
  | originalCCO p h => exact .of h (by omega) (OriginalCCO.wok hE hP h p) Framed.preBefore (OriginalCCO.framed hE p)
  | improvedTLO p h h0 h1 h2 => exact .of h (by omega) (ImprovedTLO.wok hE hP h p h0 h1 h2) Framed.pure (ImprovedTLO.framed hE p)
  | devTPO p h => exact .of h (by omega) (DevTPO.wok hE hP h p) Framed.pure (DevTPO.framed hE p)
  | originalDO h => exact .of h (by omega) (OriginalDO.wok hE hP h) Framed.pure (OriginalDO.framed hE)
  | originalMRFO p h => exact .of h (by omega) (OriginalMRFO.wok hE hP h p) Framed.pure (OriginalMRFO.framed hE p)
  | wMQIMRFO p h => exact .of h (by omega) (WMQIMRFO.wok hE hP h p) Framed.pure (WMQIMRFO.framed hE p)
  | originalBA p h => exact .of h (by omega) (OriginalBA.wok hE hP h p) Framed.pure (OriginalBA.framed hE p)
  | adaptiveBA p h => exact .of h (by omega) (AdaptiveBA.wok hE hP h p) Framed.pure (AdaptiveBA.framed hE p)
  | originalEFO p h hd hf => exact .of h (by omega) (OriginalEFO.wok hE hP h p hd hf) Framed.pure (OriginalEFO.framed hE p)
  | originalDMOA p h hn => exact .of h (by omega) (OriginalDMOA.wok hE hP h p hn) Framed.pure (OriginalDMOA.framed hE p)
  | devDMOA p h => exact .of h (by omega) (DevDMOA.wok hE hP h p) Framed.pure (DevDMOA.framed hE p)
  | devBRO p h => exact .of h (by omega) (DevBRO.wok hE hP h p) Framed.pure (DevBRO.framed hE p)
  | originalBRO p h => exact .of h (by omega) (OriginalBRO.wok hE hP h p) Framed.pure (OriginalBRO.framed hE p)
  | originalSFO p h hd hm hn => exact .of h (by omega) (OriginalSFO.wok hE hP h p hd hm hn) Framed.pure (OriginalSFO.framed hE p)
  | improvedSFO p h hm => exact .of h (by omega) (ImprovedSFO.wok hE hP h p hm) Framed.pure (ImprovedSFO.framed hE p)
  | mLFAGD p h hf => exact .of h (by omega) (MLFA_GD.wok hE hP h p hf) Framed.pure (MLFA_GD.framed hE p)
  | improvedBSO p h he => exact .of h (by omega) (ImprovedBSO.wok hE hP h p he) Framed.pure (ImprovedBSO.framed hE p)
  | originalBSO p h he => exact .of h (by omega) (OriginalBSO.wok hE hP h p he) Framed.pure (OriginalBSO.framed hE p)
  | originalTWO h => exact .of h (by omega) (OriginalTWO.wok hE hP h) Framed.pure (OriginalTWO.framed hE)
  | oppoTWO h h2 hm => exact .of h (by omega) (OppoTWO.wok hE hP h h2 hm) Framed.pure (OppoTWO.framed hE)
  | levyTWO h hm => exact .of h (by omega) (LevyTWO.wok hE hP h hm) Framed.pure (LevyTWO.framed hE)
  | originalSRSR h hk => exact .of h (by omega) (OriginalSRSR.wok hE hP h hk) Framed.pure (OriginalSRSR.framed hE)
  | originalAGTO p h => exact .of h (by omega) (OriginalAGTO.wok hE hP h p) Framed.pure (OriginalAGTO.framed hE p)
  | mGTO p h => exact .of h (by omega) (MGTO.wok hE hP h p) Framed.pure (MGTO.framed hE p)
  | originalGTO p h => exact .of h (by omega) (OriginalGTO.wok hE hP h p) Framed.pure (OriginalGTO.framed hE p)
  | matlab102GTO h => exact .of h (by omega) (Matlab102GTO.wok hE hP h) Framed.pure (Matlab102GTO.framed hE)
  | matlab101GTO h => exact .of h (by omega) (Matlab101GTO.wok hE hP h) Framed.pure (Matlab101GTO.framed hE)
  | originalPSS p h hm => exact .of h (by omega) (OriginalPSS.wok hE hP h p hm) Framed.pure (OriginalPSS.framed hE p)
  | originalOrcaPA p h => exact .of h (by omega) (OriginalOrcaPA.wok hE hP h p) Framed.pure (OriginalOrcaPA.framed hE p)
  | originalWOAmM p h => exact .of h (by omega) (OriginalWOAmM.wok hE hP h p) Framed.preBefore (OriginalWOAmM.framed hE p)
  | originalCRO p h hd hr => exact .of h (by omega) (OriginalCRO.wok hE hP h p hd hr) Framed.pure (OriginalCRO.framed hE p)
  | oCRO p h hd hr => exact .of h (by omega) (OCRO.wok hE hP h p hd hr) Framed.pure (OCRO.framed hE p)
  | originalBFO p h h2 hns => exact .of h (by omega) (OriginalBFO.wok hE hP h p h2 hns) Framed.pure (OriginalBFO.framed hE p)
  | iChameleonSA p h => exact .of h (by omega) (IChameleonSA.wok hE hP h p) Framed.pure (IChameleonSA.framed hE p)
  | modifiedSLO h hm => exact .of h (by omega) (ModifiedSLO.wok hE hP h hm) Framed.pure (ModifiedSLO.framed hE)
  | improvedSLO p h hm => exact .of h (by omega) (ImprovedSLO.wok hE hP h p hm) Framed.pure (ImprovedSLO.framed hE p)
  | originalSSpiderO p h hsh => exact .of h (by omega) (OriginalSSpiderO.wok hE hP h p hsh) Framed.pure (OriginalSSpiderO.framed hE p)
  | originalIMODE p h hd hm => exact .of h (by omega) (OriginalIMODE.wok hE hP h p hd hm) Framed.preBefore (OriginalIMODE.framed hE p)
-- END Tracked facts

theorem Resizing.facts (hE : c.E.Lawful) (hP : c.P.Lawful) {A : Algo c X Y} {b : Budget} (h : Resizing c A b) :
    ResizingFacts A b := by
  cases h with
-- BEGIN Resizing facts
  | originalFFA p h => exact .of h (by omega) (OriginalFFA.wok hE hP h p) Framed.pure (OriginalFFA.framed hE p)
  | originalOrcaOA p h hp => exact .of h (by omega) (OriginalOrcaOA.wok hE hP h p hp) Framed.pure (OriginalOrcaOA.framed hE p)
  | devSARO p h => exact .of h (by omega) (DevSARO.wok hE hP h p) Framed.pure (DevSARO.framed hE p)
  | originalSARO p h hd => exact .of h (by omega) (OriginalSARO.wok hE hP h p hd) Framed.pure (OriginalSARO.framed hE p)
  | sAPDE p h hK => exact .of h (by omega) (SAP_DE.wok hE hP h p hK) Framed.pure (SAP_DE.framed hE p)
  | originalHGSO p h h1 h5 => exact .of h (by omega) (OriginalHGSO.wokUneven hE hP h p h1 h5) Framed.pure (OriginalHGSO.framed hE p)
  | improvedTLO p h h0 h2 => exact .of h (by omega) (ImprovedTLO.wokUneven hE hP h p h0 h2) Framed.pure (ImprovedTLO.framed hE p)
  | originalLSHADEcnEpSin p h hd hm h4 hmin => exact .of h (by omega) (OriginalLSHADEcnEpSin.wok hE hP h p hd hm h4 hmin) Framed.preBefore (OriginalLSHADEcnEpSin.framed hE p)
-- END Resizing facts

theorem Loose.facts (hE : c.E.Lawful) (hP : c.P.Lawful) {A : Algo c X Y} {b : Budget} (h : Loose c A b) :
    LooseFacts A b := by
  cases h with
-- BEGIN Loose facts
  | originalFOA h hm hu => exact .of h (by omega) (OriginalFOA.wok hE hP h hm hu) Framed.pure (OriginalFOA.framed hE)
  | devFOA h hm hu => exact .of h (by omega) (DevFOA.wok hE hP h hm hu) Framed.pure (DevFOA.framed hE)
  | whaleFOA h hm => exact .of h (by omega) (WhaleFOA.wok hE hP h hm) Framed.pure (WhaleFOA.framed hE)
  | originalWHO p h he hx hm => exact .of h (by omega) (OriginalWHO.wok hE hP h p he hx hm) Framed.pure (OriginalWHO.framed hE p)
-- END Loose facts

theorem Keeping.facts (hE : c.E.Lawful) (hP : c.P.Lawful) {A : Algo c X Y} {b : Budget} (h : Keeping c A b) :
    LooseFacts A b := by
  cases h with
-- BEGIN Keeping facts
  | originalSA p h => exact .of h (by omega) (OriginalSA.wok hE hP h p) (OriginalSA.framed_before hE p) (OriginalSA.framed hE p)
  | gaussianSA p h => exact .of h (by omega) (GaussianSA.wok hE hP h p) (GaussianSA.framed_before hE p) (GaussianSA.framed hE p)
  | originalHC p h => exact .of h (by omega) (OriginalHC.wok hE hP h p) Framed.pure (OriginalHC.framed hE p)
-- END Keeping facts

theorem Fallible.facts (hE : c.E.Lawful) (hP : c.P.Lawful) {A : Algo c X Y} {b : Budget} {es : List Err} (h : Fallible c A b es) :
    FallibleFacts A b es := by
  cases h with
-- BEGIN Fallible facts
  | originalHCO p h => exact .of h (by omega) (OriginalHCO.wok hE hP h p) Framed.pure (OriginalHCO.framed hE p)
  | devSMO p h hd hm => exact .of h (by omega) (DevSMO.wokAny hE hP h p hd hm) Framed.pure (DevSMO.framed hE p)
  | devSMOEven p h hd hm he => exact .of h (by omega) (DevSMO.wok hE hP h p hd hm he) Framed.pure (DevSMO.framed hE p)
  | modifiedSLOPool h hm => exact .of h (by omega) (ModifiedSLOPool.wok hE hP h hm) Framed.pure (ModifiedSLOPool.framed hE)
  | improvedSLOPool p h hm => exact .of h (by omega) (ImprovedSLOPool.wok hE hP h p hm) Framed.pure (ImprovedSLOPool.framed hE p)
  | originalSBO p h hm => exact .of h (by omega) (OriginalSBO.wok hE hP h p hm) Framed.pure (OriginalSBO.framed hE p)
  | originalNRO h => exact .of h (by omega) (OriginalNRO.wok hE hP h) Framed.pure (OriginalNRO.framed hE)
  | originalSquirrelSA p h hf => exact .of h (by omega) (OriginalSquirrelSA.wok hE hP h p hf) Framed.pure (OriginalSquirrelSA.framed hE p)
  | cMAES h => exact .of h (by omega) (CMA_ES.wok hE hP h) Framed.preBefore (CMA_ES.framed hE)
  | originalCHIO p h => exact .of h (by omega) (OriginalCHIO.wok hE hP h p) Framed.pure (OriginalCHIO.framed hE p)
  | devCHIO p h => exact .of h (by omega) (DevCHIO.wok hE hP h p) Framed.pure (DevCHIO.framed hE p)
  | originalWCA p h h2 => exact .of h (by omega) (OriginalWCA.wok hE hP h p h2) Framed.pure (OriginalWCA.framed hE p)
  | qleSCA p h => exact .of h (by omega) (QleSCA.wok hE hP h p) Framed.pure (QleSCA.framed hE p)
  | devGSKA p h => exact .of h (by omega) (DevGSKA.wokAny hE hP h p) Framed.pure (DevGSKA.framed hE p)
  | originalGSKA p h => exact .of h (by omega) (OriginalGSKA.wokAny hE hP h p) Framed.pure (OriginalGSKA.framed hE p)
  | originalSHO p h => exact .of h (by omega) (OriginalSHO.wokAny hE hP h p) Framed.pure (OriginalSHO.framed hE p)
  | improvedNMRA p h => exact .of h (by omega) (ImprovedNMRA.wokAny hE hP h p) Framed.pure (ImprovedNMRA.framed hE p)
  | originalINFO h => exact .of h (by omega) (OriginalINFO.wokAny hE hP h) Framed.pure (OriginalINFO.framed hE)
  | originalCSO p h hd h2 => exact .of h (by omega) (OriginalCSO.wokAny hE hP h p hd h2) Framed.pure (OriginalCSO.framed hE p)
  | originalDOA h hd => exact .of h (by omega) (OriginalDOA.wokAny hE hP h hd) Framed.pure (OriginalDOA.framed hE)
  | originalMA p h => exact .of h (by omega) (OriginalMA.wokAny hE hP h p) Framed.pure (OriginalMA.framed hE p)
  | devEFO p h => exact .of h (by omega) (DevEFO.wokAny hE hP h p) Framed.pure (DevEFO.framed hE p)
  | originalEFO p h => exact .of h (by omega) (OriginalEFO.wokAny hE hP h p) Framed.pure (OriginalEFO.framed hE p)
  | originalFLA p h => exact .of h (by omega) (OriginalFLA.wokAny hE hP h p) Framed.pure (OriginalFLA.framed hE p)
  | originalSRSR h => exact .of h (by omega) (OriginalSRSR.wokAny hE hP h) Framed.pure (OriginalSRSR.framed hE)
  | originalESO h => exact .of h (by omega) (OriginalESO.wokAny hE hP h) Framed.pure (OriginalESO.framed hE)
  | originalCDDO p h hd hp => exact .of h (by omega) (OriginalCDDO.wokAny hE hP h p hd hp) Framed.preBefore (OriginalCDDO.framed hE p)
  | cleverBookBeesA p h h1 h2 => exact .of h (by omega) (CleverBookBeesA.wokAny hE hP h p h1 h2) Framed.pure (CleverBookBeesA.framed hE p)
  | originalCRO p h hr => exact .of h (by omega) (OriginalCRO.wokAny hE hP h p hr) Framed.pure (OriginalCRO.framed hE p)
  | oCRO p h hr => exact .of h (by omega) (OCRO.wokAny hE hP h p hr) Framed.pure (OCRO.framed hE p)
  | originalSHADE p h hd => exact .of h (by omega) (OriginalSHADE.wokAny hE hP h p hd) Framed.pure (OriginalSHADE.framed hE p)
  | originalSFO p h hm => exact .of h (by omega) (OriginalSFO.wokAny hE hP h p hm) Framed.pure (OriginalSFO.framed hE p)
-- END Fallible facts

theorem Risky.facts (hE : c.E.Lawful) (hP : c.P.Lawful) {A : Algo c X Y} {b : Budget} {es : List Err} (h : Risky c A b es) :
    RiskyFacts A b es := by
  cases h with
-- BEGIN Risky facts
  | originalTS p h ht => exact .of h (by omega) (OriginalTS.wok hE hP h p ht) Framed.preBefore (OriginalTS.framed hE p)
  | aBFO p h hs => exact .of h (by omega) (ABFO.wok hE hP h p hs) Framed.pure (ABFO.framed hE p)
  | originalLSHADEcnEpSin p h hd hm h4 => exact .ofSized h (by omega) (OriginalLSHADEcnEpSin.wokUneven hE hP h p hd hm h4) Framed.preBefore (OriginalLSHADEcnEpSin.framed hE p)
  | originalBSO p h h2 h5 => exact .ofSized h (by omega) (OriginalBSO.wokUneven hE hP h p h2 h5) Framed.pure (OriginalBSO.framed hE p)
-- END Risky facts

theorem Keeping.keeps (hE : c.E.Lawful) (hP : c.P.Lawful) {A : Algo c X Y} {b : Budget} (h : Keeping c A b) :
    KeepFacts A := by
  cases h with
-- BEGIN Keeping keeps
  | originalSA p h => exact ⟨rfl, (OriginalSA.before_covers p), (OriginalSA.covers p)⟩
  | gaussianSA p h => exact ⟨rfl, (GaussianSA.before_covers p), (GaussianSA.covers p)⟩
  | originalHC p h => exact ⟨rfl, (fun s => Wp.pure ⟨rfl, rfl⟩), (OriginalHC.covers hE p)⟩
-- END Keeping keeps

theorem Careless.facts (hE : c.E.Lawful) (hP : c.P.Lawful) {A : Algo c X Y} {b : Budget} {es : List Err} (h : Careless c A b es) :
    LightFacts true true A b es := by
  cases h with
-- BEGIN Careless facts
  | originalWHO p h he hm => exact .of h (by omega) (OriginalWHO.lok hE hP h p he hm) (fun _ h => h) (fun _ _ h => h)
  | originalSBO p h hm => exact .of h (by omega) (OriginalSBO.lok hE hP h p hm) (fun _ h => h) (fun _ _ h => h)
  | originalAAA p h hd => exact .of h (by omega) (OriginalAAA.lok hE hP h hd p) (fun _ h => h) (fun _ _ h => h)
-- END Careless facts

theorem InPlace.facts (hE : c.E.Lawful) (hP : c.P.Lawful) {A : Algo c X Y} {b : Budget} {es : List Err} (h : InPlace c A b es) :
    LightFacts true true A b es := by
  cases h with
-- BEGIN InPlace facts
  | baseGA p h => exact .of h (by omega) (BaseGA.lok hE hP h p) (fun _ h => h) (fun _ _ h => h)
  | multiGA p h => exact .of h (by omega) (MultiGA.lok hE hP h p) (fun _ h => h) (fun _ _ h => h)
  | singleGA p h => exact .of h (by omega) (SingleGA.lok hE hP h p) (fun _ h => h) (fun _ _ h => h)
  | eliteSingleGA p e h hm => exact .of h (by omega) (EliteSingleGA.lok hE hP h p e hm) (fun _ h => h) (fun _ _ h => h)
  | eliteMultiGA p e h hm => exact .of h (by omega) (EliteMultiGA.lok hE hP h p e hm) (fun _ h => h) (fun _ _ h => h)
  | originalHBO p q h => exact .of h (by omega) (OriginalHBO.lok hE hP h p q) (fun _ h => h) (fun _ _ h => h)
  | originalBeesA p h hd h1 h2 => exact .of h (by omega) (OriginalBeesA.lok hE hP h hd p h1 h2) (fun _ h => h) (fun _ _ h => h)
  | probBeesA p h hd => exact .of h (by omega) (ProbBeesA.lok hE hP h hd p) (fun _ h => h) (fun _ _ h => h)
  | originalTHRO h => exact .of h (by omega) (OriginalTHRO.lok hE hP h) (fun _ h => h) (fun _ _ h => h)
-- END InPlace facts

theorem Shrinking.facts (hE : c.E.Lawful) (hP : c.P.Lawful) {A : Algo c X Y} {b : Budget} {es : List Err} (h : Shrinking c A b es) :
    LightFacts true false A b es := by
  cases h with
-- BEGIN Shrinking facts
  | originalICA p h h2 h5 => exact .ofE h (by omega) (OriginalICA.lok hE hP h p h2 h5) (fun _ _ h => h)
-- END Shrinking facts

theorem Wild.facts (hE : c.E.Lawful) (hP : c.P.Lawful) {A : Algo c X Y} {b : Budget} {es : List Err} (h : Wild c A b es) :
    LightFacts false true A b es := by
  cases h with
-- BEGIN Wild facts
  | originalFOA h => exact .of h (by omega) (OriginalFOA.lok hE hP h) (fun _ h => h) (fun h => nomatch h)
  | devFOA h => exact .of h (by omega) (DevFOA.lok hE hP h) (fun _ h => h) (fun h => nomatch h)
  | whaleFOA h => exact .of h (by omega) (WhaleFOA.lok hE hP h) (fun _ h => h) (fun h => nomatch h)
  | originalBCO p h => exact .of h (by omega) (OriginalBCO.lok hE hP h p) (fun _ h => h) (fun h => nomatch h)
  | enhancedTWO h => exact .of h (by omega) (EnhancedTWO.lok hE hP h) (fun _ h => h) (fun h => nomatch h)
  | oppoTWO h h2 => exact .of h (by omega) (OppoTWO.lok hE hP h h2) (fun _ h => h) (fun h => nomatch h)
  | levyTWO h => exact .of h (by omega) (LevyTWO.lok hE hP h) (fun _ h => h) (fun h => nomatch h)
  | originalTSeedA p h => exact .of h (by omega) (OriginalTSeedA.lok hE hP h p) (fun _ h => h) (fun h => nomatch h)
  | originalArchOA p h => exact .of h (by omega) (OriginalArchOA.lok hE hP h p) (fun _ h => h) (fun h => nomatch h)
-- END Wild facts

theorem Careless.disciplined (hE : c.E.Lawful) (hP : c.P.Lawful) {A : Algo c X Y} {b : Budget} {es : List Err} (h : Careless c A b es) :
    ∃ q, Disciplined q A := by
  cases h with
-- BEGIN Careless disc
  | originalWHO p h he hm => exact ⟨true, Framed.pure, (OriginalWHO.framed hE p)⟩
  | originalSBO p h hm => exact ⟨true, Framed.pure, (OriginalSBO.framed hE p)⟩
  | originalAAA p h hd => exact ⟨true, Framed.preBefore, (OriginalAAA.framed hE p)⟩
-- END Careless disc

theorem Wild.disciplined (hE : c.E.Lawful) (hP : c.P.Lawful) {A : Algo c X Y} {b : Budget} {es : List Err} (h : Wild c A b es) :
    ∃ q, Disciplined q A := by
  cases h with
-- BEGIN Wild disc
  | originalFOA h => exact ⟨true, Framed.pure, (OriginalFOA.framed hE)⟩
  | devFOA h => exact ⟨true, Framed.pure, (DevFOA.framed hE)⟩
  | whaleFOA h => exact ⟨true, Framed.pure, (WhaleFOA.framed hE)⟩
  | originalBCO p h => exact ⟨true, Framed.preBefore, (OriginalBCO.framed hE p)⟩
  | enhancedTWO h => exact ⟨true, Framed.pure, (EnhancedTWO.framed hE)⟩
  | oppoTWO h h2 => exact ⟨true, Framed.pure, (OppoTWO.framed hE)⟩
  | levyTWO h => exact ⟨true, Framed.pure, (LevyTWO.framed hE)⟩
  | originalTSeedA p h => exact ⟨true, Framed.pure, (OriginalTSeedA.framed hE p)⟩
  | originalArchOA p h => exact ⟨true, Framed.pure, (OriginalArchOA.framed hE p)⟩
-- END Wild disc

/-- the outcome of a run of a modelled algorithm -/
structure Outcome (A : Algo c X Y) (b : Budget) (s : St c X Y) (h : FinalHist d K X) : Prop where
  log : ∀ x ∈ s.base.log, Feas c x
  gbest : s.gbest.tgt = c.P.target s.gbest.sol ∧ Feas c s.gbest.sol
  pop : ∀ a ∈ s.pop, a.tgt = c.P.target a.sol ∧ Feas c a.sol
  size : s.pop.length = c.popSize
  sizes : ∀ pop ∈ h.population, pop.length = c.popSize
  budget_lo : b.first + h.epoch * b.lo ≤ s.base.log.length
  budget_hi : s.base.log.length ≤ b.firstMax + h.epoch * b.hi
  epochs : 1 ≤ h.epoch ∧ h.epoch ≤ c.epoch

theorem ElitistFacts.solve {A : Algo c X Y} {b : Budget} (hA : ElitistFacts A b) (hE : c.E.Lawful) (hP : c.P.Lawful)
    (o : RunOpts K) (hst : FeasibleStart c o.starting) (b0 : Base c) (hb : b0.log = []) :
    ∃ s h, Mealpy.solve A o b0 = .ok (s, h) ∧ Outcome A b s h ∧
      (∀ x ∈ s.base.log, NoWorse c.P.mm s.gbest.fit (c.P.target x).fitness) ∧ s.gbest.sol ∈ s.base.log := by
  obtain ⟨F, J0, J1, J, hok, hF⟩ := hA.ok
  obtain ⟨s, h, hs, hr⟩ := hok.solve hE hP hA.pos hA.epochs o hst b0 hb
  exact ⟨s, h, hs, ⟨hr.feasible, ⟨hr.gev.1, hF _ hr.gfeas⟩, fun a ha => ⟨(hr.pop.ev a ha).1, hF _ (hr.pop.feas a ha)⟩,
    hr.pop.len, hr.sizes, hr.budget_lo, by rw [← hA.first]; exact hr.budget_hi, hr.epochs⟩, hr.best, hr.gev.2⟩

theorem TrackedFacts.solve {A : Algo c X Y} {b : Budget} (hA : TrackedFacts A b) (hE : c.E.Lawful)
    (o : RunOpts K) (hst : FeasibleStart c o.starting) (b0 : Base c) (hb : b0.log = []) :
    ∃ s h, Mealpy.solve A o b0 = .ok (s, h) ∧ Outcome A b s h := by
  obtain ⟨I, J0, J1, i1, i2, b1, b2, hok, e1, e2, hpos, hsize, hag⟩ := hA.ok
  have := hok.solve hE hA.pos hA.epochs o hst b0 hb
  cases hs : Mealpy.solve A o b0 with
  | error e => rw [hs] at this; exact this.elim
  | ok q =>
    obtain ⟨s, h⟩ := q
    rw [hs] at this
    exact ⟨s, h, rfl, ⟨fun x hx => hpos x (this.log x hx), ⟨this.gbest.1, hag _ this.gbest.2⟩,
      fun a ha => ⟨(this.pop a ha).1, hag _ (this.pop a ha).2⟩, hsize _ this.size,
      fun p hp => hsize _ (this.sizes p hp), by rw [e1]; exact this.budget_lo, by rw [e2]; exact this.budget_hi, this.epochs⟩⟩

theorem Modelled.solve {A : Algo c X Y} {b : Budget} (hA : Modelled c A b) (hE : c.E.Lawful) (hP : c.P.Lawful)
    (o : RunOpts K) (hst : FeasibleStart c o.starting) (b0 : Base c) (hb : b0.log = []) :
    ∃ s h, Mealpy.solve A o b0 = .ok (s, h) ∧ Outcome A b s h := by
  rcases hA with hA | hA
  · obtain ⟨s, h, h1, h2, -⟩ := (hA.facts hE hP).solve hE hP o hst b0 hb
    exact ⟨s, h, h1, h2⟩
  · exact (hA.facts hE hP).solve hE o hst b0 hb

/-- the outcome of a run of a modelled algorithm that stays in the box -/
structure BoxedOutcome (A : Algo c X Y) (b : Budget) (s : St c X Y) (h : FinalHist d K X) : Prop where
  log : ∀ x ∈ s.base.log, Feas c x
  gbest : s.gbest.tgt = c.P.target s.gbest.sol ∧ Feas c s.gbest.sol
  pop : ∀ a ∈ s.pop, a.tgt = c.P.target a.sol ∧ Feas c a.sol
  budget_lo : b.first + h.epoch * b.lo ≤ s.base.log.length
  budget_hi : s.base.log.length ≤ b.firstMax + h.epoch * b.hi
  epochs : 1 ≤ h.epoch ∧ h.epoch ≤ c.epoch

theorem ResizingFacts.solve {A : Algo c X Y} {b : Budget} (hA : ResizingFacts A b) (hE : c.E.Lawful)
    (o : RunOpts K) (hst : FeasibleStart c o.starting) (b0 : Base c) (hb : b0.log = []) :
    ∃ s h, Mealpy.solve A o b0 = .ok (s, h) ∧ BoxedOutcome A b s h := by
  obtain ⟨I, J0, J1, i1, i2, b1, b2, hok, e1, e2, hpos, hag⟩ := hA.ok
  have := hok.solve hE hA.pos hA.epochs o hst b0 hb
  cases hs : Mealpy.solve A o b0 with
  | error e => rw [hs] at this; exact this.elim
  | ok q =>
    obtain ⟨s, h⟩ := q
    rw [hs] at this
    exact ⟨s, h, rfl, ⟨fun x hx => hpos x (this.log x hx), ⟨this.gbest.1, hag _ this.gbest.2⟩,
      fun a ha => ⟨(this.pop a ha).1, hag _ (this.pop a ha).2⟩, by rw [e1]; exact this.budget_lo, by rw [e2]; exact this.budget_hi, this.epochs⟩⟩

theorem Boxed.solve {A : Algo c X Y} {b : Budget} (hA : Boxed c A b) (hE : c.E.Lawful) (hP : c.P.Lawful)
    (o : RunOpts K) (hst : FeasibleStart c o.starting) (b0 : Base c) (hb : b0.log = []) :
    ∃ s h, Mealpy.solve A o b0 = .ok (s, h) ∧ BoxedOutcome A b s h := by
  rcases hA with hA | hA
  · obtain ⟨s, h, h1, h2⟩ := hA.solve hE hP o hst b0 hb
    exact ⟨s, h, h1, h2.log, h2.gbest, h2.pop, h2.budget_lo, h2.budget_hi, h2.epochs⟩
  · exact (hA.facts hE hP).solve hE o hst b0 hb

/-- what holds of a run of any modelled algorithm -/
structure LooseOutcome (A : Algo c X Y) (b : Budget) (s : St c X Y) (h : FinalHist d K X) : Prop where
  gbest : s.gbest.tgt = c.P.target s.gbest.sol
  pop : ∀ a ∈ s.pop, a.tgt = c.P.target a.sol
  budget_lo : b.first + h.epoch * b.lo ≤ s.base.log.length
  budget_hi : s.base.log.length ≤ b.firstMax + h.epoch * b.hi
  epochs : 1 ≤ h.epoch ∧ h.epoch ≤ c.epoch

theorem LooseFacts.solve {A : Algo c X Y} {b : Budget} (hA : LooseFacts A b) (hE : c.E.Lawful)
    (o : RunOpts K) (hst : FeasibleStart c o.starting) (b0 : Base c) (hb : b0.log = []) :
    ∃ s h, Mealpy.solve A o b0 = .ok (s, h) ∧ LooseOutcome A b s h := by
  obtain ⟨I, J0, J1, i1, i2, b1, b2, hok, e1, e2⟩ := hA.ok
  have := hok.solve hE hA.pos hA.epochs o hst b0 hb
  cases hs : Mealpy.solve A o b0 with
  | error e => rw [hs] at this; exact this.elim
  | ok q =>
    obtain ⟨s, h⟩ := q
    rw [hs] at this
    exact ⟨s, h, rfl, ⟨this.gbest.1, fun a ha => (this.pop a ha).1, by rw [e1]; exact this.budget_lo,
      by rw [e2]; exact this.budget_hi, this.epochs⟩⟩

theorem AnyModelled.solve {A : Algo c X Y} {b : Budget} (hA : AnyModelled c A b) (hE : c.E.Lawful) (hP : c.P.Lawful)
    (o : RunOpts K) (hst : FeasibleStart c o.starting) (b0 : Base c) (hb : b0.log = []) :
    ∃ s h, Mealpy.solve A o b0 = .ok (s, h) ∧ LooseOutcome A b s h := by
  rcases hA with hA | hA | hA
  · obtain ⟨s, h, h1, h2⟩ := hA.solve hE hP o hst b0 hb
    exact ⟨s, h, h1, h2.gbest.1, fun a ha => (h2.pop a ha).1, h2.budget_lo, h2.budget_hi, h2.epochs⟩
  · exact (hA.facts hE hP).solve hE o hst b0 hb
  · exact (hA.facts hE hP).solve hE o hst b0 hb

theorem FallibleFacts.solve {A : Algo c X Y} {b : Budget} {es : List Err} (hA : FallibleFacts A b es) (hE : c.E.Lawful)
    (o : RunOpts K) (hst : FeasibleStart c o.starting) (b0 : Base c) (hb : b0.log = []) :
    (∃ e ∈ es, Mealpy.solve A o b0 = .error e) ∨ ∃ s h, Mealpy.solve A o b0 = .ok (s, h) ∧ Outcome A b s h := by
  obtain ⟨I, J0, J1, i1, i2, b1, b2, hok, e1, e2, hpos, hsize, hag⟩ := hA.ok
  have := hok.solve hE hA.pos hA.epochs o hst b0 hb
  cases hs : Mealpy.solve A o b0 with
  | error e' =>
    rw [hs] at this
    exact .inl ⟨e', this, rfl⟩
  | ok q =>
    obtain ⟨s, h⟩ := q
    rw [hs] at this
    exact .inr ⟨s, h, rfl, ⟨fun x hx => hpos x (this.log x hx), ⟨this.gbest.1, hag _ this.gbest.2⟩,
      fun a ha => ⟨(this.pop a ha).1, hag _ (this.pop a ha).2⟩, hsize _ this.size,
      fun p hp => hsize _ (this.sizes p hp), by rw [e1]; exact this.budget_lo, by rw [e2]; exact this.budget_hi, this.epochs⟩⟩

theorem RiskyFacts.solve {A : Algo c X Y} {b : Budget} {es : List Err} (hA : RiskyFacts A b es) (hE : c.E.Lawful)
    (o : RunOpts K) (hst : FeasibleStart c o.starting) (b0 : Base c) (hb : b0.log = []) :
    (∃ e ∈ es, Mealpy.solve A o b0 = .error e) ∨ ∃ s h, Mealpy.solve A o b0 = .ok (s, h) ∧ BoxedOutcome A b s h := by
  obtain ⟨I, J0, J1, i1, i2, b1, b2, hok, e1, e2, hpos, hag⟩ := hA.ok
  have := hok.solve hE hA.pos hA.epochs o hst b0 hb
  cases hs : Mealpy.solve A o b0 with
  | error e' =>
    rw [hs] at this
    exact .inl ⟨e', this, rfl⟩
  | ok q =>
    obtain ⟨s, h⟩ := q
    rw [hs] at this
    exact .inr ⟨s, h, rfl, ⟨fun x hx => hpos x (this.log x hx), ⟨this.gbest.1, hag _ this.gbest.2⟩,
      fun a ha => ⟨(this.pop a ha).1, hag _ (this.pop a ha).2⟩, by rw [e1]; exact this.budget_lo, by rw [e2]; exact this.budget_hi, this.epochs⟩⟩

theorem MayRaise.solve {A : Algo c X Y} {b : Budget} {es : List Err} (hA : MayRaise c A b es) (hE : c.E.Lawful) (hP : c.P.Lawful)
    (o : RunOpts K) (hst : FeasibleStart c o.starting) (b0 : Base c) (hb : b0.log = []) :
    (∃ e ∈ es, Mealpy.solve A o b0 = .error e) ∨ ∃ s h, Mealpy.solve A o b0 = .ok (s, h) ∧ BoxedOutcome A b s h := by
  rcases hA with hA | hA
  · rcases (hA.facts hE hP).solve hE o hst b0 hb with h | ⟨s, h, hs, ho⟩
    · exact .inl h
    · exact .inr ⟨s, h, hs, ho.log, ho.gbest, ho.pop, ho.budget_lo, ho.budget_hi, ho.epochs⟩
  · exact (hA.facts hE hP).solve hE o hst b0 hb

theorem Contained.outcome {A : Algo c X Y} {b : Budget} (hA : Contained c A b) (hE : c.E.Lawful) (hP : c.P.Lawful)
    {o : RunOpts K} (hst : FeasibleStart c o.starting) {b0 : Base c} (hb : b0.log = []) {s : St c X Y} {h : FinalHist d K X}
    (hs : Mealpy.solve A o b0 = .ok (s, h)) : BoxedOutcome A b s h := by
  rcases hA with hA | ⟨e, hA⟩
  · obtain ⟨s', h', hs', ho⟩ := hA.solve hE hP o hst b0 hb
    rw [hs] at hs'
    obtain ⟨rfl, rfl⟩ := Prod.mk.inj (Except.ok.inj hs')
    exact ho
  · rcases hA.solve hE hP o hst b0 hb with ⟨_, _, hs'⟩ | ⟨s', h', hs', ho⟩
    · rw [hs] at hs'; cases hs'
    · rw [hs] at hs'
      obtain ⟨rfl, rfl⟩ := Prod.mk.inj (Except.ok.inj hs')
      exact ho

theorem Sized.outcome {A : Algo c X Y} {b : Budget} (hA : Sized c A b) (hE : c.E.Lawful) (hP : c.P.Lawful)
    {o : RunOpts K} (hst : FeasibleStart c o.starting) {b0 : Base c} (hb : b0.log = []) {s : St c X Y} {h : FinalHist d K X}
    (hs : Mealpy.solve A o b0 = .ok (s, h)) : Outcome A b s h := by
  rcases hA with hA | ⟨e, hA⟩
  · obtain ⟨s', h', hs', ho⟩ := hA.solve hE hP o hst b0 hb
    rw [hs] at hs'
    obtain ⟨rfl, rfl⟩ := Prod.mk.inj (Except.ok.inj hs')
    exact ho
  · rcases (hA.facts hE hP).solve hE o hst b0 hb with ⟨_, _, hs'⟩ | ⟨s', h', hs', ho⟩
    · rw [hs] at hs'; cases hs'
    · rw [hs] at hs'
      obtain ⟨rfl, rfl⟩ := Prod.mk.inj (Except.ok.inj hs')
      exact ho

theorem Listed.outcome {A : Algo c X Y} {b : Budget} (hA : Listed c A b) (hE : c.E.Lawful) (hP : c.P.Lawful)
    {o : RunOpts K} (hst : FeasibleStart c o.starting) {b0 : Base c} (hb : b0.log = []) {s : St c X Y} {h : FinalHist d K X}
    (hs : Mealpy.solve A o b0 = .ok (s, h)) : LooseOutcome A b s h := by
  rcases hA with hA | hA
  · obtain ⟨s', h', hs', ho⟩ := hA.solve hE hP o hst b0 hb
    rw [hs] at hs'
    obtain ⟨rfl, rfl⟩ := Prod.mk.inj (Except.ok.inj hs')
    exact ho
  · have h2 := Contained.outcome (.inr hA) hE hP hst hb hs
    exact ⟨h2.gbest.1, fun a ha => (h2.pop a ha).1, h2.budget_lo, h2.budget_hi, h2.epochs⟩

theorem Modelled.disciplined {A : Algo c X Y} {b : Budget} (hA : Modelled c A b) (hE : c.E.Lawful) (hP : c.P.Lawful) :
    ∃ q, Disciplined q A := by
  rcases hA with hA | hA
  · exact ⟨true, (hA.facts hE hP).disc⟩
  · exact (hA.facts hE hP).disc

theorem Boxed.disciplined {A : Algo c X Y} {b : Budget} (hA : Boxed c A b) (hE : c.E.Lawful) (hP : c.P.Lawful) :
    ∃ q, Disciplined q A := by
  rcases hA with hA | hA
  · exact hA.disciplined hE hP
  · exact (hA.facts hE hP).disc

theorem AnyModelled.disciplined {A : Algo c X Y} {b : Budget} (hA : AnyModelled c A b) (hE : c.E.Lawful) (hP : c.P.Lawful) :
    ∃ q, Disciplined q A := by
  rcases hA with hA | hA | hA
  · exact hA.disciplined hE hP
  · exact (hA.facts hE hP).disc
  · exact (hA.facts hE hP).disc

theorem Listed.disciplined {A : Algo c X Y} {b : Budget} (hA : Listed c A b) (hE : c.E.Lawful) (hP : c.P.Lawful) :
    ∃ q, Disciplined q A := by
  rcases hA with hA | ⟨e, hA | hA⟩
  · exact hA.disciplined hE hP
  · exact (hA.facts hE hP).disc
  · exact (hA.facts hE hP).disc

/-- the outcome of a run of an untidy algorithm -/
structure LightOutcome (boxed sized : Bool) (A : Algo c X Y) (b : Budget) (s : St c X Y) (h : FinalHist d K X) : Prop where
  log : boxed = true → ∀ x ∈ s.base.log, Feas c x
  size : sized = true → s.pop.length = c.popSize
  sizes : sized = true → ∀ pop ∈ h.population, pop.length = c.popSize
  budget_lo : b.first + h.epoch * b.lo ≤ s.base.log.length
  budget_hi : s.base.log.length ≤ b.firstMax + h.epoch * b.hi
  epochs : 1 ≤ h.epoch ∧ h.epoch ≤ c.epoch

theorem LightFacts.solve {boxed sized : Bool} {A : Algo c X Y} {b : Budget} {es : List Err} (hA : LightFacts boxed sized A b es) (hE : c.E.Lawful)
    (o : RunOpts K) (hst : FeasibleStart c o.starting) (b0 : Base c) (hb : b0.log = []) :
    (∃ e ∈ es, Mealpy.solve A o b0 = .error e) ∨ ∃ s h, Mealpy.solve A o b0 = .ok (s, h) ∧ LightOutcome boxed sized A b s h := by
  obtain ⟨I, J, J0, J1, i1, i2, b1, b2, hok, e1, e2, hsize, hpos⟩ := hA.ok
  have := hok.solve hE hA.pos hA.epochs o hst b0 hb
  cases hs : Mealpy.solve A o b0 with
  | error e' =>
    rw [hs] at this
    exact .inl ⟨e', this, rfl⟩
  | ok q =>
    obtain ⟨s, h⟩ := q
    rw [hs] at this
    exact .inr ⟨s, h, rfl, ⟨fun hx x hl => hpos hx x (this.log x hl), fun hz => hsize hz _ this.size,
      fun hz p hp => hsize hz _ (this.sizes p hp), by rw [e1]; exact this.budget_lo, by rw [e2]; exact this.budget_hi, this.epochs⟩⟩

theorem LightFacts.outcome {boxed sized : Bool} {A : Algo c X Y} {b : Budget} {es : List Err} (hA : LightFacts boxed sized A b es) (hE : c.E.Lawful)
    {o : RunOpts K} (hst : FeasibleStart c o.starting) {b0 : Base c} (hb : b0.log = []) {s : St c X Y} {h : FinalHist d K X}
    (hs : Mealpy.solve A o b0 = .ok (s, h)) : LightOutcome boxed sized A b s h := by
  rcases hA.solve hE o hst b0 hb with ⟨_, _, hs'⟩ | ⟨s', h', hs', ho⟩
  · rw [hs] at hs'; cases hs'
  · rw [hs] at hs'
    obtain ⟨rfl, rfl⟩ := Prod.mk.inj (Except.ok.inj hs')
    exact ho

theorem Untidy.facts {A : Algo c X Y} {b : Budget} {es : List Err} (hA : Untidy c A b es) (hE : c.E.Lawful) (hP : c.P.Lawful) :
    ∃ boxed sized, LightFacts boxed sized A b es := by
  rcases hA with hA | hA | hA | hA
  · exact ⟨_, _, hA.facts hE hP⟩
  · exact ⟨_, _, hA.facts hE hP⟩
  · exact ⟨_, _, hA.facts hE hP⟩
  · exact ⟨_, _, hA.facts hE hP⟩

theorem StaysIn.log {A : Algo c X Y} {b : Budget} (hA : StaysIn c A b) (hE : c.E.Lawful) (hP : c.P.Lawful)
    {o : RunOpts K} (hst : FeasibleStart c o.starting) {b0 : Base c} (hb : b0.log = []) {s : St c X Y} {h : FinalHist d K X}
    (hs : Mealpy.solve A o b0 = .ok (s, h)) : ∀ x ∈ s.base.log, Feas c x := by
  rcases hA with hA | ⟨es, hA | hA | hA⟩
  · exact (hA.outcome hE hP hst hb hs).log
  · exact ((hA.facts hE hP).outcome hE hst hb hs).log rfl
  · exact ((hA.facts hE hP).outcome hE hst hb hs).log rfl
  · exact ((hA.facts hE hP).outcome hE hst hb hs).log rfl

theorem KeepsSize.sizes {A : Algo c X Y} {b : Budget} (hA : KeepsSize c A b) (hE : c.E.Lawful) (hP : c.P.Lawful)
    {o : RunOpts K} (hst : FeasibleStart c o.starting) {b0 : Base c} (hb : b0.log = []) {s : St c X Y} {h : FinalHist d K X}
    (hs : Mealpy.solve A o b0 = .ok (s, h)) : s.pop.length = c.popSize ∧ ∀ pop ∈ h.population, pop.length = c.popSize := by
  rcases hA with hA | ⟨es, hA | hA | hA⟩
  · have ho := hA.outcome hE hP hst hb hs
    exact ⟨ho.size, ho.sizes⟩
  · have ho := (hA.facts hE hP).outcome hE hst hb hs
    exact ⟨ho.size rfl, ho.sizes rfl⟩
  · have ho := (hA.facts hE hP).outcome hE hst hb hs
    exact ⟨ho.size rfl, ho.sizes rfl⟩
  · have ho := (hA.facts hE hP).outcome hE hst hb hs
    exact ⟨ho.size rfl, ho.sizes rfl⟩

theorem Catalogued.budget {A : Algo c X Y} {b : Budget} (hA : Catalogued c A b) (hE : c.E.Lawful) (hP : c.P.Lawful)
    {o : RunOpts K} (hst : FeasibleStart c o.starting) {b0 : Base c} (hb : b0.log = []) {s : St c X Y} {h : FinalHist d K X}
    (hs : Mealpy.solve A o b0 = .ok (s, h)) :
    b.first + h.epoch * b.lo ≤ s.base.log.length ∧ s.base.log.length ≤ b.firstMax + h.epoch * b.hi := by
  rcases hA with hA | ⟨es, hA⟩
  · have ho := hA.outcome hE hP hst hb hs
    exact ⟨ho.budget_lo, ho.budget_hi⟩
  · obtain ⟨_, _, hf⟩ := hA.facts hE hP
    have ho := hf.outcome hE hst hb hs
    exact ⟨ho.budget_lo, ho.budget_hi⟩

theorem KeepsHistory.disciplined {A : Algo c X Y} {b : Budget} (hA : KeepsHistory c A b) (hE : c.E.Lawful) (hP : c.P.Lawful) :
    ∃ q, Disciplined q A := by
  rcases hA with hA | ⟨e, hA | hA⟩
  · exact hA.disciplined hE hP
  · exact hA.disciplined hE hP
  · exact hA.disciplined hE hP

end Mealpy
