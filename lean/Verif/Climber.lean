import Verif.Climbs1
import Verif.Climbs2
import Verif.Climbs3
import Verif.ClimbsMore

/-! Generated by tools/climbs.py: the classes whose population never loses ground. -/

namespace Mealpy
open Spec

variable {d : Nat} {K : Type} [Num K] {X Y : Type}

/-- every `evolve` of these classes selects greedily, whatever the settings -/
inductive Climber (c : Cfg d K) : {X Y : Type} → Algo c X Y → Prop
  | originalDE (p) : Climber c (OriginalDE.algo p)
  | jADE (p) : Climber c (JADE.algo p)
  | sADE : Climber c SADE.algo
  | originalGWO : Climber c OriginalGWO.algo
  | rW_GWO : Climber c RW_GWO.algo
  | gWO_WOA : Climber c GWO_WOA.algo
  | iGWO (p) : Climber c (IGWO.algo p)
  | chaoticGWO (p) : Climber c (ChaoticGWO.algo p)
  | fuzzyGWO (b) : Climber c (FuzzyGWO.algo b)
  | incrementalGWO (p) : Climber c (IncrementalGWO.algo p)
  | exGWO : Climber c ExGWO.algo
  | eR_GWO (p) : Climber c (ER_GWO.algo p)
  | cG_GWO : Climber c CG_GWO.algo
  | oGWO (p) : Climber c (OGWO.algo p)
  | swarmHC (p) : Climber c (SwarmHC.algo p)
  | originalFPA (p) : Climber c (OriginalFPA.algo p)
  | originalMGOA (p) : Climber c (OriginalMGOA.algo p)
  | originalRIME (p) : Climber c (OriginalRIME.algo p)
  | devJA : Climber c DevJA.algo
  | levyJA : Climber c LevyJA.algo
  | devSCA : Climber c DevSCA.algo
  | originalSCA : Climber c OriginalSCA.algo
  | originalLCO (p) : Climber c (OriginalLCO.algo p)
  | devLCO (p) : Climber c (DevLCO.algo p)
  | devQSA : Climber c DevQSA.algo
  | oppoQSA : Climber c OppoQSA.algo
  | levyQSA : Climber c LevyQSA.algo
  | improvedQSA : Climber c ImprovedQSA.algo
  | originalQSA : Climber c OriginalQSA.algo
  | devSSA (p) : Climber c (DevSSA.algo p)
  | originalSSA (p) : Climber c (OriginalSSA.algo p)
  | originalSLO : Climber c OriginalSLO.algo
  | devGSKA (p) : Climber c (DevGSKA.algo p)
  | originalGSKA (p) : Climber c (OriginalGSKA.algo p)
  | devFBIO : Climber c DevFBIO.algo
  | originalFBIO : Climber c OriginalFBIO.algo
  | originalMRFO (p) : Climber c (OriginalMRFO.algo p)
  | wMQIMRFO (p) : Climber c (WMQIMRFO.algo p)
  | originalBA (p) : Climber c (OriginalBA.algo p)
  | adaptiveBA (p) : Climber c (AdaptiveBA.algo p)
  | devEFO (p) : Climber c (DevEFO.algo p)
  | originalNWOA (p) : Climber c (OriginalNWOA.algo p)
  | originalNO (p) : Climber c (OriginalNO.algo p)
  | originalLSO (p) : Climber c (OriginalLSO.algo p)
  | devLSO (p) : Climber c (DevLSO.algo p)
  | originalFLA (p) : Climber c (OriginalFLA.algo p)
  | originalSFO (p) : Climber c (OriginalSFO.algo p)
  | improvedSFO (p) : Climber c (ImprovedSFO.algo p)
  | originalAGTO (p) : Climber c (OriginalAGTO.algo p)
  | originalGTO (p) : Climber c (OriginalGTO.algo p)
  | matlab102GTO : Climber c Matlab102GTO.algo
  | originalWSO (p) : Climber c (OriginalWSO.algo p)
  | originalMSO : Climber c OriginalMSO.algo
  | originalNRO : Climber c OriginalNRO.algo
  | originalSHADE (p) : Climber c (OriginalSHADE.algo p)
  | l_SHADE (p) : Climber c (L_SHADE.algo p)
  | originalES (p) : Climber c (OriginalES.algo p)
  | levyES (p) : Climber c (LevyES.algo p)
  | simple_CMA_ES : Climber c Simple_CMA_ES.algo
  | cleverBookBeesA (p) : Climber c (CleverBookBeesA.algo p)
  | originalBSA (p) : Climber c (OriginalBSA.algo p)
  | devHS (p) : Climber c (DevHS.algo p)
  | originalHS (p) : Climber c (OriginalHS.algo p)
  | devWOA : Climber c DevWOA.algo
  | originalPOA : Climber c OriginalPOA.algo
  | devVCS (p) : Climber c (DevVCS.algo p)
  | originalVCS (p) : Climber c (OriginalVCS.algo p)
  | originalSPBO : Climber c OriginalSPBO.algo
  | devSPBO : Climber c DevSPBO.algo
  | originalAOA (p) : Climber c (OriginalAOA.algo p)
  | originalCEM (p) : Climber c (OriginalCEM.algo p)
  | originalEO : Climber c OriginalEO.algo
  | adaptiveEO : Climber c AdaptiveEO.algo
  | devEPC (p) : Climber c (DevEPC.algo p)
  | qleSCA (p) : Climber c (QleSCA.algo p)
  | originalILA (p) : Climber c (OriginalILA.algo p)
  | originalSSO : Climber c OriginalSSO.algo
  | originalMFO : Climber c OriginalMFO.algo
  | originalPFA : Climber c OriginalPFA.algo
  | originalRSA (p) : Climber c (OriginalRSA.algo p)
  | originalWarSO (p) : Climber c (OriginalWarSO.algo p)
  | originalSOS : Climber c OriginalSOS.algo
  | originalChOA : Climber c OriginalChOA.algo
  | originalSSDO : Climber c OriginalSSDO.algo
  | originalEAO (p) : Climber c (OriginalEAO.algo p)
  | originalGOA (p) : Climber c (OriginalGOA.algo p)
  | originalHBA : Climber c OriginalHBA.algo
  | originalServalOA : Climber c OriginalServalOA.algo
  | originalKLA : Climber c OriginalKLA.algo
  | originalBBOA : Climber c OriginalBBOA.algo
  | originalWaOA : Climber c OriginalWaOA.algo
  | originalCrayfishOA : Climber c OriginalCrayfishOA.algo
  | originalCGO : Climber c OriginalCGO.algo
  | originalWDO (p) : Climber c (OriginalWDO.algo p)
  | originalMPA : Climber c OriginalMPA.algo
  | originalACOR (p) : Climber c (OriginalACOR.algo p)
  | originalNGO : Climber c OriginalNGO.algo
  | originalSTO : Climber c OriginalSTO.algo
  | originalOOA : Climber c OriginalOOA.algo
  | originalTSeedA (p) : Climber c (OriginalTSeedA.algo p)
  | originalEVO : Climber c OriginalEVO.algo
  | originalFFO : Climber c OriginalFFO.algo
  | originalTDO : Climber c OriginalTDO.algo
  | originalCoatiOA : Climber c OriginalCoatiOA.algo
  | originalSBOA : Climber c OriginalSBOA.algo
  | originalTOA : Climber c OriginalTOA.algo
  | originalHGS (p) : Climber c (OriginalHGS.algo p)
  | originalHHO : Climber c OriginalHHO.algo
  | originalZOA : Climber c OriginalZOA.algo
  | originalBWO : Climber c OriginalBWO.algo
  | originalFA (p) : Climber c (OriginalFA.algo p)
  | originalFDO (p) : Climber c (OriginalFDO.algo p)
  | devSOA (p) : Climber c (DevSOA.algo p)
  | originalDBO (p) : Climber c (OriginalDBO.algo p)
  | originalSOO : Climber c OriginalSOO.algo
  | originalArchOA (p) : Climber c (OriginalArchOA.algo p)
  | originalAPO (p) : Climber c (OriginalAPO.algo p)
  | devSSpiderA (p) : Climber c (DevSSpiderA.algo p)
  | originalPSO (p) : Climber c (OriginalPSO.algo p)
  | aIW_PSO (p) : Climber c (AIW_PSO.algo p)
  | lDW_PSO (p) : Climber c (LDW_PSO.algo p)
  | p_PSO : Climber c P_PSO.algo
  | hPSO_TVAC (p) : Climber c (HPSO_TVAC.algo p)
  | c_PSO (p) : Climber c (C_PSO.algo p)
  | cL_PSO (p) : Climber c (CL_PSO.algo p)
  | originalAO : Climber c OriginalAO.algo
  | aAO (p) : Climber c (AAO.algo p)
  | originalARO : Climber c OriginalARO.algo
  | lARO : Climber c LARO.algo
  | iARO : Climber c IARO.algo
  | originalBES (p) : Climber c (OriginalBES.algo p)
  | devMVO (p) : Climber c (DevMVO.algo p)
  | originalMVO (p) : Climber c (OriginalMVO.algo p)
  | originalKOA (p) : Climber c (OriginalKOA.algo p)
  | devSMA (p) : Climber c (DevSMA.algo p)
  | devSBO (p) : Climber c (DevSBO.algo p)
  | originalTLO : Climber c OriginalTLO.algo
  | originalBBO (p) : Climber c (OriginalBBO.algo p)
  | devBBO (p) : Climber c (DevBBO.algo p)
  | originalNMRA (p) : Climber c (OriginalNMRA.algo p)
  | improvedNMRA (p) : Climber c (ImprovedNMRA.algo p)
  | originalCEO (p) : Climber c (OriginalCEO.algo p)
  | originalSFOA (p) : Climber c (OriginalSFOA.algo p)
  | originalEEFO : Climber c OriginalEEFO.algo
  | devGCO (p) : Climber c (DevGCO.algo p)
  | originalGCO (p) : Climber c (OriginalGCO.algo p)
  | originalRUN : Climber c OriginalRUN.algo
  | originalGBO (p) : Climber c (OriginalGBO.algo p)
  | originalHCO (p) : Climber c (OriginalHCO.algo p)
  | improvedLCO : Climber c ImprovedLCO.algo

variable {c : Cfg d K}

theorem Climber.up {A : Algo c X Y} (hA : Climber c A) (hE : c.E.Lawful) (ep : Nat) (q : List (Agent d K X)) : Up q (A.evolve ep) := by
  cases hA with
  | originalDE p => exact OriginalDE.climbs hE p ep q
  | jADE p => exact JADE.climbs hE p ep q
  | sADE => exact SADE.climbs hE ep q
  | originalGWO => exact OriginalGWO.climbs hE ep q
  | rW_GWO => exact RW_GWO.climbs hE ep q
  | gWO_WOA => exact GWO_WOA.climbs hE ep q
  | iGWO p => exact IGWO.climbs hE p ep q
  | chaoticGWO p => exact ChaoticGWO.climbs hE p ep q
  | fuzzyGWO b => exact FuzzyGWO.climbs hE b ep q
  | incrementalGWO p => exact IncrementalGWO.climbs hE p ep q
  | exGWO => exact ExGWO.climbs hE ep q
  | eR_GWO p => exact ER_GWO.climbs hE p ep q
  | cG_GWO => exact CG_GWO.climbs hE ep q
  | oGWO p => exact OGWO.climbs hE p ep q
  | swarmHC p => exact SwarmHC.climbs hE p ep q
  | originalFPA p => exact OriginalFPA.climbs hE p ep q
  | originalMGOA p => exact OriginalMGOA.climbs hE p ep q
  | originalRIME p => exact OriginalRIME.climbs hE p ep q
  | devJA => exact DevJA.climbs hE ep q
  | levyJA => exact LevyJA.climbs hE ep q
  | devSCA => exact DevSCA.climbs hE ep q
  | originalSCA => exact OriginalSCA.climbs hE ep q
  | originalLCO p => exact OriginalLCO.climbs hE p ep q
  | devLCO p => exact DevLCO.climbs hE p ep q
  | devQSA => exact DevQSA.climbs hE ep q
  | oppoQSA => exact OppoQSA.climbs hE ep q
  | levyQSA => exact LevyQSA.climbs hE ep q
  | improvedQSA => exact ImprovedQSA.climbs hE ep q
  | originalQSA => exact OriginalQSA.climbs hE ep q
  | devSSA p => exact DevSSA.climbs hE p ep q
  | originalSSA p => exact OriginalSSA.climbs hE p ep q
  | originalSLO => exact OriginalSLO.climbs hE ep q
  | devGSKA p => exact DevGSKA.climbs hE p ep q
  | originalGSKA p => exact OriginalGSKA.climbs hE p ep q
  | devFBIO => exact DevFBIO.climbs hE ep q
  | originalFBIO => exact OriginalFBIO.climbs hE ep q
  | originalMRFO p => exact OriginalMRFO.climbs hE p ep q
  | wMQIMRFO p => exact WMQIMRFO.climbs hE p ep q
  | originalBA p => exact OriginalBA.climbs hE p ep q
  | adaptiveBA p => exact AdaptiveBA.climbs hE p ep q
  | devEFO p => exact DevEFO.climbs hE p ep q
  | originalNWOA p => exact OriginalNWOA.climbs hE p ep q
  | originalNO p => exact OriginalNO.climbs hE p ep q
  | originalLSO p => exact OriginalLSO.climbs hE p ep q
  | devLSO p => exact DevLSO.climbs hE p ep q
  | originalFLA p => exact OriginalFLA.climbs hE p ep q
  | originalSFO p => exact OriginalSFO.climbs hE p ep q
  | improvedSFO p => exact ImprovedSFO.climbs hE p ep q
  | originalAGTO p => exact OriginalAGTO.climbs hE p ep q
  | originalGTO p => exact OriginalGTO.climbs hE p ep q
  | matlab102GTO => exact Matlab102GTO.climbs hE ep q
  | originalWSO p => exact OriginalWSO.climbs hE p ep q
  | originalMSO => exact OriginalMSO.climbs hE ep q
  | originalNRO => exact OriginalNRO.climbs hE ep q
  | originalSHADE p => exact OriginalSHADE.climbs hE p ep q
  | l_SHADE p => exact L_SHADE.climbs hE p ep q
  | originalES p => exact OriginalES.climbs hE p ep q
  | levyES p => exact LevyES.climbs hE p ep q
  | simple_CMA_ES => exact Simple_CMA_ES.climbs hE ep q
  | cleverBookBeesA p => exact CleverBookBeesA.climbs hE p ep q
  | originalBSA p => exact OriginalBSA.climbs hE p ep q
  | devHS p => exact DevHS.climbs hE p ep q
  | originalHS p => exact OriginalHS.climbs hE p ep q
  | devWOA => exact DevWOA.climbs hE ep q
  | originalPOA => exact OriginalPOA.climbs hE ep q
  | devVCS p => exact DevVCS.climbs hE p ep q
  | originalVCS p => exact OriginalVCS.climbs hE p ep q
  | originalSPBO => exact OriginalSPBO.climbs hE ep q
  | devSPBO => exact DevSPBO.climbs hE ep q
  | originalAOA p => exact OriginalAOA.climbs hE p ep q
  | originalCEM p => exact OriginalCEM.climbs hE p ep q
  | originalEO => exact OriginalEO.climbs hE ep q
  | adaptiveEO => exact AdaptiveEO.climbs hE ep q
  | devEPC p => exact DevEPC.climbs hE p ep q
  | qleSCA p => exact QleSCA.climbs hE p ep q
  | originalILA p => exact OriginalILA.climbs hE p ep q
  | originalSSO => exact OriginalSSO.climbs hE ep q
  | originalMFO => exact OriginalMFO.climbs hE ep q
  | originalPFA => exact OriginalPFA.climbs hE ep q
  | originalRSA p => exact OriginalRSA.climbs hE p ep q
  | originalWarSO p => exact OriginalWarSO.climbs hE p ep q
  | originalSOS => exact OriginalSOS.climbs hE ep q
  | originalChOA => exact OriginalChOA.climbs hE ep q
  | originalSSDO => exact OriginalSSDO.climbs hE ep q
  | originalEAO p => exact OriginalEAO.climbs hE p ep q
  | originalGOA p => exact OriginalGOA.climbs hE p ep q
  | originalHBA => exact OriginalHBA.climbs hE ep q
  | originalServalOA => exact OriginalServalOA.climbs hE ep q
  | originalKLA => exact OriginalKLA.climbs hE ep q
  | originalBBOA => exact OriginalBBOA.climbs hE ep q
  | originalWaOA => exact OriginalWaOA.climbs hE ep q
  | originalCrayfishOA => exact OriginalCrayfishOA.climbs hE ep q
  | originalCGO => exact OriginalCGO.climbs hE ep q
  | originalWDO p => exact OriginalWDO.climbs hE p ep q
  | originalMPA => exact OriginalMPA.climbs hE ep q
  | originalACOR p => exact OriginalACOR.climbs hE p ep q
  | originalNGO => exact OriginalNGO.climbs hE ep q
  | originalSTO => exact OriginalSTO.climbs hE ep q
  | originalOOA => exact OriginalOOA.climbs hE ep q
  | originalTSeedA p => exact OriginalTSeedA.climbs hE p ep q
  | originalEVO => exact OriginalEVO.climbs hE ep q
  | originalFFO => exact OriginalFFO.climbs hE ep q
  | originalTDO => exact OriginalTDO.climbs hE ep q
  | originalCoatiOA => exact OriginalCoatiOA.climbs hE ep q
  | originalSBOA => exact OriginalSBOA.climbs hE ep q
  | originalTOA => exact OriginalTOA.climbs hE ep q
  | originalHGS p => exact OriginalHGS.climbs hE p ep q
  | originalHHO => exact OriginalHHO.climbs hE ep q
  | originalZOA => exact OriginalZOA.climbs hE ep q
  | originalBWO => exact OriginalBWO.climbs hE ep q
  | originalFA p => exact OriginalFA.climbs hE p ep q
  | originalFDO p => exact OriginalFDO.climbs hE p ep q
  | devSOA p => exact DevSOA.climbs hE p ep q
  | originalDBO p => exact OriginalDBO.climbs hE p ep q
  | originalSOO => exact OriginalSOO.climbs hE ep q
  | originalArchOA p => exact OriginalArchOA.climbs hE p ep q
  | originalAPO p => exact OriginalAPO.climbs hE p ep q
  | devSSpiderA p => exact DevSSpiderA.climbs hE p ep q
  | originalPSO p => exact OriginalPSO.climbs hE p ep q
  | aIW_PSO p => exact AIW_PSO.climbs hE p ep q
  | lDW_PSO p => exact LDW_PSO.climbs hE p ep q
  | p_PSO => exact P_PSO.climbs hE ep q
  | hPSO_TVAC p => exact HPSO_TVAC.climbs hE p ep q
  | c_PSO p => exact C_PSO.climbs hE p ep q
  | cL_PSO p => exact CL_PSO.climbs hE p ep q
  | originalAO => exact OriginalAO.climbs hE ep q
  | aAO p => exact AAO.climbs hE p ep q
  | originalARO => exact OriginalARO.climbs hE ep q
  | lARO => exact LARO.climbs hE ep q
  | iARO => exact IARO.climbs hE ep q
  | originalBES p => exact OriginalBES.climbs hE p ep q
  | devMVO p => exact DevMVO.climbs hE p ep q
  | originalMVO p => exact OriginalMVO.climbs hE p ep q
  | originalKOA p => exact OriginalKOA.climbs hE p ep q
  | devSMA p => exact DevSMA.climbs hE p ep q
  | devSBO p => exact DevSBO.climbs hE p ep q
  | originalTLO => exact OriginalTLO.climbs hE ep q
  | originalBBO p => exact OriginalBBO.climbs hE p ep q
  | devBBO p => exact DevBBO.climbs hE p ep q
  | originalNMRA p => exact OriginalNMRA.climbs hE p ep q
  | improvedNMRA p => exact ImprovedNMRA.climbs hE p ep q
  | originalCEO p => exact OriginalCEO.climbs hE p ep q
  | originalSFOA p => exact OriginalSFOA.climbs hE p ep q
  | originalEEFO => exact OriginalEEFO.climbs hE ep q
  | devGCO p => exact DevGCO.climbs hE p ep q
  | originalGCO p => exact OriginalGCO.climbs hE p ep q
  | originalRUN => exact OriginalRUN.climbs hE ep q
  | originalGBO p => exact OriginalGBO.climbs hE p ep q
  | originalHCO p => exact OriginalHCO.climbs hE p ep q
  | improvedLCO => exact ImprovedLCO.climbs hE ep q

end Mealpy
