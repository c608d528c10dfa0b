OriginalDE
JADE
SADE
OriginalGWO
RW_GWO
GWO_WOA
IGWO
ChaoticGWO
FuzzyGWO
IncrementalGWO
ExGWO
ER_GWO
CG_GWO
OGWO
SwarmHC
OriginalFPA
OriginalMGOA
OriginalRIME
DevJA
LevyJA
DevSCA
OriginalSCA
OriginalLCO
DevLCO
DevQSA
OppoQSA
LevyQSA
ImprovedQSA
OriginalQSA
DevSSA
OriginalSSA
OriginalSLO
DevGSKA
OriginalGSKA
DevFBIO
OriginalFBIO
OriginalMRFO
WMQIMRFO
OriginalBA
AdaptiveBA
DevEFO
OriginalNWOA
OriginalNO
OriginalLSO
DevLSO
OriginalFLA
OriginalSFO
ImprovedSFO
OriginalAGTO
OriginalGTO
Matlab102GTO
OriginalWSO
OriginalMSO
OriginalNRO
OriginalSHADE
L_SHADE
OriginalES
LevyES
Simple_CMA_ES
CleverBookBeesA
OriginalBSA
DevHS
OriginalHS
DevWOA
OriginalPOA
DevVCS
OriginalVCS
OriginalSPBO
DevSPBO
OriginalAOA
OriginalCEM
OriginalEO
AdaptiveEO
DevEPC
QleSCA
OriginalILA
OriginalSSO
OriginalMFO
OriginalPFA
OriginalRSA
OriginalWarSO
OriginalSOS
OriginalChOA
OriginalSSDO
OriginalEAO
OriginalGOA
OriginalHBA
OriginalServalOA
OriginalKLA
OriginalBBOA
OriginalWaOA
OriginalCrayfishOA
OriginalCGO
OriginalWDO
OriginalMPA
OriginalACOR
OriginalNGO
OriginalSTO
OriginalOOA
OriginalTSeedA
OriginalEVO
OriginalFFO
OriginalTDO
OriginalCoatiOA
OriginalSBOA
OriginalTOA
OriginalHGS
OriginalHHO
OriginalZOA
OriginalBWO
OriginalFA
OriginalFDO
DevSOA
OriginalDBO
OriginalSOO
OriginalArchOA
OriginalAPO
DevSSpiderA
OriginalPSO
AIW_PSO
LDW_PSO
P_PSO
HPSO_TVAC
C_PSO
CL_PSO
OriginalAO
AAO
OriginalARO
LARO
IARO
OriginalBES
DevMVO
OriginalMVO
OriginalKOA
DevSMA
DevSBO
OriginalTLO
OriginalBBO
DevBBO
OriginalNMRA
ImprovedNMRA
OriginalCEO
OriginalSFOA
OriginalEEFO
DevGCO
OriginalGCO
OriginalRUN
OriginalGBO
*OriginalHCO
*ImprovedLCO
