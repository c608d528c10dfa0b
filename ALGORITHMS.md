# Modelled algorithms

Written by `tools/catalogue.py`: one line per constructor of the inductives in `lean/Verif/Catalogue.lean`.
`pop_size >=` is the smallest size the python constructor accepts (`Accepted`). *Settings* are hypotheses beyond that;
a class with several lines has one per contract. *Evaluations* are before the first epoch / least per epoch / most per epoch.
`Err.hang` stands for a loop of the code that does not end.

Contracts:

* `Elitist`: every evaluated point is feasible, the returned agent is the best point evaluated, its target belongs to it, the population keeps its size, no exception.
* `Tracked`: as Elitist, but returning the best point ever evaluated is not claimed.
* `Resizing`: as Tracked, but the population may change size.
* `Loose`: no exception, budget, history; evaluated points may leave the box.
* `Keeping`: as Loose, and the best point evaluated is returned.
* `Fallible`: as Tracked, or the run raises one of the errors listed.
* `Risky`: as Resizing, or the run raises one of the errors listed.
* `Careless`: feasible evaluations, size, budget, history; the target may not belong to the solution; may raise the errors listed.
* `InPlace`: feasible evaluations, size, budget; writes into arrays that other agents share; may raise the errors listed.
* `Wild`: size, budget, history; evaluated points may leave the box, targets may not belong; may raise the errors listed.
* `Shrinking`: feasible evaluations, budget; the population may shrink; writes into arrays that other agents share; may raise the errors listed.

| class | file | contract | pop_size >= | settings | evaluations | errors |
|---|---|---|---|---|---|---|
| OriginalGWO | mealpy/swarm_based/GWO.py | Elitist | 5 |  | `n n n` |  |
| RW_GWO | mealpy/swarm_based/GWO.py | Elitist | 5 |  | `n (3 + n) (3 + n)` |  |
| GWO_WOA | mealpy/swarm_based/GWO.py | Elitist | 5 |  | `n n n` |  |
| IGWO | mealpy/swarm_based/GWO.py | Elitist | 5 |  | `n n n` |  |
| ChaoticGWO | mealpy/swarm_based/GWO.py | Elitist | 5 |  | `n n n` |  |
| FuzzyGWO | mealpy/swarm_based/GWO.py | Elitist | 5 |  | `n n n` |  |
| IncrementalGWO | mealpy/swarm_based/GWO.py | Elitist | 5 |  | `n n n` |  |
| ExGWO | mealpy/swarm_based/GWO.py | Elitist | 5 |  | `n n n` |  |
| ER_GWO | mealpy/swarm_based/GWO.py | Elitist | 5 |  | `n n n` |  |
| OGWO | mealpy/swarm_based/GWO.py | Elitist | 5 | `MirrorsBox c` | `(2 * n) n (2 * n)` |  |
| CG_GWO | mealpy/swarm_based/GWO.py | Tracked | 5 |  | `n (3 + n) (3 + 2 * n)` |  |
| IOBL_GWO | mealpy/swarm_based/GWO.py | Tracked | 5 | `MirrorsBox c` | `n (3 + n) (3 + 2 * n)` |  |
| DS_GWO | mealpy/swarm_based/GWO.py | Tracked | 10 | `p.nGroups ≤ n` | `n 0 0` |  |
| OriginalDE | mealpy/evolutionary_based/DE.py | Elitist | 5 | `(p.strategy = 3 → 6 ≤ n)` | `n n n` |  |
| JADE | mealpy/evolutionary_based/DE.py | Elitist | 5 | `0 < d`; `0 < JADE.top c p ∧ JADE.top c p ≤ n` | `n n n` |  |
| SADE | mealpy/evolutionary_based/DE.py | Elitist | 5 | `0 < d` | `n n n` |  |
| OriginalSA | mealpy/physics_based/SA.py | Keeping | 2 |  | `n 1 1` |  |
| GaussianSA | mealpy/physics_based/SA.py | Keeping | 2 |  | `n 1 1` |  |
| SwarmSA | mealpy/physics_based/SA.py | Tracked | 5 | `0 < d` | `n (p.maxSubIter * (n * p.moveCount)) (p.maxSubIter * (n * p.moveCount))` |  |
| OriginalHC | mealpy/math_based/HC.py | Keeping | 2 |  | `n p.neighbours p.neighbours` |  |
| SwarmHC | mealpy/math_based/HC.py | Elitist | 5 |  | `n (n * p.neighbours) (n * p.neighbours)` |  |
| BaseGA | mealpy/evolutionary_based/GA.py | Elitist | 5 | `10 ≤ n`; `n % 2 = 0`; `p.Pure`; `p.Two n`; `p.Dims d` | `n n n` |  |
| MultiGA | mealpy/evolutionary_based/GA.py | Elitist | 5 | `10 ≤ n`; `n % 2 = 0`; `({ p with multi := true } : GA.Params K).Pure`; `p.Two n`; `p.Dims d` | `n n n` |  |
| EliteMultiGA | mealpy/evolutionary_based/GA.py | Elitist | 5 | `({ p with multi := true } : GA.Params K).Pure`; `e.Fits { p with multi := true } n`; `p.Dims d` | `n (n - e.nBest) n` |  |
| OriginalGA | mealpy/evolutionary_based/GA.py | Elitist | 5 |  | `n 0 0` |  |
| OriginalFFA | mealpy/swarm_based/FFA.py | Resizing | 5 |  | `n (n * n) (n * n)` |  |
| OriginalFOA | mealpy/swarm_based/FOA.py | Wild | 5 |  | `n n n` | `[.value]` |
| OriginalFOA | mealpy/swarm_based/FOA.py | Loose | 5 | `(c.swarmLike = true)`; `(∀ j, 0 ≤ c.P.ub j)` | `n n n` |  |
| DevFOA | mealpy/swarm_based/FOA.py | Wild | 5 |  | `n n n` | `[.value]` |
| DevFOA | mealpy/swarm_based/FOA.py | Loose | 5 | `(c.swarmLike = true)`; `(∀ j, 0 ≤ c.P.ub j)` | `n n n` |  |
| WhaleFOA | mealpy/swarm_based/FOA.py | Wild | 5 |  | `n n n` | `[]` |
| WhaleFOA | mealpy/swarm_based/FOA.py | Loose | 5 | `(c.swarmLike = true)` | `n n n` |  |
| BaseGA | mealpy/evolutionary_based/GA.py | InPlace | 5 |  | `n (n - 1) n` | `[.value, .index]` |
| MultiGA | mealpy/evolutionary_based/GA.py | InPlace | 5 |  | `n (n - 1) n` | `[.value, .index]` |
| SingleGA | mealpy/evolutionary_based/GA.py | InPlace | 5 |  | `n (n - 1) n` | `[.value, .index]` |
| EliteSingleGA | mealpy/evolutionary_based/GA.py | InPlace | 5 | `(c.swarmLike = false)` | `n (n - e.nBest) (n - e.nBest)` | `[.value, .index]` |
| EliteMultiGA | mealpy/evolutionary_based/GA.py | InPlace | 5 | `(c.swarmLike = false)` | `n (n - e.nBest) (n - e.nBest)` | `[.value, .index]` |
| OriginalHBO | mealpy/human_based/HBO.py | InPlace | 5 |  | `n (n - 1) (n - 1)` | `[.value, .index]` |
| OriginalICA | mealpy/human_based/ICA.py | Shrinking | 10 | `(2 ≤ p.empires)`; `(p.empires ≤ 2 + n / 5)` | `n n (2 * (n + c.epoch))` | `[.value, .overflow, .index]` |
| OriginalHCO | mealpy/human_based/HCO.py | Fallible | 5 |  | `(n + n) (n + n + n * p.fuel) n n` | `[.hang]` |
| DevSMO | mealpy/swarm_based/SMO.py | Fallible | 5 | `(0 < d)`; `(2 ≤ p.maxGroups)` | `n (n + DevSMO.G c p * DevSMO.gSize c p) (n + DevSMO.G c p * DevSMO.gSize c p + n)` | `[.index, .value, .hang]` |
| DevSMO | mealpy/swarm_based/SMO.py | Fallible | 5 | `(0 < d)`; `(2 ≤ p.maxGroups)`; `(DevSMO.Even c p)` | `n (n + DevSMO.G c p * DevSMO.gSize c p) (n + DevSMO.G c p * DevSMO.gSize c p + n)` | `[.hang]` |
| OriginalOrcaOA | mealpy/swarm_based/ORCA.py | Resizing | 5 | `(1 ≤ p.removes)` | `n (n - 1) (n - 1)` |  |
| DevSARO | mealpy/human_based/SARO.py | Resizing | 5 |  | `(2 * n) (2 * n) (3 * n)` |  |
| OriginalSARO | mealpy/human_based/SARO.py | Resizing | 5 | `(0 < d)` | `(2 * n) (2 * n) (3 * n)` |  |
| OriginalTS | mealpy/math_based/TS.py | Risky | 2 | `(2 ≤ p.tabu)` | `n 1 p.neighbours` | `[.index]` |
| ABFO | mealpy/swarm_based/BFO.py | Risky | 5 | `(5 ≤ p.split)` | `n (n * p.ns) (n * (p.ns + 1))` | `[.index, .zeroDiv]` |
| SAP_DE | mealpy/evolutionary_based/DE.py | Resizing | 8 | `(SAP_DE.Small K)` | `n 0 (16 * n)` |  |
| OriginalLSHADEcnEpSin | mealpy/sota_based/LSHADEcnEpSin.py | Risky | 5 | `(0 < d)`; `(1 ≤ p.memory)`; `(4 ≤ p.min)` | `n (min p.min n) n` | `[.value, .index]` |
| OriginalHGSO | mealpy/physics_based/HGSO.py | Resizing | 5 | `(1 ≤ p)`; `(p ≤ n / 5)` | `n (p * (n / p)) (p * (n / p) + n)` |  |
| OriginalBSO | mealpy/human_based/BSO.py | Risky | 5 | `(2 ≤ p.base.m)`; `(p.base.m ≤ n / 5)` | `n (p.base.m * (n / p.base.m)) (n + 1)` | `[.index]` |
| ImprovedTLO | mealpy/human_based/TLO.py | Resizing | 5 | `(2 ≤ p)`; `((p + 1) * (p + 1) ≤ n)` | `n (p * ImprovedTLO.teamSize c p + p * ImprovedTLO.teamSize c p) (p * ImprovedTLO.teamSize c p + p * ImprovedTLO.teamSize c p)` |  |
| ModifiedSLOPool | ? | Fallible | 5 | `(c.swarmLike = true)` | `n (n * 2) n n` | `[.attribute]` |
| ImprovedSLOPool | ? | Fallible | 5 | `(c.swarmLike = true)` | `n (n * 2) n (n * 3)` | `[.attribute]` |
| OriginalBeesA | mealpy/swarm_based/BeesA.py | InPlace | 5 | `0 < d`; `(1 ≤ p.selectedLocal)`; `(1 ≤ p.eliteLocal)` | `n n (n * max p.selectedLocal p.eliteLocal)` | `[]` |
| ProbBeesA | mealpy/swarm_based/BeesA.py | InPlace | 5 | `0 < d` | `n n (n * n)` | `[]` |
| OriginalTHRO | mealpy/game_based/THRO.py | InPlace | 10 |  | `n (n / 2 * 2 + n / 2 * 2) (n / 2 * 2 + n / 2 * 2)` | `[]` |
| OriginalBMO | mealpy/bio_based/BMO.py | Elitist | 5 |  | `n n n` |  |
| OriginalFPA | mealpy/evolutionary_based/FPA.py | Elitist | 5 |  | `n n n` |  |
| OriginalTSA | mealpy/bio_based/TSA.py | Elitist | 5 |  | `n n n` |  |
| OriginalMGOA | mealpy/human_based/MGOA.py | Elitist | 5 | `0 < d`; `OriginalMGOA.nDims d p ≤ d` | `n n n` |  |
| OriginalRIME | mealpy/physics_based/RIME.py | Elitist | 5 |  | `n n n` |  |
| OriginalSHIO | mealpy/math_based/SHIO.py | Elitist | 5 |  | `n n n` |  |
| OriginalCircleSA | mealpy/math_based/CircleSA.py | Elitist | 5 |  | `n n n` |  |
| OriginalSCSO | mealpy/swarm_based/SCSO.py | Elitist | 5 |  | `n n n` |  |
| OriginalGJO | mealpy/swarm_based/GJO.py | Elitist | 5 |  | `n n n` |  |
| DevJA | mealpy/swarm_based/JA.py | Elitist | 5 |  | `n n n` |  |
| OriginalJA | mealpy/swarm_based/JA.py | Elitist | 5 |  | `n n n` |  |
| LevyJA | mealpy/swarm_based/JA.py | Elitist | 5 |  | `n n n` |  |
| DevSCA | mealpy/math_based/SCA.py | Elitist | 5 |  | `n n n` |  |
| OriginalSCA | mealpy/math_based/SCA.py | Elitist | 5 |  | `n n n` |  |
| OriginalLCO | mealpy/human_based/LCO.py | Elitist | 5 |  | `n n n` |  |
| DevLCO | mealpy/human_based/LCO.py | Elitist | 5 |  | `n n n` |  |
| DevHS | mealpy/music_based/HS.py | Elitist | 5 | `(∀ j, 0 ≤ c.P.ub j)` | `n n n` |  |
| OriginalHS | mealpy/music_based/HS.py | Elitist | 5 |  | `n n n` |  |
| OriginalWOA | mealpy/swarm_based/WOA.py | Elitist | 5 |  | `n n n` |  |
| DevWOA | mealpy/swarm_based/WOA.py | Elitist | 5 |  | `n n n` |  |
| HI_WOA | mealpy/swarm_based/WOA.py | Tracked | 5 |  | `n n (n + n / 2)` |  |
| OriginalPOA | mealpy/swarm_based/POA.py | Elitist | 5 |  | `n (2 * n) (2 * n)` |  |
| DevVCS | mealpy/bio_based/VCS.py | Elitist | 5 |  | `n (3 * n) (3 * n)` |  |
| OriginalVCS | mealpy/bio_based/VCS.py | Elitist | 5 |  | `n (3 * n) (3 * n)` |  |
| OriginalSPBO | mealpy/human_based/SPBO.py | Elitist | 5 |  | `n (d * n) (d * n)` |  |
| DevSPBO | mealpy/human_based/SPBO.py | Elitist | 5 |  | `n n n` |  |
| OriginalAOA | mealpy/math_based/AOA.py | Elitist | 10 |  | `n n n` |  |
| OriginalCEM | mealpy/math_based/CEM.py | Elitist | 10 |  | `n n n` |  |
| OriginalEO | mealpy/physics_based/EO.py | Tracked | 5 |  | `n (1 + n) (1 + n)` |  |
| ModifiedEO | mealpy/physics_based/EO.py | Tracked | 5 |  | `n (1 + n + 2 * (n / 3)) (1 + n + 2 * (n / 3))` |  |
| AdaptiveEO | mealpy/physics_based/EO.py | Tracked | 5 |  | `n (1 + n) (1 + n)` |  |
| OriginalSSO | mealpy/swarm_based/SSO.py | Elitist | 5 |  | `n n n` |  |
| OriginalMFO | mealpy/swarm_based/MFO.py | Elitist | 5 |  | `n n n` |  |
| OriginalPFA | mealpy/swarm_based/PFA.py | Elitist | 5 |  | `n n n` |  |
| OriginalRSA | mealpy/swarm_based/RSA.py | Elitist | 5 |  | `n n n` |  |
| OriginalWarSO | mealpy/human_based/WarSO.py | Elitist | 5 |  | `n n n` |  |
| OriginalCSA | mealpy/swarm_based/CSA.py | Elitist | 5 | `(p.nCut < n)` | `n (n + p.nCut) (n + p.nCut)` |  |
| OriginalCDO | mealpy/physics_based/CDO.py | Elitist | 5 |  | `n n n` |  |
| OriginalSOS | mealpy/bio_based/SOS.py | Elitist | 5 | `(0 < d)` | `n (4 * n) (4 * n)` |  |
| OriginalChOA | mealpy/swarm_based/ChOA.py | Elitist | 5 |  | `n n n` |  |
| OriginalSSDO | mealpy/human_based/SSDO.py | Elitist | 5 |  | `n n n` |  |
| OriginalEOA | mealpy/bio_based/EOA.py | Elitist | 5 | `(2 ≤ p.nBest)`; `(p.nBest ≤ n / 2)` | `n (n + (n - p.nBest)) (n + (n - p.nBest))` |  |
| OriginalEAO | mealpy/bio_based/EAO.py | Elitist | 5 |  | `n (n * 3) (n * 3)` |  |
| OriginalGOA | mealpy/swarm_based/GOA.py | Elitist | 5 |  | `n n n` |  |
| OriginalHBA | mealpy/swarm_based/HBA.py | Elitist | 5 |  | `n n n` |  |
| OriginalServalOA | mealpy/swarm_based/ServalOA.py | Elitist | 5 |  | `n (n * 2) (n * 2)` |  |
| OriginalKLA | mealpy/physics_based/KLA.py | Elitist | 5 |  | `n n n` |  |
| OriginalBBOA | mealpy/bio_based/BBOA.py | Elitist | 5 |  | `n (2 * n) (2 * n)` |  |
| OriginalDSO | mealpy/swarm_based/DSO.py | Elitist | 5 |  | `n 0 n` |  |
| OriginalSHO | mealpy/swarm_based/SHO.py | Tracked | 5 | `(p.nTrials + 1 ≤ n)` | `n (n * (0 + 1)) (n * (p.nTrials + 1))` |  |
| OriginalWaOA | mealpy/swarm_based/WaOA.py | Elitist | 5 |  | `n (n * 2) (n * 2)` |  |
| OriginalCrayfishOA | mealpy/swarm_based/CrayfishOA.py | Elitist | 5 |  | `n n n` |  |
| OriginalCGO | mealpy/math_based/CGO.py | Elitist | 5 | `(0 < d)` | `n (n * 4) (n * 4)` |  |
| OriginalEHO | mealpy/swarm_based/EHO.py | Elitist | 5 | `(p.nClans * p.nInd = n ∧ 2 ≤ p.nInd)` | `n (n + p.nClans) (n + p.nClans)` |  |
| OriginalWDO | mealpy/physics_based/WDO.py | Elitist | 5 | `(0 < d)` | `n n n` |  |
| OriginalMPA | mealpy/swarm_based/MPA.py | Elitist | 5 |  | `n n n` |  |
| OriginalACOR | mealpy/swarm_based/ACOR.py | Elitist | 5 |  | `n p.sampleCount p.sampleCount` |  |
| OriginalAFT | mealpy/human_based/AFT.py | Elitist | 5 |  | `n n n` |  |
| OriginalABC | mealpy/swarm_based/ABC.py | Tracked | 5 |  | `n (2 * n) (3 * n)` |  |
| OriginalIWO | mealpy/bio_based/IWO.py | Elitist | 5 | `(OriginalIWO.Sows p)` | `n (n * 1) (n * n.sqrt)` |  |
| OriginalCA | mealpy/human_based/CA.py | Tracked | 5 | `(1 ≤ p.nAcc)` | `n n n` |  |
| OriginalMGO | mealpy/swarm_based/MGO.py | Elitist | 5 |  | `n (n * 4) (n * 4)` |  |
| OriginalNGO | mealpy/swarm_based/NGO.py | Elitist | 5 |  | `n (n * 2) (n * 2)` |  |
| OriginalSeaHO | mealpy/swarm_based/SeaHO.py | Elitist | 5 |  | `n (n + n / 2) (n + n / 2)` |  |
| OriginalSTO | mealpy/swarm_based/STO.py | Elitist | 5 |  | `n (n * 2) (n * 2)` |  |
| OriginalOOA | mealpy/swarm_based/OOA.py | Elitist | 5 |  | `n (n * 2) (n * 2)` |  |
| OriginalOSA | mealpy/swarm_based/OSA.py | Elitist | 5 |  | `n n n` |  |
| OriginalTSeedA | mealpy/bio_based/TSeedA.py | Elitist | 5 | `(c.swarmLike = true)` | `n (n * max 1 (n / 10)) (n * max 2 (n / 4))` |  |
| OriginalMSA | mealpy/swarm_based/MSA.py | Elitist | 5 | `(p.nBest ≤ n / 2)` | `n n n` |  |
| OriginalEVO | mealpy/physics_based/EVO.py | Elitist | 5 | `(0 < d)` | `n (n * 1) (n * 2)` |  |
| OriginalFFO | mealpy/swarm_based/FFO.py | Elitist | 5 |  | `n (n * 2) (n * 2)` |  |
| OriginalTDO | mealpy/swarm_based/TDO.py | Elitist | 5 |  | `n (n * 2) (n * 2)` |  |
| OriginalCoatiOA | mealpy/swarm_based/CoatiOA.py | Tracked | 5 |  | `n (3 * n - n / 2) (3 * n - n / 2)` |  |
| OriginalFHO | mealpy/swarm_based/FHO.py | Elitist | 5 |  | `n n n` |  |
| OriginalSBOA | mealpy/bio_based/SBOA.py | Elitist | 5 |  | `n (2 * n) (2 * n)` |  |
| OriginalRFO | mealpy/swarm_based/RFO.py | Elitist | 5 |  | `n (n + max 1 (n / 20)) (2 * n + max 1 (n / 20))` |  |
| OriginalTSO | mealpy/swarm_based/TSO.py | Elitist | 5 |  | `n n n` |  |
| OriginalTOA | mealpy/human_based/TOA.py | Tracked | 5 |  | `n (n * 3) (n * 4)` |  |
| OriginalHGS | mealpy/swarm_based/HGS.py | Elitist | 5 |  | `n n n` |  |
| OriginalHHO | mealpy/swarm_based/HHO.py | Tracked | 5 |  | `n (n * 0 + n) (n * 2 + n)` |  |
| OriginalZOA | mealpy/swarm_based/ZOA.py | Elitist | 5 |  | `n (2 * n) (2 * n)` |  |
| OriginalAVOA | mealpy/swarm_based/AVOA.py | Elitist | 5 |  | `n n n` |  |
| OriginalBWO | mealpy/swarm_based/BWO.py | Elitist | 5 | `(0 < d)` | `n n (n + n)` |  |
| OriginalFA | mealpy/swarm_based/FA.py | Elitist | 5 | `(0 < d)`; `(RoundMono K)` | `n p.mSparks (n * (n * OriginalFA.cap p) + (n * OriginalFA.cap p + p.mSparks))` |  |
| OriginalBWOA | mealpy/evolutionary_based/BWOA.py | Elitist | 5 | `(0 < d)`; `(2 ≤ p.nPar)` | `n (p.nPar * 2 + p.nMut) (p.nPar * 2 + p.nMut)` |  |
| OriginalESO | mealpy/physics_based/ESO.py | Tracked | 5 | `(OriginalESO.Calm c)` | `n (n * 2) (n * 3)` |  |
| OriginalFDO | mealpy/swarm_based/FDO.py | Elitist | 5 |  | `n n (n * 3)` |  |
| OriginalESOA | mealpy/swarm_based/ESOA.py | Tracked | 5 |  | `n (n * 3) (n * 3)` |  |
| DevSOA | mealpy/bio_based/SOA.py | Elitist | 5 |  | `n n n` |  |
| OriginalSOA | mealpy/bio_based/SOA.py | Elitist | 5 |  | `n n n` |  |
| OriginalCDDO | mealpy/human_based/CDDO.py | Elitist | 5 | `(0 < d)`; `(1 ≤ p.pattern ∧ p.pattern ≤ n)`; `(Num.trunc (Vec.at c.P.lb 0) < Num.trunc (Vec.at c.P.ub 0 + 1))` | `n n n` |  |
| OriginalDBO | mealpy/swarm_based/DBO.py | Elitist | 5 |  | `n n n` |  |
| OriginalSOO | mealpy/physics_based/SOO.py | Elitist | 5 |  | `n (n + n) (n + n)` |  |
| OriginalGJA | mealpy/swarm_based/GJA.py | Tracked | 5 |  | `n n (n + n)` |  |
| OriginalArchOA | mealpy/physics_based/ArchOA.py | Elitist | 5 | `(c.swarmLike = true)` | `n n n` |  |
| OriginalAPO | mealpy/bio_based/APO.py | Elitist | 5 | `(0 < d)` | `n n n` |  |
| OriginalCOA | mealpy/swarm_based/COA.py | Tracked | 5 | `(p.packs * p.coyotes = n)`; `(3 ≤ p.coyotes)` | `n (p.packs * (p.coyotes + 1)) (p.packs * (p.coyotes + 1))` |  |
| OriginalASO | mealpy/physics_based/ASO.py | Tracked | 5 |  | `n n n` |  |
| DevSSpiderA | mealpy/swarm_based/SSpiderA.py | Elitist | 5 |  | `n n n` |  |
| OriginalPSO | mealpy/swarm_based/PSO.py | Elitist | 5 |  | `n n n` |  |
| AIW_PSO | mealpy/swarm_based/PSO.py | Elitist | 5 |  | `n n n` |  |
| LDW_PSO | mealpy/swarm_based/PSO.py | Elitist | 5 |  | `n n n` |  |
| P_PSO | mealpy/swarm_based/PSO.py | Elitist | 5 |  | `n n n` |  |
| HPSO_TVAC | mealpy/swarm_based/PSO.py | Elitist | 5 |  | `n n n` |  |
| C_PSO | mealpy/swarm_based/PSO.py | Tracked | 5 |  | `n (n + 1 + (n - n / 5)) (n + 1 + (n - n / 5))` |  |
| CL_PSO | mealpy/swarm_based/PSO.py | Elitist | 5 |  | `n n n` |  |
| OriginalAO | mealpy/swarm_based/AO.py | Elitist | 5 | `(1 < c.epoch)` | `n n n` |  |
| AAO | mealpy/swarm_based/AO.py | Elitist | 5 | `(1 < c.epoch)` | `n n n` |  |
| OriginalARO | mealpy/swarm_based/ARO.py | Elitist | 5 | `(0 < d)` | `n n n` |  |
| LARO | mealpy/swarm_based/ARO.py | Elitist | 5 | `(0 < d)` | `n n (n + n)` |  |
| IARO | mealpy/swarm_based/ARO.py | Elitist | 5 | `(0 < d)` | `n n n` |  |
| OriginalBES | mealpy/swarm_based/BES.py | Elitist | 5 |  | `n (n * 3) (n * 3)` |  |
| DevMVO | mealpy/physics_based/MVO.py | Elitist | 5 |  | `n n n` |  |
| OriginalMVO | mealpy/physics_based/MVO.py | Elitist | 5 |  | `n n n` |  |
| OriginalKOA | mealpy/physics_based/KOA.py | Elitist | 5 |  | `n n n` |  |
| DevSMA | mealpy/bio_based/SMA.py | Elitist | 5 |  | `n n n` |  |
| OriginalSMA | mealpy/bio_based/SMA.py | Elitist | 5 |  | `n n n` |  |
| DevSBO | mealpy/bio_based/SBO.py | Elitist | 5 |  | `n n n` |  |
| OriginalFOX | mealpy/swarm_based/FOX.py | Elitist | 5 |  | `n n n` |  |
| DevFOX | mealpy/swarm_based/FOX.py | Elitist | 5 |  | `n n n` |  |
| OriginalDandelionO | mealpy/swarm_based/DandelionO.py | Elitist | 5 | `(1 < c.epoch)` | `n n n` |  |
| DevDandelionO | mealpy/swarm_based/DandelionO.py | Elitist | 5 |  | `n n n` |  |
| OriginalINFO | mealpy/math_based/INFO.py | Elitist | 5 | `(6 ≤ n)` | `n n n` |  |
| OriginalTLO | mealpy/human_based/TLO.py | Elitist | 5 |  | `n (n * 2) (n * 2)` |  |
| OriginalALO | mealpy/swarm_based/ALO.py | Elitist | 5 | `(1 < c.epoch)` | `n n n` |  |
| DevALO | mealpy/swarm_based/ALO.py | Elitist | 5 |  | `n n n` |  |
| OriginalBBO | mealpy/bio_based/BBO.py | Elitist | 5 |  | `n n n` |  |
| DevBBO | mealpy/bio_based/BBO.py | Elitist | 5 |  | `n n n` |  |
| OriginalNMRA | mealpy/swarm_based/NMRA.py | Tracked | 5 |  | `n (n * 2) (n * 2)` |  |
| ImprovedNMRA | mealpy/swarm_based/NMRA.py | Tracked | 5 | `(2 ≤ d)` | `n (n * 2) (n * 2)` |  |
| OriginalCEO | mealpy/physics_based/CEO.py | Elitist | 5 |  | `n n (n + n)` |  |
| OriginalSFOA | mealpy/bio_based/SFOA.py | Elitist | 5 | `(0 < d)` | `n n n` |  |
| OriginalEEFO | mealpy/swarm_based/EEFO.py | Elitist | 5 | `(0 < d)` | `n n n` |  |
| DevGCO | mealpy/system_based/GCO.py | Elitist | 5 |  | `n n n` |  |
| OriginalGCO | mealpy/system_based/GCO.py | Elitist | 5 |  | `n n n` |  |
| OriginalRUN | mealpy/math_based/RUN.py | Elitist | 5 | `(0 < d)` | `n n (n * 3)` |  |
| OriginalGBO | mealpy/math_based/GBO.py | Elitist | 5 |  | `n n n` |  |
| OriginalGRSA | mealpy/physics_based/GRSA.py | Tracked | 5 | `(1 ≤ p.geometries ∧ p.geometries ≤ n / 2)` | `n n (n + n)` |  |
| OriginalEP | mealpy/evolutionary_based/EP.py | Tracked | 5 |  | `n n n` |  |
| LevyEP | mealpy/evolutionary_based/EP.py | Tracked | 5 |  | `n (n + n / 2) (n + n / 2)` |  |
| OriginalAHO | mealpy/swarm_based/AHO.py | Tracked | 5 | `(0 < d)` | `n 0 (n * (n + 1))` |  |
| OriginalWHO | mealpy/bio_based/WHO.py | Careless | 5 | `(1 ≤ p.explore)`; `(c.swarmLike = false)` | `n (n * (p.explore + 1) + n * p.exploit) (n * (p.explore + 1) + n + n * (p.exploit + 2))` | `[]` |
| OriginalWHO | mealpy/bio_based/WHO.py | Loose | 5 | `(1 ≤ p.explore)`; `(1 ≤ p.exploit)`; `(c.swarmLike = true)` | `n (n * (p.explore + 1) + n * p.exploit) (n * (p.explore + 1) + n + n * (p.exploit + 2))` |  |
| OriginalSBO | mealpy/bio_based/SBO.py | Careless | 5 | `(c.swarmLike = false)` | `n n n` | `[.index]` |
| OriginalSBO | mealpy/bio_based/SBO.py | Fallible | 5 | `(c.swarmLike = true)` | `n n n` | `[.index]` |
| OriginalAAA | mealpy/bio_based/AAA.py | Careless | 5 | `(3 ≤ d)` | `n 0 (n * p.fuel + 1)` | `[.hang]` |
| OriginalBCO | mealpy/bio_based/BCO.py | Wild | 5 |  | `n n (n * (1 + p.swim) + n + n)` | `[]` |
| EnhancedTWO | mealpy/physics_based/TWO.py | Tracked | 5 | `(c.swarmLike = true)` | `(n + n) (n + n) (n + n * 2)` |  |
| EnhancedTWO | mealpy/physics_based/TWO.py | Wild | 5 |  | `(n + n) (n + n) (n + n * 2)` | `[]` |
| OriginalLSHADEcnEpSin | mealpy/sota_based/LSHADEcnEpSin.py | Resizing | 5 | `(2 ≤ d)`; `(1 ≤ p.memory)`; `(4 ≤ p.min)`; `(p.min ≤ n)` | `n p.min n` |  |
| OriginalCSO | mealpy/swarm_based/CSO.py | Tracked | 5 | `(0 < d)`; `(2 ≤ p.smp)`; `(p.strategy = 1 → 4 ≤ p.smp)` | `n n (n * (2 * p.smp + 1))` |  |
| OriginalMA | mealpy/evolutionary_based/MA.py | Tracked | 5 | `(n % 2 = 0)` | `n n (n + n * p.maxLocalGens)` |  |
| OriginalHGSO | mealpy/physics_based/HGSO.py | Tracked | 5 | `(p * (n / p) = n)` | `n n (n + n)` |  |
| OriginalDOA | mealpy/human_based/DOA.py | Tracked | 5 | `(n ≤ d)` | `n n n` |  |
| OriginalCCO | mealpy/swarm_based/CCO.py | Tracked | 5 |  | `n n n` |  |
| ETLBO | mealpy/human_based/TLO.py | Elitist | 5 | `(p < n)` | `n (n + n) (n + n + n)` |  |
| ImprovedTLO | mealpy/human_based/TLO.py | Tracked | 5 | `(2 ≤ p)`; `(p ∣ n)`; `((p + 1) * (p + 1) ≤ n)` | `n (n - p + (n - p)) (n - p + (n - p))` |  |
| DevTPO | mealpy/bio_based/TPO.py | Tracked | 5 |  | `(n * DevTPO.leafs c) (n * DevTPO.leafs c + n) (n * DevTPO.leafs c) (n * DevTPO.leafs c)` |  |
| OriginalDO | mealpy/swarm_based/DO.py | Tracked | 5 |  | `(n + n) (n + n) (n + n)` |  |
| OriginalAEO | mealpy/system_based/AEO.py | Elitist | 5 |  | `n (n + n) (n + n)` |  |
| ImprovedAEO | mealpy/system_based/AEO.py | Elitist | 5 |  | `n (n + n) (n + n)` |  |
| EnhancedAEO | mealpy/system_based/AEO.py | Elitist | 5 |  | `n (n + n) (n + n)` |  |
| ModifiedAEO | mealpy/system_based/AEO.py | Elitist | 5 |  | `n (n + n) (n + n)` |  |
| AugmentedAEO | mealpy/system_based/AEO.py | Elitist | 5 |  | `n (n + n) (n + n)` |  |
| DevQSA | mealpy/human_based/QSA.py | Elitist | 5 |  | `n (n + n + n) (n + n + n)` |  |
| OppoQSA | mealpy/human_based/QSA.py | Elitist | 5 |  | `n (n + n + n + n) (n + n + n + n)` |  |
| LevyQSA | mealpy/human_based/QSA.py | Elitist | 5 |  | `n (n + n + n) (n + n + n)` |  |
| ImprovedQSA | mealpy/human_based/QSA.py | Elitist | 5 |  | `n (n + n + n + n) (n + n + n + n)` |  |
| OriginalQSA | mealpy/human_based/QSA.py | Elitist | 5 |  | `n (n + n + n) (n + n + n)` |  |
| DevSSA | mealpy/swarm_based/SSA.py | Elitist | 5 |  | `n (n + (n - DevSSA.n2 c p)) (n + (n - DevSSA.n2 c p))` |  |
| OriginalSSA | mealpy/swarm_based/SSA.py | Elitist | 5 |  | `n (n + (n - DevSSA.n2 c p)) (n + (n - DevSSA.n2 c p))` |  |
| OriginalSLO | mealpy/swarm_based/SLO.py | Elitist | 5 |  | `n n n` |  |
| DevGSKA | mealpy/human_based/GSKA.py | Elitist | 5 | `(DevGSKA.Groups c p.pb)` | `n n n` |  |
| OriginalGSKA | mealpy/human_based/GSKA.py | Elitist | 5 | `(DevGSKA.Groups c p.pb)` | `n n n` |  |
| DevFBIO | mealpy/human_based/FBIO.py | Elitist | 5 | `(0 < d)` | `n (4 * n) (4 * n)` |  |
| OriginalFBIO | mealpy/human_based/FBIO.py | Elitist | 5 | `(0 < d)` | `n (4 * n) (4 * n)` |  |
| OriginalMRFO | mealpy/swarm_based/MRFO.py | Tracked | 5 |  | `n (n + n) (n + n)` |  |
| WMQIMRFO | mealpy/swarm_based/MRFO.py | Tracked | 5 |  | `n (3 * n) (3 * n)` |  |
| OriginalBA | mealpy/swarm_based/BA.py | Tracked | 5 |  | `n n n` |  |
| AdaptiveBA | mealpy/swarm_based/BA.py | Tracked | 5 |  | `n n n` |  |
| DevBA | mealpy/swarm_based/BA.py | Elitist | 5 |  | `n n (n + n)` |  |
| DevEFO | mealpy/physics_based/EFO.py | Elitist | 5 | `(0 < d)`; `(DevEFO.Fields c p)` | `n n n` |  |
| OriginalEFO | mealpy/physics_based/EFO.py | Tracked | 5 | `(0 < d)`; `(DevEFO.Fields c p)` | `n 1 1` |  |
| OriginalNWOA | mealpy/swarm_based/NWOA.py | Elitist | 5 |  | `n n n` |  |
| OriginalNO | mealpy/swarm_based/NWOA.py | Elitist | 5 |  | `n n n` |  |
| OriginalLSO | mealpy/physics_based/LSO.py | Elitist | 5 |  | `n (n + n) (n + n)` |  |
| DevLSO | mealpy/physics_based/LSO.py | Elitist | 5 |  | `n (n + n) (n + n)` |  |
| OriginalDMOA | mealpy/swarm_based/DMOA.py | Tracked | 5 | `(p.sitters ≤ n)` | `n (n + n + n) (n + n + p.sitters + n)` |  |
| DevDMOA | mealpy/swarm_based/DMOA.py | Tracked | 5 |  | `n (n + n + n) (n + n + n + n)` |  |
| OriginalFLA | mealpy/physics_based/FLA.py | Elitist | 5 | `(OriginalFLA.Calm c p)` | `n n n` |  |
| DevBRO | mealpy/human_based/BRO.py | Tracked | 5 |  | `n n (n * 3)` |  |
| OriginalBRO | mealpy/human_based/BRO.py | Tracked | 5 |  | `n n n` |  |
| OriginalSFO | mealpy/swarm_based/SFO.py | Tracked | 5 | `(0 < d)`; `(n ≤ OriginalSFO.size c p.pp)`; `(OriginalSFO.Narrow c p)` | `(n + OriginalSFO.size c p.pp) n (n + OriginalSFO.size c p.pp + n)` |  |
| ImprovedSFO | mealpy/swarm_based/SFO.py | Tracked | 5 | `(n ≤ OriginalSFO.size c p)` | `(n + OriginalSFO.size c p) (n + OriginalSFO.size c p) (n + OriginalSFO.size c p + n)` |  |
| MLFA_GD | mealpy/swarm_based/FFA.py | Tracked | 5 | `(p.females ≤ MLFA_GD.half c)` | `n (MLFA_GD.half c + 1 + MLFA_GD.evaluated c + p.rw) (MLFA_GD.half c + 1 + MLFA_GD.evaluated c + p.rw)` |  |
| ImprovedBSO | mealpy/human_based/BSO.py | Tracked | 5 | `(ImprovedBSO.Even c p.m)` | `n n (n + 1)` |  |
| OriginalBSO | mealpy/human_based/BSO.py | Tracked | 5 | `(ImprovedBSO.Even c p.base.m)` | `n n (n + 1)` |  |
| OriginalTWO | mealpy/physics_based/TWO.py | Tracked | 5 |  | `n n n` |  |
| OppoTWO | mealpy/physics_based/TWO.py | Tracked | 5 | `(n % 2 = 0)`; `(c.swarmLike = true)` | `(n + n / 2) (n + n) (n + n)` |  |
| LevyTWO | mealpy/physics_based/TWO.py | Tracked | 5 | `(c.swarmLike = true)` | `n n (n + n)` |  |
| OriginalMShOA | mealpy/swarm_based/MShOA.py | Elitist | 5 |  | `n n n` |  |
| DevMShOA | mealpy/swarm_based/MShOA.py | Elitist | 5 |  | `n n n` |  |
| OriginalSRSR | mealpy/swarm_based/SRSR.py | Tracked | 5 | `(OriginalSRSR.Calm c)` | `n (n + n + 5) (n + n + 5)` |  |
| OriginalAGTO | mealpy/swarm_based/AGTO.py | Tracked | 5 |  | `n (n + n) (n + n)` |  |
| MGTO | mealpy/swarm_based/AGTO.py | Tracked | 5 |  | `n (n + n + n) (n + n + n)` |  |
| OriginalGTO | mealpy/swarm_based/GTO.py | Tracked | 5 |  | `n (n + n + n) (n + n + n)` |  |
| Matlab102GTO | mealpy/swarm_based/GTO.py | Tracked | 5 |  | `n (n + n + n) (n + n + n)` |  |
| Matlab101GTO | mealpy/swarm_based/GTO.py | Tracked | 5 |  | `n (n * (n - 1) + n + n * (n - 1)) (n * (n - 1) + n + n * (n - 1))` |  |
| OriginalWSO | mealpy/swarm_based/WSO.py | Elitist | 5 | `(OriginalWSO.Indexes c)` | `n n n` |  |
| OriginalPSS | mealpy/math_based/PSS.py | Tracked | 5 | `(p.mc = false)` | `n (n + n) n n` |  |
| OriginalMSO | mealpy/physics_based/MSO.py | Elitist | 5 |  | `n n (n - 1 + n)` |  |
| OriginalOrcaPA | mealpy/swarm_based/ORCA.py | Tracked | 5 |  | `n (n + n) (n + n + n)` |  |
| OriginalNRO | mealpy/physics_based/NRO.py | Fallible | 5 |  | `n (n + n + n) (n + n + n)` | `[.value]` |
| OriginalSquirrelSA | mealpy/swarm_based/SquirrelSA.py | Fallible | 5 | `(2 ≤ p.food ∧ p.food + 3 ≤ n)` | `n n n` | `[.type]` |
| OriginalSHADE | mealpy/evolutionary_based/SHADE.py | Elitist | 5 | `(0 < d)`; `(OriginalSHADE.Tops c)` | `n n n` |  |
| L_SHADE | mealpy/evolutionary_based/SHADE.py | Elitist | 5 | `(0 < d)`; `(L_SHADE.Tops c)` | `n n n` |  |
| OriginalES | mealpy/evolutionary_based/ES.py | Elitist | 5 | `(p.child ≤ n)` | `n p.child p.child` |  |
| LevyES | mealpy/evolutionary_based/ES.py | Elitist | 5 | `(p.child ≤ n)` | `n (p.child + p.child) (p.child + p.child)` |  |
| CMA_ES | mealpy/evolutionary_based/ES.py | Fallible | 5 |  | `n n n` | `[.value]` |
| Simple_CMA_ES | mealpy/evolutionary_based/ES.py | Elitist | 5 |  | `n n n` |  |
| CleverBookBeesA | mealpy/swarm_based/BeesA.py | Elitist | 5 | `(2 ≤ d)`; `(1 ≤ p.elites)`; `(1 ≤ p.others)` | `n n (n * p.most)` |  |
| OriginalWOAmM | mealpy/swarm_based/WOA.py | Tracked | 5 |  | `n (n * 3) (n * 3 + OriginalWOAmM.restarts c p.rate)` |  |
| DevWOAmM | mealpy/swarm_based/WOA.py | Elitist | 5 | `(c.mode = .single)` | `n (n * 3) (n * 3 + OriginalWOAmM.restarts c p.rate)` |  |
| OriginalCRO | mealpy/evolutionary_based/CRO.py | Tracked | 5 | `(2 ≤ d)`; `(OriginalCRO.Rates c p)` | `n 0 n` |  |
| OCRO | mealpy/evolutionary_based/CRO.py | Tracked | 5 | `(2 ≤ d)`; `(OriginalCRO.Rates c p.base)` | `n 0 (n + n + n + n)` |  |
| OriginalBSA | mealpy/swarm_based/BSA.py | Elitist | 5 |  | `n n n` |  |
| OriginalPO | mealpy/human_based/PO.py | Elitist | 4 | `(n = p.parties * p.parties)`; `(2 ≤ p.parties)` | `n (n + p.parties) (n + p.parties)` |  |
| OriginalBFO | mealpy/swarm_based/BFO.py | Tracked | 5 | `(n % 2 = 0)`; `(2 ≤ p.ns)` | `n (p.nc * n) (p.nc * (n * p.ns + n))` |  |
| OriginalChameleonSA | mealpy/swarm_based/ChameleonSA.py | Elitist | 5 |  | `n n n` |  |
| IChameleonSA | mealpy/swarm_based/ChameleonSA.py | Tracked | 5 |  | `n (3 * n) (3 * n)` |  |
| OriginalCHIO | mealpy/human_based/CHIO.py | Fallible | 5 |  | `n n (n + n)` | `[.value]` |
| DevCHIO | mealpy/human_based/CHIO.py | Fallible | 5 |  | `n n (n + n)` | `[.value]` |
| OriginalWCA | mealpy/system_based/WCA.py | Fallible | 5 | `(2 ≤ p.nsr ∧ p.nsr ≤ n)` | `n n (n + (p.nsr - 1))` | `[.value, .index]` |
| ModifiedSLO | mealpy/swarm_based/SLO.py | Tracked | 5 | `(c.swarmLike = false)` | `(n * 2) n n` |  |
| ImprovedSLO | mealpy/swarm_based/SLO.py | Tracked | 5 | `(c.swarmLike = false)` | `(n * 2) n (n * 3)` |  |
| ImprovedLCO | mealpy/human_based/LCO.py | Elitist | 5 |  | `n (n + n / 2 + n / 2) (n + n)` |  |
| DevEPC | mealpy/swarm_based/EPC.py | Elitist | 5 |  | `n 0 (n * n)` |  |
| QleSCA | mealpy/math_based/SCA.py | Fallible | 5 |  | `n n n` | `[.stopIteration]` |
| OriginalILA | mealpy/human_based/ILA.py | Elitist | 5 |  | `n (n * 2) (n * 2)` |  |
| OriginalSSpiderO | mealpy/swarm_based/SSpiderO.py | Tracked | 5 | `(OriginalSSpiderO.Shares c p)` | `n (n + n) (n + 2 * (n * n))` |  |
| OriginalIMODE | mealpy/sota_based/IMODE.py | Tracked | 5 | `(0 < d)`; `(2 ≤ p.memory)` | `n n n` |  |
| DevGSKA | mealpy/human_based/GSKA.py | Fallible | 5 |  | `n n n` | `[.value, .index]` |
| OriginalGSKA | mealpy/human_based/GSKA.py | Fallible | 5 |  | `n n n` | `[.value, .index]` |
| OriginalSHO | mealpy/swarm_based/SHO.py | Fallible | 5 |  | `n (n * (0 + 1)) (n * (p.nTrials + 1))` | `[.value]` |
| ImprovedNMRA | mealpy/swarm_based/NMRA.py | Fallible | 5 |  | `n (n * 2) (n * 2)` | `[.value]` |
| OriginalINFO | mealpy/math_based/INFO.py | Fallible | 5 |  | `n n n` | `[.index]` |
| OriginalCSO | mealpy/swarm_based/CSO.py | Fallible | 5 | `(0 < d)`; `(2 ≤ p.smp)` | `n n (n * (2 * p.smp + 1))` | `[.value]` |
| OriginalDOA | mealpy/human_based/DOA.py | Fallible | 5 | `(0 < d)` | `n n n` | `[.value, .index]` |
| OriginalMA | mealpy/evolutionary_based/MA.py | Fallible | 5 |  | `n n (n + n * p.maxLocalGens)` | `[.index]` |
| DevEFO | mealpy/physics_based/EFO.py | Fallible | 5 |  | `n n n` | `[.value, .index]` |
| OriginalEFO | mealpy/physics_based/EFO.py | Fallible | 5 |  | `n 1 1` | `[.value, .index]` |
| OriginalFLA | mealpy/physics_based/FLA.py | Fallible | 5 |  | `n n n` | `[.index]` |
| OriginalSRSR | mealpy/swarm_based/SRSR.py | Fallible | 5 |  | `n (n + n + 5) (n + n + 5)` | `[.value]` |
| OriginalESO | mealpy/physics_based/ESO.py | Fallible | 5 |  | `n (n * 2) (n * 3)` | `[.value]` |
| OriginalCDDO | mealpy/human_based/CDDO.py | Fallible | 5 | `(0 < d)`; `(1 ≤ p.pattern ∧ p.pattern ≤ n)` | `n n n` | `[.value]` |
| CleverBookBeesA | mealpy/swarm_based/BeesA.py | Fallible | 5 | `(1 ≤ p.elites)`; `(1 ≤ p.others)` | `n n (n * p.most)` | `[.value]` |
| OriginalCRO | mealpy/evolutionary_based/CRO.py | Fallible | 5 | `(OriginalCRO.Rates c p)` | `n 0 n` | `[.value]` |
| OCRO | mealpy/evolutionary_based/CRO.py | Fallible | 5 | `(OriginalCRO.Rates c p.base)` | `n 0 (n + n + n + n)` | `[.value]` |
| OriginalSHADE | mealpy/evolutionary_based/SHADE.py | Fallible | 5 | `(0 < d)` | `n n n` | `[.value, .index]` |
| OriginalSFO | mealpy/swarm_based/SFO.py | Fallible | 5 | `(n ≤ OriginalSFO.size c p.pp)` | `(n + OriginalSFO.size c p.pp) n (n + OriginalSFO.size c p.pp + n)` | `[.value]` |
| OppoTWO | mealpy/physics_based/TWO.py | Wild | 5 | `(n % 2 = 0)` | `(n + n / 2) (n + n) (n + n)` | `[]` |
| LevyTWO | mealpy/physics_based/TWO.py | Wild | 5 |  | `n n (n + n)` | `[]` |
| OriginalTSeedA | mealpy/bio_based/TSeedA.py | Wild | 5 |  | `n (n * max 1 (n / 10)) (n * max 2 (n / 4))` | `[]` |
| OriginalArchOA | mealpy/physics_based/ArchOA.py | Wild | 5 |  | `n n n` | `[]` |