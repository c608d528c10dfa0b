import Verif.Props.Forgets
import Verif.TapeExp

/-!
# C54: more algorithms that lose the best point they evaluated

Runs as in `Verif/Props/Forgets.lean`.  The constructors accept the parameters; where they are not the defaults they are small versions of them.
-/

namespace Mealpy
open Spec

/-- The better of two new points is chosen without `minmax` (`mealpy/physics_based/ESO.py:164`): under `max` the better one is dropped. -/
theorem C54_originalESO_forgets : LosesBest 5
    (OriginalESO.algo (c := tapeCfg 1 3 1 (fun x => if x 0 = -5 / 3 then 99 else x 0) .max .single 5 1)) := by
  loses 0

/-- The survivors are those with most wins against random opponents (`mealpy/evolutionary_based/EP.py:103-113`), where the best child may have few. -/
theorem C54_originalEP_forgets : LosesBest 5
    (OriginalEP.algo (c := tapeCfg 1 3 1 (fun x => if x 0 = -99 / 40 then -99 else x 0) .min .single 5 2) (4 / 5)) := by
  loses 5

/-- `LevyEP` selects in the same way. -/
theorem C54_levyEP_forgets : LosesBest 5
    (LevyEP.algo (c := tapeCfg 1 3 1 (fun x => if x 0 = -21 / 8 then -99 else x 0) .min .single 5 2) (4 / 5)) := by
  loses 2

/-- Half of the cells are dropped by their accumulated cost, and others are replaced by random ones (`mealpy/swarm_based/BFO.py:166-170`). -/
theorem C54_originalBFO_forgets : LosesBest 5
    (OriginalBFO.algo (c := tapeCfg 1 3 1 (fun x => if x 0 = 2 then -99 else x 0) .min .single 6 1) ⟨1, 1 / 4, 2, 2, 1 / 10, 1 / 5, 1 / 10, 10⟩) := by
  loses 0

/-- A trial point is accepted without `minmax` (`mealpy/sota_based/IMODE.py:284`). -/
theorem C54_originalIMODE_forgets : LosesBest 5
    (OriginalIMODE.algo (c := tapeCfg 1 3 1 (fun x => if -12 / 5 < x 0 ∧ x 0 < -23 / 10 then 99 else x 0) .max .single 5 1) ⟨5, 20⟩) := by
  loses 0

/-- A pup replaces the last coyote by age, which need not be the worst (`mealpy/swarm_based/COA.py:134-140`). -/
theorem C54_originalCOA_forgets : LosesBest 5
    (OriginalCOA.algo (c := tapeCfg 1 3 1 (fun x => if x 0 = 151 / 512 then 99 else x 0) .max .single 6 3) ⟨2, 3, 9 / 200⟩) := by
  loses 5

/-- The step vectors are drawn and evaluated as a second population, which is not looked at (`mealpy/swarm_based/DO.py:66`). -/
theorem C54_originalDO_forgets : LosesBest 5
    (OriginalDO.algo (c := tapeCfg 1 3 1 (fun x => if x 0 = 1 then -99 else x 0) .min .single 5 1)) := by
  loses 0

/-- An infected case that is too old is replaced even if it is the best (`mealpy/human_based/CHIO.py:132-133`). -/
theorem C54_originalCHIO_forgets : LosesBest 5
    (OriginalCHIO.algo (c := tapeCfg 1 3 1 (fun x => if x 0 = -123 / 64 then 99 else x 0) .max .single 5 2) ⟨15 / 100, 1⟩) := by
  loses 2

/-- So it is in `DevCHIO`. -/
theorem C54_devCHIO_forgets : LosesBest 5
    (DevCHIO.algo (c := tapeCfg 1 3 1 (fun x => if x 0 = -5 / 2 then -99 else x 0) .min .single 5 2) ⟨15 / 100, 1⟩) := by
  loses 5

/-- Evaporation replaces a river, which is then in no list (`mealpy/system_based/WCA.py:146-152`). -/
theorem C54_originalWCA_forgets : LosesBest 5
    (OriginalWCA.algo (c := tapeCfg 1 3 1 (fun x => if x 0 = -7 / 2 then -99 else x 0) .min .single 6 1) ⟨2, 2, 1 / 1000⟩) := by
  loses 2

/-- A better position is accepted only with a probability, the loudness (`mealpy/swarm_based/BA.py:219`). -/
theorem C54_adaptiveBA_forgets : LosesBest 5
    (AdaptiveBA.algo (c := tapeCfg 2 5 1 (fun x => x 0) .min .single 5 1) ⟨1 / 2, 3 / 2, 1, 2, -10, 10⟩) := by
  loses 4

/-- Every fifth epoch the agents that were worst before the epoch are replaced, though they may have improved (`mealpy/swarm_based/GJA.py:159-167`). -/
theorem C54_originalGJA_forgets : LosesBest 5
    (OriginalGJA.algo (c := tapeCfg 1 3 1 (fun x => if -527 / 256 ≤ x 0 ∧ x 0 ≤ -526 / 256 then -99 else x 0) .min .single 5 5) ⟨3 / 2, 1 / 5, 1 / 2⟩) := by
  loses 0

/-- The points of the second phase are evaluated, and those of the third take their place without a comparison
(`mealpy/swarm_based/ChameleonSA.py:289-290`, `:316-323`). -/
theorem C54_iChameleonSA_forgets : LosesBest 10
    (IChameleonSA.algo (c := tapeCfg 1 3 1 (fun x => if 4437 / 1250 ≤ x 0 ∧ x 0 ≤ 4437 / 1250 + 1 / 100000 then 99 else x 0) .max .single 10 2)
      ⟨1 / 2, 1, 1, 2⟩) := by
  loses 2

/-- The smallest colony is replaced, and the most starving one moved, without a comparison (`mealpy/bio_based/AAA.py:180`, `:186-189`). -/
theorem C54_originalAAA_forgets : LosesBest 5
    (OriginalAAA.algo (c := tapeCfg 1 3 3 (fun x => if x 0 = -3 ∧ x 1 = -3 ∧ x 2 = -4 then 99 else x 0) .max .single 5 1) ⟨2, 3 / 10, 1 / 2, 20⟩) := by
  loses 2

/-- The point that a colony reaches by assimilation is evaluated, and the revolution moves the colony on before the best agent is looked for
(`mealpy/human_based/ICA.py:138-161`). -/
theorem C54_originalICA_forgets : LosesBest 10
    (OriginalICA.algo (c := tapeCfg 1 3 1 (fun x => if x 0 = -5 / 4 then -99 else x 0) .min .single 10 1) ⟨2, 3 / 2, 1 / 2, 1 / 10, 1 / 2, 1 / 10⟩) := by
  loses 0

/-- the default parameters of `SwarmSA`, but with two moves each -/
def swarmSA5 : SwarmSA.Params RatE 5 where
  maxSubIter := 5
  t0 := 1000
  t1 := 1
  moveCount := 2
  mutationRate := (1 / 10 : ℚ)
  stepSize := (1 / 10 : ℚ)
  damp := (99 / 100 : ℚ)
  sub_ok := by decide
  t0_ok := by decide
  t1_ok := by decide
  move_ok := by decide
  rate_ok := (by norm_num : (0 : ℚ) < 1 / 10 ∧ (1 / 10 : ℚ) < 1)
  step_ok := (by norm_num : (0 : ℚ) < 1 / 10 ∧ (1 / 10 : ℚ) < 1)
  damp_ok := (by norm_num : (0 : ℚ) < 99 / 100 ∧ (99 / 100 : ℚ) < 1)

/-- With more than one sub-iteration a worse point may take the place of the best one before the best agent is looked for
(`mealpy/physics_based/SA.py:301-326`).  With one sub-iteration the best point is kept (`Remembers.swarmSA`). -/
theorem C54_swarmSA_forgets : LosesBest 5
    (SwarmSA.algo (c := tapeCfgE 1 3 1 (fun x => if x 0 = -4 / 5 then -99 else x 0) .min .single 5 1) swarmSA5) :=
  ⟨tapeCfgE_lawful, tapeProb_lawful, ⟨by decide, by decide⟩, ⟨(0 : Nat), (17 : Nat), [], 1⟩, rfl, forgets_spec (by decide +kernel)⟩

/-- When all agents meet in one point, the population is drawn anew before the best agent is looked for (`mealpy/physics_based/GRSA.py:177-179`). -/
theorem C54_originalGRSA_forgets : Accepted (tapeCfg 1 3 1 (fun x => x 0) .min .single 10 1) 10 ∧
    ∃ s h, solve (OriginalGRSA.algo (c := tapeCfg 1 3 1 (fun x => x 0) .min .single 10 1) ⟨1, 19 / 20, 9 / 10, 9 / 10, 9 / 10⟩)
        ⟨none, .rows ([-3] :: List.replicate 9 [-39 / 10]), false⟩ ⟨(5 : Nat), (22 : Nat), [], 1⟩ = .ok (s, h) ∧
      ∃ x ∈ s.base.log, ¬ NoWorse .min s.gbest.tgt.fitness ((tapeCfg 1 3 1 (fun x => x 0) .min .single 10 1).P.target x).fitness := by
  refine ⟨⟨by decide, by decide⟩, forgets_spec (c := tapeCfg 1 3 1 (fun x => x 0) .min .single 10 1) ?_⟩
  decide +kernel

end Mealpy
