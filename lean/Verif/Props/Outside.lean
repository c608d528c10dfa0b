import Verif.TapeEnv
import Verif.Props.Untidy

/-!
# C52, C53: targets computed before the correction

In `single` mode `OppoTWO`, `LevyTWO`, `OriginalTSeedA` and `OriginalArchOA` call the objective with a position and then keep the corrected position.  Each
theorem shows a run (one variable in `[-4, 4]`, the value is the variable itself, default parameters) that evaluates a point outside the box, respectively
returns an agent whose target is not the objective's value at its solution.
-/

namespace Mealpy
open Spec

/-- one variable in `[-4, 4]`, to be minimised; one epoch in `single` mode -/
abbrev outCfg (n : Nat) : Cfg 1 ℚ := tapeCfg 1 3 1 (fun x => x 0) .min .single n 1

/-- `OppoTWO` (`mealpy/physics_based/TWO.py:215-219`) evaluates a point outside the box. -/
theorem C52_oppo_two_leaves_box : (outCfg 6).E.Lawful ∧ (outCfg 6).P.Lawful ∧ Accepted (outCfg 6) 5 ∧
    ∃ s h, solve (OppoTWO.algo (c := outCfg 6)) ⟨none, .none, false⟩ ⟨(0 : Nat), (17 : Nat), [], 1⟩ = .ok (s, h) ∧
      ∃ x ∈ s.base.log, ¬ InBox (outCfg 6).P.lb (outCfg 6).P.ub x := by
  refine ⟨tapeEnv_lawful, tapeProb_lawful, ⟨by decide, by decide⟩, escapes_spec ?_⟩
  decide +kernel

/-- `OppoTWO`: the returned target is not the value at the returned solution. -/
theorem C53_oppo_two_lies : (outCfg 6).E.Lawful ∧ (outCfg 6).P.Lawful ∧ Accepted (outCfg 6) 5 ∧
    ∃ s h, solve (OppoTWO.algo (c := outCfg 6)) ⟨none, .none, false⟩ ⟨(0 : Nat), (17 : Nat), [], 1⟩ = .ok (s, h) ∧
      s.gbest.tgt ≠ (outCfg 6).P.target s.gbest.sol := by
  refine ⟨tapeEnv_lawful, tapeProb_lawful, ⟨by decide, by decide⟩, lies_spec ?_⟩
  decide +kernel

/-- `LevyTWO` (`mealpy/physics_based/TWO.py:307-311`) evaluates a point outside the box. -/
theorem C52_levy_two_leaves_box : (outCfg 5).E.Lawful ∧ (outCfg 5).P.Lawful ∧ Accepted (outCfg 5) 5 ∧
    ∃ s h, solve (LevyTWO.algo (c := outCfg 5)) ⟨none, .none, false⟩ ⟨(0 : Nat), (17 : Nat), [], 1⟩ = .ok (s, h) ∧
      ∃ x ∈ s.base.log, ¬ InBox (outCfg 5).P.lb (outCfg 5).P.ub x := by
  refine ⟨tapeEnv_lawful, tapeProb_lawful, ⟨by decide, by decide⟩, escapes_spec ?_⟩
  decide +kernel

/-- `LevyTWO`: the returned target is not the value at the returned solution. -/
theorem C53_levy_two_lies : (outCfg 5).E.Lawful ∧ (outCfg 5).P.Lawful ∧ Accepted (outCfg 5) 5 ∧
    ∃ s h, solve (LevyTWO.algo (c := outCfg 5)) ⟨none, .none, false⟩ ⟨(0 : Nat), (17 : Nat), [], 1⟩ = .ok (s, h) ∧
      s.gbest.tgt ≠ (outCfg 5).P.target s.gbest.sol := by
  refine ⟨tapeEnv_lawful, tapeProb_lawful, ⟨by decide, by decide⟩, lies_spec ?_⟩
  decide +kernel

/-- `OriginalTSeedA` (`mealpy/bio_based/TSeedA.py:111-115`) evaluates a point outside the box. -/
theorem C52_tseeda_leaves_box : (outCfg 5).E.Lawful ∧ (outCfg 5).P.Lawful ∧ Accepted (outCfg 5) 5 ∧
    ∃ s h, solve (OriginalTSeedA.algo (c := outCfg 5) ⟨1 / 10⟩) ⟨none, .none, false⟩ ⟨(1 : Nat), (18 : Nat), [], 1⟩ = .ok (s, h) ∧
      ∃ x ∈ s.base.log, ¬ InBox (outCfg 5).P.lb (outCfg 5).P.ub x := by
  refine ⟨tapeEnv_lawful, tapeProb_lawful, ⟨by decide, by decide⟩, escapes_spec ?_⟩
  decide +kernel

/-- `OriginalTSeedA`: the returned target is not the value at the returned solution. -/
theorem C53_tseeda_lies : (outCfg 5).E.Lawful ∧ (outCfg 5).P.Lawful ∧ Accepted (outCfg 5) 5 ∧
    ∃ s h, solve (OriginalTSeedA.algo (c := outCfg 5) ⟨1 / 10⟩) ⟨none, .none, false⟩ ⟨(1 : Nat), (18 : Nat), [], 1⟩ = .ok (s, h) ∧
      s.gbest.tgt ≠ (outCfg 5).P.target s.gbest.sol := by
  refine ⟨tapeEnv_lawful, tapeProb_lawful, ⟨by decide, by decide⟩, lies_spec ?_⟩
  decide +kernel

/-- `OriginalArchOA` (`mealpy/physics_based/ArchOA.py:142-145`) evaluates a point outside the box. -/
theorem C52_archoa_leaves_box : (outCfg 5).E.Lawful ∧ (outCfg 5).P.Lawful ∧ Accepted (outCfg 5) 5 ∧
    ∃ s h, solve (OriginalArchOA.algo (c := outCfg 5) ⟨6, 2, 1 / 2, 9 / 10, 1 / 10⟩) ⟨none, .none, false⟩ ⟨(1 : Nat), (18 : Nat), [], 1⟩ = .ok (s, h) ∧
      ∃ x ∈ s.base.log, ¬ InBox (outCfg 5).P.lb (outCfg 5).P.ub x := by
  refine ⟨tapeEnv_lawful, tapeProb_lawful, ⟨by decide, by decide⟩, escapes_spec ?_⟩
  decide +kernel

/-- `OriginalArchOA`: the returned target is not the value at the returned solution. -/
theorem C53_archoa_lies : (outCfg 5).E.Lawful ∧ (outCfg 5).P.Lawful ∧ Accepted (outCfg 5) 5 ∧
    ∃ s h, solve (OriginalArchOA.algo (c := outCfg 5) ⟨6, 2, 1 / 2, 9 / 10, 1 / 10⟩) ⟨none, .none, false⟩ ⟨(1 : Nat), (18 : Nat), [], 1⟩ = .ok (s, h) ∧
      s.gbest.tgt ≠ (outCfg 5).P.target s.gbest.sol := by
  refine ⟨tapeEnv_lawful, tapeProb_lawful, ⟨by decide, by decide⟩, lies_spec ?_⟩
  decide +kernel

end Mealpy
