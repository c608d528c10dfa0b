import Verif.Props.Raises

/-! # C29: `update_global_best_agent(save=False)` rewrites the record of the previous epoch -/

set_option linter.unusedVariables false

namespace Mealpy

/-- one variable in [-5, 5], generated solutions are 4, the value is the distance from 0 -/
def agtoCfg : Cfg 1 ℚ := ⟨runEnv (1/2) 0, pointProb abs 4 .min, .single, 5, 2⟩

theorem agtoCfg_lawful : agtoCfg.E.Lawful ∧ agtoCfg.P.Lawful :=
  ⟨runEnv_lawful (by norm_num) (by norm_num), pointProb_lawful (f := abs) (x0 := 4) (mm := .min) (by norm_num)⟩

/-- the fitness list and the agents of the record differ -/
def misaligned {c : Cfg 1 ℚ} {X Y : Type} : Except Err (St c X Y × FinalHist 1 ℚ X) → Bool
  | .ok (_, h) => decide (h.globalBestFit ≠ h.globalBest.map Agent.fit)
  | .error _ => false

theorem misaligned_spec {c : Cfg 1 ℚ} {X Y : Type} {r : Except Err (St c X Y × FinalHist 1 ℚ X)} (h : misaligned r = true) :
    ∃ s h, r = .ok (s, h) ∧ h.globalBestFit ≠ h.globalBest.map Agent.fit := by
  cases r with
  | ok q => exact ⟨q.1, q.2, rfl, of_decide_eq_true h⟩
  | error e => cases h

/-- C29 fails in its full form for the algorithms that call `update_global_best_agent(save=False)` in `evolve`: in this run of `OriginalAGTO` the
second epoch overwrites the global best recorded for the first, so the recorded fitnesses are not those of the recorded agents. -/
theorem C29_save_false_misaligned : agtoCfg.E.Lawful ∧ agtoCfg.P.Lawful ∧ Accepted agtoCfg 5 ∧
    ∃ s h, solve (OriginalAGTO.algo (c := agtoCfg) ⟨3/100, 8/10, 3⟩) ⟨none, .none, false⟩ ⟨(), (), [], 1⟩ = .ok (s, h) ∧
      h.globalBestFit ≠ h.globalBest.map Agent.fit := by
  refine ⟨agtoCfg_lawful.1, agtoCfg_lawful.2, ⟨by decide, by decide⟩, misaligned_spec ?_⟩
  decide +kernel

end Mealpy
