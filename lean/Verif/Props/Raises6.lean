import Verif.Alg.FLAReal
import Verif.Props.Raises5

/-! # C57: further parameters, bounds and starting solutions the constructors accept and with which a run raises -/

set_option linter.unusedSectionVars false
set_option linter.unusedVariables false

namespace Mealpy
open Spec

section
variable {d : Nat} {c : Cfg d ℝ} (hE : c.E.Lawful) (hP : c.P.Lawful) (hc : Accepted c 5)
include hE hP hc

/-- The constructor of `OriginalFLA` accepts any factors between -100 and 100 (`mealpy/physics_based/FLA.py:86-91`). If it lets twice the first
group cross or more, and `C5` is negative, so that they do cross in the first epoch, every run of two epochs or more raises `IndexError`
(`mealpy/physics_based/FLA.py:123-132`). -/
theorem C57_fla_overfull_raises (hep : 2 ≤ c.epoch) (p : OriginalFLA.Params ℝ) (h1 : 1 ≤ p.c1) (h3 : 2 ≤ p.c3) (h4 : 2 ≤ p.c4) (h5 : p.c5 < 0)
    (o : RunOpts ℝ) (hst : FeasibleStart c o.starting) (b : Base c) (h0 : b.log = []) :
    solve (OriginalFLA.algo p : Algo c _ _) o b = .error .index := by
  rcases C57_raises_only_partial (.inl (.inl (.originalFLA p hc))) hE hP o hst b h0 with ⟨e, he, h⟩ | ⟨s, h, hs, -⟩
  · rw [List.mem_singleton] at he
    rw [h, he]
  · exact absurd hs (solve_not_ok hE (by have := hc.1; omega) (OriginalFLA.never_real hE (by have := hc.2.1; omega) hep p h1 h3 h4 h5) o b s h)

end

/-- two variables, fifty agents -/
example (b : Base (realCfg 50)) (h : b.log = []) :
    solve (OriginalFLA.algo ⟨2, 2, 3, 4, -1, 0.01⟩ : Algo (realCfg 50) _ _) ⟨none, .none, false⟩ b = .error .index := by
  refine C57_fla_overfull_raises realEnv_lawful realProb_lawful (real_accepted (by norm_num) (by norm_num)) (by decide) _ ?_ ?_ ?_ ?_ ⟨none, .none, false⟩ trivial b h
  all_goals norm_num

/-- `OriginalSRSR` when every upper bound is negative: the second epoch may ask for a normal variate of negative scale
(`mealpy/swarm_based/SRSR.py:110-116,137-142`). -/
theorem C57_srsr_negative_may_raise : Accepted (⟨tapeEnv, narrowProb, .single, 5, 2⟩ : Cfg 1 ℚ) 5 ∧
    solve (OriginalSRSR.algo (c := ⟨tapeEnv, narrowProb, .single, 5, 2⟩)) ⟨none, .none, false⟩ ⟨(0 : Nat), (), [], 1⟩ = .error .value := by
  refine ⟨⟨by decide, by decide⟩, raises_spec ?_⟩
  decide +kernel

/-- `ImprovedSLO` in the pool modes, like `ModifiedSLO`: an agent that starts from a given solution has no local best, and the first move
that uses it, or the first improvement, raises `AttributeError` (`mealpy/swarm_based/SLO.py:287,313`). -/
theorem C57_islo_pool_started_may_raise : Accepted (tapeCfg 1 3 1 bowl .min .swarm 5 1) 5 ∧
    FeasibleStart (tapeCfg 1 3 1 bowl .min .swarm 5 1) (.rows [[4], [4], [4], [4], [4]]) ∧
    solve (ImprovedSLOPool.algo (c := tapeCfg 1 3 1 bowl .min .swarm 5 1) ⟨6/5, 6/5⟩) ⟨none, .rows [[4], [4], [4], [4], [4]], false⟩ ⟨(0 : Nat), (17 : Nat), [], 1⟩ =
      .error .attribute := by
  refine ⟨C57_mslo_pool_started_may_raise.1, C57_mslo_pool_started_may_raise.2.1, raises_spec ?_⟩
  decide +kernel

end Mealpy
