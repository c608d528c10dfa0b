import Verif.Props.Sizes
import Verif.Alg.Raise6
import Verif.Alg.SLOPool

/-! # C57: loops over a population size that the population does not have -/

set_option linter.unusedSectionVars false
set_option linter.unusedVariables false

namespace Mealpy
open Spec

section
variable {d : Nat} {K : Type} [Num K] {c : Cfg d K}

/-- `OriginalLSHADEcnEpSin` accepts a `pop_size` below `pop_size_min` (whose default is 10). Every run of two epochs or more without a termination
condition then raises `IndexError`: after the first epoch it loops over `pop_size_min` agents (`mealpy/sota_based/LSHADEcnEpSin.py:259-263,283`). -/
theorem C57_lshadecn_raises (hE : c.E.Lawful) (hP : c.P.Lawful) (hc : Accepted c 5) (p : OriginalLSHADEcnEpSin.Params K) (hd : 2 ≤ d)
    (hm : 1 ≤ p.memory) (hmin : c.popSize < p.min) (h2 : 2 ≤ c.epoch)
    (o : RunOpts K) (hno : o.term = none) (hst : FeasibleStart c o.starting) (b : Base c) :
    solve (OriginalLSHADEcnEpSin.algo p : Algo c Unit (OriginalLSHADEcnEpSin.Vars d K)) o b = .error .index := by
  obtain ⟨e, rfl, h⟩ := OriginalLSHADEcnEpSin.late (Er := fun x => x = .index) hE hP hc rfl (.inl hd) hm hmin h2 o hno hst b
  exact h

/-- With one variable it is either that or the `ValueError` of `C57_lshadecn_one_dim_may_raise`. -/
theorem C57_lshadecn_one_dim_raises (hE : c.E.Lawful) (hP : c.P.Lawful) (hc : Accepted c 5) (p : OriginalLSHADEcnEpSin.Params K) (hd : d = 1)
    (hm : 1 ≤ p.memory) (hmin : c.popSize < p.min) (h2 : 2 ≤ c.epoch)
    (o : RunOpts K) (hno : o.term = none) (hst : FeasibleStart c o.starting) (b : Base c) :
    solve (OriginalLSHADEcnEpSin.algo p : Algo c Unit (OriginalLSHADEcnEpSin.Vars d K)) o b = .error .index ∨
      solve (OriginalLSHADEcnEpSin.algo p : Algo c Unit (OriginalLSHADEcnEpSin.Vars d K)) o b = .error .value := by
  obtain ⟨e, he, h⟩ := OriginalLSHADEcnEpSin.late (Er := fun x => x = .index ∨ x = .value) hE hP hc (.inl rfl) (.inr ⟨hd, .inr rfl⟩) hm hmin h2 o hno hst b
  rcases he with rfl | rfl
  · exact .inl h
  · exact .inr h

end

/-- five agents in two dimensions, the default parameters, two epochs -/
example : ∃ c : Cfg 2 ℚ, ∃ p : OriginalLSHADEcnEpSin.Params ℚ, c.E.Lawful ∧ c.P.Lawful ∧ Accepted c 5 ∧ 1 ≤ p.memory ∧ c.popSize < p.min ∧ 2 ≤ c.epoch :=
  ⟨⟨detEnv, sphereProb 2 .min, .single, 5, 2⟩, ⟨1/2, 1/2, 1/2, 5, 1/2, 2/5, 10⟩, detEnv_lawful, sphereProb_lawful 2 .min, ⟨by decide, by decide⟩, by decide, by decide, by decide⟩

/-- With one variable and enough agents `OriginalLSHADEcnEpSin` can raise `ValueError` (`mealpy/sota_based/LSHADEcnEpSin.py:208-210`: `np.cov` answers
a scalar). -/
theorem C57_lshadecn_one_dim_may_raise : Accepted (tapeCfg 1 3 1 bowl .min .single 12 1) 5 ∧
    solve (OriginalLSHADEcnEpSin.algo (c := tapeCfg 1 3 1 bowl .min .single 12 1) ⟨1/2, 1/2, 1/2, 5, 1/2, 2/5, 10⟩) ⟨none, .none, false⟩ ⟨(1 : Nat), (17 : Nat), [], 1⟩ = .error .value := by
  refine ⟨⟨by decide, by decide⟩, raises_spec ?_⟩
  decide +kernel

section
variable {d : Nat} {K : Type} [Num K] {c : Cfg d K}

/-- Without starting solutions `ModifiedSLO` never raises in a pool mode, whatever the order and the schedule of the workers. -/
theorem C57_mslo_pool_fresh (hE : c.E.Lawful) (hP : c.P.Lawful) (hc : Accepted c 5) (t : Option (Term K)) (sp : Bool) (b : Base c) (hb : b.log = []) :
    ∃ s h, solve (ModifiedSLOPool.algo : Algo c _ _) ⟨t, .none, sp⟩ b = .ok (s, h) ∧ 1 ≤ h.epoch ∧ h.epoch ≤ c.epoch :=
  solve_unstarted_ok (ModifiedSLOPool.full hE hP hc) hE hc t sp b hb

/-- `ImprovedSLO` likewise -/
theorem C57_islo_pool_fresh (hE : c.E.Lawful) (hP : c.P.Lawful) (hc : Accepted c 5) (p : ImprovedSLO.Params K) (t : Option (Term K)) (sp : Bool) (b : Base c) (hb : b.log = []) :
    ∃ s h, solve (ImprovedSLOPool.algo p : Algo c _ _) ⟨t, .none, sp⟩ b = .ok (s, h) ∧ 1 ≤ h.epoch ∧ h.epoch ≤ c.epoch :=
  solve_unstarted_ok (ImprovedSLOPool.full hE hP hc p) hE hc t sp b hb

end

/-- five agents in a thread pool -/
example (b : Base (tapeCfg 1 3 2 bowl .min .thread 5 2)) (hb : b.log = []) :
    ∃ s h, solve (ModifiedSLOPool.algo : Algo (tapeCfg 1 3 2 bowl .min .thread 5 2) _ _) ⟨none, .none, false⟩ b = .ok (s, h) ∧ 1 ≤ h.epoch ∧ h.epoch ≤ 2 :=
  C57_mslo_pool_fresh tapeEnv_lawful tapeProb_lawful ⟨by decide, by decide, by decide⟩ none false b hb

/-- With starting solutions the first agent that improves raises `AttributeError` (`mealpy/swarm_based/SLO.py:146-151,204`). -/
theorem C57_mslo_pool_started_may_raise : Accepted (tapeCfg 1 3 1 bowl .min .swarm 5 1) 5 ∧
    FeasibleStart (tapeCfg 1 3 1 bowl .min .swarm 5 1) (.rows [[4], [4], [4], [4], [4]]) ∧
    solve (ModifiedSLOPool.algo (c := tapeCfg 1 3 1 bowl .min .swarm 5 1)) ⟨none, .rows [[4], [4], [4], [4], [4]], false⟩ ⟨(1 : Nat), (17 : Nat), [], 1⟩ = .error .attribute := by
  refine ⟨⟨by decide, by decide⟩, ?_, raises_spec ?_⟩
  · refine ⟨rfl, fun r hr => ?_⟩
    have : r = [4] := by simpa using hr
    subst this
    refine ⟨fun _ => 4, ?_, fun j => ?_⟩
    · unfold rowVec
      rw [dif_pos (show ([4] : List ℚ).length = 1 from rfl)]
      exact congrArg some (funext fun j => by
        have hj : j = 0 := Subsingleton.elim _ _
        subst hj; rfl)
    · show (-4 : ℚ) ≤ 4 ∧ (4 : ℚ) ≤ 4
      exact ⟨by decide, by decide⟩
  decide +kernel

end Mealpy
