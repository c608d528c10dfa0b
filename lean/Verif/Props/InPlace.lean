import Verif.Alg.HBO
import Verif.Alg.GA
import Verif.Props.Algorithms

/-! # Optimizers that write into shared arrays

`Agent.copy` does not copy the solution array, so writing into the array of one agent changes every copy of it: the population, `g_best` and
the recorded history. The target is not recomputed. Each theorem gives an accepted configuration and a run in which the returned agent no longer
carries the objective's value at its solution, or no longer lies in the box. -/

namespace Mealpy
open Spec

variable {d : Nat} {K : Type} [Num K] {c : Cfg d K} {X Y : Type}

/-- the run returned an agent whose target is not the objective's value at its solution -/
def lies (r : Except Err (St c X Y × FinalHist d K X)) : Bool :=
  match r with
  | .ok (s, _) => decide (s.gbest.tgt.fitness ≠ (c.P.target s.gbest.sol).fitness)
  | .error _ => false

theorem lies_spec {r : Except Err (St c X Y × FinalHist d K X)} (h : lies r = true) :
    ∃ s f, r = .ok (s, f) ∧ s.gbest.tgt ≠ c.P.target s.gbest.sol := by
  unfold lies at h
  split at h
  · rename_i s f
    exact ⟨s, f, rfl, fun e => of_decide_eq_true h (by rw [e])⟩
  · cases h

/-- the run returned an agent outside the box -/
def strays (r : Except Err (St c X Y × FinalHist d K X)) : Bool :=
  match r with
  | .ok (s, _) => decide (∃ j, s.gbest.sol j < c.P.lb j ∨ c.P.ub j < s.gbest.sol j)
  | .error _ => false

theorem strays_spec {r : Except Err (St c X Y × FinalHist d K X)} (h : strays r = true) :
    ∃ s f, r = .ok (s, f) ∧ ¬ InBox c.P.lb c.P.ub s.gbest.sol := by
  unfold strays at h
  split at h
  · rename_i s f
    obtain ⟨j, hj⟩ := of_decide_eq_true h
    refine ⟨s, f, rfl, fun e => ?_⟩
    rcases hj with hj | hj
    · exact absurd (e j).1 (not_le.2 hj)
    · exact absurd (e j).2 (not_le.2 hj)
  · cases h

/-- one variable in [-5, 5]; ten agents, all starting at 1; the objective is 7 at 0 and 1 elsewhere -/
def gaCfg : Cfg 1 ℚ := ⟨runEnv (1/2) 0, pointProb (fun x => if x = 0 then 7 else 1) 1 .min, .single, 10, 1⟩

theorem gaCfg_lawful : gaCfg.P.Lawful :=
  pointProb_lawful (f := fun x => if x = 0 then 7 else 1) (x0 := 1) (mm := .min) (by norm_num)

/-- `SingleGA(pc=0.25, selection="random", mutation="flip")`: the crossover is skipped and the flip is written into the arrays of the parents.
The returned agent holds the flipped position with the target of the old one. -/
theorem C53_single_ga_lies : gaCfg.E.Lawful ∧ gaCfg.P.Lawful ∧ Accepted gaCfg 5 ∧
    ∃ s h, solve (SingleGA.algo (c := gaCfg) ⟨1/4, 4/5, .frac (1/5), .random, .uniform, .flip, false⟩) ⟨none, .none, false⟩ ⟨(), (), [], 1⟩ =
      .ok (s, h) ∧ s.gbest.tgt ≠ gaCfg.P.target s.gbest.sol := by
  refine ⟨runEnv_lawful (by norm_num) (by norm_num), gaCfg_lawful, ⟨by decide, by decide⟩, ?_⟩
  apply lies_spec
  decide +kernel

/-- so does `BaseGA(mutation_multipoints=False)` -/
theorem C53_base_ga_lies : ∃ s h, solve (BaseGA.algo (c := gaCfg) ⟨1/4, 4/5, .frac (1/5), .random, .uniform, .flip, false⟩)
    ⟨none, .none, false⟩ ⟨(), (), [], 1⟩ = .ok (s, h) ∧ s.gbest.tgt ≠ gaCfg.P.target s.gbest.sol := C53_single_ga_lies.2.2.2

/-- two variables, the first in [0, 1], the second in [10, 11]; all agents start at (0, 10) -/
def twoProb : Prob 2 ℚ where
  S := Unit
  lb := fun j => 10 * (j.val : ℚ)
  ub := fun j => 10 * (j.val : ℚ) + 1
  mm := .min
  target := fun x => ⟨[x 1], x 1⟩
  correct := fun x s => (fun j => clip (x j) (10 * (j.val : ℚ)) (10 * (j.val : ℚ) + 1), s)
  generate := fun s => (fun j => 10 * (j.val : ℚ), s)

theorem twoProb_lawful : twoProb.Lawful where
  correct_in x s j := by
    show (10 * (j.val : ℚ)) ≤ min (max (x j) _) _ ∧ min (max (x j) _) _ ≤ (10 * (j.val : ℚ) + 1)
    exact ⟨le_min (le_max_right _ _) (by linarith), min_le_right _ _⟩
  generate_in s j := by
    show (10 * (j.val : ℚ)) ≤ 10 * (j.val : ℚ) ∧ 10 * (j.val : ℚ) ≤ 10 * (j.val : ℚ) + 1
    constructor <;> linarith

def swapCfg : Cfg 2 ℚ := ⟨runEnv (1/2) 0, twoProb, .single, 10, 1⟩

/-- `SingleGA(pc=0.25, selection="random", mutation="swap")`: swapping two coordinates in place moves the returned agent out of the box,
although every evaluated position lies in it. -/
theorem C53_single_ga_strays : swapCfg.E.Lawful ∧ swapCfg.P.Lawful ∧ Accepted swapCfg 5 ∧
    ∃ s h, solve (SingleGA.algo (c := swapCfg) ⟨1/4, 4/5, .frac (1/5), .random, .uniform, .swap, false⟩) ⟨none, .none, false⟩ ⟨(), (), [], 1⟩ =
      .ok (s, h) ∧ ¬ InBox swapCfg.P.lb swapCfg.P.ub s.gbest.sol := by
  refine ⟨runEnv_lawful (by norm_num) (by norm_num), twoProb_lawful, ⟨by decide, by decide⟩, ?_⟩
  apply strays_spec
  decide +kernel

/-- one variable in [-5, 5]; five agents; the objective is the square; 25 epochs -/
def hboCfg : Cfg 1 ℚ := ⟨runEnv (97/100) 0, pointProb (fun x => x * x) 1 .min, .single, 5, 25⟩

/-- the limits of `OriginalHBO` for `degree = 2` and five agents -/
def hboTable (k : Nat) : Int × Int := if k ≤ 1 then (1, 1) else if k ≤ 3 then (2, 3) else (4, 5)

/-- `OriginalHBO(degree=2)`, stopped after two epochs: the new position is written into the array of the agent it is meant to replace before it
is evaluated, also when it is then rejected. The returned agent holds a rejected position with the target of the position it overwrote. -/
theorem C53_hbo_lies : hboCfg.E.Lawful ∧ hboCfg.P.Lawful ∧ Accepted hboCfg 5 ∧
    ∃ s h, solve (OriginalHBO.algo (c := hboCfg) 2 hboTable) ⟨some ⟨some 2, none, none, none, 0, 0⟩, .rows [[3], [-2], [4], [0], [-1]], false⟩
      ⟨(), (), [], 1⟩ = .ok (s, h) ∧ s.gbest.tgt ≠ hboCfg.P.target s.gbest.sol := by
  refine ⟨runEnv_lawful (by norm_num) (by norm_num),
    pointProb_lawful (f := fun x => x * x) (x0 := 1) (mm := .min) (by norm_num), ⟨by decide, by decide⟩, ?_⟩
  apply lies_spec
  decide +kernel

end Mealpy
