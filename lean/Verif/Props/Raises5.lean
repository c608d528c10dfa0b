import Verif.StartRaise
import Verif.Props.Exact
import Verif.Props.Raises4

/-! # C57: exceptions that depend on the number of variables, the bounds or the starting solutions -/

set_option linter.unusedSectionVars false
set_option linter.unusedVariables false

namespace Mealpy
open Spec

section
variable {d : Nat} {c : Cfg d ℝ} (hE : c.E.Lawful) (hP : c.P.Lawful) (hc : Accepted c 5)
include hE hP hc

/-- `OriginalESO` with 16 variables at most, in exact arithmetic: the percentile it computes from the spread of the population is one. -/
theorem C57_eso_real (hd : d ≤ 16) : NeverRaises (OriginalESO.algo : Algo c _ _) :=
  fun o hst b hb => C57_never_raises_partial (.inl (.inl (.inr (.originalESO hc (OriginalESO.calm_real hd (by have := hc.2.1; omega)))))) hE hP o hst b hb

/-- With 17 variables or more it raises `ValueError` when it starts from two opposite corners of a cube, half of the agents in each: there the
percentile is above 100 (`mealpy/physics_based/ESO.py:79-82`). -/
theorem C57_eso_corners_raise (hd : 17 ≤ d) {m : Nat} (hpop : c.popSize = 2 * m) {lo up : ℝ} (hlt : lo < up) (t : Option (Term ℝ)) (save : Bool) (b : Base c) :
    solve (OriginalESO.algo : Algo c _ _) ⟨t, .rows (List.replicate m (List.replicate d lo) ++ List.replicate m (List.replicate d up)), save⟩ b =
      .error .value :=
  OriginalESO.corners_raise hE hd (by have := hc.2.1; omega) hpop (by have := hc.1; omega) hlt t save b

/-- `QleSCA` raises `StopIteration` when all agents start at one point: its density is not a number, so no state of the table fits
(`mealpy/math_based/SCA.py:200-202,286-290`). -/
theorem C57_qlesca_collapsed_raises (p : QleSCA.Params ℝ) {row : List ℝ} (hr : row.length = d) (t : Option (Term ℝ)) (save : Bool) (b : Base c) :
    solve (QleSCA.algo p : Algo c _ _) ⟨t, .rows (List.replicate c.popSize row), save⟩ b = .error .stopIteration :=
  QleSCA.collapsed_raises hE p (by have := hc.2.1; omega) (by have := hc.1; omega) hr t save b

end

section
variable {d : Nat} {K : Type} [Num K] {c : Cfg d K} (hE : c.E.Lawful) (hP : c.P.Lawful) (hc : Accepted c 5)
include hE hP hc

/-- `OriginalCDDO` draws an integer between the bounds of the first variable (`mealpy/human_based/CDDO.py:112`). If they leave none, as with
`[-0.5, -0.2]`, every run raises `ValueError`. -/
theorem C57_cddo_narrow_raises (hd : 0 < d) (p : OriginalCDDO.Params K) (hp : 1 ≤ p.pattern ∧ p.pattern ≤ c.popSize)
    (hb : Num.trunc (Vec.at c.P.ub 0 + 1) ≤ Num.trunc (Vec.at c.P.lb 0)) (o : RunOpts K) (hst : FeasibleStart c o.starting) (b : Base c) (h0 : b.log = []) :
    solve (OriginalCDDO.algo p : Algo c _ _) o b = .error .value := by
  rcases C57_raises_only_partial (.inl (.inl (.originalCDDO p hc hd hp))) hE hP o hst b h0 with ⟨e, he, h⟩ | ⟨s, h, hs, -⟩
  · rw [List.mem_singleton] at he
    rw [h, he]
  · exact absurd hs (solve_not_ok hE (by have := hc.1; omega) (OriginalCDDO.never (by have := hc.2.1; omega) p hb 1) o b s h)

end

/-- `OriginalSFO` with parameters its constructor accepts (`mealpy/swarm_based/SFO.py:69-71`): in the sixth epoch the attack power is below -1
and more dimensions than there are shall be drawn without repetition (`mealpy/swarm_based/SFO.py:107-116`). -/
theorem C57_sfo_may_raise : Accepted (tapeCfg 1 3 1 (fun x => x 0) .min .single 5 6) 5 ∧
    solve (OriginalSFO.algo (c := tapeCfg 1 3 1 (fun x => x 0) .min .single 5 6) ⟨99/100, 99, 99/1000⟩) ⟨none, .none, false⟩ ⟨(0 : Nat), (0 : Nat), [], 1⟩ =
      .error .value := by
  refine ⟨⟨by decide, by decide⟩, raises_spec ?_⟩
  decide +kernel

/-- sixteen variables, then seventeen -/
example : NeverRaises (OriginalESO.algo : Algo (⟨realEnv, realProb 16 (fun x => x 0), .single, 50, 3⟩ : Cfg 16 ℝ) _ _) :=
  C57_eso_real realEnv_lawful realProb_lawful ⟨by decide, by decide, by decide⟩ (by decide)

example (b : Base (⟨realEnv, realProb 17 (fun x => x 0), .single, 50, 3⟩ : Cfg 17 ℝ)) :
    FeasibleStart (⟨realEnv, realProb 17 (fun x => x 0), .single, 50, 3⟩ : Cfg 17 ℝ)
      (.rows (List.replicate 25 (List.replicate 17 ((-4 : Int) : ℝ)) ++ List.replicate 25 (List.replicate 17 ((4 : Int) : ℝ)))) ∧
    solve (OriginalESO.algo : Algo (⟨realEnv, realProb 17 (fun x => x 0), .single, 50, 3⟩ : Cfg 17 ℝ) _ _)
      ⟨none, .rows (List.replicate 25 (List.replicate 17 ((-4 : Int) : ℝ)) ++ List.replicate 25 (List.replicate 17 ((4 : Int) : ℝ))), false⟩ b = .error .value := by
  refine ⟨⟨by simp, fun r hr => ?_⟩, C57_eso_corners_raise realEnv_lawful realProb_lawful ⟨by decide, by decide, by decide⟩ (by decide) rfl (by norm_num) _ _ _⟩
  simp only [List.mem_append, List.mem_replicate] at hr
  rcases hr with ⟨-, rfl⟩ | ⟨-, rfl⟩
  · refine ⟨fun _ => ((-4 : Int) : ℝ), ?_, fun j => ⟨le_rfl, by show ((-4 : Int) : ℝ) ≤ ((4 : Int) : ℝ); norm_num⟩⟩
    unfold rowVec; rw [dif_pos (List.length_replicate ..)]; exact congrArg some (funext fun j => List.getElem_replicate ..)
  · refine ⟨fun _ => ((4 : Int) : ℝ), ?_, fun j => ⟨by show ((-4 : Int) : ℝ) ≤ ((4 : Int) : ℝ); norm_num, le_rfl⟩⟩
    unfold rowVec; rw [dif_pos (List.length_replicate ..)]; exact congrArg some (funext fun j => List.getElem_replicate ..)

/-- fifty agents at one point -/
example (b : Base (realCfg 50)) (row : List ℝ) (hr : row.length = 2) :
    solve (QleSCA.algo ⟨0.1, 0.9⟩ : Algo (realCfg 50) _ _) ⟨none, .rows (List.replicate (realCfg 50).popSize row), false⟩ b = .error .stopIteration :=
  C57_qlesca_collapsed_raises realEnv_lawful realProb_lawful (real_accepted (by omega) (by omega)) _ hr _ _ _

/-- one variable with the bounds `[-0.5, -0.2]` -/
def narrowProb : Prob 1 ℚ where
  S := Unit
  lb := fun _ => -1/2
  ub := fun _ => -1/5
  mm := .min
  target := fun x => ⟨[x 0], x 0⟩
  correct := fun x s => (fun j => min (max (x j) (-1/2)) (-1/5), s)
  generate := fun s => (fun _ => -3/10, s)

theorem narrowProb_lawful : narrowProb.Lawful where
  correct_in x s j := ⟨le_min (le_max_right _ _) (by show (-1/2 : ℚ) ≤ -1/5; norm_num), min_le_right _ _⟩
  generate_in s j := ⟨by show (-1/2 : ℚ) ≤ -3/10; norm_num, by show (-3/10 : ℚ) ≤ -1/5; norm_num⟩

example (b : Base (⟨tapeEnv, narrowProb, .single, 50, 3⟩ : Cfg 1 ℚ)) (h : b.log = []) :
    solve (OriginalCDDO.algo ⟨10, 1/10⟩ : Algo (⟨tapeEnv, narrowProb, .single, 50, 3⟩ : Cfg 1 ℚ) _ _) ⟨none, .none, false⟩ b = .error .value :=
  C57_cddo_narrow_raises tapeEnv_lawful narrowProb_lawful ⟨by decide, by decide, by decide⟩ (by decide) _ ⟨by decide, by decide⟩ (by decide +kernel)
    ⟨none, .none, false⟩ trivial _ h

end Mealpy
