import Verif.Props.InPlace
import Verif.Props.Algorithms2

/-!
# C52, C53: the untidy algorithms

For each algorithm of `Untidy` a concrete run that breaks the claim it is not listed for: the returned agent does not carry the objective's
value at its solution, or lies outside the box, or a point outside the box was evaluated.
-/

set_option linter.unusedSectionVars false

namespace Mealpy
open Spec

/-- one variable in [-5, 5], five agents -/
def rowCfg (r : ℚ) (f : ℚ → ℚ) (epoch : Nat) : Cfg 1 ℚ := ⟨runEnv r 0, pointProb f 1 .min, .single, 5, epoch⟩

theorem rowCfg_lawful {r : ℚ} {f : ℚ → ℚ} {epoch : Nat} (h0 : 0 ≤ r) (h1 : r < 1) : (rowCfg r f epoch).E.Lawful ∧ (rowCfg r f epoch).P.Lawful :=
  ⟨runEnv_lawful h0 h1, pointProb_lawful (f := f) (x0 := 1) (mm := .min) (by norm_num)⟩

/-- two epochs from the given positions -/
def rowOpts (l : List (List ℚ)) : RunOpts ℚ := ⟨some ⟨some 2, none, none, none, 0, 0⟩, .rows l, false⟩

/-- a run returned an agent that both lies outside the box and carries the value of another position -/
def liesOut {d : Nat} {c : Cfg d ℚ} {X Y : Type} (r : Except Err (St c X Y × FinalHist d ℚ X)) : Bool := lies r && strays r

theorem liesOut_spec {d : Nat} {c : Cfg d ℚ} {X Y : Type} {r : Except Err (St c X Y × FinalHist d ℚ X)} (h : liesOut r = true) :
    ∃ s f, r = .ok (s, f) ∧ s.gbest.tgt ≠ c.P.target s.gbest.sol ∧ ¬ InBox c.P.lb c.P.ub s.gbest.sol := by
  unfold liesOut at h
  obtain ⟨h1, h2⟩ := Bool.and_eq_true_iff.1 h
  obtain ⟨s, f, e1, k1⟩ := lies_spec h1
  obtain ⟨s', f', e2, k2⟩ := strays_spec h2
  rw [e1] at e2
  obtain ⟨rfl, rfl⟩ := Prod.mk.inj (Except.ok.inj e2)
  exact ⟨s, f, e1, k1, k2⟩

/-- `OriginalWHO` in mode `single`: the last loop stores the position before correction with the target of the corrected one
(`mealpy/bio_based/WHO.py:172-176`).  The returned agent lies outside the box. -/
theorem C53_who_lies : (rowCfg 0 id 2).E.Lawful ∧ (rowCfg 0 id 2).P.Lawful ∧ Accepted (rowCfg 0 id 2) 5 ∧
    ∃ s h, solve (OriginalWHO.algo (c := rowCfg 0 id 2) ⟨3, 3, 3/20, 9/10, 9/10, 3/10, 1/5, 4/5, 2, 2⟩)
      (rowOpts [[3], [-24/5], [2], [1], [0]]) ⟨(), (), [], 1⟩ = .ok (s, h) ∧ s.gbest.tgt ≠ (rowCfg 0 id 2).P.target s.gbest.sol ∧
        ¬ InBox (rowCfg 0 id 2).P.lb (rowCfg 0 id 2).P.ub s.gbest.sol := by
  refine ⟨(rowCfg_lawful (by norm_num) (by norm_num)).1, (rowCfg_lawful (by norm_num) (by norm_num)).2, ⟨by decide, by decide⟩, liesOut_spec ?_⟩
  decide +kernel

/-- `OriginalSBO` in mode `single`: only the target is replaced, the new position is thrown away (`mealpy/bio_based/SBO.py:228`). -/
theorem C53_sbo_lies : (rowCfg (1/2) (fun x => (x - 2) * (x - 2)) 2).E.Lawful ∧ (rowCfg (1/2) (fun x => (x - 2) * (x - 2)) 2).P.Lawful ∧
    Accepted (rowCfg (1/2) (fun x => (x - 2) * (x - 2)) 2) 5 ∧
    ∃ s h, solve (OriginalSBO.algo (c := rowCfg (1/2) (fun x => (x - 2) * (x - 2)) 2) ⟨9/10, 1/20, 1/50⟩)
      (rowOpts [[3], [-2], [4], [0], [-1]]) ⟨(), (), [], 1⟩ = .ok (s, h) ∧
        s.gbest.tgt ≠ (rowCfg (1/2) (fun x => (x - 2) * (x - 2)) 2).P.target s.gbest.sol := by
  refine ⟨(rowCfg_lawful (by norm_num) (by norm_num)).1, (rowCfg_lawful (by norm_num) (by norm_num)).2, ⟨by decide, by decide⟩, lies_spec ?_⟩
  decide +kernel

/-- an objective with a trap at 3 -/
def trap (x : ℚ) : ℚ := if x = 3 then 10 else -x

/-- `OriginalBCO`: while swimming, the uncorrected position is evaluated and the corrected one stored (`mealpy/bio_based/BCO.py:115-120`). -/
theorem C53_bco_lies : (rowCfg (1/2) trap 4).E.Lawful ∧ (rowCfg (1/2) trap 4).P.Lawful ∧ Accepted (rowCfg (1/2) trap 4) 5 ∧
    ∃ s h, solve (OriginalBCO.algo (c := rowCfg (1/2) trap 4) ⟨1/2, 2, 2, 4, 3/5⟩)
      (rowOpts [[3], [0], [-1], [-1], [-1]]) ⟨(), (), [], 1⟩ = .ok (s, h) ∧ s.gbest.tgt ≠ (rowCfg (1/2) trap 4).P.target s.gbest.sol := by
  refine ⟨(rowCfg_lawful (by norm_num) (by norm_num)).1, (rowCfg_lawful (by norm_num) (by norm_num)).2, ⟨by decide, by decide⟩, lies_spec ?_⟩
  decide +kernel

/-- Such a position may lie outside the box. -/
theorem C52_bco_leaves_box : (rowCfg (1/2) trap 4).E.Lawful ∧ (rowCfg (1/2) trap 4).P.Lawful ∧ Accepted (rowCfg (1/2) trap 4) 5 ∧
    ∃ s h, solve (OriginalBCO.algo (c := rowCfg (1/2) trap 4) ⟨1/2, 2, 2, 4, 3/5⟩)
      (rowOpts [[3], [0], [-1], [-1], [-1]]) ⟨(), (), [], 1⟩ = .ok (s, h) ∧
        ∃ x ∈ s.base.log, ¬ InBox (rowCfg (1/2) trap 4).P.lb (rowCfg (1/2) trap 4).P.ub x := by
  refine ⟨(rowCfg_lawful (by norm_num) (by norm_num)).1, (rowCfg_lawful (by norm_num) (by norm_num)).2, ⟨by decide, by decide⟩, escapes_spec ?_⟩
  decide +kernel

/-- `OriginalBeesA`: every dance is written into the array of the site itself, whether or not it is an improvement
(`mealpy/swarm_based/BeesA.py:216-219`). -/
theorem C53_bees_lies : (rowCfg (9/10) id 2).E.Lawful ∧ (rowCfg (9/10) id 2).P.Lawful ∧ Accepted (rowCfg (9/10) id 2) 5 ∧
    ∃ s h, solve (OriginalBeesA.algo (c := rowCfg (9/10) id 2) ⟨1/10, 1/10, 99/100, 3, 2, 2, 2⟩)
      (rowOpts [[3], [-2], [4], [0], [-1]]) ⟨(), (), [], 1⟩ = .ok (s, h) ∧ s.gbest.tgt ≠ (rowCfg (9/10) id 2).P.target s.gbest.sol := by
  refine ⟨(rowCfg_lawful (by norm_num) (by norm_num)).1, (rowCfg_lawful (by norm_num) (by norm_num)).2, ⟨by decide, by decide⟩, lies_spec ?_⟩
  decide +kernel

/-- So it does in `ProbBeesA` (`mealpy/swarm_based/BeesA.py:330-333`). -/
theorem C53_prob_bees_lies : (rowCfg (9/10) id 2).E.Lawful ∧ (rowCfg (9/10) id 2).P.Lawful ∧ Accepted (rowCfg (9/10) id 2) 5 ∧
    ∃ s h, solve (ProbBeesA.algo (c := rowCfg (9/10) id 2) ⟨1/10, 1/10, 99/100, 3⟩)
      (rowOpts [[3], [-2], [4], [0], [-1]]) ⟨(), (), [], 1⟩ = .ok (s, h) ∧ s.gbest.tgt ≠ (rowCfg (9/10) id 2).P.target s.gbest.sol := by
  refine ⟨(rowCfg_lawful (by norm_num) (by norm_num)).1, (rowCfg_lawful (by norm_num) (by norm_num)).2, ⟨by decide, by decide⟩, lies_spec ?_⟩
  decide +kernel

/-- one variable in [-5, 5], five agents, one epoch, standard normal deviates of 1 -/
def twoCfg : Cfg 1 ℚ := ⟨runEnv 0 1, pointProb id 1 .min, .single, 5, 1⟩

/-- one epoch from the given positions -/
def twoOpts : RunOpts ℚ := ⟨none, .rows [[-5], [-5], [-5], [-5], [0]], false⟩

/-- `EnhancedTWO` in mode `single`: the target is computed before the position is corrected (`mealpy/physics_based/TWO.py:420-424`). -/
theorem C53_enhanced_two_lies : twoCfg.E.Lawful ∧ twoCfg.P.Lawful ∧ Accepted twoCfg 5 ∧
    ∃ s h, solve (EnhancedTWO.algo (c := twoCfg)) twoOpts ⟨(), (), [], 1⟩ = .ok (s, h) ∧ s.gbest.tgt ≠ twoCfg.P.target s.gbest.sol := by
  refine ⟨runEnv_lawful (by norm_num) (by norm_num), pointProb_lawful (f := id) (x0 := 1) (mm := .min) (by norm_num), ⟨by decide, by decide⟩,
    lies_spec ?_⟩
  decide +kernel

/-- That position may lie outside the box. -/
theorem C52_enhanced_two_leaves_box : twoCfg.E.Lawful ∧ twoCfg.P.Lawful ∧ Accepted twoCfg 5 ∧
    ∃ s h, solve (EnhancedTWO.algo (c := twoCfg)) twoOpts ⟨(), (), [], 1⟩ = .ok (s, h) ∧
      ∃ x ∈ s.base.log, ¬ InBox twoCfg.P.lb twoCfg.P.ub x := by
  refine ⟨runEnv_lawful (by norm_num) (by norm_num), pointProb_lawful (f := id) (x0 := 1) (mm := .min) (by norm_num), ⟨by decide, by decide⟩,
    escapes_spec ?_⟩
  decide +kernel

/-- one variable in [-5, 5], ten agents -/
def thoCfg : Cfg 1 ℚ := ⟨runEnv 0 0, pointProb id 1 .min, .single, 10, 2⟩

/-- `OriginalTHRO`: the king's horses are trained on the arrays of Tianji's horses (`mealpy/game_based/THRO.py:310`), whose targets are not
recomputed.  The returned agent lies outside the box. -/
theorem C53_thro_lies : thoCfg.E.Lawful ∧ thoCfg.P.Lawful ∧ Accepted thoCfg 10 ∧
    ∃ s h, solve (OriginalTHRO.algo (c := thoCfg)) (rowOpts [[3], [-2], [4], [0], [-1], [2], [5], [-4], [1], [-3]]) ⟨(), (), [], 1⟩ =
      .ok (s, h) ∧ s.gbest.tgt ≠ thoCfg.P.target s.gbest.sol ∧ ¬ InBox thoCfg.P.lb thoCfg.P.ub s.gbest.sol := by
  refine ⟨runEnv_lawful (by norm_num) (by norm_num), pointProb_lawful (f := id) (x0 := 1) (mm := .min) (by norm_num), ⟨by decide, by decide⟩,
    liesOut_spec ?_⟩
  decide +kernel

/-- the sum of three variables in [-5, 5] -/
def linProb : Prob 3 ℚ where
  S := Unit
  lb := fun _ => -5
  ub := fun _ => 5
  mm := .min
  target := fun x => ⟨[x 0 + x 1 + x 2], x 0 + x 1 + x 2⟩
  correct := fun x s => (fun j => clip (x j) (-5) 5, s)
  generate := fun s => (fun _ => 1, s)

theorem linProb_lawful : linProb.Lawful where
  correct_in x s j := by
    show (-5 : ℚ) ≤ min (max (x j) (-5)) 5 ∧ min (max (x j) (-5)) 5 ≤ 5
    exact ⟨le_min (le_max_right _ _) (by norm_num), min_le_right _ _⟩
  generate_in s j := by
    show (-5 : ℚ) ≤ 1 ∧ (1 : ℚ) ≤ 5
    norm_num

def aaaCfg : Cfg 3 ℚ := ⟨runEnv 0 0, linProb, .single, 5, 2⟩

/-- `OriginalAAA`: once a move has been accepted, the next move of the colony is written into the accepted agent's array before it is corrected
(`mealpy/bio_based/AAA.py:157-168`).  The returned agent lies outside the box. -/
theorem C53_aaa_lies : aaaCfg.E.Lawful ∧ aaaCfg.P.Lawful ∧ Accepted aaaCfg 5 ∧
    ∃ s h, solve (OriginalAAA.algo (c := aaaCfg) ⟨2, 3/10, 1/2, 20⟩)
      (rowOpts [[3, 1, 2], [0, 0, 1], [-1, 1, 2], [-1, 2, 2], [4, 3, -1]]) ⟨(), (), [], 1⟩ =
      .ok (s, h) ∧ s.gbest.tgt ≠ aaaCfg.P.target s.gbest.sol ∧ ¬ InBox aaaCfg.P.lb aaaCfg.P.ub s.gbest.sol := by
  refine ⟨runEnv_lawful (by norm_num) (by norm_num), linProb_lawful, ⟨by decide, by decide⟩, liesOut_spec ?_⟩
  decide +kernel

/-- With fewer than three variables it raises ValueError. -/
theorem C57_aaa_raises : (rowCfg 0 id 2).E.Lawful ∧ (rowCfg 0 id 2).P.Lawful ∧ Accepted (rowCfg 0 id 2) 5 ∧
    solve (OriginalAAA.algo (c := rowCfg 0 id 2) ⟨2, 3/10, 1/2, 20⟩) (rowOpts [[3], [-2], [4], [0], [-1]]) ⟨(), (), [], 1⟩ = .error .value := by
  refine ⟨(rowCfg_lawful (by norm_num) (by norm_num)).1, (rowCfg_lawful (by norm_num) (by norm_num)).2, ⟨by decide, by decide⟩, raises_spec ?_⟩
  decide +kernel

end Mealpy
