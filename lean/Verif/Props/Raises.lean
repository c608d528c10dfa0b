import Verif.Props.Untidy
import Verif.Alg.Raise3

/-! # C57: settings every run of which raises; C52, C53: `FOA` -/

set_option linter.unusedSectionVars false
set_option linter.unusedVariables false

namespace Mealpy
open Spec

section
variable {d : Nat} {K : Type} [Num K] {c : Cfg d K}

/-- `OriginalFOA` uses the upper bounds as standard deviations: if one of them is negative, every run raises `ValueError`. -/
theorem C57_foa_raises (hE : c.E.Lawful) (hP : c.P.Lawful) (hc : Accepted c 5) (hu : ∃ j, c.P.ub j < 0)
    (o : RunOpts K) (hst : FeasibleStart c o.starting) (b : Base c) (hb : b.log = []) :
    solve (OriginalFOA.algo : Algo c Unit Unit) o b = .error .value := OriginalFOA.raises hE hP hc hu o hst b hb

/-- So does every run of `DevFOA`. -/
theorem C57_dev_foa_raises (hE : c.E.Lawful) (hP : c.P.Lawful) (hc : Accepted c 5) (hu : ∃ j, c.P.ub j < 0)
    (o : RunOpts K) (hst : FeasibleStart c o.starting) (b : Base c) (hb : b.log = []) :
    solve (DevFOA.algo : Algo c Unit Unit) o b = .error .value := DevFOA.raises hE hP hc hu o hst b hb

/-- `OriginalBeesA` accepts settings that send no bees to the selected sites (`round(selected_site_bee_ratio * pop_size)` is 0 with five bees and
the default ratio 0.1), and then every run raises `IndexError`. -/
theorem C57_bees_raises (hE : c.E.Lawful) (hP : c.P.Lawful) (hc : Accepted c 5) (p : OriginalBeesA.Params K) (h : 1 ≤ p.selected)
    (h1 : p.selectedLocal = 0) (h2 : p.eliteLocal = 0) (o : RunOpts K) (hst : FeasibleStart c o.starting) (b : Base c) (hb : b.log = []) :
    solve (OriginalBeesA.algo p : Algo c Nat Nat) o b = .error .index := OriginalBeesA.raises hE hP hc p h h1 h2 o hst b hb

/-- `ABFO` accepts `N_adapt = 0`, and then every run raises `ZeroDivisionError`. -/
theorem C57_abfo_raises (hE : c.E.Lawful) (hP : c.P.Lawful) (hc : Accepted c 5) (p : ABFO.Params K) (h : p.adapt = 0)
    (o : RunOpts K) (hst : FeasibleStart c o.starting) (b : Base c) (hb : b.log = []) :
    solve (ABFO.algo p : Algo c (ABFO.Own d K) (Vec d K × Vec d K)) o b = .error .zeroDiv := ABFO.raises hE hP hc p h o hst b hb

/-- `OppoTWO` accepts an odd `pop_size`, and then every run raises `IndexError`. -/
theorem C57_oppo_two_raises (hE : c.E.Lawful) (hP : c.P.Lawful) (hc : Accepted c 5) (h : c.popSize % 2 = 1)
    (o : RunOpts K) (hst : FeasibleStart c o.starting) (b : Base c) (hb : b.log = []) :
    solve (OppoTWO.algo : Algo c K Unit) o b = .error .index := OppoTWO.raises hE hP hc h o hst b hb

/-- `DevHS` uses the upper bounds as standard deviations, like `FOA`. -/
theorem C57_dev_hs_raises (hE : c.E.Lawful) (hP : c.P.Lawful) (hc : Accepted c 5) (p : DevHS.Params K) (hu : ∃ j, c.P.ub j < 0)
    (o : RunOpts K) (hst : FeasibleStart c o.starting) (b : Base c) (hb : b.log = []) :
    solve (DevHS.algo p : Algo c Unit (Vec d K)) o b = .error .value := DevHS.raises hE hP hc p hu o hst b hb

/-- `OriginalAO` accepts `epoch = 1`, and then every run raises `ZeroDivisionError`. -/
theorem C57_ao_raises (hE : c.E.Lawful) (hP : c.P.Lawful) (hc : Accepted c 5) (h : c.epoch = 1)
    (o : RunOpts K) (hst : FeasibleStart c o.starting) (b : Base c) (hb : b.log = []) :
    solve (OriginalAO.algo : Algo c Unit Unit) o b = .error .zeroDiv := OriginalAO.raises hE hP hc h o hst b hb

/-- So does every run of `AAO`. -/
theorem C57_aao_raises (hE : c.E.Lawful) (hP : c.P.Lawful) (hc : Accepted c 5) (p : AAO.Params K) (h : c.epoch = 1)
    (o : RunOpts K) (hst : FeasibleStart c o.starting) (b : Base c) (hb : b.log = []) :
    solve (AAO.algo p : Algo c Unit Unit) o b = .error .zeroDiv := AAO.raises hE hP hc p h o hst b hb

/-- So does every run of `OriginalDandelionO`. -/
theorem C57_dandelion_raises (hE : c.E.Lawful) (hP : c.P.Lawful) (hc : Accepted c 5) (h : c.epoch = 1)
    (o : RunOpts K) (hst : FeasibleStart c o.starting) (b : Base c) (hb : b.log = []) :
    solve (OriginalDandelionO.algo : Algo c Unit Unit) o b = .error .zeroDiv := OriginalDandelionO.raises hE hP hc h o hst b hb

/-- `OriginalCA` accepts settings with which no agent is accepted into the belief space (`int(accepted_rate * pop_size)` is 0 with five or six agents and
the default rate 0.15), and then every run raises `ValueError`. -/
theorem C57_ca_raises (hE : c.E.Lawful) (hP : c.P.Lawful) (hc : Accepted c 5) (p : OriginalCA.Params) (h : p.nAcc = 0)
    (o : RunOpts K) (hst : FeasibleStart c o.starting) (b : Base c) (hb : b.log = []) :
    solve (OriginalCA.algo p : Algo c Unit (Vec d K × Vec d K)) o b = .error .value := OriginalCA.raises hE hP hc p h o hst b hb

/-- `OriginalCOA` accepts packs of two coyotes, and then every run raises `ValueError`. -/
theorem C57_coa_raises (hE : c.E.Lawful) (hP : c.P.Lawful) (hc : Accepted c 5) (p : OriginalCOA.Params K) (h : p.coyotes = 2) (hk : 1 ≤ p.packs)
    (o : RunOpts K) (hst : FeasibleStart c o.starting) (b : Base c) (hb : b.log = []) :
    solve (OriginalCOA.algo p : Algo c Nat Unit) o b = .error .value := OriginalCOA.raises hE hP hc p h hk o hst b hb

end

/-- a problem with a negative upper bound -/
def belowProb : Prob 1 ℚ where
  S := Unit
  lb := fun _ => -5
  ub := fun _ => -1
  mm := .min
  target := fun x => ⟨[x 0], x 0⟩
  correct := fun x s => (fun j => clip (x j) (-5) (-1), s)
  generate := fun s => (fun _ => -2, s)

theorem belowProb_lawful : belowProb.Lawful where
  correct_in x s j := by
    show (-5 : ℚ) ≤ min (max (x j) (-5)) (-1) ∧ min (max (x j) (-5)) (-1) ≤ -1
    exact ⟨le_min (le_max_right _ _) (by norm_num), min_le_right _ _⟩
  generate_in s j := ⟨show (-5 : ℚ) ≤ -2 by norm_num, show (-2 : ℚ) ≤ -1 by norm_num⟩

example : ∃ c : Cfg 1 ℚ, c.E.Lawful ∧ c.P.Lawful ∧ Accepted c 5 ∧ ∃ j, c.P.ub j < 0 :=
  ⟨⟨runEnv 0 0, belowProb, .single, 5, 3⟩, runEnv_lawful (by norm_num) (by norm_num), belowProb_lawful, ⟨by decide, by decide⟩, 0,
    show (-1 : ℚ) < 0 by norm_num⟩
/-- the default ratios with five bees -/
example : ∃ p : OriginalBeesA.Params ℚ, 1 ≤ p.selected ∧ p.selectedLocal = 0 ∧ p.eliteLocal = 0 := ⟨⟨1/10, 1/10, 99/100, 2, 1, 0, 0⟩, by decide, rfl, rfl⟩
example : ∃ p : ABFO.Params ℚ, p.adapt = 0 := ⟨⟨1/10, 1/1000, 1/100, 4, 0, 40⟩, rfl⟩
example : saCfg.popSize % 2 = 1 := by decide
example : ∃ c : Cfg 1 ℚ, c.E.Lawful ∧ c.P.Lawful ∧ Accepted c 5 ∧ c.epoch = 1 :=
  ⟨rowCfg 0 id 1, (rowCfg_lawful (by norm_num) (by norm_num)).1, (rowCfg_lawful (by norm_num) (by norm_num)).2, ⟨by decide, by decide⟩, rfl⟩
example : ∃ p : OriginalCA.Params, p.nAcc = 0 := ⟨⟨0⟩, rfl⟩
example : ∃ p : OriginalCOA.Params ℚ, p.coyotes = 2 ∧ 1 ≤ p.packs := ⟨⟨2, 2, 1/50⟩, rfl, by decide⟩

/-- one variable in [-5, 5], generated solutions are 5, the value is the position -/
def cornerCfg (epoch : Nat) : Cfg 1 ℚ := ⟨runEnv (1/2) 0, pointProb id 5 .min, .single, 5, epoch⟩

theorem cornerCfg_lawful {epoch : Nat} : (cornerCfg epoch).E.Lawful ∧ (cornerCfg epoch).P.Lawful :=
  ⟨runEnv_lawful (by norm_num) (by norm_num), pointProb_lawful (f := id) (x0 := 5) (mm := .min) (by norm_num)⟩

/-- `WhaleFOA` evaluates initial agents at the norms of generated solutions, outside the box (of 5 with itself: √50, which exceeds 5; in this
number system √ is the identity), and returns an agent that stores the norms with the value of the corrected position. -/
theorem C53_whale_foa_lies : (cornerCfg 1).E.Lawful ∧ (cornerCfg 1).P.Lawful ∧ Accepted (cornerCfg 1) 5 ∧
    ∃ s h, solve (WhaleFOA.algo (c := cornerCfg 1)) ⟨none, .none, false⟩ ⟨(), (), [], 1⟩ = .ok (s, h) ∧
      s.gbest.tgt ≠ (cornerCfg 1).P.target s.gbest.sol ∧ ¬ InBox (cornerCfg 1).P.lb (cornerCfg 1).P.ub s.gbest.sol := by
  refine ⟨cornerCfg_lawful.1, cornerCfg_lawful.2, ⟨by decide, by decide⟩, liesOut_spec ?_⟩
  decide +kernel

theorem C53_foa_lies : (cornerCfg 1).E.Lawful ∧ (cornerCfg 1).P.Lawful ∧ Accepted (cornerCfg 1) 5 ∧
    ∃ s h, solve (OriginalFOA.algo (c := cornerCfg 1)) ⟨none, .none, false⟩ ⟨(), (), [], 1⟩ = .ok (s, h) ∧
      s.gbest.tgt ≠ (cornerCfg 1).P.target s.gbest.sol ∧ ¬ InBox (cornerCfg 1).P.lb (cornerCfg 1).P.ub s.gbest.sol := by
  refine ⟨cornerCfg_lawful.1, cornerCfg_lawful.2, ⟨by decide, by decide⟩, liesOut_spec ?_⟩
  decide +kernel

theorem C52_dev_foa_leaves_box : (cornerCfg 1).E.Lawful ∧ (cornerCfg 1).P.Lawful ∧ Accepted (cornerCfg 1) 5 ∧
    ∃ s h, solve (DevFOA.algo (c := cornerCfg 1)) ⟨none, .none, false⟩ ⟨(), (), [], 1⟩ = .ok (s, h) ∧
      ∃ x ∈ s.base.log, ¬ InBox (cornerCfg 1).P.lb (cornerCfg 1).P.ub x := by
  refine ⟨cornerCfg_lawful.1, cornerCfg_lawful.2, ⟨by decide, by decide⟩, ?_⟩
  apply escapes_spec
  decide +kernel

end Mealpy
