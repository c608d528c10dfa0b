import Verif.Props.Raises
import Verif.Alg.Raise4
import Verif.Alg.Raise5

/-! # C57: more settings every run of which raises -/

set_option linter.unusedSectionVars false
set_option linter.unusedVariables false

namespace Mealpy
open Spec

section
variable {d : Nat} {K : Type} [Num K] {c : Cfg d K}

/-- `OriginalDOA` indexes the coordinates of a solution with the number of the agent, but only in the last tenth of the epochs: with more agents
than variables, every run without a termination condition raises `IndexError`, and all the work done until then is lost. -/
theorem C57_doa_raises (hE : c.E.Lawful) (hP : c.P.Lawful) (hc : Accepted c 5) (h2 : 2 ≤ d) (hd : d < c.popSize)
    (o : RunOpts K) (hno : o.term = none) (hst : FeasibleStart c o.starting) (b : Base c) :
    solve (OriginalDOA.algo : Algo c Unit Unit) o b = .error .index := OriginalDOA.raises hE hP hc h2 hd o hno hst b

/-- With one variable it is a `ValueError`. -/
theorem C57_doa_one_dim_raises (hE : c.E.Lawful) (hP : c.P.Lawful) (hc : Accepted c 5) (hd : d = 1)
    (o : RunOpts K) (hno : o.term = none) (hst : FeasibleStart c o.starting) (b : Base c) :
    solve (OriginalDOA.algo : Algo c Unit Unit) o b = .error .value := OriginalDOA.raises1 hE hP hc hd o hno hst b

/-- `BaseGA` accepts `pop_size` from 5, but with fewer than ten agents (the tournament of a tenth of the population is empty), or an odd number
(one child is missing), no run ends normally: it raises `ValueError` or `IndexError`. -/
theorem C57_base_ga_raises (hE : c.E.Lawful) (hP : c.P.Lawful) (hc : Accepted c 5) (p : GA.Params K) (h : c.popSize < 10 ∨ c.popSize % 2 = 1)
    (o : RunOpts K) (hst : FeasibleStart c o.starting) (b : Base c) (hb : b.log = []) :
    ∃ e ∈ [Err.value, Err.index], solve (BaseGA.algo p : Algo c Nat Nat) o b = .error e := by
  have hpop := hc.pop
  exact (Algo.tagged_lok hE hP (by omega) (fun x h => h) fun _ _ _ => GA.evolve_never hE hP (by omega) h).raisesOne hE (by omega)
    hc.epoch.1 o hst b hb

/-- The same for `MultiGA`. -/
theorem C57_multi_ga_raises (hE : c.E.Lawful) (hP : c.P.Lawful) (hc : Accepted c 5) (p : GA.Params K) (h : c.popSize < 10 ∨ c.popSize % 2 = 1)
    (o : RunOpts K) (hst : FeasibleStart c o.starting) (b : Base c) (hb : b.log = []) :
    ∃ e ∈ [Err.value, Err.index], solve (MultiGA.algo p : Algo c Nat Nat) o b = .error e := by
  have hpop := hc.pop
  exact (Algo.tagged_lok hE hP (by omega) (fun x h => h) fun _ _ _ => GA.evolve_never hE hP (by omega) h).raisesOne hE (by omega)
    hc.epoch.1 o hst b hb

/-- The same for `SingleGA`. -/
theorem C57_single_ga_raises (hE : c.E.Lawful) (hP : c.P.Lawful) (hc : Accepted c 5) (p : GA.Params K) (h : c.popSize < 10 ∨ c.popSize % 2 = 1)
    (o : RunOpts K) (hst : FeasibleStart c o.starting) (b : Base c) (hb : b.log = []) :
    ∃ e ∈ [Err.value, Err.index], solve (SingleGA.algo p : Algo c Nat Nat) o b = .error e := by
  have hpop := hc.pop
  exact (Algo.tagged_lok hE hP (by omega) (fun x h => h) fun _ _ _ => GA.evolve_never hE hP (by omega) h).raisesOne hE (by omega)
    hc.epoch.1 o hst b hb

/-- `OriginalMA` makes the children in pairs: with an odd `pop_size` every run raises `IndexError`. -/
theorem C57_ma_raises (hE : c.E.Lawful) (hP : c.P.Lawful) (hc : Accepted c 5) (p : OriginalMA.Params K) (h : c.popSize % 2 = 1)
    (o : RunOpts K) (hst : FeasibleStart c o.starting) (b : Base c) (hb : b.log = []) :
    solve (OriginalMA.algo p : Algo c (List Bool) Unit) o b = .error .index := OriginalMA.raises hE hP hc p h o hst b hb

/-- `DevEFO`: if `int(pop_size * p_field)` is 0 (the default 0.1 and fewer than ten agents), every run raises `ValueError`. -/
theorem C57_dev_efo_raises (hE : c.E.Lawful) (hP : c.P.Lawful) (hc : Accepted c 5) (p : DevEFO.Params K)
    (h : Num.trunc (Num.ofNat c.popSize * p.pField) ≤ 0)
    (o : RunOpts K) (hst : FeasibleStart c o.starting) (b : Base c) (hb : b.log = []) :
    solve (DevEFO.algo p : Algo c Unit Unit) o b = .error .value := DevEFO.raises hE hP hc p h o hst b hb

/-- The same for `OriginalEFO`. -/
theorem C57_efo_raises (hE : c.E.Lawful) (hP : c.P.Lawful) (hc : Accepted c 5) (p : DevEFO.Params K) (hd : 0 < d)
    (h : Num.trunc (Num.ofNat c.popSize * p.pField) ≤ 0)
    (o : RunOpts K) (hst : FeasibleStart c o.starting) (b : Base c) (hb : b.log = []) :
    solve (OriginalEFO.algo p : Algo c Unit (OriginalEFO.Vars d K)) o b = .error .value := OriginalEFO.raises hE hP hc p hd h o hst b hb

/-- `ImprovedBSO` accepts every `m_clusters` up to a fifth of `pop_size`, but if it does not divide `pop_size` every run raises `IndexError`. -/
theorem C57_improved_bso_raises (hE : c.E.Lawful) (hP : c.P.Lawful) (hc : Accepted c 5) (p : ImprovedBSO.Params K) (h2 : 2 ≤ p.m)
    (h5 : p.m ≤ c.popSize / 5) (h : c.popSize % p.m ≠ 0)
    (o : RunOpts K) (hst : FeasibleStart c o.starting) (b : Base c) (hb : b.log = []) :
    solve (ImprovedBSO.algo p : Algo c Unit (ImprovedBSO.Centers d K)) o b = .error .index := ImprovedBSO.raises hE hP hc p h2 h5 h o hst b hb

/-- `OriginalBFO` accepts every `pop_size` from 5 and every `Nc` from 2, but if `pop_size` is odd every run raises `IndexError`: after the first
chemotactic step the better half of the cells is held twice, and one cell is missing. -/
theorem C57_bfo_raises (hE : c.E.Lawful) (hP : c.P.Lawful) (hc : Accepted c 5) (p : OriginalBFO.Params K) (h : c.popSize % 2 = 1) (hn : 2 ≤ p.nc)
    (o : RunOpts K) (hst : FeasibleStart c o.starting) (b : Base c) (hb : b.log = []) :
    solve (OriginalBFO.algo p : Algo c Unit (OriginalBFO.Cells K)) o b = .error .index := OriginalBFO.raises hE hP hc p h hn o hst b hb

/-- With one decision variable, every run of `CleverBookBeesA` raises `ValueError`. -/
theorem C57_clever_book_bees_raises (hE : c.E.Lawful) (hP : c.P.Lawful) (hc : Accepted c 5) (p : CleverBookBeesA.Params K) (hd : d = 1)
    (h1 : 1 ≤ p.sites) (h2 : 1 ≤ p.elites) (h3 : 1 ≤ p.others)
    (o : RunOpts K) (hst : FeasibleStart c o.starting) (b : Base c) (hb : b.log = []) :
    solve (CleverBookBeesA.algo p : Algo c Unit Unit) o b = .error .value := CleverBookBeesA.raises hE hP hc p hd h1 h2 h3 o hst b hb

end

/-- five agents; the chemotactic steps and the numbers of bees as the constructors have them by default -/
example : (∃ p : OriginalBFO.Params ℚ, 2 ≤ p.nc) ∧ ∃ p : CleverBookBeesA.Params ℚ, 1 ≤ p.sites ∧ 1 ≤ p.elites ∧ 1 ≤ p.others :=
  ⟨⟨⟨0, 1/4, 5, 4, 1/10, 1/5, 1/10, 10⟩, by decide⟩, ⟨⟨16, 4, 5, 3, 1⟩, by decide, by decide, by decide⟩⟩
/-- two variables, five agents -/
example : (exCfg .single).E.Lawful ∧ (exCfg .single).P.Lawful ∧ Accepted (exCfg .single) 5 ∧ 2 < (exCfg .single).popSize ∧
    FeasibleStart (exCfg .single) .none ∧ ((exCfg .single).popSize < 10 ∨ (exCfg .single).popSize % 2 = 1) ∧ (exCfg .single).popSize % 2 = 1 :=
  ⟨detEnv_lawful, sphereProb_lawful 2 .min, ⟨by decide, by decide⟩, by decide, trivial, by decide, by decide⟩
/-- one variable -/
example : saCfg.E.Lawful ∧ saCfg.P.Lawful ∧ Accepted saCfg 5 := ⟨saCfg_lawful.1, saCfg_lawful.2, ⟨by decide, by decide⟩⟩
/-- the default share of the positive field with five agents -/
example : ∃ p : DevEFO.Params ℚ, Num.trunc (Num.ofNat saCfg.popSize * p.pField) ≤ 0 := ⟨⟨3/10, 85/100, 1/10, 45/100⟩, by decide +kernel⟩
/-- eleven agents, two clusters -/
example : ∃ c : Cfg 2 ℚ, c.E.Lawful ∧ c.P.Lawful ∧ Accepted c 5 ∧ 2 ≤ c.popSize / 5 ∧ c.popSize % 2 ≠ 0 :=
  ⟨⟨detEnv, sphereProb 2 .min, .single, 11, 3⟩, detEnv_lawful, sphereProb_lawful 2 .min, ⟨by decide, by decide⟩, by decide, by decide⟩

end Mealpy
