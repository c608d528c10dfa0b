import Verif.Alg.Raise7
import Verif.Props.Raises6

/-! # C57: the elite variants of `GA` with a tournament that is too small -/

set_option linter.unusedSectionVars false
set_option linter.unusedVariables false

namespace Mealpy
open Spec

variable {d : Nat} {K : Type} [Num K] {c : Cfg d K}

theorem frac_size_le_one {q : ℚ} {n : Nat} (h0 : 0 < q) (h : q * n < 2) : 0 ≤ (KWay.frac q).size n ∧ (KWay.frac q).size n ≤ 1 := by
  simp only [KWay.size]
  have h2 : (0 : ℚ) ≤ q * n := by positivity
  refine ⟨Rat.le_floor_iff.2 (by push_cast; exact h2), ?_⟩
  by_contra hc
  have := Rat.le_floor_iff.1 (show (2 : Int) ≤ (q * (n : ℚ)).floor by omega)
  push_cast at this
  linarith

theorem frac_size_zero {q : ℚ} {n : Nat} (h0 : 0 < q) (h : q * n < 1) : (KWay.frac q).size n = 0 := by
  have h1 := frac_size_le_one (n := n) h0 (by linarith)
  simp only [KWay.size] at *
  by_contra hc
  have := Rat.le_floor_iff.1 (show (1 : Int) ≤ (q * (n : ℚ)).floor by omega)
  push_cast at this
  linarith

section
variable (hE : c.E.Lawful) (hP : c.P.Lawful) (hc : Accepted c 5) (p : GA.Params K) (e : GA.Elite) {q : ℚ} (hs : p.sel = .tournament)
  (hk : p.kway = .frac q) (hq : 0 < q) (o : RunOpts K) (hst : FeasibleStart c o.starting) (b : Base c) (hb : b.log = [])
include hE hP hc hs hk hq hst hb

/-- `EliteSingleGA` and `EliteMultiGA` with a tournament, strategy 0 and `int(k_way * (pop_size - n_elite_best)) < 2`, as with the default
`k_way = 0.2` and ten agents at most: two parents cannot be unpacked from one winner, every run raises `ValueError`
(`mealpy/evolutionary_based/GA.py:170,551-555`, `mealpy/optimizer.py:707-717`). -/
theorem C57_elite_ga_raises (h0 : e.strategy = 0) (hbest : e.nBest < c.popSize) (h : q * (c.popSize - e.nBest : Nat) < 2) :
    solve (EliteSingleGA.algo p e : Algo c Nat Nat) o b = .error .value ∧ solve (EliteMultiGA.algo p e : Algo c Nat Nat) o b = .error .value := by
  have h1 := frac_size_le_one hq h
  rw [← hk] at h1
  exact ⟨GA.elite_raises hE hP hc hbest (GA.elite_same_never (p := { p with multi := false }) hE hs h0 hbest h1.1 h1.2) o hst b hb,
    GA.elite_raises hE hP hc hbest (GA.elite_same_never (p := { p with multi := true }) hE hs h0 hbest h1.1 h1.2) o hst b hb⟩

/-- With strategy 1 the fathers come from the `n_elite_worst` agents after the elite. If `int(k_way * n_elite_worst)` is 0, as with the defaults
`k_way = 0.2`, `elite_worst = 0.3` and 16 agents at most, every run raises `IndexError` (`mealpy/evolutionary_based/GA.py:193,570-574`). -/
theorem C57_elite_ga_two_groups_raises (h1 : e.strategy ≠ 0) (hbest : 1 ≤ e.nWorst) (hsum : e.nBest + e.nWorst ≤ c.popSize) (h : q * e.nWorst < 1) :
    solve (EliteSingleGA.algo p e : Algo c Nat Nat) o b = .error .index ∧ solve (EliteMultiGA.algo p e : Algo c Nat Nat) o b = .error .index := by
  have hz := frac_size_zero hq h
  rw [← hk] at hz
  exact ⟨GA.elite_raises hE hP hc (by omega) (GA.elite_two_never (p := { p with multi := false }) hE hs h1 hsum hz) o hst b hb,
    GA.elite_raises hE hP hc (by omega) (GA.elite_two_never (p := { p with multi := true }) hE hs h1 hsum hz) o hst b hb⟩

end

/-- ten agents, one of them elite -/
example (b : Base (tapeCfg 1 3 2 bowl .min .single 10 2)) (h : b.log = []) :
    solve (EliteSingleGA.algo ⟨19/20, 4/5, .frac (1/5), .tournament, .uniform, .swap, false⟩ ⟨1, 3, 0⟩ : Algo (tapeCfg 1 3 2 bowl .min .single 10 2) _ _)
      ⟨none, .none, false⟩ b = .error .value :=
  (C57_elite_ga_raises tapeEnv_lawful tapeProb_lawful ⟨by decide, by decide, by decide⟩ _ ⟨1, 3, 0⟩ rfl rfl (by norm_num) ⟨none, .none, false⟩ trivial b h rfl
    (by decide) (by show (1 / 5 : ℚ) * ((9 : Nat) : ℚ) < 2; norm_num)).1

/-- ten agents, one elite and three fathers -/
example (b : Base (tapeCfg 1 3 2 bowl .min .thread 10 2)) (h : b.log = []) :
    solve (EliteMultiGA.algo ⟨19/20, 1/40, .frac (1/5), .tournament, .uniform, .flip, true⟩ ⟨1, 3, 1⟩ : Algo (tapeCfg 1 3 2 bowl .min .thread 10 2) _ _)
      ⟨none, .none, false⟩ b = .error .index :=
  (C57_elite_ga_two_groups_raises tapeEnv_lawful tapeProb_lawful ⟨by decide, by decide, by decide⟩ _ ⟨1, 3, 1⟩ rfl rfl (by norm_num) ⟨none, .none, false⟩ trivial b h
    (by decide) (by decide) (by decide) (by show (1 / 5 : ℚ) * ((3 : Nat) : ℚ) < 1; norm_num)).2

end Mealpy
