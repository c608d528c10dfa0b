import Verif.Props.Raises3
import Verif.Alg.Uneven

/-!
# C55: classes that do not keep the population size

The population of the two versions of SARO is twice `pop_size` in every run; those of `SAP_DE`, `OriginalTS`, `ABFO` and `OriginalLSHADEcnEpSin` have
another size at the end of the runs below.  The last one never has more than `pop_size` agents nor fewer than `pop_size_min`.
`OriginalHGSO`, `OriginalBSO` and `ImprovedTLO` lose agents when their groups do not divide the population.
-/

namespace Mealpy
open Spec
variable {d : Nat} {K : Type} [Num K] {c : Cfg d K}

/-- a run of an algorithm that never raises ends with a population whose size the invariant admits, and recorded only such -/
theorem Algo.WOk.finalSizes {X Y : Type} {A : Algo c X Y} {I : Inv c X Y} {J0 J1 : Y → Prop} {i1 i2 b1 b2 lo hi : Nat}
    (hA : A.WOk noErr I J0 J1 i1 i2 b1 b2 lo hi) (hE : c.E.Lawful) (hpos : 0 < c.popSize) (hep : 0 < c.epoch) (o : RunOpts K)
    (hst : FeasibleStart c o.starting) (b : Base c) (hb : b.log = []) :
    ∃ s h, Mealpy.solve A o b = .ok (s, h) ∧ I.size s.pop.length ∧ ∀ pop ∈ h.population, I.size pop.length := by
  have := hA.solve hE hpos hep o hst b hb
  cases hs : Mealpy.solve A o b with
  | error e => rw [hs] at this; exact this.elim
  | ok q =>
    obtain ⟨s, h⟩ := q
    rw [hs] at this
    exact ⟨s, h, rfl, this.size, this.sizes⟩

/-- `DevSARO` always has `2 * pop_size` agents: humans and their memory (`mealpy/human_based/SARO.py:76`, `:78`, `:140`). -/
theorem C55_dev_saro_doubles (hE : c.E.Lawful) (hP : c.P.Lawful) (hc : Accepted c 5) (p : SARO.Params K) (o : RunOpts K)
    (hst : FeasibleStart c o.starting) (b : Base c) (hb : b.log = []) :
    ∃ s h, solve (DevSARO.algo p) o b = .ok (s, h) ∧ s.pop.length = 2 * c.popSize ∧ ∀ pop ∈ h.population, pop.length = 2 * c.popSize :=
  (DevSARO.wok hE hP hc p).finalSizes hE (by have := hc.pop; omega) (by have := hc.epoch; omega) o hst b hb

/-- So has `OriginalSARO`. -/
theorem C55_original_saro_doubles (hE : c.E.Lawful) (hP : c.P.Lawful) (hc : Accepted c 5) (p : SARO.Params K) (hd : 0 < d) (o : RunOpts K)
    (hst : FeasibleStart c o.starting) (b : Base c) (hb : b.log = []) :
    ∃ s h, solve (OriginalSARO.algo p) o b = .ok (s, h) ∧ s.pop.length = 2 * c.popSize ∧ ∀ pop ∈ h.population, pop.length = 2 * c.popSize :=
  (OriginalSARO.wok hE hP hc p hd).finalSizes hE (by have := hc.pop; omega) (by have := hc.epoch; omega) o hst b hb

/-- the hypotheses hold of five agents on the sphere function -/
example : (tapeCfg 1 3 1 bowl .min .single 5 1).E.Lawful ∧ (tapeCfg 1 3 1 bowl .min .single 5 1).P.Lawful ∧
    Accepted (tapeCfg 1 3 1 bowl .min .single 5 1) 5 ∧ FeasibleStart (tapeCfg 1 3 1 bowl .min .single 5 1) .none :=
  ⟨tapeCfg_lawful.1, tapeCfg_lawful.2, ⟨by decide, by decide⟩, trivial⟩

/-- `SAP_DE` with `branch = "ABS"` sets the population size to the mean of those its agents propose (`mealpy/evolutionary_based/DE.py:558-573`). -/
theorem C55_sap_de_resizes : Accepted (tapeCfg 1 3 1 bowl .min .single 5 1) 5 ∧
    ∃ s h, solve (SAP_DE.algo (c := tapeCfg 1 3 1 bowl .min .single 5 1) true) ⟨none, .none, false⟩ ⟨(0 : Nat), (17 : Nat), [], 1⟩ = .ok (s, h) ∧
      s.pop.length ≠ (tapeCfg 1 3 1 bowl .min .single 5 1).popSize := by
  refine ⟨⟨by decide, by decide⟩, resizes_spec ?_⟩
  decide +kernel

/-- `OriginalTS` empties the population and adds one agent per epoch (`mealpy/math_based/TS.py:85`, `:113`). -/
theorem C55_ts_resizes : Accepted (tapeCfg 1 3 1 bowl .min .single 2 1) 2 ∧
    ∃ s h, solve (OriginalTS.algo (c := tapeCfg 1 3 1 bowl .min .single 2 1) ⟨2, 2, 1/20⟩) ⟨none, .none, false⟩ ⟨(0 : Nat), (17 : Nat), [], 1⟩ = .ok (s, h) ∧
      s.pop.length ≠ (tapeCfg 1 3 1 bowl .min .single 2 1).popSize := by
  refine ⟨⟨by decide, by decide⟩, resizes_spec ?_⟩
  decide +kernel

/-- `ABFO` removes agents at the same position, and replaces none: `range(0, n_agents)` is empty for a negative `n_agents`
(`mealpy/swarm_based/BFO.py:308-319`). -/
theorem C55_abfo_shrinks : Accepted (tapeCfg 1 3 1 bowl .min .single 5 1) 5 ∧
    ∃ s h, solve (ABFO.algo (c := tapeCfg 1 3 1 bowl .min .single 5 1) ⟨1/10, 1/1000, 1/100, 2, 2, 40⟩) ⟨none, .none, false⟩
        ⟨(0 : Nat), (17 : Nat), [], 1⟩ = .ok (s, h) ∧
      s.pop.length ≠ (tapeCfg 1 3 1 bowl .min .single 5 1).popSize := by
  refine ⟨⟨by decide, by decide⟩, resizes_spec ?_⟩
  decide +kernel

/-- `OriginalLSHADEcnEpSin` has between `pop_size_min` and `pop_size` agents, at the end and in every record of the history
(`mealpy/sota_based/LSHADEcnEpSin.py:257-267`). -/
theorem C55_lshade_cn_between (hE : c.E.Lawful) (hP : c.P.Lawful) (hc : Accepted c 5) (p : OriginalLSHADEcnEpSin.Params K) (hd : 2 ≤ d) (hm : 1 ≤ p.memory)
    (h4 : 4 ≤ p.min) (hmin : p.min ≤ c.popSize) (o : RunOpts K) (hst : FeasibleStart c o.starting) (b : Base c) (hb : b.log = []) :
    ∃ s h, solve (OriginalLSHADEcnEpSin.algo p) o b = .ok (s, h) ∧ (p.min ≤ s.pop.length ∧ s.pop.length ≤ c.popSize) ∧
      ∀ pop ∈ h.population, p.min ≤ pop.length ∧ pop.length ≤ c.popSize :=
  (OriginalLSHADEcnEpSin.wok hE hP hc p hd hm h4 hmin).finalSizes hE (by have := hc.pop; omega) (by have := hc.epoch; omega) o hst b hb

/-- the parameters of the run below meet the hypotheses -/
example : 1 ≤ (⟨1/2, 1/2, 1/2, 2, 1/2, 2/5, 4⟩ : OriginalLSHADEcnEpSin.Params ℚ).memory ∧
    4 ≤ (⟨1/2, 1/2, 1/2, 2, 1/2, 2/5, 4⟩ : OriginalLSHADEcnEpSin.Params ℚ).min ∧
    (⟨1/2, 1/2, 1/2, 2, 1/2, 2/5, 4⟩ : OriginalLSHADEcnEpSin.Params ℚ).min ≤ (tapeCfg 1 3 2 bowl .min .single 6 1).popSize := by decide

/-- `OriginalLSHADEcnEpSin` with `pop_size_min = 4` ends a run of one epoch with six agents at first with another number. -/
theorem C55_lshade_cn_shrinks : Accepted (tapeCfg 1 3 2 bowl .min .single 6 1) 5 ∧
    ∃ s h, solve (OriginalLSHADEcnEpSin.algo (c := tapeCfg 1 3 2 bowl .min .single 6 1) ⟨1/2, 1/2, 1/2, 2, 1/2, 2/5, 4⟩) ⟨none, .none, false⟩
        ⟨(0 : Nat), (17 : Nat), [], 1⟩ = .ok (s, h) ∧
      s.pop.length ≠ (tapeCfg 1 3 2 bowl .min .single 6 1).popSize := by
  refine ⟨⟨by decide, by decide⟩, resizes_spec ?_⟩
  decide +kernel

/-- `OriginalHGSO` has `pop_size` agents, or as many as its clusters of `pop_size // n_clusters` hold (`mealpy/physics_based/HGSO.py:79`, `:121`); it never
raises, whether or not `n_clusters` divides `pop_size`. -/
theorem C55_hgso_sizes (hE : c.E.Lawful) (hP : c.P.Lawful) (hc : Accepted c 5) (p : Nat) (h2 : 2 ≤ p) (h5 : p ≤ c.popSize / 5) (o : RunOpts K)
    (hst : FeasibleStart c o.starting) (b : Base c) (hb : b.log = []) :
    ∃ s h, solve (OriginalHGSO.algo p) o b = .ok (s, h) ∧ (s.pop.length = c.popSize ∨ s.pop.length = p * (c.popSize / p)) ∧
      ∀ pop ∈ h.population, pop.length = c.popSize ∨ pop.length = p * (c.popSize / p) :=
  (OriginalHGSO.wokUneven hE hP hc p (by omega) h5).finalSizes hE (by have := hc.pop; omega) (by have := hc.epoch; omega) o hst b hb

/-- eleven agents in two clusters -/
example : Accepted (tapeCfg 1 3 1 bowl .min .single 11 1) 5 ∧ 2 ≤ (tapeCfg 1 3 1 bowl .min .single 11 1).popSize / 5 ∧
    2 * ((tapeCfg 1 3 1 bowl .min .single 11 1).popSize / 2) ≠ (tapeCfg 1 3 1 bowl .min .single 11 1).popSize := ⟨⟨by decide, by decide⟩, by decide, by decide⟩

/-- `OriginalHGSO` with eleven agents and two clusters loses one. -/
theorem C55_hgso_shrinks : Accepted (tapeCfg 1 3 1 bowl .min .single 11 1) 10 ∧
    ∃ s h, solve (OriginalHGSO.algo (c := tapeCfg 1 3 1 bowl .min .single 11 1) 2) ⟨none, .none, false⟩ ⟨(0 : Nat), (17 : Nat), [], 1⟩ = .ok (s, h) ∧
      s.pop.length ≠ (tapeCfg 1 3 1 bowl .min .single 11 1).popSize := by
  refine ⟨⟨by decide, by decide⟩, resizes_spec ?_⟩
  decide +kernel

/-- So does `OriginalBSO`, unless the run raises (`C57_original_bso_may_raise`). -/
theorem C55_original_bso_shrinks : Accepted (tapeCfg 1 3 1 bowl .min .single 11 1) 10 ∧
    ∃ s h, solve (OriginalBSO.algo (c := tapeCfg 1 3 1 bowl .min .single 11 1) ⟨⟨2, 1/5, 4/5, 2/5, 1/2⟩, 20⟩) ⟨none, .none, false⟩
        ⟨(1 : Nat), (17 : Nat), [], 1⟩ = .ok (s, h) ∧
      s.pop.length ≠ (tapeCfg 1 3 1 bowl .min .single 11 1).popSize := by
  refine ⟨⟨by decide, by decide⟩, resizes_spec ?_⟩
  decide +kernel

/-- `OriginalBSO` with the default probabilities, eleven agents and two clusters can raise `IndexError`: the eleventh agent is in no cluster. -/
theorem C57_original_bso_may_raise : Accepted (tapeCfg 1 3 1 bowl .min .single 11 1) 10 ∧
    solve (OriginalBSO.algo (c := tapeCfg 1 3 1 bowl .min .single 11 1) ⟨⟨2, 1/5, 4/5, 2/5, 1/2⟩, 20⟩) ⟨none, .none, false⟩ ⟨(0 : Nat), (17 : Nat), [], 1⟩ = .error .index := by
  refine ⟨⟨by decide, by decide⟩, raises_spec ?_⟩
  decide +kernel

/-- `ImprovedTLO` has `pop_size` agents, or as many as its teams of `(pop_size - n_teachers) // n_teachers` students and their teachers are
(`mealpy/human_based/TLO.py:259`, `:339`). -/
theorem C55_improved_tlo_sizes (hE : c.E.Lawful) (hP : c.P.Lawful) (hc : Accepted c 5) (p : Nat) (h0 : 2 ≤ p) (h2 : (p + 1) * (p + 1) ≤ c.popSize) (o : RunOpts K)
    (hst : FeasibleStart c o.starting) (b : Base c) (hb : b.log = []) :
    ∃ s h, solve (ImprovedTLO.algo p) o b = .ok (s, h) ∧ (s.pop.length = c.popSize ∨ s.pop.length = p * (c.popSize / p)) ∧
      ∀ pop ∈ h.population, pop.length = c.popSize ∨ pop.length = p * (c.popSize / p) :=
  (ImprovedTLO.wokUneven hE hP hc p h0 h2).finalSizes hE (by have := hc.pop; omega) (by have := hc.epoch; omega) o hst b hb

/-- eleven agents, two teachers -/
example : (2 + 1) * (2 + 1) ≤ (tapeCfg 1 3 1 bowl .min .single 11 1).popSize := by decide

/-- `ImprovedTLO` with eleven agents and two teachers loses one. -/
theorem C55_improved_tlo_shrinks : Accepted (tapeCfg 1 3 1 bowl .min .single 11 1) 5 ∧
    ∃ s h, solve (ImprovedTLO.algo (c := tapeCfg 1 3 1 bowl .min .single 11 1) 2) ⟨none, .none, false⟩ ⟨(0 : Nat), (17 : Nat), [], 1⟩ = .ok (s, h) ∧
      s.pop.length ≠ (tapeCfg 1 3 1 bowl .min .single 11 1).popSize := by
  refine ⟨⟨by decide, by decide⟩, resizes_spec ?_⟩
  decide +kernel

end Mealpy
