import Verif.KeepGA
import Verif.KeepBRO
import Verif.Props.Algorithms

/-!
# C54 for algorithms that are not elitist line by line

`C54_returns_best_evaluated_partial` covers the algorithms whose every update is a greedy comparison, `C54_keeping_returns_best_partial` those that keep each epoch's best in
the population.  The algorithms below replace agents without comparing, sort and cut, keep agents outside the population, or restart it; nevertheless
no evaluated point better than the returned one is ever lost.  Nothing is assumed on sizes or starting solutions, except where a constructor says so.
-/

set_option linter.unusedVariables false

namespace Mealpy
open Spec

variable {d : Nat} {K : Type} [Num K] {c : Cfg d K} {X Y : Type}

/-- The algorithms that lose no evaluated point.  The flag says that they may lose some when `starting_solutions` are given: TPO and PSS evaluate those and
then start from a population of their own. -/
inductive Remembers (c : Cfg d K) : {X Y : Type} → Algo c X Y → Bool → Prop
  | originalMRFO (p : K) : Remembers c (OriginalMRFO.algo p) false
  | wmqimrfo (p : WMQIMRFO.Params K) : Remembers c (WMQIMRFO.algo p) false
  | originalGTO (p : OriginalGTO.Params K) : Remembers c (OriginalGTO.algo p) false
  | matlab102GTO : Remembers c Matlab102GTO.algo false
  | matlab101GTO : Remembers c Matlab101GTO.algo false
  | originalAGTO (p : OriginalAGTO.Params K) : Remembers c (OriginalAGTO.algo p) false
  | mgto (p : K) : Remembers c (MGTO.algo p) false
  | originalNRO : Remembers c OriginalNRO.algo false
  | originalDOA : Remembers c OriginalDOA.algo false
  | originalOrcaOA (p : OriginalOrcaOA.Params K) : Remembers c (OriginalOrcaOA.algo p) false
  | originalSquirrelSA (p : OriginalSquirrelSA.Params K) : Remembers c (OriginalSquirrelSA.algo p) false
  | originalPSS (p : OriginalPSS.Params K) : Remembers c (OriginalPSS.algo p) true
  | cmaES : Remembers c CMA_ES.algo false
  | qleSCA (p : QleSCA.Params K) : Remembers c (QleSCA.algo p) false
  | originalNMRA (p : K) : Remembers c (OriginalNMRA.algo p) false
  | improvedNMRA (p : ImprovedNMRA.Params K) : Remembers c (ImprovedNMRA.algo p) false
  | originalMA (p : OriginalMA.Params K) : Remembers c (OriginalMA.algo p) false
  | originalEFO (p : DevEFO.Params K) : Remembers c (OriginalEFO.algo p) false
  | originalTWO : Remembers c OriginalTWO.algo false
  | levyTWO : Remembers c LevyTWO.algo false
  | originalASO (p : OriginalASO.Params K) : Remembers c (OriginalASO.algo p) false
  | originalESOA : Remembers c OriginalESOA.algo false
  | hiWOA (p : HI_WOA.Params) (hp : 1 ≤ p.feedbackMax) : Remembers c (HI_WOA.algo p) false
  | originalSARO (p : SARO.Params K) (hp : 1 ≤ p.mu) : Remembers c (OriginalSARO.algo p) false
  | devSARO (p : SARO.Params K) (hp : 1 ≤ p.mu) : Remembers c (DevSARO.algo p) false
  | devTPO (p : DevTPO.Params K) : Remembers c (DevTPO.algo p) true
  | improvedTLO (n : Nat) : Remembers c (ImprovedTLO.algo n) false
  | originalCRO (p : OriginalCRO.Params K) (hp : 1 ≤ p.trials) : Remembers c (OriginalCRO.algo p) false
  | ocro (p : OCRO.Params K) (hp : 1 ≤ p.base.trials) (hr : 1 ≤ p.restart) : Remembers c (OCRO.algo p) false
  | dsGWO (p : DS_GWO.Params K) : Remembers c (DS_GWO.algo p) false
  | originalSSpiderO (p : OriginalSSpiderO.Params K) (h0 : 0 < c.popSize) : Remembers c (OriginalSSpiderO.algo p) false
  | originalTS (p : OriginalTS.Params K) (hp : 1 ≤ p.tabu) : Remembers c (OriginalTS.algo p) false
  | originalSBO (p : OriginalSBO.Params K) : Remembers c (OriginalSBO.algo p) false
  | originalLSHADEcnEpSin (p : OriginalLSHADEcnEpSin.Params K) (hp : 1 ≤ p.min) : Remembers c (OriginalLSHADEcnEpSin.algo p) false
  | originalHCO (p : OriginalHCO.Params K) : Remembers c (OriginalHCO.algo p) false
  | originalFOA : Remembers c OriginalFOA.algo false
  | devFOA : Remembers c DevFOA.algo false
  | whaleFOA : Remembers c WhaleFOA.algo false
  | originalBeesA (p : OriginalBeesA.Params K) : Remembers c (OriginalBeesA.algo p) false
  | probBeesA (p : ProbBeesA.Params K) : Remembers c (ProbBeesA.algo p) false
  | originalTHRO : Remembers c OriginalTHRO.algo false
  | originalHBO (degree : Nat) (table : Nat → Int × Int) : Remembers c (OriginalHBO.algo degree table) false
  | swarmSA (p : SwarmSA.Params K c.popSize) (hp : p.maxSubIter = 1) : Remembers c (SwarmSA.algo p) false
  | baseGA (p : GA.Params K) : Remembers c (BaseGA.algo p) false
  | multiGA (p : GA.Params K) : Remembers c (MultiGA.algo p) false
  | singleGA (p : GA.Params K) : Remembers c (SingleGA.algo p) false
  | eliteSingleGA (p : GA.Params K) (e : GA.Elite) : Remembers c (EliteSingleGA.algo p e) false
  | eliteMultiGA (p : GA.Params K) (e : GA.Elite) : Remembers c (EliteMultiGA.algo p e) false
  | originalBRO (p : K) (h2 : 2 ≤ c.popSize) (hn : ∀ u v : Vec d K, normV (fun j => u j - v j) = 0 ↔ u = v) : Remembers c (OriginalBRO.algo p) false

/-- The returned agent's target is at least as good as the objective's value at every point evaluated in the run. -/
theorem C54_remembers_best_partial {A : Algo c X Y} {fresh : Bool} (hA : Remembers c A fresh) (hE : c.E.Lawful) (hP : c.P.Lawful) {o : RunOpts K}
    (ho : fresh = true → o.starting = .none) {b : Base c} (hb : b.log = []) {s : St c X Y} {h : FinalHist d K X} (hs : solve A o b = .ok (s, h)) :
    ∀ x ∈ s.base.log, NoWorse c.P.mm s.gbest.tgt.fitness (c.P.target x).fitness := by
  cases hA with
  | originalMRFO p => exact (OriginalMRFO.keeper hE hP).best hE ho hb hs
  | wmqimrfo p => exact (WMQIMRFO.keeper hE hP).best hE ho hb hs
  | originalGTO p => exact (OriginalGTO.keeper hE hP).best hE ho hb hs
  | matlab102GTO => exact (Matlab102GTO.keeper hE hP).best hE ho hb hs
  | matlab101GTO => exact (Matlab101GTO.keeper hE hP).best hE ho hb hs
  | originalAGTO p => exact (OriginalAGTO.keeper hE hP).best hE ho hb hs
  | mgto p => exact (MGTO.keeper hE hP).best hE ho hb hs
  | originalNRO => exact (OriginalNRO.keeper hE hP).best hE ho hb hs
  | originalDOA => exact (OriginalDOA.keeper hE hP).best hE ho hb hs
  | originalOrcaOA p => exact (OriginalOrcaOA.keeper hE hP).best hE ho hb hs
  | originalSquirrelSA p => exact (OriginalSquirrelSA.keeper hE hP).best hE ho hb hs
  | originalPSS p => exact (OriginalPSS.keeper hE).best hE ho hb hs
  | cmaES => exact (CMA_ES.keeper hE hP).best hE ho hb hs
  | qleSCA p => exact (QleSCA.keeper hE hP).best hE ho hb hs
  | originalNMRA p => exact (OriginalNMRA.keeper hE hP).best hE ho hb hs
  | improvedNMRA p => exact (ImprovedNMRA.keeper hE hP).best hE ho hb hs
  | originalMA p => exact (OriginalMA.keeper hE hP).best hE ho hb hs
  | originalEFO p => exact (OriginalEFO.keeper hE hP).best hE ho hb hs
  | originalTWO => exact (OriginalTWO.keeper hE hP).best hE ho hb hs
  | levyTWO => exact (LevyTWO.keeper hE hP).best hE ho hb hs
  | originalASO p => exact (OriginalASO.keeper hE hP).best hE ho hb hs
  | originalESOA => exact (OriginalESOA.keeper hE hP).best hE ho hb hs
  | hiWOA p hp => exact (HI_WOA.keeper hE hP hp).best hE ho hb hs
  | originalSARO p hp => exact (OriginalSARO.keeper hE hP hp).best hE ho hb hs
  | devSARO p hp => exact (DevSARO.keeper hE hP hp).best hE ho hb hs
  | devTPO p => exact (DevTPO.keeper hE hP).best hE ho hb hs
  | improvedTLO n => exact (ImprovedTLO.keeper hE hP).best hE ho hb hs
  | originalCRO p hp => exact (OriginalCRO.keeper hE hP hp).best hE ho hb hs
  | ocro p hp hr => exact (OCRO.keeper hE hP hp hr).best hE ho hb hs
  | dsGWO p => exact (DS_GWO.keeper hE hP).best hE ho hb hs
  | originalSSpiderO p h0 => exact (OriginalSSpiderO.keeper hE hP h0).best hE ho hb hs
  | originalTS p hp => exact (OriginalTS.keeper hE hP hp).best hE ho hb hs
  | originalSBO p => exact (OriginalSBO.keeper hE hP).best hE ho hb hs
  | originalLSHADEcnEpSin p hp => exact (OriginalLSHADEcnEpSin.keeper hE hP hp).best hE ho hb hs
  | originalHCO p => exact (OriginalHCO.keeper hE hP).best hE ho hb hs
  | originalFOA => exact (OriginalFOA.keeper hE hP).best hE ho hb hs
  | devFOA => exact (DevFOA.keeper hE hP).best hE ho hb hs
  | whaleFOA => exact (WhaleFOA.keeper hE hP).best hE ho hb hs
  | originalBeesA p => exact (OriginalBeesA.keeper hE hP).best hE hb hs
  | probBeesA p => exact (ProbBeesA.keeper hE hP).best hE hb hs
  | originalTHRO => exact (OriginalTHRO.keeper hE hP).best hE hb hs
  | originalHBO n t => exact (OriginalHBO.keeper hE hP).best hE hb hs
  | swarmSA p hp => exact (SwarmSA.keeper hE hP hp).best hE ho hb hs
  | baseGA p => exact (BaseGA.keeper hE hP).best hE hb hs
  | multiGA p => exact (MultiGA.keeper hE hP).best hE hb hs
  | singleGA p => exact (SingleGA.keeper hE hP).best hE hb hs
  | eliteSingleGA p e => exact (EliteSingleGA.keeper hE hP).best hE hb hs
  | eliteMultiGA p e => exact (EliteMultiGA.keeper hE hP).best hE hb hs
  | originalBRO p h2 hn => exact OriginalBRO.best hE hP hn h2 hb hs

/-- over the real numbers the condition on distances in `Remembers.originalBRO` holds (in floating point, positions that differ may be at distance 0) -/
example {c : Cfg d ℝ} (p : ℝ) (h2 : 2 ≤ c.popSize) : Remembers c (OriginalBRO.algo p) false := .originalBRO p h2 OriginalBRO.separates_real

/-- Two variables, five agents, three epochs: `OriginalTWO` in every mode is one of them, and its runs return -/
example (mode : Valid.Mode) : Remembers (exCfg mode) OriginalTWO.algo false ∧ (exCfg mode).E.Lawful ∧ (exCfg mode).P.Lawful ∧ (exBase mode).log = [] ∧
    ∃ s h, solve (OriginalTWO.algo (c := exCfg mode)) exOpts (exBase mode) = .ok (s, h) := by
  refine ⟨.originalTWO, (exCfg_lawful mode).1, (exCfg_lawful mode).2, rfl, ?_⟩
  obtain ⟨s, h, hs, -⟩ := C57_never_raises_partial (c := exCfg mode) (A := OriginalTWO.algo) (.inl (.inl (.inr (.originalTWO ⟨by simp [exCfg], by simp [exCfg]⟩)))) (exCfg_lawful mode).1 (exCfg_lawful mode).2
    exOpts trivial (exBase mode) rfl
  exact ⟨s, h, hs⟩

end Mealpy
