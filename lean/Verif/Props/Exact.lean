import Verif.Props.Algorithms
import Verif.Alg.ExactReal
import Verif.RealEnv
import Verif.Alg.Raise6

/-! # C57 over the exact reals

Some lines of the catalogue assume facts of arithmetic. Here they are proved for the real numbers, so that only what the constructors check is left
to assume: `solve` returns, whatever the draws and the objective. -/

set_option linter.unusedSectionVars false
set_option linter.unusedVariables false

namespace Mealpy
open Spec

/-- every run from feasible starting solutions returns after at least one and at most `epoch` epochs -/
def NeverRaises {d : Nat} {K : Type} [Num K] {c : Cfg d K} {X Y : Type} (A : Algo c X Y) : Prop :=
  ∀ (o : RunOpts K), FeasibleStart c o.starting → ∀ b : Base c, b.log = [] →
    ∃ s h, solve A o b = .ok (s, h) ∧ 1 ≤ h.epoch ∧ h.epoch ≤ c.epoch

section
variable {d : Nat} {c : Cfg d ℝ} (hE : c.E.Lawful) (hP : c.P.Lawful) (hc : Accepted c 5)
include hE hP hc

/-- `OriginalSHADE` with ten agents or more (with fewer `uniform(2 / pop_size, 0.2)` has its bounds in the wrong order) -/
theorem C57_shade_real (hd : 0 < d) (h10 : 10 ≤ c.popSize) (p : OriginalSHADE.Params ℝ) :
    NeverRaises (OriginalSHADE.algo p : Algo c _ _) :=
  fun o hst b hb => C57_never_raises_partial (.inl (.inl (.inl (.originalSHADE p hc hd (OriginalSHADE.tops_real h10))))) hE hP o hst b hb

/-- `L_SHADE`, whatever its parameters -/
theorem C57_lshade_real (hd : 0 < d) (p : OriginalSHADE.Params ℝ) : NeverRaises (L_SHADE.algo p : Algo c _ _) :=
  fun o hst b hb => C57_never_raises_partial (.inl (.inl (.inl (.lSHADE p hc hd (L_SHADE.tops_real hc.2.1))))) hE hP o hst b hb

/-- `OriginalWSO`, whatever its parameters -/
theorem C57_wso_real (p : OriginalWSO.Params ℝ) : NeverRaises (OriginalWSO.algo p : Algo c _ _) :=
  fun o hst b hb => C57_never_raises_partial (.inl (.inl (.inl (.originalWSO p hc (OriginalWSO.indexes_real (by have := hc.2.1; omega)))))) hE hP o hst b hb

/-- `OriginalIWO` with the numbers of seeds its constructor accepts (`mealpy/bio_based/IWO.py:71-72`) -/
theorem C57_iwo_real (p : OriginalIWO.Params ℝ) (h1 : 1 ≤ p.seedMin) (h2 : p.seedMin ≤ 3) (h3 : 4 ≤ p.seedMax) :
    NeverRaises (OriginalIWO.algo p : Algo c _ _) :=
  fun o hst b hb => C57_never_raises_partial (.inl (.inl (.inl (.originalIWO p hc (OriginalIWO.sows_real h1 (by omega)))))) hE hP o hst b hb

/-- `OriginalSSpiderO` with the shares its constructor accepts (`mealpy/swarm_based/SSpiderO.py:67-69`) -/
theorem C57_sspidero_real (p : OriginalSSpiderO.Params ℝ) (h0 : (0 : ℝ) < p.fMin) (h1 : p.fMin ≤ p.fMax) (h2 : p.fMax < (1 : ℝ)) :
    NeverRaises (OriginalSSpiderO.algo p : Algo c _ _) :=
  fun o hst b hb => C57_never_raises_partial (.inl (.inl (.inr (.originalSSpiderO p hc (OriginalSSpiderO.shares_real h0 h1 h2))))) hE hP o hst b hb

/-- `OriginalCRO` in two dimensions or more, with the rates its constructor accepts (`mealpy/evolutionary_based/CRO.py:88-89`) -/
theorem C57_cro_real (hd : 2 ≤ d) (p : OriginalCRO.Params ℝ) (h0 : (0 : ℝ) < p.fb) (h1 : p.fb < (1 : ℝ)) (h2 : (0 : ℝ) < p.po) :
    NeverRaises (OriginalCRO.algo p : Algo c _ _) :=
  fun o hst b hb => C57_never_raises_partial (.inl (.inl (.inr (.originalCRO p hc hd (OriginalCRO.rates_real h0 h1 h2))))) hE hP o hst b hb

/-- `OCRO` likewise -/
theorem C57_ocro_real (hd : 2 ≤ d) (p : OCRO.Params ℝ) (h0 : (0 : ℝ) < p.base.fb) (h1 : p.base.fb < (1 : ℝ)) (h2 : (0 : ℝ) < p.base.po) :
    NeverRaises (OCRO.algo p : Algo c _ _) :=
  fun o hst b hb => C57_never_raises_partial (.inl (.inl (.inr (.oCRO p hc hd (OriginalCRO.rates_real h0 h1 h2))))) hE hP o hst b hb

/-- `OriginalSRSR` on a problem some upper bound of which is not negative (otherwise the standard deviation of a draw may be) -/
theorem C57_srsr_real (h : ∃ j, (0 : ℝ) ≤ c.P.ub j) : NeverRaises (OriginalSRSR.algo : Algo c _ _) :=
  fun o hst b hb => C57_never_raises_partial (.inl (.inl (.inr (.originalSRSR hc (OriginalSRSR.calm_real hP b h))))) hE hP o hst b hb

/-- `SAP_DE` with eight agents or more -/
theorem C57_sapde_real (h8 : 8 ≤ c.popSize) (abs : Bool) : NeverRaises (SAP_DE.algo abs : Algo c _ _) :=
  fun o hst b hb => C57_never_raises_partial (.inl (.inr (.sAPDE abs ⟨hc.1, h8, hc.2.2⟩ SAP_DE.small_real))) hE hP o hst b hb

/-- `DevEFO` when the positive field has an agent and there are at least two between it and the negative field -/
theorem C57_dev_efo_real (hd : 0 < d) (p : DevEFO.Params ℝ) (h1 : (1 : ℝ) ≤ c.popSize * p.pField) (h2 : (0 : ℝ) < p.nField)
    (h3 : (c.popSize : ℝ) * p.pField + 2 ≤ c.popSize * (1 - p.nField)) : NeverRaises (DevEFO.algo p : Algo c _ _) :=
  fun o hst b hb => C57_never_raises_partial (.inl (.inl (.inl (.devEFO p hc hd (DevEFO.fields_real h1 h2 (by have := hc.2.1; omega) h3))))) hE hP o hst b hb

/-- `OriginalEFO` likewise -/
theorem C57_efo_real (hd : 0 < d) (p : DevEFO.Params ℝ) (h1 : (1 : ℝ) ≤ c.popSize * p.pField) (h2 : (0 : ℝ) < p.nField)
    (h3 : (c.popSize : ℝ) * p.pField + 2 ≤ c.popSize * (1 - p.nField)) : NeverRaises (OriginalEFO.algo p : Algo c _ _) :=
  fun o hst b hb => C57_never_raises_partial (.inl (.inl (.inr (.originalEFO p hc hd (DevEFO.fields_real h1 h2 (by have := hc.2.1; omega) h3))))) hE hP o hst b hb

/-- `DevGSKA` when `pb` leaves at least two agents in each of the three groups -/
theorem C57_dev_gska_real (p : DevGSKA.Params ℝ) (h1 : (2 : ℝ) ≤ p.pb * c.popSize) (h2 : (2 : ℝ) ≤ c.popSize * (1 - 2 * p.pb)) :
    NeverRaises (DevGSKA.algo p : Algo c _ _) :=
  fun o hst b hb => C57_never_raises_partial (.inl (.inl (.inl (.devGSKA p hc (DevGSKA.groups_real h1 h2))))) hE hP o hst b hb

/-- `OriginalGSKA` likewise -/
theorem C57_gska_real (p : OriginalGSKA.Params ℝ) (h1 : (2 : ℝ) ≤ p.pb * c.popSize) (h2 : (2 : ℝ) ≤ c.popSize * (1 - 2 * p.pb)) :
    NeverRaises (OriginalGSKA.algo p : Algo c _ _) :=
  fun o hst b hb => C57_never_raises_partial (.inl (.inl (.inl (.originalGSKA p hc (DevGSKA.groups_real h1 h2))))) hE hP o hst b hb

/-- `OriginalFLA` when the shares `C3` and `C4` are at most 1; the constructor accepts them up to 100 -/
theorem C57_fla_real (p : OriginalFLA.Params ℝ) (h3 : p.c3 ≤ (1 : ℝ)) (h4 : p.c4 ≤ (1 : ℝ)) : NeverRaises (OriginalFLA.algo p : Algo c _ _) :=
  fun o hst b hb => C57_never_raises_partial (.inl (.inl (.inl (.originalFLA p hc (OriginalFLA.calm_real h3 h4))))) hE hP o hst b hb

omit hE hP in
/-- the corals selected in the first epoch, in exact arithmetic -/
theorem spawners_real {p : OriginalCRO.Params ℝ} (h0 : (0 : ℝ) < p.fb) (h2 : (0 : ℝ) < p.po)
    (h : (2 : ℝ) ≤ (⌊(c.popSize : ℝ) / (1 + p.po)⌋ : ℝ) * p.fb) : 2 ≤ OriginalCRO.part (OriginalCRO.settled c p) p.fb := by
  have hn : (0 : ℝ) ≤ c.popSize := Nat.cast_nonneg _
  have hp : (0 : ℝ) < 1 + p.po := by linarith
  have hq := div_nonneg hn hp.le
  have hs : ((OriginalCRO.settled c p : Nat) : ℝ) = (⌊(c.popSize : ℝ) / (1 + p.po)⌋ : ℝ) := by
    have e : ((OriginalCRO.settled c p : Nat) : Int) = ⌊(c.popSize : ℝ) / (1 + p.po)⌋ := by
      unfold OriginalCRO.settled
      rw [real_num, real_ofNat, show (((1 : Nat) : ℝ)) = 1 by norm_num, real_trunc hq, Int.toNat_of_nonneg (Int.floor_nonneg.2 hq)]
    rw [← e]; simp
  unfold OriginalCRO.part
  rw [real_num, hs, real_trunc (by linarith)]
  have : (2 : Int) ≤ ⌊(⌊(c.popSize : ℝ) / (1 + p.po)⌋ : ℝ) * p.fb⌋ := Int.le_floor.2 (by push_cast; exact h)
  omega

/-- In one dimension, if at least two corals spawn in the first epoch, every run of `OriginalCRO` raises `ValueError`: the crossover draws two
different coordinates (`mealpy/evolutionary_based/CRO.py:121-122`). -/
theorem C57_cro_one_dim_raises (hd : d = 1) (p : OriginalCRO.Params ℝ) (h0 : (0 : ℝ) < p.fb) (h1 : p.fb < (1 : ℝ)) (h2 : (0 : ℝ) < p.po)
    (h : (2 : ℝ) ≤ (⌊(c.popSize : ℝ) / (1 + p.po)⌋ : ℝ) * p.fb)
    (o : RunOpts ℝ) (hst : FeasibleStart c o.starting) (b : Base c) (hb : b.log = []) :
    solve (OriginalCRO.algo p : Algo c _ _) o b = .error .value :=
  OriginalCRO.raises hE hP hc p hd (OriginalCRO.rates_real h0 h1 h2) (spawners_real hc h0 h2 h) o hst b hb

/-- `OCRO` likewise -/
theorem C57_ocro_one_dim_raises (hd : d = 1) (p : OCRO.Params ℝ) (h0 : (0 : ℝ) < p.base.fb) (h1 : p.base.fb < (1 : ℝ)) (h2 : (0 : ℝ) < p.base.po)
    (h : (2 : ℝ) ≤ (⌊(c.popSize : ℝ) / (1 + p.base.po)⌋ : ℝ) * p.base.fb)
    (o : RunOpts ℝ) (hst : FeasibleStart c o.starting) (b : Base c) (hb : b.log = []) :
    solve (OCRO.algo p : Algo c _ _) o b = .error .value :=
  OCRO.raises hE hP hc p hd (OriginalCRO.rates_real h0 h1 h2) (spawners_real hc h0 h2 h) o hst b hb
end

theorem real_accepted {n : Nat} (h5 : 5 ≤ n) (h : n ≤ 100000) : Accepted (realCfg n) 5 := ⟨(by decide : 1 ≤ 3 ∧ 3 ≤ 100000), h5, h⟩

example : NeverRaises (OriginalSHADE.algo ⟨0.5, 0.5⟩ : Algo (realCfg 10) _ _) :=
  C57_shade_real realEnv_lawful realProb_lawful (real_accepted (by omega) (by omega)) (by decide) (by decide) _

example : NeverRaises (L_SHADE.algo ⟨0.5, 0.5⟩ : Algo (realCfg 7) _ _) :=
  C57_lshade_real realEnv_lawful realProb_lawful (real_accepted (by omega) (by omega)) (by decide) _

example : NeverRaises (OriginalWSO.algo ⟨4.11, 0.5, 1.5, 0.07, 0.75, 6.25, 100, 0.0005⟩ : Algo (realCfg 7) _ _) :=
  C57_wso_real realEnv_lawful realProb_lawful (real_accepted (by omega) (by omega)) _

example : NeverRaises (OriginalIWO.algo ⟨3, 9, 3, 0.6, 0.01⟩ : Algo (realCfg 50) _ _) :=
  C57_iwo_real realEnv_lawful realProb_lawful (real_accepted (by omega) (by omega)) _ (by decide) (by decide) (by decide)

/-- 0.65 and 0.9, the defaults -/
example : NeverRaises (OriginalSSpiderO.algo ⟨((13 / 20 : ℚ) : ℝ), ((9 / 10 : ℚ) : ℝ)⟩ : Algo (realCfg 50) _ _) :=
  C57_sspidero_real realEnv_lawful realProb_lawful (real_accepted (by omega) (by omega)) _ (by norm_num) (by norm_num) (by norm_num)

example : NeverRaises (OriginalCRO.algo ⟨((2 / 5 : ℚ) : ℝ), ((9 / 10 : ℚ) : ℝ), 0.1, 0.1, 0.5, 0.1, 0.02, 0.2, 5⟩ : Algo (realCfg 50) _ _) :=
  C57_cro_real realEnv_lawful realProb_lawful (real_accepted (by omega) (by omega)) (by decide) _ (by norm_num) (by norm_num) (by norm_num)

/-- with the default parameters and fifty agents 35 corals settle and 31 of them spawn -/
example (o : RunOpts ℝ) (hst : FeasibleStart (⟨realEnv, realProb 1 (fun x => x 0), .single, 50, 3⟩ : Cfg 1 ℝ) o.starting)
    (b : Base (⟨realEnv, realProb 1 (fun x => x 0), .single, 50, 3⟩ : Cfg 1 ℝ)) (hb : b.log = []) (p : OriginalCRO.Params ℝ)
    (h1 : p.fb = ((9 / 10 : ℚ) : ℝ)) (h2 : p.po = ((2 / 5 : ℚ) : ℝ)) :
    solve (OriginalCRO.algo p : Algo (⟨realEnv, realProb 1 (fun x => x 0), .single, 50, 3⟩ : Cfg 1 ℝ) _ _) o b = .error .value := by
  refine C57_cro_one_dim_raises realEnv_lawful realProb_lawful ⟨by decide, by decide, by decide⟩ rfl p ?_ ?_ ?_ ?_ o hst b hb
  · rw [h1]; norm_num
  · rw [h1]; norm_num
  · rw [h2]; norm_num
  · have : ⌊((50 : Nat) : ℝ) / (1 + ((2 / 5 : ℚ) : ℝ))⌋ = 35 := by
      rw [Int.floor_eq_iff]; norm_num
    rw [h1, h2]
    show (2 : ℝ) ≤ (⌊((50 : Nat) : ℝ) / (1 + ((2 / 5 : ℚ) : ℝ))⌋ : ℝ) * _
    rw [this]; norm_num

example : NeverRaises (OriginalSRSR.algo : Algo (realCfg 50) _ _) :=
  C57_srsr_real realEnv_lawful realProb_lawful (real_accepted (by omega) (by omega)) ⟨0, by show (0 : ℝ) ≤ ((4 : Int) : ℝ); norm_num⟩

example : NeverRaises (SAP_DE.algo true : Algo (realCfg 8) _ _) :=
  C57_sapde_real realEnv_lawful realProb_lawful (real_accepted (by omega) (by omega)) (by decide) _

/-- 0.1 and 0.45, the defaults, with fifty agents -/
example : NeverRaises (DevEFO.algo ⟨0.3, 0.85, ((1 / 10 : ℚ) : ℝ), ((9 / 20 : ℚ) : ℝ)⟩ : Algo (realCfg 50) _ _) :=
  C57_dev_efo_real realEnv_lawful realProb_lawful (real_accepted (by omega) (by omega)) (by decide) _
    (by show (1 : ℝ) ≤ ((50 : Nat) : ℝ) * ((1 / 10 : ℚ) : ℝ); norm_num) (by norm_num)
    (by show ((50 : Nat) : ℝ) * ((1 / 10 : ℚ) : ℝ) + 2 ≤ ((50 : Nat) : ℝ) * (1 - ((9 / 20 : ℚ) : ℝ)); norm_num)

/-- `pb = 0.1`, the default, with fifty agents -/
example : NeverRaises (DevGSKA.algo ⟨((1 / 10 : ℚ) : ℝ), 0.7⟩ : Algo (realCfg 50) _ _) :=
  C57_dev_gska_real realEnv_lawful realProb_lawful (real_accepted (by omega) (by omega)) _
    (by show (2 : ℝ) ≤ ((1 / 10 : ℚ) : ℝ) * ((50 : Nat) : ℝ); norm_num)
    (by show (2 : ℝ) ≤ ((50 : Nat) : ℝ) * (1 - 2 * ((1 / 10 : ℚ) : ℝ)); norm_num)

/-- the default parameters -/
example : NeverRaises (OriginalFLA.algo ⟨0.5, 2.0, ((1 / 10 : ℚ) : ℝ), ((1 / 5 : ℚ) : ℝ), 2.0, 0.01⟩ : Algo (realCfg 50) _ _) :=
  C57_fla_real realEnv_lawful realProb_lawful (real_accepted (by omega) (by omega)) _ (by norm_num) (by norm_num)

end Mealpy
