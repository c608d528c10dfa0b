import Mathlib.Analysis.SpecialFunctions.Gaussian.GaussianIntegral
import Mathlib.Analysis.SpecialFunctions.Trigonometric.Arctan
import Mathlib.Analysis.SpecialFunctions.Artanh
import Mathlib.Analysis.SpecialFunctions.Trigonometric.DerivHyp

/-!
# Transfer functions

Models `mealpy/utils/transfer.py:14-46` over the exact reals (numpy evaluates them in doubles; the
rounding of the elementary functions is not modelled).
-/

namespace Mealpy.Transfer

open Real

/-- `scipy.special.erf` (imported at `mealpy/utils/transfer.py:8`): `2/√π ∫₀ˣ exp(-t²) dt`. -/
noncomputable def erf (x : ℝ) : ℝ := 2 / √π * ∫ t in (0 : ℝ)..x, exp (-t ^ 2)

/-- `vstf_01` (`mealpy/utils/transfer.py:14-15`). -/
noncomputable def vstf01 (x : ℝ) : ℝ := |erf (√π / 2 * x)|

/-- `vstf_02` (`mealpy/utils/transfer.py:18-19`). -/
noncomputable def vstf02 (x : ℝ) : ℝ := |tanh x|

/-- `vstf_03` (`mealpy/utils/transfer.py:22-23`). -/
noncomputable def vstf03 (x : ℝ) : ℝ := |x / √(1 + x ^ 2)|

/-- `vstf_04` (`mealpy/utils/transfer.py:26-27`). -/
noncomputable def vstf04 (x : ℝ) : ℝ := |2 / π * arctan (π / 2 * x)|

/-- `sstf_01` (`mealpy/utils/transfer.py:33-34`). -/
noncomputable def sstf01 (x : ℝ) : ℝ := 1 / (1 + exp (-2 * x))

/-- `sstf_02` (`mealpy/utils/transfer.py:37-38`). -/
noncomputable def sstf02 (x : ℝ) : ℝ := 1 / (1 + exp (-x))

/-- `sstf_03` (`mealpy/utils/transfer.py:41-42`). -/
noncomputable def sstf03 (x : ℝ) : ℝ := 1 / (1 + exp (-x / 3))

/-- `sstf_04` (`mealpy/utils/transfer.py:45-46`). -/
noncomputable def sstf04 (x : ℝ) : ℝ := 1 / (1 + exp (-x / 2))

/-! ## Lemmas -/

theorem gauss_nonneg (t : ℝ) : 0 ≤ exp (-t ^ 2) := (exp_pos _).le

theorem gauss_intervalIntegrable (a b : ℝ) :
    IntervalIntegrable (fun t : ℝ => exp (-t ^ 2)) MeasureTheory.volume a b := by
  apply Continuous.intervalIntegrable
  fun_prop

theorem gauss_odd (x : ℝ) :
    ∫ t in (0 : ℝ)..(-x), exp (-t ^ 2) = - ∫ t in (0 : ℝ)..x, exp (-t ^ 2) := by
  have h := intervalIntegral.integral_comp_neg (a := 0) (b := x) (fun t : ℝ => exp (-t ^ 2))
  simp only [neg_zero, neg_sq] at h
  rw [h, intervalIntegral.integral_symm]

theorem erf_neg (x : ℝ) : erf (-x) = - erf x := by
  rw [erf, gauss_odd, erf]; ring

theorem erf_zero : erf 0 = 0 := by simp [erf]

theorem gauss_le (x : ℝ) (hx : 0 ≤ x) :
    ∫ t in (0 : ℝ)..x, exp (-t ^ 2) ≤ √π / 2 := by
  rw [intervalIntegral.integral_of_le hx]
  have h1 : ∫ t in Set.Ioc (0 : ℝ) x, exp (-t ^ 2) ≤ ∫ t in Set.Ioi (0 : ℝ), exp (-t ^ 2) := by
    apply MeasureTheory.setIntegral_mono_set
    · have := integrable_exp_neg_mul_sq (b := 1) one_pos
      simpa using this.integrableOn
    · exact Filter.Eventually.of_forall (fun t => gauss_nonneg t)
    · exact (Set.Ioc_subset_Ioi_self).eventuallyLE
  have h2 := integral_gaussian_Ioi 1
  simp only [neg_mul, one_mul, div_one] at h2
  linarith [h1, h2]

theorem gauss_ge (x : ℝ) (hx : 0 ≤ x) : 0 ≤ ∫ t in (0 : ℝ)..x, exp (-t ^ 2) :=
  intervalIntegral.integral_nonneg hx (fun t _ => gauss_nonneg t)

theorem erf_mem (x : ℝ) (hx : 0 ≤ x) : 0 ≤ erf x ∧ erf x ≤ 1 := by
  have hpi : 0 < √π := sqrt_pos.2 pi_pos
  have h1 := gauss_le x hx
  have h2 := gauss_ge x hx
  constructor
  · exact mul_nonneg (by positivity) h2
  · unfold erf
    rw [div_mul_eq_mul_div, div_le_one hpi]
    linarith

theorem abs_erf_le (x : ℝ) : |erf x| ≤ 1 := by
  rcases le_total 0 x with h | h
  · have := erf_mem x h
    rw [abs_of_nonneg this.1]; exact this.2
  · have := erf_mem (-x) (by linarith)
    rw [erf_neg] at this
    rw [abs_le]; constructor <;> linarith

theorem logistic_mem {c x : ℝ} : 0 < 1 / (1 + exp (c * x)) ∧ 1 / (1 + exp (c * x)) < 1 := by
  have h := exp_pos (c * x)
  constructor
  · positivity
  · rw [div_lt_one (by positivity)]; linarith

theorem logistic_mono {c : ℝ} (hc : c ≤ 0) : Monotone (fun x => 1 / (1 + exp (c * x))) := by
  intro x y hxy
  have h1 := exp_pos (c * x)
  have h2 := exp_pos (c * y)
  have h3 : exp (c * y) ≤ exp (c * x) := exp_le_exp.2 (by nlinarith)
  exact one_div_le_one_div_of_le (by positivity) (by linarith)

theorem sstf01_eq : sstf01 = fun x => 1 / (1 + exp ((-2) * x)) := rfl
theorem sstf02_eq : sstf02 = fun x => 1 / (1 + exp ((-1) * x)) := by
  funext x; simp [sstf02]
theorem sstf03_eq : sstf03 = fun x => 1 / (1 + exp ((-1 / 3) * x)) := by
  funext x; unfold sstf03; congr 3; ring
theorem sstf04_eq : sstf04 = fun x => 1 / (1 + exp ((-1 / 2) * x)) := by
  funext x; unfold sstf04; congr 3; ring

end Mealpy.Transfer
