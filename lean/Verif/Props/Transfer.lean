import Verif.Transfer

/-!
# C10: transfer functions are probabilities
-/

namespace Mealpy
open Transfer Real

/-- C10: each of the eight transfer functions maps every real into `[0, 1]`. -/
theorem C10_range (x : ℝ) :
    vstf01 x ∈ Set.Icc (0 : ℝ) 1 ∧ vstf02 x ∈ Set.Icc (0 : ℝ) 1
    ∧ vstf03 x ∈ Set.Icc (0 : ℝ) 1 ∧ vstf04 x ∈ Set.Icc (0 : ℝ) 1
    ∧ sstf01 x ∈ Set.Icc (0 : ℝ) 1 ∧ sstf02 x ∈ Set.Icc (0 : ℝ) 1
    ∧ sstf03 x ∈ Set.Icc (0 : ℝ) 1 ∧ sstf04 x ∈ Set.Icc (0 : ℝ) 1 := by
  refine ⟨⟨abs_nonneg _, abs_erf_le _⟩, ⟨abs_nonneg _, ?_⟩, ⟨abs_nonneg _, ?_⟩,
    ⟨abs_nonneg _, ?_⟩, ?_, ?_, ?_, ?_⟩
  · exact abs_le.2 ⟨(neg_one_lt_tanh x).le, (tanh_lt_one x).le⟩
  · have hpos : 0 < √(1 + x ^ 2) := sqrt_pos.2 (by positivity)
    rw [vstf03, abs_div, abs_of_pos hpos, div_le_one hpos]
    calc |x| = √(x ^ 2) := (sqrt_sq_eq_abs x).symm
      _ ≤ √(1 + x ^ 2) := sqrt_le_sqrt (by linarith)
  · have h1 := (arctan_lt_pi_div_two (π / 2 * x)).le
    have h2 := (neg_pi_div_two_lt_arctan (π / 2 * x)).le
    rw [vstf04, abs_mul, abs_of_pos (by positivity : (0 : ℝ) < 2 / π), div_mul_eq_mul_div,
      div_le_one pi_pos]
    have := abs_le.2 ⟨h2, h1⟩
    linarith
  · rw [sstf01_eq]; exact ⟨logistic_mem.1.le, logistic_mem.2.le⟩
  · rw [sstf02_eq]; exact ⟨logistic_mem.1.le, logistic_mem.2.le⟩
  · rw [sstf03_eq]; exact ⟨logistic_mem.1.le, logistic_mem.2.le⟩
  · rw [sstf04_eq]; exact ⟨logistic_mem.1.le, logistic_mem.2.le⟩

/-- C10: the V-shaped functions are even and vanish at 0. -/
theorem C10_v_shaped (x : ℝ) :
    (vstf01 (-x) = vstf01 x ∧ vstf02 (-x) = vstf02 x ∧ vstf03 (-x) = vstf03 x
      ∧ vstf04 (-x) = vstf04 x)
    ∧ (vstf01 0 = 0 ∧ vstf02 0 = 0 ∧ vstf03 0 = 0 ∧ vstf04 0 = 0) := by
  refine ⟨⟨?_, ?_, ?_, ?_⟩, ?_, ?_, ?_, ?_⟩
  · rw [vstf01, mul_neg, erf_neg, abs_neg, vstf01]
  · rw [vstf02, tanh_neg, abs_neg, vstf02]
  · rw [vstf03, neg_sq, neg_div, abs_neg, vstf03]
  · rw [vstf04, mul_neg, arctan_neg, mul_neg, abs_neg, vstf04]
  · simp [vstf01, erf_zero]
  · simp [vstf02]
  · simp [vstf03]
  · simp [vstf04]

/-- C10: the S-shaped functions are monotone with value 1/2 at 0 (so at least 1/2 on the
non-negative inputs a transfer variable can see, C12). -/
theorem C10_s_shaped :
    (Monotone sstf01 ∧ Monotone sstf02 ∧ Monotone sstf03 ∧ Monotone sstf04)
    ∧ (sstf01 0 = 1 / 2 ∧ sstf02 0 = 1 / 2 ∧ sstf03 0 = 1 / 2 ∧ sstf04 0 = 1 / 2) := by
  refine ⟨⟨?_, ?_, ?_, ?_⟩, ?_, ?_, ?_, ?_⟩
  · rw [sstf01_eq]; exact logistic_mono (by norm_num)
  · rw [sstf02_eq]; exact logistic_mono (by norm_num)
  · rw [sstf03_eq]; exact logistic_mono (by norm_num)
  · rw [sstf04_eq]; exact logistic_mono (by norm_num)
  all_goals simp [sstf01, sstf02, sstf03, sstf04]
  all_goals norm_num

/-- C10: the V-shaped functions grow with the distance from 0 on the non-negative half line
(the only inputs a transfer variable sees), so larger coordinates are likelier to become 1. -/
theorem C10_v_monotone : MonotoneOn vstf01 (Set.Ici 0) ∧ MonotoneOn vstf02 (Set.Ici 0)
    ∧ MonotoneOn vstf03 (Set.Ici 0) ∧ MonotoneOn vstf04 (Set.Ici 0) := by
  refine ⟨?_, ?_, ?_, ?_⟩
  · intro x hx y hy hxy
    simp only [Set.mem_Ici] at hx hy
    have hs : 0 < √π := sqrt_pos.2 pi_pos
    have e : ∀ z : ℝ, 0 ≤ z → vstf01 z = erf (√π / 2 * z) := fun z hz =>
      abs_of_nonneg (erf_mem _ (by positivity)).1
    rw [e x hx, e y hy]
    unfold erf
    apply mul_le_mul_of_nonneg_left _ (by positivity)
    have hle : √π / 2 * x ≤ √π / 2 * y := by nlinarith
    rw [← intervalIntegral.integral_add_adjacent_intervals
      (gauss_intervalIntegrable 0 (√π / 2 * x)) (gauss_intervalIntegrable (√π / 2 * x) (√π / 2 * y))]
    have : 0 ≤ ∫ t in (√π / 2 * x)..(√π / 2 * y), exp (-t ^ 2) :=
      intervalIntegral.integral_nonneg hle (fun t _ => gauss_nonneg t)
    linarith
  · intro x hx y hy hxy
    simp only [Set.mem_Ici] at hx hy
    have hx' : 0 ≤ tanh x := by
      rw [tanh_eq_sinh_div_cosh]; exact div_nonneg (sinh_nonneg_iff.2 hx) (cosh_pos x).le
    have hy' : 0 ≤ tanh y := by
      rw [tanh_eq_sinh_div_cosh]; exact div_nonneg (sinh_nonneg_iff.2 hy) (cosh_pos y).le
    rw [vstf02, vstf02, abs_of_nonneg hx', abs_of_nonneg hy']
    rw [tanh_eq_sinh_div_cosh, tanh_eq_sinh_div_cosh, div_le_div_iff₀ (cosh_pos x) (cosh_pos y)]
    have h : 0 ≤ sinh (y - x) := sinh_nonneg_iff.2 (by linarith)
    rw [sinh_sub] at h
    linarith
  · intro x hx y hy hxy
    simp only [Set.mem_Ici] at hx hy
    have hx0 : 0 < √(1 + x ^ 2) := sqrt_pos.2 (by positivity)
    have hy0 : 0 < √(1 + y ^ 2) := sqrt_pos.2 (by positivity)
    rw [vstf03, vstf03, abs_of_nonneg (by positivity), abs_of_nonneg (by positivity),
      div_le_div_iff₀ hx0 hy0]
    apply le_of_sq_le_sq _ (by positivity)
    rw [mul_pow, mul_pow, sq_sqrt (by positivity), sq_sqrt (by positivity)]
    nlinarith [mul_self_le_mul_self hx hxy]
  · intro x hx y hy hxy
    simp only [Set.mem_Ici] at hx hy
    have hx' : 0 ≤ arctan (π / 2 * x) := arctan_nonneg.2 (by positivity)
    have hy' : 0 ≤ arctan (π / 2 * y) := arctan_nonneg.2 (by positivity)
    rw [vstf04, vstf04, abs_of_nonneg (by positivity), abs_of_nonneg (by positivity)]
    apply mul_le_mul_of_nonneg_left _ (by positivity)
    exact arctan_strictMono.monotone (by have := pi_pos; nlinarith)

/-- the hypotheses are met: any real will do -/
example : vstf03 1 = 1 / √2 := by
  rw [vstf03, abs_of_nonneg (by positivity)]; norm_num

end Mealpy
