import Verif.RealNum
import Mathlib.Analysis.Real.Pi.Bounds
import Mathlib.Tactic.Linarith
import Mathlib.Tactic.NormNum
import Mathlib.Tactic.Positivity
import Mathlib.Algebra.Order.Round
import Mathlib.Logic.Function.Iterate

/-!
# C50: chaotic maps, over the exact reals
-/

namespace Mealpy

open Set

theorem Chaotic.bernoulli_mem {x : ℝ} (h : x ∈ Icc (0 : ℝ) 1) : Chaotic.bernoulli x ∈ Icc (0 : ℝ) 1 := by
  obtain ⟨h0, h1⟩ := h
  unfold Chaotic.bernoulli
  simp only [real_ofNat, real_ofSci]
  norm_num
  split
  · constructor <;> linarith
  · rename_i hh
    have : 1 / 2 < x := by
      by_contra hc
      exact hh ⟨h0, not_lt.1 hc⟩
    constructor <;> linarith

theorem Chaotic.logistic_mem {x a : ℝ} (h : x ∈ Icc (0 : ℝ) 1) (ha : a ∈ Icc (0 : ℝ) 4) :
    Chaotic.logistic x a ∈ Icc (0 : ℝ) 1 := by
  obtain ⟨h0, h1⟩ := h
  obtain ⟨ha0, ha1⟩ := ha
  unfold Chaotic.logistic
  simp only [real_ofNat]
  norm_num
  have h2 : 0 ≤ x * (1 - x) := mul_nonneg h0 (by linarith)
  have h3 : x * (1 - x) ≤ 1 / 4 := by nlinarith [sq_nonneg (x - 1 / 2)]
  constructor
  · nlinarith [mul_nonneg ha0 h2]
  · nlinarith [mul_le_mul ha1 h3 h2 (by norm_num)]

theorem Chaotic.circle_mem (x : ℝ) : Chaotic.circle x ∈ Ico (0 : ℝ) 1 := by
  unfold Chaotic.circle
  generalize (x + _ - _ : ℝ) = y
  show y - _ * (⌊y / _⌋ : ℝ) ∈ _
  simp only [real_ofNat]
  norm_num
  exact Int.fract_lt_one y

theorem Chaotic.cubic_mem {x : ℝ} (h : x ∈ Icc (0 : ℝ) 1) : Chaotic.cubic x ∈ Icc (0 : ℝ) 1 := by
  obtain ⟨h0, h1⟩ := h
  unfold Chaotic.cubic
  simp only [real_ofNat, real_ofSci]
  norm_num
  have h2 : x * x ≤ 1 := by nlinarith
  constructor
  · exact mul_nonneg (by positivity) (by linarith)
  · nlinarith [mul_nonneg (sq_nonneg (x - 5774 / 10000)) (by linarith : (0 : ℝ) ≤ x + 11548 / 10000)]

theorem Chaotic.icmic_mem (x : ℝ) : Chaotic.icmic x ∈ Icc (0 : ℝ) 1 := by
  unfold Chaotic.icmic
  split
  · simp only [real_ofSci]
    norm_num
  · rw [real_abs, real_sin]
    exact ⟨abs_nonneg _, Real.abs_sin_le_one _⟩

theorem Chaotic.piecewise_mem {x : ℝ} (h : x ∈ Icc (0 : ℝ) 1) : Chaotic.piecewise x ∈ Icc (0 : ℝ) 1 := by
  obtain ⟨h0, h1⟩ := h
  unfold Chaotic.piecewise
  simp only [real_ofNat, real_ofSci]
  norm_num
  split
  · constructor <;> linarith
  · rename_i a1
    split
    · rename_i a2; constructor <;> linarith [a2.1, a2.2]
    · rename_i a2
      split
      · rename_i a3; constructor <;> linarith [a3.1, a3.2]
      · rename_i a3
        have b1 : 2 / 5 ≤ x := by by_contra hc; exact a1 ⟨h0, not_le.1 hc⟩
        have b2 : 1 / 2 ≤ x := by by_contra hc; exact a2 ⟨b1, not_le.1 hc⟩
        have b3 : 3 / 5 ≤ x := by by_contra hc; exact a3 ⟨b2, not_le.1 hc⟩
        constructor <;> linarith

theorem Chaotic.tent_mem {x : ℝ} (h : x ∈ Icc (0 : ℝ) 1) : Chaotic.tent x ∈ Icc (0 : ℝ) 1 := by
  obtain ⟨h0, h1⟩ := h
  unfold Chaotic.tent
  simp only [real_ofNat, real_ofSci]
  norm_num
  split
  · constructor <;> linarith
  · constructor <;> linarith

/-- on a short interval `[a, b]`, given a bound `s` of the sine there -/
theorem sinusoidal_piece {x a b s y : ℝ} (ha : 0 ≤ a) (h : a ≤ x) (h' : x ≤ b)
    (hs : y ≤ s) (hs0 : 0 ≤ s) (hnum : 2.3 * b * b * s ≤ 1) : 2.3 * x * x * y ≤ 1 := by
  have : x * x ≤ b * b := by nlinarith
  have h1 : 2.3 * x * x * y ≤ 2.3 * x * x * s := by
    apply mul_le_mul_of_nonneg_left hs
    nlinarith
  have h2 : 2.3 * x * x * s ≤ 2.3 * b * b * s := by
    apply mul_le_mul_of_nonneg_right _ hs0
    nlinarith
  linarith

/-- the sine right of its maximum, by the quartic bound of the cosine -/
theorem sin_le_near {p x lo hi : ℝ} (hlo : lo ≤ p * x - Real.pi / 2) (h0 : 0 ≤ lo)
    (hhi : p * x - Real.pi / 2 ≤ hi) (h1 : hi ≤ 1) : Real.sin (p * x) ≤ 1 - lo ^ 2 / 2 + hi ^ 4 * (5 / 96) := by
  have ht : 0 ≤ p * x - Real.pi / 2 := h0.trans hlo
  have hb := Real.cos_bound (x := p * x - Real.pi / 2) (by rw [abs_of_nonneg ht]; linarith)
  rw [Real.cos_sub_pi_div_two, abs_of_nonneg ht] at hb
  have hb' := (abs_le.1 hb).2
  have e1 : lo ^ 2 ≤ (p * x - Real.pi / 2) ^ 2 := pow_le_pow_left₀ h0 hlo 2
  have e2 : (p * x - Real.pi / 2) ^ 4 ≤ hi ^ 4 := pow_le_pow_left₀ ht hhi 4
  linarith

/-- the sine left of its zero -/
theorem sin_le_end {p x : ℝ} (hp : p ≤ Real.pi) (hx : x ≤ 1) (hx0 : 0 ≤ x) :
    Real.sin (p * x) ≤ Real.pi - p * x := by
  rw [← Real.sin_pi_sub]
  refine Real.sin_le ?_
  nlinarith [Real.pi_pos]

theorem sinusoidal_le {p x : ℝ} (hp : 3.14159 ≤ p) (hp' : p ≤ Real.pi) (h0 : 0 ≤ x) (h1 : x ≤ 1) :
    2.3 * x * x * Real.sin (p * x) ≤ 1 := by
  have hpi := Real.pi_lt_d6
  have hpi' := Real.pi_gt_d6
  have near : ∀ a b lo hi : ℝ, a ≤ x → x ≤ b → 0 ≤ a → 0 ≤ lo → hi ≤ 1 → lo ≤ 3.14159 * a - 1.5707965 →
      3.141593 * b - 1.570796 ≤ hi → 0 ≤ 1 - lo ^ 2 / 2 + hi ^ 4 * (5 / 96) →
      2.3 * b * b * (1 - lo ^ 2 / 2 + hi ^ 4 * (5 / 96)) ≤ 1 → 2.3 * x * x * Real.sin (p * x) ≤ 1 := by
    intro a b lo hi ha hb ha0 hl hh h2 h3 h4 h5
    refine sinusoidal_piece ha0 ha hb (sin_le_near ?_ hl ?_ hh) h4 h5
    · nlinarith
    · nlinarith
  have far : ∀ a b : ℝ, a ≤ x → x ≤ b → 0 ≤ a → 0 ≤ 3.141593 - 3.14159 * a →
      2.3 * b * b * (3.141593 - 3.14159 * a) ≤ 1 → 2.3 * x * x * Real.sin (p * x) ≤ 1 := by
    intro a b ha hb ha0 h2 h3
    refine sinusoidal_piece ha0 ha hb ((sin_le_end hp' h1 h0).trans ?_) h2 h3
    nlinarith
  rcases le_total x 0.659 with h | h
  · exact sinusoidal_piece le_rfl h0 h (Real.sin_le_one _) zero_le_one (by norm_num)
  rcases le_total x 0.69 with h' | h'
  · exact near 0.659 0.69 0.499 0.597 h h' (by norm_num) (by norm_num) (by norm_num) (by norm_num) (by norm_num) (by norm_num) (by norm_num)
  rcases le_total x 0.72 with h | h
  · exact near 0.69 0.72 0.5968 0.6913 h' h (by norm_num) (by norm_num) (by norm_num) (by norm_num) (by norm_num) (by norm_num) (by norm_num)
  rcases le_total x 0.74 with h' | h'
  · exact near 0.72 0.74 0.691 0.755 h h' (by norm_num) (by norm_num) (by norm_num) (by norm_num) (by norm_num) (by norm_num) (by norm_num)
  rcases le_total x 0.76 with h | h
  · exact near 0.74 0.76 0.7535 0.8175 h' h (by norm_num) (by norm_num) (by norm_num) (by norm_num) (by norm_num) (by norm_num) (by norm_num)
  rcases le_total x 0.78 with h' | h'
  · exact near 0.76 0.78 0.8165 0.88 h h' (by norm_num) (by norm_num) (by norm_num) (by norm_num) (by norm_num) (by norm_num) (by norm_num)
  rcases le_total x 0.80 with h | h
  · exact near 0.78 0.80 0.879 0.943 h' h (by norm_num) (by norm_num) (by norm_num) (by norm_num) (by norm_num) (by norm_num) (by norm_num)
  rcases le_total x 0.818 with h' | h'
  · exact near 0.80 0.818 0.942 0.9995 h h' (by norm_num) (by norm_num) (by norm_num) (by norm_num) (by norm_num) (by norm_num) (by norm_num)
  rcases le_total x 0.86 with h | h
  · exact far 0.818 0.86 h' h (by norm_num) (by norm_num) (by norm_num)
  rcases le_total x 0.9 with h' | h'
  · exact far 0.86 0.9 h h' (by norm_num) (by norm_num) (by norm_num)
  · exact far 0.9 1 h' h1 (by norm_num) (by norm_num) (by norm_num)

theorem Chaotic.pi_bounds : (3.14159 : ℝ) ≤ Chaotic.pi ∧ (Chaotic.pi : ℝ) ≤ Real.pi := by
  have := Real.pi_gt_d20
  unfold Chaotic.pi
  simp only [real_ofSci]
  constructor
  · norm_num
  · refine le_trans ?_ this.le
    norm_num

theorem Chaotic.sinusoidal_mem {x : ℝ} (h : x ∈ Icc (0 : ℝ) 1) : Chaotic.sinusoidal x ∈ Icc (0 : ℝ) 1 := by
  obtain ⟨h0, h1⟩ := h
  obtain ⟨p1, p2⟩ := Chaotic.pi_bounds
  have hsin : 0 ≤ Real.sin (Chaotic.pi * x) := by
    apply Real.sin_nonneg_of_nonneg_of_le_pi
    · exact mul_nonneg (by linarith) h0
    · nlinarith [Real.pi_pos]
  have hle := sinusoidal_le p1 p2 h0 h1
  unfold Chaotic.sinusoidal
  rw [real_sin]
  simp only [real_ofSci]
  norm_num at hle ⊢
  exact ⟨by positivity, hle⟩

/-- the maps the property lists -/
def Chaotic.unitMaps : List Chaotic.Name :=
  [.bernoulli, .logistic, .circle, .cubic, .icmic, .piecewise, .sinusoidal, .tent]

/-- C50: each of the eight maps sends the unit interval into itself. -/
theorem C50_unit_interval {n : Chaotic.Name} (hn : n ∈ Chaotic.unitMaps) {x : ℝ} (h : x ∈ Icc (0 : ℝ) 1) :
    Chaotic.map n x ∈ Icc (0 : ℝ) 1 := by
  simp only [Chaotic.unitMaps, List.mem_cons, List.not_mem_nil, or_false] at hn
  rcases hn with rfl | rfl | rfl | rfl | rfl | rfl | rfl | rfl
  · exact Chaotic.bernoulli_mem h
  · exact Chaotic.logistic_mem h (by simp only [real_ofNat]; norm_num)
  · exact ⟨(Chaotic.circle_mem x).1, (Chaotic.circle_mem x).2.le⟩
  · exact Chaotic.cubic_mem h
  · exact Chaotic.icmic_mem x
  · exact Chaotic.piecewise_mem h
  · exact Chaotic.sinusoidal_mem h
  · exact Chaotic.tent_mem h

/-- C50: hence every value of an orbit, of any length, stays in the unit interval. -/
theorem C50_orbits {n : Chaotic.Name} (hn : n ∈ Chaotic.unitMaps) {x : ℝ} (h : x ∈ Icc (0 : ℝ) 1) (k : Nat) :
    (Chaotic.map n)^[k] x ∈ Icc (0 : ℝ) 1 := by
  induction k with
  | zero => exact h
  | succ k ih => rw [Function.iterate_succ_apply']; exact C50_unit_interval hn ih

/-- C50: the logistic map for every control parameter in [0, 4]. -/
theorem C50_logistic {x a : ℝ} (h : x ∈ Icc (0 : ℝ) 1) (ha : a ∈ Icc (0 : ℝ) 4) (k : Nat) :
    (fun x => Chaotic.logistic x a)^[k] x ∈ Icc (0 : ℝ) 1 := by
  induction k with
  | zero => exact h
  | succ k ih => rw [Function.iterate_succ_apply']; exact Chaotic.logistic_mem ih ha

/-- C50: the Chebyshev map stays in [-1, 1], and it does leave [0, 1]. -/
theorem C50_chebyshev (x : ℝ) : Chaotic.map .chebyshev x ∈ Icc (-1 : ℝ) 1 ∧
    ∃ y ∈ Icc (0 : ℝ) 1, Chaotic.map .chebyshev y < 0 := by
  have e : ∀ x : ℝ, Chaotic.map .chebyshev x = Real.cos (4 * Real.arccos x) := by
    intro x
    show Real.cos (_ * _) = _
    simp only [real_ofNat]
    norm_num [Num.ufunc, realFunc]
  constructor
  · rw [e]
    exact ⟨Real.neg_one_le_cos _, Real.cos_le_one _⟩
  · refine ⟨Real.cos (Real.pi / 4), ⟨Real.cos_nonneg_of_neg_pi_div_two_le_of_le (by linarith [Real.pi_pos]) (by linarith [Real.pi_pos]), Real.cos_le_one _⟩, ?_⟩
    rw [e, Real.arccos_cos (by positivity) (by linarith [Real.pi_pos]),
      show 4 * (Real.pi / 4) = Real.pi by ring, Real.cos_pi]
    norm_num

/-- C50: the Singer map leaves the unit interval at 1. -/
theorem C50_singer_escapes : Chaotic.map .singer (1 : ℝ) < 0 := by
  show Chaotic.singer (1 : ℝ) < 0
  unfold Chaotic.singer
  simp only [real_ofSci]
  norm_num

/-- C50: the value `ChaoticGWO` keeps is clipped, so it is in the unit interval for all ten maps. -/
theorem C50_clipped_update (n : Chaotic.Name) (x : ℝ) : Chaotic.update n x ∈ Icc (0 : ℝ) 1 := by
  unfold Chaotic.update clip
  simp only [real_ofNat]
  norm_num

/-- the orbit of 0.7 under the logistic map moves: 0.84, then 0.5376 -/
example : (0.7 : ℝ) ∈ Icc (0 : ℝ) 1 ∧ (Chaotic.map .logistic)^[2] (0.7 : ℝ) = 0.5376 := by
  refine ⟨by norm_num, ?_⟩
  show Chaotic.logistic (Chaotic.logistic (0.7 : ℝ)) = _
  unfold Chaotic.logistic
  simp only [real_ofNat]
  norm_num

end Mealpy
