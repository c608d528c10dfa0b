import Verif.Alg.ExactReal
import Verif.Alg.Simple6
import Verif.Alg.Kit6
import Mathlib.Algebra.BigOperators.Fin
import Mathlib.Algebra.Order.BigOperators.Group.Finset
import Mathlib.Tactic.Linarith
import Mathlib.Tactic.Positivity
import Mathlib.Tactic.FieldSimp

/-! # The percentile of `OriginalESO` in exact arithmetic

The spread of a population is at most `sqrt d / 2` times its widest side, and this bound is met by a population in two opposite corners. So the
percentile stays within `[0, 100]` for 16 variables at most. -/

set_option linter.unusedSectionVars false
set_option linter.unusedVariables false

namespace Mealpy
open Spec

theorem sumL_real (l : List ℝ) : sumL l = l.sum := by
  have : ∀ (l : List ℝ) (a : ℝ), l.foldl (· + ·) a = a + l.sum := by
    intro l
    induction l with
    | nil => intro a; simp
    | cons x xs ih => intro a; simp only [List.foldl_cons, List.sum_cons]; rw [ih]; ring
  unfold sumL
  have h := this l ((0 : Nat) : ℝ)
  rw [← real_ofNat] at h
  refine h.trans ?_
  rw [real_ofNat]; simp

theorem meanL_real (l : List ℝ) : meanL l = l.sum / l.length := by
  unfold meanL
  rw [sumL_real]
  have : (Num.ofNat l.length : ℝ) = (l.length : ℝ) := by
    show (((l.length : Nat) : ℚ) : ℝ) = _
    simp
  rw [this]

/-- sums over the agents and over the coordinates exchanged -/
theorem sum_swap {α : Type} {d : Nat} (l : List α) (f : α → Fin d → ℝ) :
    (l.map (fun a => ∑ j, f a j)).sum = ∑ j, (l.map (fun a => f a j)).sum := by
  induction l with
  | nil => simp
  | cons x xs ih => simp only [List.map_cons, List.sum_cons]; rw [ih, Finset.sum_add_distrib]

theorem sum_sq_shift (l : List ℝ) (t : ℝ) :
    (l.map (fun x => (x - t) * (x - t))).sum = (l.map (fun x => x * x)).sum - 2 * t * l.sum + l.length * (t * t) := by
  induction l with
  | nil => simp
  | cons x xs ih =>
    simp only [List.map_cons, List.sum_cons, List.length_cons]
    rw [ih]; push_cast; ring

theorem sum_sq_le (l : List ℝ) (t r : ℝ) (h : ∀ x ∈ l, (x - t) * (x - t) ≤ r) : (l.map (fun x => (x - t) * (x - t))).sum ≤ l.length * r := by
  induction l with
  | nil => simp
  | cons x xs ih =>
    simp only [List.map_cons, List.sum_cons, List.length_cons]
    have h1 := h x (by simp)
    have h2 := ih fun y hy => h y (by simp [hy])
    push_cast; linarith

/-- Popoviciu's inequality on variances -/
theorem variance_le (l : List ℝ) (hl : 0 < l.length) (m M : ℝ) (h : ∀ x ∈ l, m ≤ x ∧ x ≤ M) :
    (l.map (fun x => (x - l.sum / l.length) * (x - l.sum / l.length))).sum ≤ l.length * ((M - m) * (M - m) / 4) := by
  have hn : (0 : ℝ) < l.length := by exact_mod_cast hl
  have h1 := sum_sq_le l ((m + M) / 2) ((M - m) * (M - m) / 4) fun x hx => by
    obtain ⟨a, b⟩ := h x hx
    nlinarith [mul_nonneg (sub_nonneg.2 a) (sub_nonneg.2 b)]
  rw [sum_sq_shift] at h1 ⊢
  have h2 : l.sum = l.length * (l.sum / l.length) := by field_simp
  generalize hmu : l.sum / l.length = mu at *
  rw [h2] at h1 ⊢
  nlinarith [mul_nonneg hn.le (mul_self_nonneg ((m + M) / 2 - mu))]

namespace OriginalESO

variable {d : Nat} {c : Cfg d ℝ}

/-- the squared spread of a population, summed over the coordinates -/
theorem spread_eq (pop : List (Agent d ℝ Unit)) :
    meanL (pop.map (fun a => sumL (List.ofFn fun j : Fin d => (a.sol j - meanL (pop.map (fun a => a.sol j))) * (a.sol j - meanL (pop.map (fun a => a.sol j)))))) =
      (∑ j : Fin d, ((pop.map (fun a => a.sol j)).map (fun x => (x - (pop.map (fun a => a.sol j)).sum / (pop.map (fun a => a.sol j)).length) *
        (x - (pop.map (fun a => a.sol j)).sum / (pop.map (fun a => a.sol j)).length))).sum) / pop.length := by
  rw [meanL_real]
  simp only [sumL_real, List.sum_ofFn, meanL_real, List.length_map]
  rw [sum_swap]
  simp only [List.map_map, Function.comp_def]

theorem resistance_le {pop : List (Agent d ℝ Unit)} (hl : 0 < pop.length) {r : ℝ} (h : resistance pop = some r) : 0 ≤ r ∧ r * r ≤ d / 4 := by
  unfold resistance at h
  dsimp only at h
  rw [spread_eq] at h
  split at h
  · cases h
  rename_i hp
  rw [real_ofNat] at hp
  injection h with h
  set w : ℝ := maxL (List.ofFn fun j : Fin d => maxL (pop.map (fun a => a.sol j)) - minL (pop.map (fun a => a.sol j))) with hw
  have hw0 : 0 < w := by push Not at hp; simpa using hp
  have hn : (0 : ℝ) < pop.length := by exact_mod_cast hl
  have hside : ∀ j, maxL (pop.map (fun a => a.sol j)) - minL (pop.map (fun a => a.sol j)) ≤ w := fun j =>
    (maxL_spec (by simpa using j.pos)).2 _ (by simp only [List.mem_ofFn]; exact ⟨j, rfl⟩)
  have hj : ∀ j : Fin d, ((pop.map (fun a => a.sol j)).map (fun x => (x - (pop.map (fun a => a.sol j)).sum / (pop.map (fun a => a.sol j)).length) *
        (x - (pop.map (fun a => a.sol j)).sum / (pop.map (fun a => a.sol j)).length))).sum ≤ pop.length * (w * w / 4) := by
    intro j
    have hl' : 0 < (pop.map (fun a => a.sol j)).length := by simpa using hl
    have hM := maxL_spec hl'
    have hm := minL_spec hl'
    refine (variance_le _ hl' _ _ fun x hx => ⟨hm.2 x hx, hM.2 x hx⟩).trans ?_
    rw [List.length_map]
    have h0 := hside j
    have h1 := hm.2 _ hM.1
    refine mul_le_mul_of_nonneg_left ?_ hn.le
    nlinarith
  have hS : (∑ j : Fin d, ((pop.map (fun a => a.sol j)).map (fun x => (x - (pop.map (fun a => a.sol j)).sum / (pop.map (fun a => a.sol j)).length) *
        (x - (pop.map (fun a => a.sol j)).sum / (pop.map (fun a => a.sol j)).length))).sum) / pop.length ≤ d * (w * w / 4) := by
    rw [div_le_iff₀ hn]
    refine (Finset.sum_le_sum fun j _ => hj j).trans ?_
    rw [Finset.sum_const, Finset.card_univ, Fintype.card_fin, nsmul_eq_mul]
    linarith
  have hsq : ∀ x : ℝ, Num.sqrt x = Real.sqrt x := fun _ => rfl
  rw [hsq] at h
  subst h
  generalize (∑ j : Fin d, ((pop.map (fun a => a.sol j)).map (fun x => (x - (pop.map (fun a => a.sol j)).sum / (pop.map (fun a => a.sol j)).length) *
        (x - (pop.map (fun a => a.sol j)).sum / (pop.map (fun a => a.sol j)).length))).sum) / pop.length = S at hS ⊢
  have hd : (0 : ℝ) ≤ d := Nat.cast_nonneg d
  have hb : Real.sqrt S * Real.sqrt S ≤ d * (w * w / 4) := by
    rcases le_or_gt 0 S with h0 | h0
    · rw [Real.mul_self_sqrt h0]; exact hS
    · rw [Real.sqrt_eq_zero_of_nonpos h0.le, mul_zero]; positivity
  refine ⟨div_nonneg (Real.sqrt_nonneg _) hw0.le, ?_⟩
  rw [div_mul_div_comm, div_le_iff₀ (by positivity)]
  linarith

/-- with 16 variables at most the percentile is one -/
theorem calm_real (hd : d ≤ 16) (hpos : 0 < c.popSize) : Calm c := by
  intro pop hl _ r hr
  obtain ⟨h0, h1⟩ := resistance_le (by omega) hr
  have hd' : (d : ℝ) ≤ 16 := by exact_mod_cast hd
  have h2 : r ≤ 2 := by nlinarith
  simp only [real_ofNat]
  push_cast
  rintro (h | h) <;> linarith

end OriginalESO

end Mealpy
