import Verif.RealNum
import Mathlib.Tactic.Linarith
import Mathlib.Tactic.NormNum
import Mathlib.Tactic.Positivity
import Mathlib.Tactic.FieldSimp

/-!
# C49: the fuzzy weights of `FuzzySystem`, over the exact reals
-/

namespace Mealpy

open Set

/-- the three memberships of `x`, as the triangles of the documentation -/
structure Fuzzy.Triangles (x low medium high : ℝ) : Prop where
  low : low = if 0 < x ∧ x < 1 / 2 then 1 - 2 * x else 0
  medium : medium = if 0 < x ∧ x < 1 then 1 - |2 * x - 1| else 0
  high : high = if 1 / 2 < x ∧ x < 1 then 2 * x - 1 else 0

theorem Fuzzy.triangularE_eq (x a b c : ℝ) (h : b - a = 0 → ¬ (a < x ∧ x ≤ b)) (h' : c - b = 0 → x ≤ a ∨ c ≤ x ∨ (a < x ∧ x ≤ b)) :
    Fuzzy.triangularE x a b c = .ok (Fuzzy.triangular x a b c) := by
  have z : @OfNat.ofNat ℝ 0 (instOfNatNum 0) = 0 := by rw [real_ofNat]; simp
  unfold Fuzzy.triangularE Fuzzy.triangular Fuzzy.pdiv
  rw [z]
  split
  · rfl
  · rename_i h1
    split
    · rename_i h2
      rw [if_neg (fun e => h e h2)]
    · rename_i h2
      rw [if_neg]
      intro e
      rcases h' e with q | q | q
      · exact h1 (.inl q)
      · exact h1 (.inr q)
      · exact h2 q

theorem Fuzzy.triangular_low (x : ℝ) :
    Fuzzy.triangular x 0 0 (1 / 2) = if 0 < x ∧ x < 1 / 2 then 1 - 2 * x else 0 := by
  unfold Fuzzy.triangular
  have z : @OfNat.ofNat ℝ 0 (instOfNatNum 0) = 0 := by rw [real_ofNat]; simp
  rw [z]
  by_cases h : x ≤ 0 ∨ 1 / 2 ≤ x
  · rw [if_pos h, if_neg (by rintro ⟨h1, h2⟩; rcases h with h | h <;> linarith)]
  · rw [if_neg h]
    rw [not_or, not_le, not_le] at h
    rw [if_neg (by rintro ⟨h1, h2⟩; linarith [h.1]), if_pos h]
    ring

theorem Fuzzy.triangular_medium (x : ℝ) :
    Fuzzy.triangular x 0 (1 / 2) 1 = if 0 < x ∧ x < 1 then 1 - |2 * x - 1| else 0 := by
  unfold Fuzzy.triangular
  have z : @OfNat.ofNat ℝ 0 (instOfNatNum 0) = 0 := by rw [real_ofNat]; simp
  rw [z]
  by_cases h : x ≤ 0 ∨ 1 ≤ x
  · rw [if_pos h, if_neg (by rintro ⟨h1, h2⟩; rcases h with h | h <;> linarith)]
  · rw [if_neg h]
    rw [not_or, not_le, not_le] at h
    rw [if_pos h]
    by_cases h3 : x ≤ 1 / 2
    · rw [if_pos ⟨h.1, h3⟩, abs_of_nonpos (by linarith)]
      ring
    · rw [if_neg (fun q => h3 q.2), abs_of_nonneg (by linarith)]
      ring

theorem Fuzzy.triangular_high (x : ℝ) :
    Fuzzy.triangular x (1 / 2) 1 1 = if 1 / 2 < x ∧ x < 1 then 2 * x - 1 else 0 := by
  unfold Fuzzy.triangular
  have z : @OfNat.ofNat ℝ 0 (instOfNatNum 0) = 0 := by rw [real_ofNat]; simp
  rw [z]
  by_cases h : x ≤ 1 / 2 ∨ 1 ≤ x
  · rw [if_pos h, if_neg (by rintro ⟨h1, h2⟩; rcases h with h | h <;> linarith)]
  · rw [if_neg h]
    rw [not_or, not_le, not_le] at h
    rw [if_pos h, if_pos ⟨h.1, h.2.le⟩]
    ring

theorem Fuzzy.fuzzifyE_ok (x : ℝ) : ∃ m, Fuzzy.fuzzifyE x = .ok m ∧ Fuzzy.fuzzify x = m ∧
    Fuzzy.Triangles x m.low m.medium m.high := by
  have z : @OfNat.ofNat ℝ 0 (instOfNatNum 0) = 0 := by rw [real_ofNat]; simp
  have o : @OfNat.ofNat ℝ 1 (instOfNatNum 1) = 1 := by rw [real_ofNat]; simp
  have f : @OfScientific.ofScientific ℝ instOfScientificNum 5 true 1 = 1 / 2 := by rw [real_ofSci]; norm_num
  refine ⟨Fuzzy.fuzzify x, ?_, rfl, ?_⟩
  · unfold Fuzzy.fuzzifyE Fuzzy.fuzzify
    rw [z, o, f]
    rw [Fuzzy.triangularE_eq x 0 0 (1 / 2) (by rintro - ⟨h1, h2⟩; linarith) (by intro h; norm_num at h),
      Fuzzy.triangularE_eq x 0 (1 / 2) 1 (by intro h; norm_num at h) (by intro h; norm_num at h),
      Fuzzy.triangularE_eq x (1 / 2) 1 1 (by intro h; norm_num at h) (by
        intro _
        rcases le_or_gt x (1 / 2) with h | h
        · exact .inl h
        · rcases le_total x 1 with h' | h'
          · exact .inr (.inr ⟨h, h'⟩)
          · exact .inr (.inl h'))]
    rfl
  · unfold Fuzzy.fuzzify
    rw [z, o, f]
    exact ⟨Fuzzy.triangular_low x, Fuzzy.triangular_medium x, Fuzzy.triangular_high x⟩

theorem Fuzzy.Triangles.nonneg {x l m h : ℝ} (t : Fuzzy.Triangles x l m h) : 0 ≤ l ∧ 0 ≤ m ∧ 0 ≤ h := by
  refine ⟨?_, ?_, ?_⟩
  · rw [t.low]; split
    · rename_i hh; linarith [hh.2]
    · exact le_rfl
  · rw [t.medium]; split
    · rename_i hh
      have : |2 * x - 1| ≤ 1 := abs_le.2 ⟨by linarith [hh.1], by linarith [hh.2]⟩
      linarith
    · exact le_rfl
  · rw [t.high]; split
    · rename_i hh; linarith [hh.1]
    · exact le_rfl

theorem Fuzzy.defuzzifyE_ok {m : Fuzzy.Membership ℝ} (h1 : 0 ≤ m.low) (h2 : 0 ≤ m.medium) (h3 : 0 ≤ m.high) :
    ∃ w, Fuzzy.defuzzifyE m = .ok w ∧ Fuzzy.defuzzify m = w ∧ w ∈ Icc (25 : ℝ) 75 ∧
      w * (m.low + m.medium + m.high) = 25 * m.low + 50 * m.medium + 75 * m.high := by
  unfold Fuzzy.defuzzifyE Fuzzy.defuzzify Fuzzy.pdiv
  simp only [real_ofNat]
  norm_num
  by_cases hz : m.low + m.medium + m.high = 0
  · rw [if_pos hz, if_pos hz]
    refine ⟨50, rfl, rfl, by norm_num, ?_⟩
    rw [hz]
    have : m.low = 0 := by linarith
    have : m.medium = 0 := by linarith
    have : m.high = 0 := by linarith
    simp [*]
  · rw [if_neg hz, if_neg hz]
    have hp : 0 < m.low + m.medium + m.high := lt_of_le_of_ne (by linarith) (Ne.symm hz)
    simp only [hz, if_false]
    refine ⟨_, rfl, rfl, ⟨?_, ?_⟩, ?_⟩
    · rw [le_div_iff₀ hp]; linarith
    · rw [div_le_iff₀ hp]; linarith
    · rw [div_mul_cancel₀ _ hz]; ring

/-- C49: for `max_iterations ≠ 0` and every iteration number (negative or beyond the maximum
included), both pyramid types give three weights between 25 and 75; no division by zero occurs. -/
theorem C49_weights_in_range (increase : Bool) (i n : ℝ) (hn : n ≠ 0) :
    ∃ a b c, Fuzzy.getFuzzyWeights increase i n = .ok (a, b, c) ∧
      a ∈ Icc (25 : ℝ) 75 ∧ b ∈ Icc (25 : ℝ) 75 ∧ c ∈ Icc (25 : ℝ) 75 := by
  obtain ⟨m, hm, -, t⟩ := Fuzzy.fuzzifyE_ok (i / n)
  obtain ⟨h1, h2, h3⟩ := t.nonneg
  have hz : Fuzzy.pdiv i n = .ok (i / n) := by
    unfold Fuzzy.pdiv
    simp only [real_ofNat]
    simp [hn]
  unfold Fuzzy.getFuzzyWeights
  rw [hz]
  show ∃ a b c, (Fuzzy.fuzzifyE (i / n) >>= _) = _ ∧ _
  rw [hm]
  have hz0 : (0 : ℝ) ≤ @OfNat.ofNat ℝ 0 (instOfNatNum 0) := by rw [real_ofNat]; simp
  cases increase with
  | true =>
    obtain ⟨a, ea, -, ra, -⟩ := Fuzzy.defuzzifyE_ok (m := (Fuzzy.memberships true m).1)
      h1 (le_max_of_le_left h2) h3
    obtain ⟨b, eb, -, rb, -⟩ := Fuzzy.defuzzifyE_ok (m := (Fuzzy.memberships true m).2.1)
      h3 (le_max_of_le_right h3) hz0
    obtain ⟨c, ec, -, rc, -⟩ := Fuzzy.defuzzifyE_ok (m := (Fuzzy.memberships true m).2.2)
      (le_max_of_le_left h2) h1 hz0
    refine ⟨a, b, c, ?_, ra, rb, rc⟩
    show (Fuzzy.defuzzifyE (Fuzzy.memberships true m).1 >>= _) = _
    rw [ea]
    show (Fuzzy.defuzzifyE (Fuzzy.memberships true m).2.1 >>= _) = _
    rw [eb]
    show (Fuzzy.defuzzifyE (Fuzzy.memberships true m).2.2 >>= _) = _
    rw [ec]
    rfl
  | false =>
    obtain ⟨a, ea, -, ra, -⟩ := Fuzzy.defuzzifyE_ok (m := (Fuzzy.memberships false m).1)
      h3 (le_max_of_le_left h2) h1
    obtain ⟨b, eb, -, rb, -⟩ := Fuzzy.defuzzifyE_ok (m := (Fuzzy.memberships false m).2.1)
      h3 (le_max_of_le_right h3) hz0
    obtain ⟨c, ec, -, rc, -⟩ := Fuzzy.defuzzifyE_ok (m := (Fuzzy.memberships false m).2.2)
      (le_max_of_le_left h1) h3 hz0
    refine ⟨a, b, c, ?_, ra, rb, rc⟩
    show (Fuzzy.defuzzifyE (Fuzzy.memberships false m).1 >>= _) = _
    rw [ea]
    show (Fuzzy.defuzzifyE (Fuzzy.memberships false m).2.1 >>= _) = _
    rw [eb]
    show (Fuzzy.defuzzifyE (Fuzzy.memberships false m).2.2 >>= _) = _
    rw [ec]
    rfl

/-- C49: `max_iterations = 0` raises. -/
theorem C49_zero_iterations (increase : Bool) (i : ℝ) : Fuzzy.getFuzzyWeights increase i 0 = .error .zeroDiv := by
  unfold Fuzzy.getFuzzyWeights Fuzzy.pdiv
  simp only [real_ofNat]
  simp
  rfl

/-- C49: strictly before the half of the run, the "increase" pyramid gives alpha less weight than beta
(exactly 50), so the leaders are not weighted by rank; outside (0, 1) all three weights are 50. -/
theorem C49_increase_pyramid_not_ranked (i n : ℝ) (hn : n ≠ 0) :
    ((0 < i / n ∧ i / n < 1 / 2) → ∃ a c, Fuzzy.getFuzzyWeights true i n = .ok (a, 50, c) ∧ a < 50) ∧
    ((i / n ≤ 0 ∨ 1 ≤ i / n) → Fuzzy.getFuzzyWeights true i n = .ok (50, 50, 50)) := by
  obtain ⟨m, hm, -, t⟩ := Fuzzy.fuzzifyE_ok (i / n)
  obtain ⟨h1, h2, h3⟩ := t.nonneg
  have hz : Fuzzy.pdiv i n = .ok (i / n) := by
    unfold Fuzzy.pdiv
    simp only [real_ofNat]
    simp [hn]
  have hz0 : (0 : ℝ) ≤ @OfNat.ofNat ℝ 0 (instOfNatNum 0) := by rw [real_ofNat]; simp
  obtain ⟨a, ea, -, ra, qa⟩ := Fuzzy.defuzzifyE_ok (m := (Fuzzy.memberships true m).1)
    h1 (le_max_of_le_left h2) h3
  obtain ⟨b, eb, -, rb, qb⟩ := Fuzzy.defuzzifyE_ok (m := (Fuzzy.memberships true m).2.1)
    h3 (le_max_of_le_right h3) hz0
  obtain ⟨c, ec, -, rc, qc⟩ := Fuzzy.defuzzifyE_ok (m := (Fuzzy.memberships true m).2.2)
    (le_max_of_le_left h2) h1 hz0
  have hw : Fuzzy.getFuzzyWeights true i n = .ok (a, b, c) := by
    unfold Fuzzy.getFuzzyWeights
    rw [hz]
    show (Fuzzy.fuzzifyE (i / n) >>= _) = _
    rw [hm]
    show (Fuzzy.defuzzifyE (Fuzzy.memberships true m).1 >>= _) = _
    rw [ea]
    show (Fuzzy.defuzzifyE (Fuzzy.memberships true m).2.1 >>= _) = _
    rw [eb]
    show (Fuzzy.defuzzifyE (Fuzzy.memberships true m).2.2 >>= _) = _
    rw [ec]
    rfl
  have z : @OfNat.ofNat ℝ 0 (instOfNatNum 0) = 0 := by rw [real_ofNat]; simp
  simp only [Fuzzy.memberships, if_true, z] at qa qb
  rw [hw]
  constructor
  · rintro ⟨p1, p2⟩
    have el : m.low = 1 - 2 * (i / n) := by rw [t.low, if_pos ⟨p1, p2⟩]
    have eh : m.high = 0 := by rw [t.high, if_neg (by rintro ⟨q, -⟩; linarith)]
    have hb : b = 50 := by
      rw [eh] at qb
      have hp : 0 < max (max m.low m.medium) 0 :=
        lt_of_lt_of_le (by rw [el]; linarith) ((le_max_left m.low m.medium).trans (le_max_left _ _))
      have : b * max (max m.low m.medium) 0 = 50 * max (max m.low m.medium) 0 := by linarith
      exact mul_right_cancel₀ hp.ne' this
    refine ⟨a, c, by rw [hb], ?_⟩
    rw [eh] at qa
    have hm' : 0 ≤ max m.medium m.low := le_max_of_le_left h2
    have hl : 0 < m.low := by rw [el]; linarith
    by_contra hc
    nlinarith [not_lt.1 hc]
  · intro hx
    have el : m.low = 0 := by
      rw [t.low, if_neg]; rintro ⟨q1, q2⟩; rcases hx with hx | hx <;> linarith
    have em : m.medium = 0 := by
      rw [t.medium, if_neg]; rintro ⟨q1, q2⟩; rcases hx with hx | hx <;> linarith
    have eh : m.high = 0 := by
      rw [t.high, if_neg]; rintro ⟨q1, q2⟩; rcases hx with hx | hx <;> linarith
    have zero : ∀ m' : Fuzzy.Membership ℝ, m'.low = 0 → m'.medium = 0 → m'.high = 0 →
        Fuzzy.defuzzifyE m' = .ok 50 := by
      intro m' e1 e2 e3
      unfold Fuzzy.defuzzifyE
      simp only [real_ofNat, e1, e2, e3]
      norm_num
    have ha := ea.symm.trans (zero _ el (by simp [Fuzzy.memberships, el, em]) eh)
    have hb := eb.symm.trans (zero _ eh (by simp [Fuzzy.memberships, el, em, eh]) (by simp [Fuzzy.memberships, z]))
    have hc := ec.symm.trans (zero _ (by simp [Fuzzy.memberships, em, eh]) el (by simp [Fuzzy.memberships, z]))
    injection ha with ha
    injection hb with hb
    injection hc with hc
    rw [ha, hb, hc]

/-- iteration 1 of 4 meets the hypotheses of the theorems above -/
example : (4 : ℝ) ≠ 0 ∧ 0 < (1 : ℝ) / 4 ∧ (1 : ℝ) / 4 < 1 / 2 := by norm_num

end Mealpy
