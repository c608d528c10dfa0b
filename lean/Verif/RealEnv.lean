import Verif.RealNum
import Verif.TapeEnv

/-! # A world over the reals, for the examples -/

namespace Mealpy

open Classical in
/-- whether a probability is not zero -/
noncomputable def notZero (x : ℝ) : Bool := decide (x ≠ 0)

/-- the draws of `tapeEnv`, as real numbers -/
noncomputable def realEnv : Env ℝ where
  σ := Nat
  random s := (((s % 8 : Nat) : ℝ) / 8, tapeNext s)
  uniform lo hi s := (lo + (((s % 8 : Nat) : ℝ) / 8) * (hi - lo), tapeNext s)
  normal loc scale s := (loc + scale * (((s % 4 : Nat) : ℝ) - 3 / 2), tapeNext s)
  dist _ _ s := (((s % 4 : Nat) : ℝ) - 3 / 2, tapeNext s)
  integers := tapeEnv.integers
  choice := tapeEnv.choice
  choiceP p s := (p.findIdx notZero % p.length, tapeNext s)
  permutation := tapeEnv.permutation
  order := tapeEnv.order
  lost := tapeEnv.lost
  clock s := (0, s)
  argsort := insArgsort

theorem real_fraction (s : Nat) : (0 : ℝ) ≤ ((s % 8 : Nat) : ℝ) / 8 ∧ ((s % 8 : Nat) : ℝ) / 8 < 1 := by
  have h : s % 8 < 8 := Nat.mod_lt _ (by decide)
  have h' : ((s % 8 : Nat) : ℝ) < 8 := by exact_mod_cast h
  have h0 : (0 : ℝ) ≤ ((s % 8 : Nat) : ℝ) := Nat.cast_nonneg _
  constructor <;> linarith

theorem realEnv_lawful : realEnv.Lawful where
  random_ge s := by
    change Nat at s
    rw [real_ofNat]
    have := (real_fraction s).1
    simpa [realEnv] using this
  random_lt s := by
    change Nat at s
    rw [real_ofNat]
    have := (real_fraction s).2
    push_cast
    exact this
  uniform_ge lo hi s h := by
    change Nat at s
    show lo ≤ lo + (((s % 8 : Nat) : ℝ) / 8) * (hi - lo)
    have := mul_nonneg (real_fraction s).1 (sub_nonneg.2 h)
    linarith
  uniform_le lo hi s h := by
    change Nat at s
    show lo + (((s % 8 : Nat) : ℝ) / 8) * (hi - lo) ≤ hi
    have h2 : 0 ≤ hi - lo := sub_nonneg.2 h
    have := (real_fraction s).2
    nlinarith
  integers_ge := tapeEnv_lawful.integers_ge
  integers_lt := tapeEnv_lawful.integers_lt
  choice_length := tapeEnv_lawful.choice_length
  choice_lt := tapeEnv_lawful.choice_lt
  choice_nodup := tapeEnv_lawful.choice_nodup
  choiceP_lt p s hp := by
    show _ % p.length < p.length
    exact Nat.mod_lt _ (List.length_pos_iff.2 hp)
  choiceP_pos p s h := by
    obtain ⟨x, hx, hx0⟩ := h
    rw [real_ofNat] at hx0
    push_cast at hx0
    have hlt : p.findIdx notZero < p.length :=
      List.findIdx_lt_length_of_exists ⟨x, hx, by simpa [notZero] using hx0⟩
    show p[p.findIdx notZero % p.length]? ≠ _
    rw [Nat.mod_eq_of_lt hlt, List.getElem?_eq_getElem hlt, real_ofNat]
    have := List.findIdx_getElem (w := hlt)
    intro hh
    simp only [Option.some.injEq] at hh
    rw [hh] at this
    simp [notZero] at this
  permutation_perm := tapeEnv_lawful.permutation_perm
  order_perm := tapeEnv_lawful.order_perm
  lost_lt := tapeEnv_lawful.lost_lt
  argsort_perm := insArgsort_law.perm
  argsort_sorted := insArgsort_law.sorted

/-- `d` variables in `[-4, 4]`, generated on the integers; the objective is `f` -/
noncomputable def realProb (d : Nat) (f : Vec d ℝ → ℝ) : Prob d ℝ where
  S := Nat
  lb := fun _ => (-4 : Int)
  ub := fun _ => (4 : Int)
  mm := .min
  target := fun x => ⟨[f x], f x⟩
  correct := fun x s => (fun j => min (max (x j) ((-4 : Int) : ℝ)) ((4 : Int) : ℝ), s)
  generate := fun s => (fun j => (((s + j.1) % 9 : Nat) : ℝ) - 4, tapeNext s)

theorem realProb_lawful {d : Nat} {f : Vec d ℝ → ℝ} : (realProb d f).Lawful where
  correct_in x s j := by
    show ((-4 : Int) : ℝ) ≤ min (max (x j) ((-4 : Int) : ℝ)) ((4 : Int) : ℝ) ∧ min (max (x j) ((-4 : Int) : ℝ)) ((4 : Int) : ℝ) ≤ ((4 : Int) : ℝ)
    exact ⟨le_min (le_max_right _ _) (by norm_num), min_le_right _ _⟩
  generate_in s j := by
    change Nat at s
    show ((-4 : Int) : ℝ) ≤ (((s + j.1) % 9 : Nat) : ℝ) - 4 ∧ (((s + j.1) % 9 : Nat) : ℝ) - 4 ≤ ((4 : Int) : ℝ)
    have h : (s + j.1) % 9 ≤ 8 := Nat.lt_succ_iff.1 (Nat.mod_lt _ (by decide))
    have h' : (((s + j.1) % 9 : Nat) : ℝ) ≤ 8 := by exact_mod_cast h
    have h0 : (0 : ℝ) ≤ (((s + j.1) % 9 : Nat) : ℝ) := Nat.cast_nonneg _
    push_cast at *
    constructor <;> linarith

/-- two variables, `n` agents, three epochs; the sum of the squares -/
noncomputable def realCfg (n : Nat) : Cfg 2 ℝ := ⟨realEnv, realProb 2 (fun x => x 0 * x 0 + x 1 * x 1), .single, n, 3⟩

end Mealpy
