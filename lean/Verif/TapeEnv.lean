import Verif.RunEnv
import Mathlib.Data.Nat.ModEq

/-!
# A third concrete environment: draws that vary

The generator's state is a number below 101, stepped by a linear congruence; every draw is read off the state.  Used for counterexamples
that need different agents.
-/

set_option linter.unusedVariables false

namespace Mealpy

/-- the next state -/
def tapeNext (s : Nat) : Nat := (s * 37 + 11) % 101

/-- draws read off the state -/
def tapeEnv : Env ℚ where
  σ := Nat
  random s := ((s % 8 : Nat) / 8, tapeNext s)
  uniform lo hi s := (lo + ((s % 8 : Nat) / 8) * (hi - lo), tapeNext s)
  normal loc scale s := (loc + scale * ((s % 4 : Nat) - 3/2), tapeNext s)
  dist _ _ s := ((s % 4 : Nat) - 3/2, tapeNext s)
  integers lo hi s := (lo + ((s : Int) % (hi - lo)), tapeNext s)
  choice m k replace s :=
    (if replace || decide (m < k) then (List.range k).map (fun i => (i * s + s) % m) else (List.range k).map (fun i => (i + s) % m), tapeNext s)
  choiceP p s := (p.findIdx (fun x => decide (x ≠ 0)) % p.length, tapeNext s)
  permutation m s := ((List.range m).map (fun i => (i + s) % m), tapeNext s)
  order m s := (List.range m, s)
  lost m s := (0, s)
  clock s := (0, s)
  argsort := insArgsort

theorem tape_fraction (s : Nat) : (0 : ℚ) ≤ ((s % 8 : Nat) : ℚ) / 8 ∧ ((s % 8 : Nat) : ℚ) / 8 < 1 := by
  have h : s % 8 < 8 := Nat.mod_lt _ (by norm_num)
  have h' : ((s % 8 : Nat) : ℚ) < 8 := by exact_mod_cast h
  have h0 : (0 : ℚ) ≤ ((s % 8 : Nat) : ℚ) := Nat.cast_nonneg _
  constructor
  · positivity
  · rw [div_lt_one (by norm_num)]
    exact h'

/-- a cyclic shift of `0, …, m - 1` has no repetition -/
theorem shift_nodup {m k s : Nat} (h : k ≤ m) : ((List.range k).map (fun i => (i + s) % m)).Nodup := by
  rw [List.nodup_map_iff_inj_on List.nodup_range]
  intro a ha b hb hab
  have ha := List.mem_range.1 ha
  have hb := List.mem_range.1 hb
  have h1 : a % m = b % m := Nat.ModEq.add_right_cancel' s hab
  rwa [Nat.mod_eq_of_lt (by omega), Nat.mod_eq_of_lt (by omega)] at h1

theorem tapeEnv_lawful : tapeEnv.Lawful where
  random_ge s := (tape_fraction s).1
  random_lt s := (tape_fraction s).2
  uniform_ge lo hi s h := by
    change Nat at s
    show lo ≤ lo + ((s % 8 : Nat) / 8 : ℚ) * (hi - lo)
    have := mul_nonneg (tape_fraction s).1 (sub_nonneg.2 h)
    linarith
  uniform_le lo hi s h := by
    change Nat at s
    show lo + ((s % 8 : Nat) / 8 : ℚ) * (hi - lo) ≤ hi
    have h2 : 0 ≤ hi - lo := by linarith
    have := (tape_fraction s).2
    nlinarith
  integers_ge lo hi s h := by
    change Nat at s
    show lo ≤ lo + ((s : Int) % (hi - lo))
    have := Int.emod_nonneg (s : Int) (show hi - lo ≠ 0 by omega)
    omega
  integers_lt lo hi s h := by
    change Nat at s
    show lo + ((s : Int) % (hi - lo)) < hi
    have := Int.emod_lt_of_pos (s : Int) (show 0 < hi - lo by omega)
    omega
  choice_length m k rp s := by
    change Nat at s
    show (if _ then _ else _ : List Nat).length = k
    split <;> simp
  choice_lt m k rp s hn i hi := by
    change Nat at s
    change i ∈ (if (rp || decide (m < k)) = true then (List.range k).map (fun i => (i * s + s) % m) else (List.range k).map (fun i => (i + s) % m)) at hi
    split at hi
    all_goals
      obtain ⟨j, -, rfl⟩ := List.mem_map.1 hi
      exact Nat.mod_lt _ hn
  choice_nodup m k s h := by
    change Nat at s
    show (if (false || decide (m < k)) = true then (List.range k).map (fun i => (i * s + s) % m) else (List.range k).map (fun i => (i + s) % m)).Nodup
    rw [if_neg (by simp; omega)]
    exact shift_nodup h
  choiceP_lt p s hp := by
    show _ % p.length < p.length
    exact Nat.mod_lt _ (List.length_pos_iff.2 hp)
  choiceP_pos p s h := detEnv_lawful.choiceP_pos p (0 : Nat) h
  permutation_perm m s := by
    change Nat at s
    show List.Perm ((List.range m).map (fun i => (i + s) % m)) (List.range m)
    refine (List.perm_ext_iff_of_nodup (shift_nodup (le_refl m)) List.nodup_range).2 fun a => ⟨fun h => ?_, fun h => ?_⟩
    · obtain ⟨j, hj, rfl⟩ := List.mem_map.1 h
      have := List.mem_range.1 hj
      exact List.mem_range.2 (Nat.mod_lt _ (by omega))
    · have ha := List.mem_range.1 h
      refine List.mem_map.2 ⟨(a + (m - s % m)) % m, List.mem_range.2 (Nat.mod_lt _ (by omega)), ?_⟩
      have hs : s % m < m := Nat.mod_lt _ (by omega)
      rw [Nat.mod_add_mod]
      have : a + (m - s % m) + s = a + m * (s / m + 1) := by
        have := Nat.div_add_mod s m
        rw [Nat.mul_add]; omega
      rw [this, Nat.add_mul_mod_self_left, Nat.mod_eq_of_lt ha]
  order_perm m s := List.Perm.refl _
  lost_lt m s := Nat.zero_le _
  argsort_perm := insArgsort_law.perm
  argsort_sorted := insArgsort_law.sorted

/-- `d` variables in `[-4, 4]`; generated positions lie on a grid of `q` points per unit, variable `j` being `t * j` points ahead of the first; the
objective is `f` -/
def tapeProb (q t d : Nat) (f : Vec d ℚ → ℚ) (mm : MinMax) : Prob d ℚ where
  S := Nat
  lb := fun _ => -4
  ub := fun _ => 4
  mm := mm
  target := fun x => ⟨[f x], f x⟩
  correct := fun x s => (fun j => clip (x j) (-4) 4, s)
  generate := fun s => (fun j => -4 + (((s + t * j.1) % (8 * q + 1) : Nat) : ℚ) / q, tapeNext s)

theorem tapeProb_lawful {q t d : Nat} {f : Vec d ℚ → ℚ} {mm : MinMax} : (tapeProb q t d f mm).Lawful where
  correct_in x s j := by
    show (-4 : ℚ) ≤ min (max (x j) (-4)) 4 ∧ min (max (x j) (-4)) 4 ≤ 4
    exact ⟨le_min (le_max_right _ _) (by norm_num), min_le_right _ _⟩
  generate_in s j := by
    change Nat at s
    show (-4 : ℚ) ≤ -4 + (((s + t * j.1) % (8 * q + 1) : Nat) : ℚ) / q ∧ -4 + (((s + t * j.1) % (8 * q + 1) : Nat) : ℚ) / q ≤ 4
    have h : (s + t * j.1) % (8 * q + 1) ≤ 8 * q := Nat.lt_succ_iff.1 (Nat.mod_lt _ (by omega))
    have h' : (((s + t * j.1) % (8 * q + 1) : Nat) : ℚ) ≤ 8 * q := by exact_mod_cast h
    have h0 : (0 : ℚ) ≤ (((s + t * j.1) % (8 * q + 1) : Nat) : ℚ) := Nat.cast_nonneg _
    constructor
    · have : (0 : ℚ) ≤ (((s + t * j.1) % (8 * q + 1) : Nat) : ℚ) / q := by positivity
      linarith
    · rcases Nat.eq_zero_or_pos q with rfl | hq
      · norm_num
      · have hq' : (0 : ℚ) < q := by exact_mod_cast hq
        have : (((s + t * j.1) % (8 * q + 1) : Nat) : ℚ) / q ≤ 8 := by rw [div_le_iff₀ hq']; exact h'
        linarith

/-- `d` variables, objective `f`, `n` agents, `e` epochs -/
def tapeCfg (q t d : Nat) (f : Vec d ℚ → ℚ) (mm : MinMax) (mode : Valid.Mode) (n e : Nat) : Cfg d ℚ := ⟨tapeEnv, tapeProb q t d f mm, mode, n, e⟩

end Mealpy
