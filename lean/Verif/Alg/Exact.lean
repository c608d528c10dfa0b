import Verif.Alg.Simple16
import Verif.Alg.Simple17
import Verif.Witness

/-! # The arithmetic assumptions of the SHADE family and of the coral reefs hold of exact numbers -/

namespace Mealpy

variable {d : Nat} {c : Cfg d ℚ}

theorem rat_ofNat (n : Nat) : (♯n : ℚ) = n := by
  simp [Num.ofNat, Num.ofRat]

theorem rat_trunc {x : ℚ} (h : 0 ≤ x) : Num.trunc x = ⌊x⌋ := by
  unfold Num.trunc
  rw [if_neg (by exact not_lt.2 h)]; rfl

theorem rat_ceil (x : ℚ) : Num.ceil x = ⌈x⌉ := rfl

/-- with ten agents or more `OriginalSHADE` always has a best agent to draw -/
theorem OriginalSHADE.tops_rat (h : 10 ≤ c.popSize) : OriginalSHADE.Tops c := by
  have h10 : (10 : ℚ) ≤ c.popSize := by exact_mod_cast h
  have h0 : (0 : ℚ) < c.popSize := by linarith
  unfold OriginalSHADE.Tops
  rw [rat_ofNat]
  show ((2 : ℚ) / c.popSize) ≤ (0.2 : ℚ) ∧ ∀ p : ℚ, (2 : ℚ) / c.popSize ≤ p → p ≤ (0.2 : ℚ) → _
  refine ⟨by rw [div_le_iff₀ h0]; norm_num; linarith, fun p h1 h2 => ?_⟩
  rw [div_le_iff₀ h0] at h1
  have h3 : (0 : ℚ) ≤ c.popSize * p := by nlinarith
  rw [rat_trunc h3]
  refine ⟨Int.floor_pos.2 (by nlinarith), ?_⟩
  have h4 : (c.popSize : ℚ) * p ≤ c.popSize := by nlinarith
  have h5 := (Int.floor_le ((c.popSize : ℚ) * p)).trans h4
  exact_mod_cast h5

/-- `L_SHADE` always has one, whatever the population -/
theorem L_SHADE.tops_rat (h : 5 ≤ c.popSize) : L_SHADE.Tops c where
  order := by show (0.15 : ℚ) ≤ (0.2 : ℚ); norm_num
  top n h0 h1 p h2 h3 := by
    change (0.15 : ℚ) ≤ p at h2
    change p ≤ (0.2 : ℚ) at h3
    rw [rat_ofNat, rat_ceil]
    have hn : (0 : ℚ) < n := by exact_mod_cast h0
    have hn1 : (n : ℚ) ≤ c.popSize := by exact_mod_cast h1
    norm_num at h2 h3
    refine ⟨Int.ceil_pos.2 (by nlinarith), Int.ceil_le.2 ?_⟩
    push_cast
    nlinarith
  shrink ep h1 h2 := by
    have h5 : (5 : ℚ) ≤ c.popSize := by exact_mod_cast h
    have he : (0 : ℚ) < c.epoch := by exact_mod_cast (by omega : 0 < c.epoch)
    have he1 : (ep : ℚ) ≤ c.epoch := by exact_mod_cast h2
    have he0 : (1 : ℚ) ≤ ep := by exact_mod_cast h1
    have e5 : ((♯c.popSize : ℚ) / 5) = (c.popSize : ℚ) / 5 := by rw [rat_ofNat]
    have hd0 : (0 : ℚ) ≤ (c.popSize : ℚ) / 5 := by linarith
    unfold L_SHADE.shrink
    rw [rat_ofNat, rat_ofNat, rat_ofNat]
    change 0 < Num.trunc ((c.popSize : ℚ) + ep * (((Num.trunc ((c.popSize : ℚ) / 5) - c.popSize : Int) : ℚ) / c.epoch)) ∧
      Num.trunc ((c.popSize : ℚ) + ep * (((Num.trunc ((c.popSize : ℚ) / 5) - c.popSize : Int) : ℚ) / c.epoch)) ≤ c.popSize
    rw [rat_trunc hd0]
    have f1 : (1 : ℚ) ≤ ⌊(c.popSize : ℚ) / 5⌋ := by
      have : (1 : Int) ≤ ⌊(c.popSize : ℚ) / 5⌋ := Int.le_floor.2 (by push_cast; linarith)
      exact_mod_cast this
    have f2 : (⌊(c.popSize : ℚ) / 5⌋ : ℚ) ≤ c.popSize := (Int.floor_le _).trans (by linarith)
    push_cast
    generalize (⌊(c.popSize : ℚ) / 5⌋ : ℚ) = m at *
    have g1 : (ep : ℚ) * ((m - c.popSize) / c.epoch) = (ep / c.epoch : ℚ) * (m - c.popSize) := by ring
    have r0 : (0 : ℚ) ≤ ep / c.epoch := div_nonneg (by linarith) he.le
    have r1 : (ep / c.epoch : ℚ) ≤ 1 := (div_le_one he).2 he1
    rw [g1]
    have lo : (1 : ℚ) ≤ c.popSize + (ep / c.epoch : ℚ) * (m - c.popSize) := by nlinarith
    have hi : c.popSize + (ep / c.epoch : ℚ) * (m - c.popSize) ≤ (c.popSize : ℚ) := by nlinarith
    rw [rat_trunc (by linarith)]
    refine ⟨Int.floor_pos.2 lo, ?_⟩
    have := (Int.floor_le (c.popSize + (ep / c.epoch : ℚ) * (m - c.popSize))).trans hi
    exact_mod_cast this

/-- the rates the constructor of `OriginalCRO` accepts (`mealpy/evolutionary_based/CRO.py:88-96`) are rates -/
theorem OriginalCRO.rates_rat {p : OriginalCRO.Params ℚ} (h0 : 0 ≤ p.fb) (h1 : p.fb ≤ 1) (h2 : 0 ≤ p.po) : OriginalCRO.Rates c p where
  fb n _ := by
    have hn : (0 : ℚ) ≤ n := by exact_mod_cast n.zero_le
    unfold OriginalCRO.part
    rw [rat_ofNat]
    change (Num.trunc ((n : ℚ) * p.fb)).toNat ≤ n
    rw [rat_trunc (mul_nonneg hn h0)]
    have h3 := (Int.floor_le ((n : ℚ) * p.fb)).trans (by nlinarith : (n : ℚ) * p.fb ≤ n)
    have h4 : ⌊(n : ℚ) * p.fb⌋ ≤ (n : Int) := by exact_mod_cast h3
    omega
  po := by
    have hn : (0 : ℚ) ≤ c.popSize := by exact_mod_cast c.popSize.zero_le
    have hp : (0 : ℚ) < 1 + p.po := by linarith
    unfold OriginalCRO.settled
    rw [rat_ofNat]
    change (Num.trunc ((c.popSize : ℚ) / (1 + p.po))).toNat ≤ c.popSize
    rw [rat_trunc (div_nonneg hn hp.le)]
    have h3 := (Int.floor_le ((c.popSize : ℚ) / (1 + p.po))).trans (by rw [div_le_iff₀ hp]; nlinarith : (c.popSize : ℚ) / (1 + p.po) ≤ c.popSize)
    have h4 : ⌊(c.popSize : ℚ) / (1 + p.po)⌋ ≤ (c.popSize : Int) := by exact_mod_cast h3
    omega

end Mealpy
