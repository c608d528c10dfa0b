import Verif.RealNum
import Verif.Alg.Simple4
import Verif.Alg.Simple12
import Verif.Alg.Simple13
import Verif.Alg.Simple14
import Verif.Alg.Simple15
import Verif.Alg.Simple16
import Verif.Alg.Simple17
import Verif.Alg.Simple21
import Verif.Alg.SAPDE
import Mathlib.Tactic.Linarith
import Mathlib.Tactic.NormNum
import Mathlib.Tactic.FieldSimp
import Mathlib.Tactic.Positivity
import Mathlib.Algebra.Order.Floor.Ring

/-! # The arithmetic assumptions of the catalogue, over the exact reals

Several lines of the catalogue assume something of the numbers (that `int(n * u) < n` when `u < 1`, and so on), because the models use no law
of arithmetic. Over the reals these are facts, for the parameters the constructors accept. -/

namespace Mealpy

variable {d : Nat} {c : Cfg d ℝ}

theorem real_num (n : Nat) : (♯n : ℝ) = n := by
  show ((n : ℚ) : ℝ) = _
  simp

theorem real_int (n : Int) : (Num.ofInt n : ℝ) = n := by
  show ((n : ℚ) : ℝ) = _
  simp

theorem real_trunc {x : ℝ} (h : 0 ≤ x) : Num.trunc x = ⌊x⌋ := by
  unfold Num.trunc
  rw [if_neg (by rw [real_ofNat]; simpa using h)]; rfl

theorem real_ceil (x : ℝ) : Num.ceil x = ⌈x⌉ := rfl

theorem real_round (x : ℝ) : Num.ufunc "round" x = roundEven x := by
  simp [Num.ufunc, realFunc]

theorem roundEven_int (x : ℝ) : ∃ n : Int, roundEven x = n ∧ ⌊x⌋ ≤ n ∧ n ≤ ⌈x⌉ := by
  have h0 : ⌊x⌋ ≤ ⌈x⌉ := Int.floor_le_ceil x
  have h1 : ¬ Int.fract x < 1 / 2 → ⌊x⌋ + 1 ≤ ⌈x⌉ := by
    intro h
    rw [Int.add_one_le_iff, Int.lt_ceil]
    have := Int.self_sub_floor x
    linarith
  unfold roundEven
  split
  · exact ⟨⌊x⌋, rfl, le_rfl, h0⟩
  · rename_i h
    split
    · exact ⟨⌊x⌋ + 1, by push_cast; rfl, by omega, h1 h⟩
    · split
      · exact ⟨⌊x⌋, rfl, le_rfl, h0⟩
      · exact ⟨⌊x⌋ + 1, by push_cast; rfl, by omega, h1 h⟩

theorem floor_share {n : Nat} {x : ℝ} (h1 : x ≤ n) : ⌊x⌋ ≤ (n : Int) := by
  have := (Int.floor_le x).trans h1
  exact_mod_cast this

/-- `mealpy/swarm_based/WSO.py:121`: `int(n * u) < n` -/
theorem OriginalWSO.indexes_real (h : 0 < c.popSize) : OriginalWSO.Indexes c := by
  intro u h0 h1
  rw [real_ofNat] at h0 h1
  rw [real_num]
  have hn : (0 : ℝ) < c.popSize := by exact_mod_cast h
  norm_num at h0 h1
  refine ⟨Int.floor_nonneg.2 (mul_nonneg hn.le h0), Int.floor_lt.2 ?_⟩
  push_cast
  nlinarith

/-- with ten agents or more `OriginalSHADE` always has a best agent to draw -/
theorem OriginalSHADE.tops_real (h : 10 ≤ c.popSize) : OriginalSHADE.Tops c := by
  have h10 : (10 : ℝ) ≤ c.popSize := by exact_mod_cast h
  have h0 : (0 : ℝ) < c.popSize := by linarith
  unfold OriginalSHADE.Tops
  simp only [real_num, real_ofNat, real_ofSci]
  norm_num
  refine ⟨by rw [div_le_iff₀ h0]; linarith, fun p h1 h2 => ?_⟩
  rw [div_le_iff₀ h0] at h1
  have h3 : (0 : ℝ) ≤ c.popSize * p := by nlinarith
  rw [real_trunc h3]
  exact ⟨Int.floor_pos.2 (by nlinarith), floor_share (by nlinarith)⟩

/-- `L_SHADE` always has one, whatever the population -/
theorem L_SHADE.tops_real (h : 5 ≤ c.popSize) : L_SHADE.Tops c where
  order := by simp only [real_ofSci]; norm_num
  top n h0 h1 p h2 h3 := by
    simp only [real_ofSci] at h2 h3
    rw [real_num, real_ceil]
    have hn : (0 : ℝ) < n := by exact_mod_cast h0
    have hn1 : (n : ℝ) ≤ c.popSize := by exact_mod_cast h1
    norm_num at h2 h3
    refine ⟨Int.ceil_pos.2 (by nlinarith), Int.ceil_le.2 ?_⟩
    push_cast
    nlinarith
  shrink ep h1 h2 := by
    have h5 : (5 : ℝ) ≤ c.popSize := by exact_mod_cast h
    have he : (0 : ℝ) < c.epoch := by exact_mod_cast (by omega : 0 < c.epoch)
    have he1 : (ep : ℝ) ≤ c.epoch := by exact_mod_cast h2
    have he0 : (1 : ℝ) ≤ ep := by exact_mod_cast h1
    have hd0 : (0 : ℝ) ≤ (c.popSize : ℝ) / (5 : Nat) := by positivity
    unfold L_SHADE.shrink
    simp only [real_num, real_ofNat, real_int, real_round]
    rw [real_trunc hd0]
    have f1 : (1 : ℝ) ≤ ⌊(c.popSize : ℝ) / (5 : Nat)⌋ := by
      have : (1 : Int) ≤ ⌊(c.popSize : ℝ) / (5 : Nat)⌋ := Int.le_floor.2 (by push_cast; linarith)
      exact_mod_cast this
    have f2 : (⌊(c.popSize : ℝ) / (5 : Nat)⌋ : ℝ) ≤ c.popSize := (Int.floor_le _).trans (by push_cast; linarith)
    push_cast at f1 f2 ⊢
    generalize (⌊(c.popSize : ℝ) / 5⌋ : ℝ) = m at *
    have g1 : (ep : ℝ) * ((m - c.popSize) / c.epoch) = (ep / c.epoch : ℝ) * (m - c.popSize) := by ring
    have r0 : (0 : ℝ) ≤ ep / c.epoch := div_nonneg (by linarith) he.le
    have r1 : (ep / c.epoch : ℝ) ≤ 1 := (div_le_one he).2 he1
    have lo : (1 : ℝ) ≤ c.popSize + (ep / c.epoch : ℝ) * (m - c.popSize) := by nlinarith
    have hi : c.popSize + (ep / c.epoch : ℝ) * (m - c.popSize) ≤ (c.popSize : ℝ) := by nlinarith
    show 0 < Num.trunc (roundEven ((c.popSize : ℝ) + ep * ((m - c.popSize) / c.epoch))) ∧ Num.trunc (roundEven ((c.popSize : ℝ) + ep * ((m - c.popSize) / c.epoch))) ≤ c.popSize
    rw [g1]
    generalize (c.popSize : ℝ) + (ep / c.epoch : ℝ) * (m - c.popSize) = x at *
    obtain ⟨n, hn, hn1, hn2⟩ := roundEven_int x
    have a1 : 1 ≤ ⌊x⌋ := Int.le_floor.2 (by push_cast; exact lo)
    have a2 : ⌈x⌉ ≤ (c.popSize : Int) := Int.ceil_le.2 (by push_cast; exact hi)
    rw [hn, real_trunc (by exact_mod_cast (by omega : 0 ≤ n)), Int.floor_intCast]
    omega

/-- the shares of female spiders the constructor accepts (`mealpy/swarm_based/SSpiderO.py:67-69`) are shares -/
theorem OriginalSSpiderO.shares_real {p : OriginalSSpiderO.Params ℝ} (h0 : (0 : ℝ) < p.fMin) (h1 : p.fMin ≤ p.fMax) (h2 : p.fMax < (1 : ℝ)) :
    OriginalSSpiderO.Shares c p := by
  intro u hu0 hu1
  rw [real_ofNat] at hu0 hu1
  norm_num at hu0 hu1
  have hn : (0 : ℝ) ≤ c.popSize := by exact_mod_cast c.popSize.zero_le
  unfold OriginalSSpiderO.females
  rw [real_num]
  have a0 : (0 : ℝ) ≤ p.fMin + (p.fMax - p.fMin) * u := by nlinarith
  have a1 : p.fMin + (p.fMax - p.fMin) * u ≤ (1 : ℝ) := by nlinarith
  rw [real_trunc (mul_nonneg hn a0)]
  exact ⟨Int.floor_nonneg.2 (mul_nonneg hn a0), floor_share (by nlinarith)⟩

/-- the rates the constructor of `OriginalCRO` accepts (`mealpy/evolutionary_based/CRO.py:88-89`) are rates -/
theorem OriginalCRO.rates_real {p : OriginalCRO.Params ℝ} (h0 : (0 : ℝ) < p.fb) (h1 : p.fb < (1 : ℝ)) (h2 : (0 : ℝ) < p.po) : OriginalCRO.Rates c p where
  fb n _ := by
    have hn : (0 : ℝ) ≤ n := by exact_mod_cast n.zero_le
    unfold OriginalCRO.part
    rw [real_num, real_trunc (mul_nonneg hn h0.le)]
    have := floor_share (by nlinarith : (n : ℝ) * p.fb ≤ n)
    omega
  po := by
    have hn : (0 : ℝ) ≤ c.popSize := by exact_mod_cast c.popSize.zero_le
    have hp : (0 : ℝ) < (1 : Nat) + p.po := by push_cast; linarith
    unfold OriginalCRO.settled
    rw [real_num, real_ofNat, real_trunc (div_nonneg hn hp.le)]
    have := floor_share (n := c.popSize) (x := (c.popSize : ℝ) / ((1 : Nat) + p.po)) (by rw [div_le_iff₀ hp]; push_cast; nlinarith)
    omega

/-- the numbers of seeds the constructor of `OriginalIWO` accepts (`mealpy/bio_based/IWO.py:71-72`) -/
theorem OriginalIWO.sows_real {p : OriginalIWO.Params ℝ} (h1 : 1 ≤ p.seedMin) (h2 : p.seedMin ≤ p.seedMax) : OriginalIWO.Sows p where
  ratio f w b h hne := by
    rw [real_ofNat]
    norm_num
    rcases h with ⟨h3, h4⟩ | ⟨h3, h4⟩
    · exact div_nonneg (by linarith) (by linarith)
    · exact div_nonneg_of_nonpos (by linarith) (by linarith)
  one r hr := by
    rw [real_ofNat] at hr
    norm_num at hr
    have e1 : (1 : ℝ) ≤ p.seedMin := by exact_mod_cast h1
    have e2 : (p.seedMin : ℝ) ≤ p.seedMax := by exact_mod_cast h2
    rw [real_num, real_num, real_ceil]
    have : (1 : ℝ) ≤ p.seedMin + (p.seedMax - p.seedMin) * r := by nlinarith [mul_nonneg (sub_nonneg.2 e2) hr]
    exact Int.one_le_ceil_iff.2 (by linarith)

theorem SAP_DE.small_real : SAP_DE.Small ℝ where
  one := by simp only [real_ofNat]; norm_num
  four := by simp only [real_ofNat]; norm_num
  cut u h0 h1 := by
    simp only [real_ofNat] at h0 h1
    norm_num at h0 h1
    rw [real_trunc h0]
    exact ⟨Int.floor_nonneg.2 h0, floor_share (n := 4) (by push_cast; exact h1)⟩

/-- three fields that are not empty: at least one agent in the positive field, one in the negative field, and one between them -/
theorem DevEFO.fields_real {p : DevEFO.Params ℝ} (h1 : (1 : ℝ) ≤ c.popSize * p.pField) (h2 : (0 : ℝ) < p.nField) (hp : 0 < c.popSize)
    (h3 : (c.popSize : ℝ) * p.pField + 2 ≤ c.popSize * (1 - p.nField)) : DevEFO.Fields c p := by
  have hn : (0 : ℝ) < c.popSize := by exact_mod_cast hp
  unfold DevEFO.Fields DevEFO.top DevEFO.mid DevEFO.low
  simp only [real_num, real_ofNat]
  push_cast
  have a0 : (0 : ℝ) ≤ c.popSize * p.pField := by linarith
  have b0 : (0 : ℝ) ≤ c.popSize * p.pField + 1 := by linarith
  have c0 : (0 : ℝ) ≤ c.popSize * (1 - p.nField) := by linarith
  have c1 : (c.popSize : ℝ) * (1 - p.nField) < c.popSize := by nlinarith
  rw [real_trunc a0, real_trunc b0, real_trunc c0]
  refine ⟨Int.floor_pos.2 h1, floor_share (by linarith), Int.floor_nonneg.2 b0, ?_, Int.floor_lt.2 (by push_cast; exact c1)⟩
  rw [← Int.add_one_le_iff, Int.le_floor]
  push_cast
  have := Int.floor_le ((c.popSize : ℝ) * p.pField + 1)
  linarith

/-- two agents in the best group and two in the middle one -/
theorem DevGSKA.groups_real {pb : ℝ} (h1 : (2 : ℝ) ≤ pb * c.popSize) (h2 : (2 : ℝ) ≤ c.popSize * (1 - 2 * pb)) : DevGSKA.Groups c pb := by
  have e1 : (DevGSKA.id1 c pb : Int) = ⌊pb * (c.popSize : ℝ)⌋ := by
    unfold DevGSKA.id1
    rw [real_num, real_trunc (by linarith), Int.toNat_of_nonneg (Int.floor_nonneg.2 (by linarith))]
  have e1' : ((DevGSKA.id1 c pb : Nat) : ℝ) ≤ pb * c.popSize := by
    have := Int.floor_le (pb * (c.popSize : ℝ))
    rw [← e1] at this
    exact_mod_cast this
  have p1 : (0 : ℝ) ≤ (DevGSKA.id1 c pb : Nat) := Nat.cast_nonneg _
  have e2 : (DevGSKA.id2 c pb : Int) = ⌊((DevGSKA.id1 c pb : Nat) : ℝ) + c.popSize * (1 - 2 * pb)⌋ := by
    unfold DevGSKA.id2
    simp only [real_num, real_ofNat]
    have e0 : (0 : ℝ) ≤ ((DevGSKA.id1 c pb : Nat) : ℝ) + c.popSize * (1 - 2 * pb) := by linarith
    rw [show (((1 : Nat) : ℝ)) = 1 by norm_num, show (((2 : Nat) : ℝ)) = 2 by norm_num, real_trunc e0, Int.toNat_of_nonneg (Int.floor_nonneg.2 e0)]
  have a1 : (2 : Int) ≤ ⌊pb * (c.popSize : ℝ)⌋ := Int.le_floor.2 (by push_cast; exact h1)
  have a2 : ((DevGSKA.id1 c pb + 2 : Nat) : Int) ≤ (DevGSKA.id2 c pb : Int) := by
    rw [e2]; exact Int.le_floor.2 (by push_cast; linarith)
  have a3 : (DevGSKA.id2 c pb : Int) ≤ (c.popSize : Int) - 2 := by
    rw [e2]
    have := Int.floor_le (((DevGSKA.id1 c pb : Nat) : ℝ) + c.popSize * (1 - 2 * pb))
    have h : (⌊((DevGSKA.id1 c pb : Nat) : ℝ) + c.popSize * (1 - 2 * pb)⌋ : ℝ) ≤ c.popSize - 2 := by linarith
    exact_mod_cast h
  unfold DevGSKA.Groups
  omega

/-- a rounded share of a group is at most the group -/
theorem OriginalFLA.share_real {a b u : ℝ} {n : Nat} (ha : a ≤ 1) (hb : b ≤ 1) (h0 : 0 ≤ u) (h1 : u < 1) : OriginalFLA.share a b n u ≤ n := by
  have hn : (0 : ℝ) ≤ n := Nat.cast_nonneg _
  unfold OriginalFLA.share
  rw [real_round, real_num]
  have hx : (b * n - a * n) * u + a * n ≤ (n : ℝ) := by
    have : (b * n - a * n) * u + a * n = n * (b * u + a * (1 - u)) := by ring
    rw [this]
    have : b * u + a * (1 - u) ≤ 1 := by nlinarith
    nlinarith
  show Num.trunc (roundEven ((b * n - a * n) * u + a * n)) ≤ n
  generalize (b * n - a * n) * u + a * (n : ℝ) = x at *
  obtain ⟨m, hm, _, hm2⟩ := roundEven_int x
  have a2 : ⌈x⌉ ≤ (n : Int) := Int.ceil_le.2 (by push_cast; exact hx)
  rw [hm]
  unfold Num.trunc
  split
  · rename_i hneg
    rw [real_ofNat] at hneg
    have : (m : ℝ) < ((0 : Int) : ℝ) := by simpa using hneg
    have : m < 0 := by exact_mod_cast this
    have e : Num.floor (-(m : ℝ)) = -m := by
      show ⌊-(m : ℝ)⌋ = -m
      rw [← Int.cast_neg, Int.floor_intCast]
    show -Num.floor (-(m : ℝ)) ≤ _
    rw [e]
    omega
  · show ⌊(m : ℝ)⌋ ≤ _
    rw [Int.floor_intCast]
    omega

/-- neither share exceeds the group -/
theorem OriginalFLA.calm_real {p : OriginalFLA.Params ℝ} (h3 : p.c3 ≤ (1 : ℝ)) (h4 : p.c4 ≤ (1 : ℝ)) : OriginalFLA.Calm c p := by
  refine ⟨fun u h0 h1 => ?_, fun u h0 h1 => ?_⟩
  all_goals
    rw [real_ofNat] at h0 h1
    push_cast at h0 h1
  · exact share_real h3 h4 h0 h1
  · exact share_real (by simp only [real_ofSci]; norm_num) (by simp only [real_ofSci]; norm_num) h0 h1

/-- some upper bound is not negative -/
theorem OriginalSRSR.calm_real (hP : c.P.Lawful) (b : Base c) (h : ∃ j, (0 : ℝ) ≤ c.P.ub j) : OriginalSRSR.Calm c where
  mul a b := by simp only [real_ofNat]; norm_num; exact mul_nonneg
  add a b := by simp only [real_ofNat]; norm_num; exact add_nonneg
  abs a := by simp only [real_ofNat, real_abs]; norm_num
  one := by simp only [real_ofNat]; norm_num
  two := by simp only [real_ofNat]; norm_num
  width := by
    obtain ⟨j, _⟩ := h
    rw [real_ofNat]
    have h1 := (maxL_spec (l := List.ofFn fun j => c.P.ub j - c.P.lb j) (by simpa using j.pos)).2 (c.P.ub j - c.P.lb j) (List.mem_ofFn.2 ⟨j, rfl⟩)
    have h2 := (hP.generate_in b.vg j).1.trans (hP.generate_in b.vg j).2
    push_cast
    exact le_trans (by linarith : (0 : ℝ) ≤ c.P.ub j - c.P.lb j) h1
  upper := by
    obtain ⟨j, h⟩ := h
    rw [real_ofNat]
    push_cast
    exact h.trans ((maxL_spec (l := List.ofFn c.P.ub) (by simpa using j.pos)).2 (c.P.ub j) (List.mem_ofFn.2 ⟨j, rfl⟩))

end Mealpy
