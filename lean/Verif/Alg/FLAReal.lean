import Verif.StartRaise
import Verif.Alg.ExactReal
import Verif.Alg.Raise4
import Mathlib.Analysis.SpecialFunctions.Arsinh
import Mathlib.Analysis.Complex.ExponentialBounds

/-! # `OriginalFLA` with shares above the size of a group -/

set_option linter.unusedSectionVars false
set_option linter.unusedVariables false

namespace Mealpy
open Spec

section
variable {d : Nat} {K : Type} [Num K] {c : Cfg d K} {X Y : Type}

/-- building and evaluating agents does not return if making the `k`-th one does not -/
theorem buildEval_never {n k : Nat} (hk : k < n) {mk : St c X Y → Nat → D c (Vec d K × X)} (s : St c X Y)
    (h : ∀ s : St c X Y, DT (fun _ => True) (mk s k) (fun _ => False)) : Wp (fun _ => True) (buildEval n mk) s (fun _ _ => False) := by
  have hany : ∀ (s : St c X Y) i, i ≤ k → DT (fun _ => True) (mk s i) (fun _ => i < k) := by
    intro s i hi
    rcases Nat.lt_or_eq_of_le hi with h1 | rfl
    · exact DT.mono DT.any fun _ _ => h1
    · exact DT.mono (h s) fun _ h => h.elim
  unfold buildEval
  by_cases hm : c.swarmLike = true
  · rw [if_pos hm]
    refine Wp.bind (Wp.get (Wp.bind (Wp.draw (R := fun _ => False) ?_ fun _ _ _ h => h.elim)))
    intro g
    refine Wp.mono (Wp.iter (fun i _ _ => i ≤ k) n (Nat.zero_le k) ?_) fun _ _ h => by omega
    rintro i a g' hi hik
    exact Wp.bind (Wp.mono (hany s i hik g') fun _ _ h => Wp.pure (by omega))
  · rw [if_neg hm]
    refine Wp.mono (Wp.iter (fun i _ _ => i ≤ k) n (Nat.zero_le k) ?_) fun _ _ h => by omega
    rintro i a s' hi hik
    exact Wp.bind (Wp.get (Wp.bind (Wp.draw (hany s' i hik) fun p r v h1 => Wp.bind (Wp.liftB (Wp.getTarget (Wp.pure (by omega)))))))

end

namespace OriginalFLA

section
variable {d : Nat} {K : Type} [Num K] {c : Cfg d K}

/-- the first epoch lets more molecules cross than there are in the first group -/
theorem never (hE : c.E.Lawful) (hpos : 5 ≤ c.popSize) (p : Params K) (ep : Nat)
    (htf : Num.pow (Num.ufunc "sinh" (♯ep / ♯c.epoch)) p.c1 < 0.9)
    (hgo : ∀ v w : K, 0 ≤ v → v < 1 → 0 ≤ w → w < 1 → p.c5 * Num.pow (Num.ufunc "sinh" (♯ep / ♯c.epoch)) p.c1 - v < w)
    (hs : ∀ u : K, 0 ≤ u → u < 1 → (half c.popSize : Int) < share p.c3 p.c4 (half c.popSize) u) (s : St c Unit Unit) :
    Wp (fun _ => True) (evolve p ep : M c Unit Unit Unit) s (fun _ _ => False) := by
  have hb := half_bounds hpos
  unfold evolve
  refine Wp.bind (Wp.get (Wp.bind (Wp.draw (R := fun k : Ctx d K => k.tf = Num.pow (Num.ufunc "sinh" (♯ep / ♯c.epoch)) p.c1 ∧ k.pop1.length ≤ half c.popSize) ?_ fun k r v hk => ?_)))
  · unfold context
    refine DT.bind DT.any fun b1 _ => DT.bind DT.any fun b2 _ => DT.pure ⟨rfl, ?_⟩
    rw [List.length_take]
    exact Nat.min_le_left _ _
  refine Wp.bind (Wp.draw (R := fun pl : Plan K => ∃ m dof, half c.popSize < m ∧ pl = .diffuse true m dof) ?_ fun pl r v hpl => ?_)
  · unfold plan
    rw [hk.1, if_pos htf]
    refine DT.bind DT.any fun u _ => DT.bind (DT.random hE) fun v hv => DT.bind (DT.random hE) fun w hw => ?_
    rw [if_pos (hgo v w hv.1 hv.2 hw.1 hw.2)]
    refine DT.bind (DT.random hE) fun r hr => DT.pure ⟨_, _, ?_, rfl⟩
    have := hs r hr.1 hr.2
    omega
  obtain ⟨m, dof, hm, rfl⟩ := hpl
  refine Wp.bind (Wp.mono (buildEval_never hb.2 _ fun s => ?_) fun _ _ h => h.elim)
  unfold molecule
  refine DT.bind (R := fun _ => False) ?_ fun _ h => h.elim
  unfold position
  dsimp only
  rw [if_pos hm]
  unfold cross
  refine DT.bind (R := fun _ => False) (DT.nth_never hk.2 trivial) fun _ h => h.elim

end

/-- shares of two and more exceed the group -/
theorem share_big {a b u : ℝ} {n : Nat} (hn : 1 ≤ n) (ha : 2 ≤ a) (hb : 2 ≤ b) (h0 : 0 ≤ u) (h1 : u < 1) : (n : Int) < share a b n u := by
  have hn' : (1 : ℝ) ≤ n := by exact_mod_cast hn
  unfold share
  rw [real_round, real_num]
  have hx : (n : ℝ) + 1 ≤ (b * n - a * n) * u + a * n := by
    have : (b * n - a * n) * u + a * n = n * (b * u + a * (1 - u)) := by ring
    rw [this]
    have : 2 ≤ b * u + a * (1 - u) := by nlinarith
    nlinarith
  show (n : Int) < Num.trunc (roundEven ((b * n - a * n) * u + a * n))
  generalize (b * n - a * n) * u + a * (n : ℝ) = x at *
  obtain ⟨m, hm, hm1, _⟩ := roundEven_int x
  have a2 : (n : Int) + 1 ≤ ⌊x⌋ := Int.le_floor.2 (by push_cast; exact hx)
  rw [hm]
  unfold Num.trunc
  split
  · rename_i hneg
    rw [real_ofNat] at hneg
    have : (m : ℝ) < ((0 : Int) : ℝ) := by simpa using hneg
    have : m < 0 := by exact_mod_cast this
    omega
  · show _ < ⌊(m : ℝ)⌋
    rw [Int.floor_intCast]
    omega

theorem sinh_half : Real.sinh (1 / 2) < 0.9 := by
  have h1 := Real.exp_one_lt_d9
  have h2 : Real.exp (1 / 2) * Real.exp (1 / 2) = Real.exp 1 := by rw [← Real.exp_add]; norm_num
  have h3 := Real.exp_pos (-(1 / 2))
  rw [Real.sinh_eq]
  have : Real.exp (1 / 2) < 1.8 := by nlinarith [Real.exp_pos (1 / 2)]
  linarith

/-- the transfer factor of the first of two or more epochs -/
theorem tf_first {n : Nat} (hn : 2 ≤ n) {a : ℝ} (ha : 1 ≤ a) :
    0 < Num.pow (Num.ufunc "sinh" (♯1 / ♯n : ℝ)) a ∧ Num.pow (Num.ufunc "sinh" (♯1 / ♯n : ℝ)) a < (0.9 : ℝ) := by
  have e : Num.ufunc "sinh" (♯1 / ♯n : ℝ) = Real.sinh (1 / n) := by
    rw [real_num, real_num]
    simp [Num.ufunc, realFunc]
  have hn' : (2 : ℝ) ≤ n := by exact_mod_cast hn
  have h0 : 0 < Real.sinh (1 / n) := Real.sinh_pos_iff.2 (by positivity)
  have h1 : Real.sinh (1 / n) < 0.9 := lt_of_le_of_lt (Real.sinh_le_sinh.2 (by gcongr)) sinh_half
  rw [e]
  show 0 < Real.sinh (1 / n) ^ a ∧ Real.sinh (1 / n) ^ a < _
  refine ⟨Real.rpow_pos_of_pos h0 _, lt_of_le_of_lt ?_ h1⟩
  calc Real.sinh (1 / n) ^ a ≤ Real.sinh (1 / n) ^ (1 : ℝ) := Real.rpow_le_rpow_of_exponent_ge h0 (by linarith) ha
    _ = _ := Real.rpow_one _

variable {d : Nat} {c : Cfg d ℝ}

theorem never_real (hE : c.E.Lawful) (hpos : 5 ≤ c.popSize) (hep : 2 ≤ c.epoch) (p : Params ℝ) (h1 : 1 ≤ p.c1) (h3 : 2 ≤ p.c3) (h4 : 2 ≤ p.c4)
    (h5 : p.c5 < 0) (s : St c Unit Unit) : Wp (fun _ => True) (evolve p 1 : M c Unit Unit Unit) s (fun _ _ => False) := by
  have ht := tf_first hep h1
  refine never hE hpos p 1 ?_ (fun v w hv _ hw _ => ?_) (fun u h0 h1 => ?_) s
  · have := ht.2
    simp only [real_ofSci] at *
    norm_num at *
    exact this
  · rw [real_ofNat] at hv hw
    push_cast at hv hw
    nlinarith [mul_pos ht.1 (neg_pos.2 h5)]
  · rw [real_ofNat] at h0 h1
    push_cast at h0 h1
    exact share_big (half_bounds hpos).1 h3 h4 h0 h1

end OriginalFLA

end Mealpy
