import Verif.Props.Algorithms
import Mathlib.Tactic.NormNum
import Mathlib.Tactic.FieldSimp
import Mathlib.Algebra.Order.Floor.Ring
import Mathlib.Data.Rat.Floor

/-!
# The hypotheses of the catalogue can be met

For every modelled algorithm, a concrete configuration (the sphere function in 36 dimensions, 36 agents,
10 epochs, exact rationals) and parameters for which the catalogue lists it, so that none of the theorems about
the catalogue is vacuous for it.  `OriginalESO`, whose hypothesis fails on wide boxes, gets a problem on `[0, 1]`.
Written by `tools/inhabited.py`.
-/

set_option linter.unusedVariables false

namespace Mealpy
open Spec

/-- the sphere function in 36 dimensions, 36 agents, 10 epochs -/
def wideCfg (m : Valid.Mode) : Cfg 36 ℚ := ⟨detEnv, sphereProb 36 .min, m, 36, 10⟩

theorem wideCfg_lawful (m : Valid.Mode) : (wideCfg m).E.Lawful ∧ (wideCfg m).P.Lawful := ⟨detEnv_lawful, sphereProb_lawful 36 .min⟩

theorem wide_accepted (m : Valid.Mode) {lo : Nat} (h : lo ≤ 36) : Accepted (wideCfg m) lo :=
  ⟨(by decide : 1 ≤ 10 ∧ 10 ≤ 100000), h, (by decide : 36 ≤ 100000)⟩

theorem wide_mirror (m : Valid.Mode) : MirrorsBox (wideCfg m) := mirror_exact _

theorem trunc_rat (x : ℚ) (h : 0 ≤ x) : Num.trunc x = ⌊x⌋ := by
  unfold Num.trunc
  rw [if_neg (not_lt.mpr h)]
  rfl

theorem ceil_rat (x : ℚ) : Num.ceil x = ⌈x⌉ := rfl

theorem roundMono_rat : RoundMono ℚ := fun _ _ h => Int.floor_le_floor h

theorem sapde_rat : SAP_DE.Small ℚ where
  one := by show (0 : ℚ) ≤ 1; norm_num
  four := by show (0 : ℚ) ≤ 4; norm_num
  cut u h0 h4 := by
    have h0 : (0 : ℚ) ≤ u := h0
    have h4 : u ≤ (4 : ℚ) := h4
    rw [trunc_rat u h0]
    exact ⟨Int.floor_nonneg.mpr h0, by exact_mod_cast (Int.floor_le u).trans h4⟩

/-- one to five seeds (any bounds `1 ≤ seedMin ≤ seedMax` would do) -/
theorem sows_rat : OriginalIWO.Sows (⟨2, 10, 2, 1, 1 / 100⟩ : OriginalIWO.Params ℚ) where
  ratio f w b h hne := by
    show (0 : ℚ) ≤ (f - w) / (b - w)
    rcases h with ⟨h1, h2⟩ | ⟨h1, h2⟩
    · exact div_nonneg (sub_nonneg.mpr h1) (sub_nonneg.mpr (h1.trans h2))
    · exact div_nonneg_of_nonpos (sub_nonpos.mpr h2) (sub_nonpos.mpr (h1.trans h2))
  one r hr := by
    have hr : (0 : ℚ) ≤ r := hr
    show 1 ≤ ⌈((2 : ℕ) : ℚ) + (((10 : ℕ) : ℚ) - ((2 : ℕ) : ℚ)) * r⌉
    rw [Int.one_le_ceil_iff]
    push_cast
    nlinarith

theorem wide_fla (m : Valid.Mode) : OriginalFLA.Calm (wideCfg m) ⟨1 / 2, 2, 1 / 10, 1 / 5, 2, 1 / 100⟩ := by
  have key : ∀ (a b u : ℚ) (n : ℕ), 0 ≤ a → a ≤ b → b ≤ 1 → 0 ≤ u → u < 1 → OriginalFLA.share a b n u ≤ n := by
    intro a b u n h1 h2 h3 h4 h5
    have hn : (0 : ℚ) ≤ n := Nat.cast_nonneg n
    have e : OriginalFLA.share a b n u = Num.trunc ((b * (n : ℚ) - a * n) * u + a * n) := rfl
    have h6 : 0 ≤ b * (n : ℚ) - a * n := by nlinarith
    have h7 : 0 ≤ (b * (n : ℚ) - a * n) * u := mul_nonneg h6 h4
    have h8 : (b * (n : ℚ) - a * n) * u ≤ b * (n : ℚ) - a * n := by nlinarith
    have h9 : b * (n : ℚ) ≤ n := by nlinarith
    rw [e, trunc_rat _ (by nlinarith)]
    have := Int.floor_le ((b * (n : ℚ) - a * n) * u + a * n)
    have h : ((⌊(b * (n : ℚ) - a * n) * u + a * n⌋ : ℤ) : ℚ) ≤ ((n : ℤ) : ℚ) := by push_cast; linarith
    exact_mod_cast h
  refine ⟨fun u h0 h1 => key _ _ u _ (by norm_num) (by norm_num) (by norm_num) h0 h1, fun u h0 h1 => key _ _ u _ ?_ ?_ ?_ h0 h1⟩
  · show (0 : ℚ) ≤ 0.1; norm_num
  · show (0.1 : ℚ) ≤ 0.2; norm_num
  · show (0.2 : ℚ) ≤ 1; norm_num

theorem wide_sfo (m : Valid.Mode) : OriginalSFO.Narrow (wideCfg m) ⟨1 / 10, 4, 1 / 100⟩ := by
  intro ep hep hlow
  have hep : ep ≤ 10 := hep
  have hlow : 4 * (1 - 2 * (ep : ℚ) * (1 / 100)) < 0.5 := hlow
  have : (ep : ℚ) ≤ 10 := by exact_mod_cast hep
  norm_num at hlow
  linarith

theorem wide_wso (m : Valid.Mode) : OriginalWSO.Indexes (wideCfg m) := by
  intro u h0 h1
  have h0 : (0 : ℚ) ≤ u := h0
  have h1 : u < (1 : ℚ) := h1
  show 0 ≤ ⌊((36 : ℕ) : ℚ) * u⌋ ∧ ⌊((36 : ℕ) : ℚ) * u⌋ < ((36 : ℕ) : ℤ)
  refine ⟨Int.floor_nonneg.mpr (by push_cast; linarith), Int.floor_lt.mpr (by push_cast; linarith)⟩

theorem wide_shade (m : Valid.Mode) : OriginalSHADE.Tops (wideCfg m) := by
  refine ⟨?_, fun p h1 h2 => ?_⟩
  · show (2 : ℚ) / ((36 : ℕ) : ℚ) ≤ 0.2
    norm_num
  · have h1 : (2 : ℚ) / ((36 : ℕ) : ℚ) ≤ p := h1
    have h2 : p ≤ (0.2 : ℚ) := h2
    norm_num at h1 h2
    show 0 < Num.trunc (((36 : ℕ) : ℚ) * p) ∧ Num.trunc (((36 : ℕ) : ℚ) * p) ≤ ((36 : ℕ) : ℤ)
    rw [trunc_rat _ (by push_cast; linarith)]
    refine ⟨Int.floor_pos.mpr (by push_cast; linarith), Int.floor_le_iff.mpr (by push_cast; linarith)⟩

theorem wide_lshade (m : Valid.Mode) : L_SHADE.Tops (wideCfg m) where
  order := by show (0.15 : ℚ) ≤ 0.2; norm_num
  top n hn hle p h1 h2 := by
    have h1 : (0.15 : ℚ) ≤ p := h1
    have h2 : p ≤ (0.2 : ℚ) := h2
    have hn : (1 : ℚ) ≤ n := by exact_mod_cast hn
    have hle : n ≤ 36 := hle
    have hle : (n : ℚ) ≤ 36 := by exact_mod_cast hle
    show 0 < ⌈(n : ℚ) * p⌉ ∧ ⌈(n : ℚ) * p⌉ ≤ ((36 : ℕ) : ℤ)
    refine ⟨Int.ceil_pos.mpr (by nlinarith), Int.ceil_le.mpr (by push_cast; nlinarith)⟩
  shrink ep h1 h2 := by
    have h1 : (1 : ℚ) ≤ ep := by exact_mod_cast h1
    have h2 : ep ≤ 10 := h2
    have h2 : (ep : ℚ) ≤ 10 := by exact_mod_cast h2
    have e7 : Num.trunc (((36 : ℕ) : ℚ) / 5) = 7 := by
      rw [trunc_rat _ (by norm_num)]
      norm_num
    have e : L_SHADE.shrink (wideCfg m) ep = Num.trunc ((36 : ℚ) + ep * ((((Num.trunc (((36 : ℕ) : ℚ) / 5) - ((36 : ℕ) : ℤ) : ℤ)) : ℚ) / 10)) := rfl
    rw [e, e7]
    push_cast
    rw [trunc_rat _ (by linarith)]
    show _ ∧ _ ≤ ((36 : ℕ) : ℤ)
    refine ⟨Int.floor_pos.mpr (by linarith), Int.floor_le_iff.mpr (by push_cast; linarith)⟩

theorem wide_cro (m : Valid.Mode) : OriginalCRO.Rates (wideCfg m) ⟨2 / 5, 9 / 10, 1 / 10, 1 / 10, 1 / 2, 1 / 10, 1 / 50, 1 / 5, 5⟩ where
  fb n _ := by
    have hn : (0 : ℚ) ≤ n := Nat.cast_nonneg n
    show (Num.trunc ((n : ℚ) * (9 / 10))).toNat ≤ n
    rw [trunc_rat _ (by linarith)]
    have := Int.floor_le ((n : ℚ) * (9 / 10))
    have h : ((⌊(n : ℚ) * (9 / 10)⌋ : ℤ) : ℚ) ≤ ((n : ℤ) : ℚ) := by push_cast; linarith
    have h : ⌊(n : ℚ) * (9 / 10)⌋ ≤ (n : ℤ) := by exact_mod_cast h
    omega
  po := by
    show (Num.trunc (((36 : ℕ) : ℚ) / (1 + 2 / 5))).toNat ≤ 36
    rw [trunc_rat _ (by norm_num)]
    norm_num

theorem wide_spiders (m : Valid.Mode) : OriginalSSpiderO.Shares (wideCfg m) ⟨13 / 20, 9 / 10⟩ := by
  intro u h0 h1
  have h0 : (0 : ℚ) ≤ u := h0
  have h1 : u < (1 : ℚ) := h1
  have e : OriginalSSpiderO.females (wideCfg m) ⟨13 / 20, 9 / 10⟩ u = Num.trunc (((36 : ℕ) : ℚ) * (13 / 20 + (9 / 10 - 13 / 20) * u)) := rfl
  rw [e, trunc_rat _ (by push_cast; linarith)]
  refine ⟨Int.floor_nonneg.mpr (by push_cast; linarith), Int.floor_le_iff.mpr (by show _ < (((36 : ℕ) : ℤ) : ℚ) + 1; push_cast; linarith)⟩

theorem wide_top (v : ℚ) : OriginalSRSR.top (fun _ : Fin 36 => v) = v := by
  have h := (maxL_spec (l := List.ofFn (fun _ : Fin 36 => v)) (by simp)).1
  obtain ⟨_, hi⟩ := List.mem_ofFn.mp h
  exact hi.symm

theorem wide_srsr (m : Valid.Mode) : OriginalSRSR.Calm (wideCfg m) where
  mul a b h1 h2 := mul_nonneg (α := ℚ) h1 h2
  add a b h1 h2 := add_nonneg (α := ℚ) h1 h2
  abs a := by
    unfold Num.abs
    split
    · rename_i h
      have h : a < (0 : ℚ) := h
      show (0 : ℚ) ≤ -a
      linarith
    · rename_i h
      exact not_lt.mp h
  one := by show (0 : ℚ) ≤ 1; norm_num
  two := by show (0 : ℚ) ≤ 2; norm_num
  width := by
    have e : OriginalSRSR.top (fun j => (wideCfg m).P.ub j - (wideCfg m).P.lb j) = (5 : ℚ) - (-5) := wide_top _
    rw [e]
    show (0 : ℚ) ≤ 5 - (-5)
    norm_num
  upper := by
    have e : OriginalSRSR.top (wideCfg m).P.ub = (5 : ℚ) := wide_top _
    rw [e]
    show (0 : ℚ) ≤ 5
    norm_num

theorem sum_rat : ∀ (l : List ℚ) (x : ℚ), l.foldl (· + ·) x = x + l.sum
  | [], x => by simp
  | a :: l, x => by
    rw [List.foldl_cons, sum_rat l, List.sum_cons]
    ring

theorem mean_rat {l : List ℚ} {lo hi : ℚ} (h0 : 0 < l.length) (h : ∀ x ∈ l, lo ≤ x ∧ x ≤ hi) : lo ≤ meanL l ∧ meanL l ≤ hi := by
  have e : meanL l = l.foldl (· + ·) 0 / (l.length : ℚ) := rfl
  have hn : (0 : ℚ) < l.length := by exact_mod_cast h0
  rw [e, sum_rat, zero_add, le_div_iff₀ hn, div_le_iff₀ hn]
  have key : ∀ l : List ℚ, (∀ x ∈ l, lo ≤ x ∧ x ≤ hi) → lo * l.length ≤ l.sum ∧ l.sum ≤ hi * l.length := by
    intro l
    induction l with
    | nil => intro _; simp
    | cons a l ih =>
      intro h
      have ha := h a (.head _)
      have := ih fun x hx => h x (.tail _ hx)
      simp only [List.sum_cons, List.length_cons]
      push_cast
      constructor <;> linarith [this.1, this.2, ha.1, ha.2]
  exact key l h

/-- `sum_j x_j ** 2` on `[0, 1]^2` -/
def unitProb : Prob 2 ℚ where
  S := Nat
  lb := fun _ => 0
  ub := fun _ => 1
  mm := .min
  target := fun x => ⟨[x 0 * x 0 + x 1 * x 1], x 0 * x 0 + x 1 * x 1⟩
  correct := fun x s => (fun j => clip (x j) 0 1, s)
  generate := fun s => (fun j => ((s + j) % 2 : Nat), s + 1)

theorem unitProb_lawful : unitProb.Lawful where
  correct_in x s j := ⟨le_min (le_max_right _ _) (zero_le_one (α := ℚ)), min_le_right _ _⟩
  generate_in s j := by
    change Nat at s
    show (0 : ℚ) ≤ (((s + (j : Nat)) % 2 : Nat) : ℚ) ∧ (((s + (j : Nat)) % 2 : Nat) : ℚ) ≤ 1
    have h1 : (s + (j : Nat)) % 2 ≤ 1 := by omega
    exact ⟨Nat.cast_nonneg _, by exact_mod_cast h1⟩

def unitCfg (m : Valid.Mode) : Cfg 2 ℚ := ⟨detEnv, unitProb, m, 10, 10⟩

theorem unitCfg_lawful (m : Valid.Mode) : (unitCfg m).E.Lawful ∧ (unitCfg m).P.Lawful := ⟨detEnv_lawful, unitProb_lawful⟩

theorem unit_accepted (m : Valid.Mode) {lo : Nat} (h : lo ≤ 10) : Accepted (unitCfg m) lo :=
  ⟨(by decide : 1 ≤ 10 ∧ 10 ≤ 100000), h, (by decide : 10 ≤ 100000)⟩

theorem unit_eso (m : Valid.Mode) : OriginalESO.Calm (unitCfg m) := by
  intro pop hlen hfeas r hr
  have hlen : pop.length = 10 := hlen
  unfold OriginalESO.resistance at hr
  dsimp only at hr
  split at hr
  · cases hr
  rename_i hpos
  have hr := Option.some.inj hr
  obtain ⟨ptp, hptp⟩ : ∃ q : ℚ, q = maxL (List.ofFn fun j : Fin 2 => maxL (pop.map (fun a => a.sol j)) - minL (pop.map (fun a => a.sol j))) := ⟨_, rfl⟩
  obtain ⟨std, hstd⟩ : ∃ q : ℚ, q = meanL (pop.map (fun a => sumL (List.ofFn fun j : Fin 2 => (a.sol j - meanL (pop.map (fun a => a.sol j))) * (a.sol j - meanL (pop.map (fun a => a.sol j)))))) := ⟨_, rfl⟩
  have hcol : ∀ j : Fin 2, 0 < (pop.map (fun a => a.sol j)).length := fun j => by simp [hlen]
  have hmax := fun j : Fin 2 => maxL_spec (hcol j)
  have hmin := fun j : Fin 2 => minL_spec (hcol j)
  have hin : ∀ a ∈ pop, ∀ j : Fin 2, (0 : ℚ) ≤ a.sol j ∧ a.sol j ≤ 1 := fun a ha j => hfeas a ha j
  have hw : ∀ j : Fin 2, maxL (pop.map (fun a => a.sol j)) - minL (pop.map (fun a => a.sol j)) ≤ ptp := fun j => by
    rw [hptp]
    exact (maxL_spec (l := List.ofFn fun j : Fin 2 => maxL (pop.map (fun a => a.sol j)) - minL (pop.map (fun a => a.sol j))) (by simp)).2 _ (List.mem_ofFn.mpr ⟨j, rfl⟩)
  have h1 : ptp ≤ 1 := by
    obtain ⟨j, hj⟩ := List.mem_ofFn.mp (maxL_spec (l := List.ofFn fun j : Fin 2 => maxL (pop.map (fun a => a.sol j)) - minL (pop.map (fun a => a.sol j))) (by simp)).1
    rw [hptp, ← hj]
    obtain ⟨a, ha, ea⟩ := List.mem_map.mp (hmax j).1
    obtain ⟨b, hb, eb⟩ := List.mem_map.mp (hmin j).1
    rw [← ea, ← eb]
    have := hin a ha j
    have := hin b hb j
    linarith
  have hp0 : (0 : ℚ) < ptp := by rw [hptp]; exact not_le.mp hpos
  have hs : 0 ≤ std ∧ std ≤ 2 * ptp := by
    rw [hstd]
    refine mean_rat (by simp [hlen]) fun x hx => ?_
    obtain ⟨a, ha, rfl⟩ := List.mem_map.mp hx
    have hj : ∀ j : Fin 2, 0 ≤ (a.sol j - meanL (pop.map (fun a => a.sol j))) * (a.sol j - meanL (pop.map (fun a => a.sol j))) ∧
        (a.sol j - meanL (pop.map (fun a => a.sol j))) * (a.sol j - meanL (pop.map (fun a => a.sol j))) ≤ ptp := by
      intro j
      have hm := mean_rat (hcol j) fun x hx => ⟨(hmin j).2 x hx, (hmax j).2 x hx⟩
      have ha' : a.sol j ∈ pop.map (fun a => a.sol j) := List.mem_map.mpr ⟨a, ha, rfl⟩
      have h2 := (hmin j).2 _ ha'
      have h3 := (hmax j).2 _ ha'
      have h4 := hw j
      constructor
      · exact mul_self_nonneg (R := ℚ) _
      · show ((a.sol j - meanL (pop.map (fun a => a.sol j))) * (a.sol j - meanL (pop.map (fun a => a.sol j))) : ℚ) ≤ ptp
        nlinarith [hm.1, hm.2]
    have e : sumL (List.ofFn fun j : Fin 2 => (a.sol j - meanL (pop.map (fun a => a.sol j))) * (a.sol j - meanL (pop.map (fun a => a.sol j)))) =
        (0 + (a.sol 0 - meanL (pop.map (fun a => a.sol 0))) * (a.sol 0 - meanL (pop.map (fun a => a.sol 0)))) +
          (a.sol 1 - meanL (pop.map (fun a => a.sol 1))) * (a.sol 1 - meanL (pop.map (fun a => a.sol 1))) := rfl
    rw [e]
    have h0 := hj 0
    have h1 := hj 1
    constructor
    · exact add_nonneg (α := ℚ) (add_nonneg (α := ℚ) le_rfl h0.1) h1.1
    · refine (add_le_add (α := ℚ) (add_le_add (α := ℚ) le_rfl h0.2) h1.2).trans (le_of_eq ?_)
      ring
  have hr : std / ptp = r := by rw [hstd, hptp]; exact hr
  have h2 : r ≤ 2 := by rw [← hr, div_le_iff₀ hp0]; exact hs.2
  have h3 : 0 ≤ r := by rw [← hr]; exact div_nonneg hs.1 hp0.le
  show ¬ ((r / 2) * 100 < (0 : ℚ) ∨ (100 : ℚ) < (r / 2) * 100)
  rintro (h | h) <;> linarith

/-- closed facts about sizes and parameters -/
macro "wide" : tactic => `(tactic| first
  | (show (0 : Nat) < 36; decide)
  | (show (2 : Nat) ≤ 36; decide)
  | (intro j; show (0 : ℚ) ≤ 5; norm_num)
  | decide
  | (intro h; first | omega | (show (_ : Nat) ≤ 36; decide))
  | decide +kernel
  | exact ⟨rfl, trivial⟩
  | (show (2 : Int) ≤ 3 ∧ (3 : Int) ≤ 36; decide)
  | (show (3 : Nat) ≤ 36; decide)
  | exact ⟨(by decide : 4 ≤ 36), fun _ => (by decide : (2 : Int) ≤ 3 ∧ (3 : Int) ≤ 32), fun h => absurd rfl h⟩
  | (unfold DevGSKA.Groups; decide +kernel)
  | (unfold DevEFO.Fields; decide +kernel)
  | (unfold ImprovedBSO.Even; decide +kernel)
  | rfl)

