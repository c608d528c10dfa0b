import Verif.Props.Algorithms
import Mathlib.Tactic.NormNum
import Mathlib.Tactic.FieldSimp
import Mathlib.Algebra.Order.Floor.Ring
import Mathlib.Data.Rat.Floor

/-!
# The hypotheses of the catalogue can be met

For every modelled algorithm, a concrete configuration (the sphere function in 36 dimensions, 36 agents,
10 epochs, exact rationals) and parameters for which the catalogue lists it, so that none of the theorems about
the catalogue is vacuous for it.  `OriginalESO`, whose hypothesis fails on wide boxes, gets a problem on `[0, 1]`.
Written by `tools/inhabited.py`.
-/

set_option linter.unusedVariables false

namespace Mealpy
open Spec

/-- the sphere function in 36 dimensions, 36 agents, 10 epochs -/
def wideCfg (m : Valid.Mode) : Cfg 36 ℚ := ⟨detEnv, sphereProb 36 .min, m, 36, 10⟩

theorem wideCfg_lawful (m : Valid.Mode) : (wideCfg m).E.Lawful ∧ (wideCfg m).P.Lawful := ⟨detEnv_lawful, sphereProb_lawful 36 .min⟩

theorem wide_accepted (m : Valid.Mode) {lo : Nat} (h : lo ≤ 36) : Accepted (wideCfg m) lo :=
  ⟨(by decide : 1 ≤ 10 ∧ 10 ≤ 100000), h, (by decide : 36 ≤ 100000)⟩

theorem wide_mirror (m : Valid.Mode) : MirrorsBox (wideCfg m) := mirror_exact _

theorem trunc_rat (x : ℚ) (h : 0 ≤ x) : Num.trunc x = ⌊x⌋ := by
  unfold Num.trunc
  rw [if_neg (not_lt.mpr h)]
  rfl

theorem ceil_rat (x : ℚ) : Num.ceil x = ⌈x⌉ := rfl

theorem roundMono_rat : RoundMono ℚ := fun _ _ h => Int.floor_le_floor h

theorem sapde_rat : SAP_DE.Small ℚ where
  one := by show (0 : ℚ) ≤ 1; norm_num
  four := by show (0 : ℚ) ≤ 4; norm_num
  cut u h0 h4 := by
    have h0 : (0 : ℚ) ≤ u := h0
    have h4 : u ≤ (4 : ℚ) := h4
    rw [trunc_rat u h0]
    exact ⟨Int.floor_nonneg.mpr h0, by exact_mod_cast (Int.floor_le u).trans h4⟩

/-- one to five seeds (any bounds `1 ≤ seedMin ≤ seedMax` would do) -/
theorem sows_rat : OriginalIWO.Sows (⟨2, 10, 2, 1, 1 / 100⟩ : OriginalIWO.Params ℚ) where
  ratio f w b h hne := by
    show (0 : ℚ) ≤ (f - w) / (b - w)
    rcases h with ⟨h1, h2⟩ | ⟨h1, h2⟩
    · exact div_nonneg (sub_nonneg.mpr h1) (sub_nonneg.mpr (h1.trans h2))
    · exact div_nonneg_of_nonpos (sub_nonpos.mpr h2) (sub_nonpos.mpr (h1.trans h2))
  one r hr := by
    have hr : (0 : ℚ) ≤ r := hr
    show 1 ≤ ⌈((2 : ℕ) : ℚ) + (((10 : ℕ) : ℚ) - ((2 : ℕ) : ℚ)) * r⌉
    rw [Int.one_le_ceil_iff]
    push_cast
    nlinarith

theorem wide_fla (m : Valid.Mode) : OriginalFLA.Calm (wideCfg m) ⟨1 / 2, 2, 1 / 10, 1 / 5, 2, 1 / 100⟩ := by
  have key : ∀ (a b u : ℚ) (n : ℕ), 0 ≤ a → a ≤ b → b ≤ 1 → 0 ≤ u → u < 1 → OriginalFLA.share a b n u ≤ n := by
    intro a b u n h1 h2 h3 h4 h5
    have hn : (0 : ℚ) ≤ n := Nat.cast_nonneg n
    have e : OriginalFLA.share a b n u = Num.trunc ((b * (n : ℚ) - a * n) * u + a * n) := rfl
    have h6 : 0 ≤ b * (n : ℚ) - a * n := by nlinarith
    have h7 : 0 ≤ (b * (n : ℚ) - a * n) * u := mul_nonneg h6 h4
    have h8 : (b * (n : ℚ) - a * n) * u ≤ b * (n : ℚ) - a * n := by nlinarith
    have h9 : b * (n : ℚ) ≤ n := by nlinarith
    rw [e, trunc_rat _ (by nlinarith)]
    have := Int.floor_le ((b * (n : ℚ) - a * n) * u + a * n)
    have h : ((⌊(b * (n : ℚ) - a * n) * u + a * n⌋ : ℤ) : ℚ) ≤ ((n : ℤ) : ℚ) := by push_cast; linarith
    exact_mod_cast h
  refine ⟨fun u h0 h1 => key _ _ u _ (by norm_num) (by norm_num) (by norm_num) h0 h1, fun u h0 h1 => key _ _ u _ ?_ ?_ ?_ h0 h1⟩
  · show (0 : ℚ) ≤ 0.1; norm_num
  · show (0.1 : ℚ) ≤ 0.2; norm_num
  · show (0.2 : ℚ) ≤ 1; norm_num

theorem wide_sfo (m : Valid.Mode) : OriginalSFO.Narrow (wideCfg m) ⟨1 / 10, 4, 1 / 100⟩ := by
  intro ep hep hlow
  have hep : ep ≤ 10 := hep
  have hlow : 4 * (1 - 2 * (ep : ℚ) * (1 / 100)) < 0.5 := hlow
  have : (ep : ℚ) ≤ 10 := by exact_mod_cast hep
  norm_num at hlow
  linarith

theorem wide_wso (m : Valid.Mode) : OriginalWSO.Indexes (wideCfg m) := by
  intro u h0 h1
  have h0 : (0 : ℚ) ≤ u := h0
  have h1 : u < (1 : ℚ) := h1
  show 0 ≤ ⌊((36 : ℕ) : ℚ) * u⌋ ∧ ⌊((36 : ℕ) : ℚ) * u⌋ < ((36 : ℕ) : ℤ)
  refine ⟨Int.floor_nonneg.mpr (by push_cast; linarith), Int.floor_lt.mpr (by push_cast; linarith)⟩

theorem wide_shade (m : Valid.Mode) : OriginalSHADE.Tops (wideCfg m) := by
  refine ⟨?_, fun p h1 h2 => ?_⟩
  · show (2 : ℚ) / ((36 : ℕ) : ℚ) ≤ 0.2
    norm_num
  · have h1 : (2 : ℚ) / ((36 : ℕ) : ℚ) ≤ p := h1
    have h2 : p ≤ (0.2 : ℚ) := h2
    norm_num at h1 h2
    show 0 < Num.trunc (((36 : ℕ) : ℚ) * p) ∧ Num.trunc (((36 : ℕ) : ℚ) * p) ≤ ((36 : ℕ) : ℤ)
    rw [trunc_rat _ (by push_cast; linarith)]
    refine ⟨Int.floor_pos.mpr (by push_cast; linarith), Int.floor_le_iff.mpr (by push_cast; linarith)⟩

theorem wide_lshade (m : Valid.Mode) : L_SHADE.Tops (wideCfg m) where
  order := by show (0.15 : ℚ) ≤ 0.2; norm_num
  top n hn hle p h1 h2 := by
    have h1 : (0.15 : ℚ) ≤ p := h1
    have h2 : p ≤ (0.2 : ℚ) := h2
    have hn : (1 : ℚ) ≤ n := by exact_mod_cast hn
    have hle : n ≤ 36 := hle
    have hle : (n : ℚ) ≤ 36 := by exact_mod_cast hle
    show 0 < ⌈(n : ℚ) * p⌉ ∧ ⌈(n : ℚ) * p⌉ ≤ ((36 : ℕ) : ℤ)
    refine ⟨Int.ceil_pos.mpr (by nlinarith), Int.ceil_le.mpr (by push_cast; nlinarith)⟩
  shrink ep h1 h2 := by
    have h1 : (1 : ℚ) ≤ ep := by exact_mod_cast h1
    have h2 : ep ≤ 10 := h2
    have h2 : (ep : ℚ) ≤ 10 := by exact_mod_cast h2
    have e7 : Num.trunc (((36 : ℕ) : ℚ) / 5) = 7 := by
      rw [trunc_rat _ (by norm_num)]
      norm_num
    have e : L_SHADE.shrink (wideCfg m) ep = Num.trunc ((36 : ℚ) + ep * ((((Num.trunc (((36 : ℕ) : ℚ) / 5) - ((36 : ℕ) : ℤ) : ℤ)) : ℚ) / 10)) := rfl
    rw [e, e7]
    push_cast
    rw [trunc_rat _ (by linarith)]
    show _ ∧ _ ≤ ((36 : ℕ) : ℤ)
    refine ⟨Int.floor_pos.mpr (by linarith), Int.floor_le_iff.mpr (by push_cast; linarith)⟩

theorem wide_cro (m : Valid.Mode) : OriginalCRO.Rates (wideCfg m) ⟨2 / 5, 9 / 10, 1 / 10, 1 / 10, 1 / 2, 1 / 10, 1 / 50, 1 / 5, 5⟩ where
  fb n _ := by
    have hn : (0 : ℚ) ≤ n := Nat.cast_nonneg n
    show (Num.trunc ((n : ℚ) * (9 / 10))).toNat ≤ n
    rw [trunc_rat _ (by linarith)]
    have := Int.floor_le ((n : ℚ) * (9 / 10))
    have h : ((⌊(n : ℚ) * (9 / 10)⌋ : ℤ) : ℚ) ≤ ((n : ℤ) : ℚ) := by push_cast; linarith
    have h : ⌊(n : ℚ) * (9 / 10)⌋ ≤ (n : ℤ) := by exact_mod_cast h
    omega
  po := by
    show (Num.trunc (((36 : ℕ) : ℚ) / (1 + 2 / 5))).toNat ≤ 36
    rw [trunc_rat _ (by norm_num)]
    norm_num

theorem wide_spiders (m : Valid.Mode) : OriginalSSpiderO.Shares (wideCfg m) ⟨13 / 20, 9 / 10⟩ := by
  intro u h0 h1
  have h0 : (0 : ℚ) ≤ u := h0
  have h1 : u < (1 : ℚ) := h1
  have e : OriginalSSpiderO.females (wideCfg m) ⟨13 / 20, 9 / 10⟩ u = Num.trunc (((36 : ℕ) : ℚ) * (13 / 20 + (9 / 10 - 13 / 20) * u)) := rfl
  rw [e, trunc_rat _ (by push_cast; linarith)]
  refine ⟨Int.floor_nonneg.mpr (by push_cast; linarith), Int.floor_le_iff.mpr (by show _ < (((36 : ℕ) : ℤ) : ℚ) + 1; push_cast; linarith)⟩

theorem wide_top (v : ℚ) : OriginalSRSR.top (fun _ : Fin 36 => v) = v := by
  have h := (maxL_spec (l := List.ofFn (fun _ : Fin 36 => v)) (by simp)).1
  obtain ⟨_, hi⟩ := List.mem_ofFn.mp h
  exact hi.symm

theorem wide_srsr (m : Valid.Mode) : OriginalSRSR.Calm (wideCfg m) where
  mul a b h1 h2 := mul_nonneg (α := ℚ) h1 h2
  add a b h1 h2 := add_nonneg (α := ℚ) h1 h2
  abs a := by
    unfold Num.abs
    split
    · rename_i h
      have h : a < (0 : ℚ) := h
      show (0 : ℚ) ≤ -a
      linarith
    · rename_i h
      exact not_lt.mp h
  one := by show (0 : ℚ) ≤ 1; norm_num
  two := by show (0 : ℚ) ≤ 2; norm_num
  width := by
    have e : OriginalSRSR.top (fun j => (wideCfg m).P.ub j - (wideCfg m).P.lb j) = (5 : ℚ) - (-5) := wide_top _
    rw [e]
    show (0 : ℚ) ≤ 5 - (-5)
    norm_num
  upper := by
    have e : OriginalSRSR.top (wideCfg m).P.ub = (5 : ℚ) := wide_top _
    rw [e]
    show (0 : ℚ) ≤ 5
    norm_num

theorem sum_rat : ∀ (l : List ℚ) (x : ℚ), l.foldl (· + ·) x = x + l.sum
  | [], x => by simp
  | a :: l, x => by
    rw [List.foldl_cons, sum_rat l, List.sum_cons]
    ring

theorem mean_rat {l : List ℚ} {lo hi : ℚ} (h0 : 0 < l.length) (h : ∀ x ∈ l, lo ≤ x ∧ x ≤ hi) : lo ≤ meanL l ∧ meanL l ≤ hi := by
  have e : meanL l = l.foldl (· + ·) 0 / (l.length : ℚ) := rfl
  have hn : (0 : ℚ) < l.length := by exact_mod_cast h0
  rw [e, sum_rat, zero_add, le_div_iff₀ hn, div_le_iff₀ hn]
  have key : ∀ l : List ℚ, (∀ x ∈ l, lo ≤ x ∧ x ≤ hi) → lo * l.length ≤ l.sum ∧ l.sum ≤ hi * l.length := by
    intro l
    induction l with
    | nil => intro _; simp
    | cons a l ih =>
      intro h
      have ha := h a (.head _)
      have := ih fun x hx => h x (.tail _ hx)
      simp only [List.sum_cons, List.length_cons]
      push_cast
      constructor <;> linarith [this.1, this.2, ha.1, ha.2]
  exact key l h

/-- `sum_j x_j ** 2` on `[0, 1]^2` -/
def unitProb : Prob 2 ℚ where
  S := Nat
  lb := fun _ => 0
  ub := fun _ => 1
  mm := .min
  target := fun x => ⟨[x 0 * x 0 + x 1 * x 1], x 0 * x 0 + x 1 * x 1⟩
  correct := fun x s => (fun j => clip (x j) 0 1, s)
  generate := fun s => (fun j => ((s + j) % 2 : Nat), s + 1)

theorem unitProb_lawful : unitProb.Lawful where
  correct_in x s j := ⟨le_min (le_max_right _ _) (zero_le_one (α := ℚ)), min_le_right _ _⟩
  generate_in s j := by
    change Nat at s
    show (0 : ℚ) ≤ (((s + (j : Nat)) % 2 : Nat) : ℚ) ∧ (((s + (j : Nat)) % 2 : Nat) : ℚ) ≤ 1
    have h1 : (s + (j : Nat)) % 2 ≤ 1 := by omega
    exact ⟨Nat.cast_nonneg _, by exact_mod_cast h1⟩

def unitCfg (m : Valid.Mode) : Cfg 2 ℚ := ⟨detEnv, unitProb, m, 10, 10⟩

theorem unitCfg_lawful (m : Valid.Mode) : (unitCfg m).E.Lawful ∧ (unitCfg m).P.Lawful := ⟨detEnv_lawful, unitProb_lawful⟩

theorem unit_accepted (m : Valid.Mode) {lo : Nat} (h : lo ≤ 10) : Accepted (unitCfg m) lo :=
  ⟨(by decide : 1 ≤ 10 ∧ 10 ≤ 100000), h, (by decide : 10 ≤ 100000)⟩

theorem unit_eso (m : Valid.Mode) : OriginalESO.Calm (unitCfg m) := by
  intro pop hlen hfeas r hr
  have hlen : pop.length = 10 := hlen
  unfold OriginalESO.resistance at hr
  dsimp only at hr
  split at hr
  · cases hr
  rename_i hpos
  have hr := Option.some.inj hr
  obtain ⟨ptp, hptp⟩ : ∃ q : ℚ, q = maxL (List.ofFn fun j : Fin 2 => maxL (pop.map (fun a => a.sol j)) - minL (pop.map (fun a => a.sol j))) := ⟨_, rfl⟩
  obtain ⟨std, hstd⟩ : ∃ q : ℚ, q = meanL (pop.map (fun a => sumL (List.ofFn fun j : Fin 2 => (a.sol j - meanL (pop.map (fun a => a.sol j))) * (a.sol j - meanL (pop.map (fun a => a.sol j)))))) := ⟨_, rfl⟩
  have hcol : ∀ j : Fin 2, 0 < (pop.map (fun a => a.sol j)).length := fun j => by simp [hlen]
  have hmax := fun j : Fin 2 => maxL_spec (hcol j)
  have hmin := fun j : Fin 2 => minL_spec (hcol j)
  have hin : ∀ a ∈ pop, ∀ j : Fin 2, (0 : ℚ) ≤ a.sol j ∧ a.sol j ≤ 1 := fun a ha j => hfeas a ha j
  have hw : ∀ j : Fin 2, maxL (pop.map (fun a => a.sol j)) - minL (pop.map (fun a => a.sol j)) ≤ ptp := fun j => by
    rw [hptp]
    exact (maxL_spec (l := List.ofFn fun j : Fin 2 => maxL (pop.map (fun a => a.sol j)) - minL (pop.map (fun a => a.sol j))) (by simp)).2 _ (List.mem_ofFn.mpr ⟨j, rfl⟩)
  have h1 : ptp ≤ 1 := by
    obtain ⟨j, hj⟩ := List.mem_ofFn.mp (maxL_spec (l := List.ofFn fun j : Fin 2 => maxL (pop.map (fun a => a.sol j)) - minL (pop.map (fun a => a.sol j))) (by simp)).1
    rw [hptp, ← hj]
    obtain ⟨a, ha, ea⟩ := List.mem_map.mp (hmax j).1
    obtain ⟨b, hb, eb⟩ := List.mem_map.mp (hmin j).1
    rw [← ea, ← eb]
    have := hin a ha j
    have := hin b hb j
    linarith
  have hp0 : (0 : ℚ) < ptp := by rw [hptp]; exact not_le.mp hpos
  have hs : 0 ≤ std ∧ std ≤ 2 * ptp := by
    rw [hstd]
    refine mean_rat (by simp [hlen]) fun x hx => ?_
    obtain ⟨a, ha, rfl⟩ := List.mem_map.mp hx
    have hj : ∀ j : Fin 2, 0 ≤ (a.sol j - meanL (pop.map (fun a => a.sol j))) * (a.sol j - meanL (pop.map (fun a => a.sol j))) ∧
        (a.sol j - meanL (pop.map (fun a => a.sol j))) * (a.sol j - meanL (pop.map (fun a => a.sol j))) ≤ ptp := by
      intro j
      have hm := mean_rat (hcol j) fun x hx => ⟨(hmin j).2 x hx, (hmax j).2 x hx⟩
      have ha' : a.sol j ∈ pop.map (fun a => a.sol j) := List.mem_map.mpr ⟨a, ha, rfl⟩
      have h2 := (hmin j).2 _ ha'
      have h3 := (hmax j).2 _ ha'
      have h4 := hw j
      constructor
      · exact mul_self_nonneg (R := ℚ) _
      · show ((a.sol j - meanL (pop.map (fun a => a.sol j))) * (a.sol j - meanL (pop.map (fun a => a.sol j))) : ℚ) ≤ ptp
        nlinarith [hm.1, hm.2]
    have e : sumL (List.ofFn fun j : Fin 2 => (a.sol j - meanL (pop.map (fun a => a.sol j))) * (a.sol j - meanL (pop.map (fun a => a.sol j)))) =
        (0 + (a.sol 0 - meanL (pop.map (fun a => a.sol 0))) * (a.sol 0 - meanL (pop.map (fun a => a.sol 0)))) +
          (a.sol 1 - meanL (pop.map (fun a => a.sol 1))) * (a.sol 1 - meanL (pop.map (fun a => a.sol 1))) := rfl
    rw [e]
    have h0 := hj 0
    have h1 := hj 1
    constructor
    · exact add_nonneg (α := ℚ) (add_nonneg (α := ℚ) le_rfl h0.1) h1.1
    · refine (add_le_add (α := ℚ) (add_le_add (α := ℚ) le_rfl h0.2) h1.2).trans (le_of_eq ?_)
      ring
  have hr : std / ptp = r := by rw [hstd, hptp]; exact hr
  have h2 : r ≤ 2 := by rw [← hr, div_le_iff₀ hp0]; exact hs.2
  have h3 : 0 ≤ r := by rw [← hr]; exact div_nonneg hs.1 hp0.le
  show ¬ ((r / 2) * 100 < (0 : ℚ) ∨ (100 : ℚ) < (r / 2) * 100)
  rintro (h | h) <;> linarith

/-- closed facts about sizes and parameters -/
macro "wide" : tactic => `(tactic| first
  | (show (0 : Nat) < 36; decide)
  | (show (2 : Nat) ≤ 36; decide)
  | (intro j; show (0 : ℚ) ≤ 5; norm_num)
  | decide
  | (intro h; first | omega | (show (_ : Nat) ≤ 36; decide))
  | decide +kernel
  | exact ⟨rfl, trivial⟩
  | (show (2 : Int) ≤ 3 ∧ (3 : Int) ≤ 36; decide)
  | (show (3 : Nat) ≤ 36; decide)
  | exact ⟨(by decide : 4 ≤ 36), fun _ => (by decide : (2 : Int) ≤ 3 ∧ (3 : Int) ≤ 32), fun h => absurd rfl h⟩
  | (unfold DevGSKA.Groups; decide +kernel)
  | (unfold DevEFO.Fields; decide +kernel)
  | (unfold ImprovedBSO.Even; decide +kernel)
  | rfl)

/-- `OriginalGWO` -/
example (m) : ∃ b, Elitist (wideCfg m) OriginalGWO.algo b :=
  ⟨_, .originalGWO (wide_accepted m (by decide))⟩

/-- `RW_GWO` -/
example (m) : ∃ b, Elitist (wideCfg m) RW_GWO.algo b :=
  ⟨_, .rwGWO (wide_accepted m (by decide))⟩

/-- `GWO_WOA` -/
example (m) : ∃ b, Elitist (wideCfg m) GWO_WOA.algo b :=
  ⟨_, .gwoWOA (wide_accepted m (by decide))⟩

/-- `IGWO` -/
example (m) : ∃ p b, Elitist (wideCfg m) (IGWO.algo p) b :=
  ⟨⟨(1 / 2), 2, (by decide +kernel), (by decide +kernel)⟩, _, .iGWO _ (wide_accepted m (by decide))⟩

/-- `ChaoticGWO` -/
example (m) : ∃ p b, Elitist (wideCfg m) (ChaoticGWO.algo p) b :=
  ⟨⟨.logistic, (1 / 2), (by decide +kernel)⟩, _, .chaoticGWO _ (wide_accepted m (by decide))⟩

/-- `FuzzyGWO` -/
example (m) : ∃ p b, Elitist (wideCfg m) (FuzzyGWO.algo p) b :=
  ⟨true, _, .fuzzyGWO _ (wide_accepted m (by decide))⟩

/-- `IncrementalGWO` -/
example (m) : ∃ p b, Elitist (wideCfg m) (IncrementalGWO.algo p) b :=
  ⟨⟨(1 / 2), (by decide +kernel)⟩, _, .incrementalGWO _ (wide_accepted m (by decide))⟩

/-- `ExGWO` -/
example (m) : ∃ b, Elitist (wideCfg m) ExGWO.algo b :=
  ⟨_, .exGWO (wide_accepted m (by decide))⟩

/-- `ER_GWO` -/
example (m) : ∃ p b, Elitist (wideCfg m) (ER_GWO.algo p) b :=
  ⟨⟨(1 / 2), (1 / 2), (1001 / 1000), (by decide +kernel), (by decide +kernel), (by decide +kernel)⟩, _, .erGWO _ (wide_accepted m (by decide))⟩

/-- `OGWO` -/
example (m) : ∃ p b, Elitist (wideCfg m) (OGWO.algo p) b :=
  ⟨⟨(1 / 2), (1 / 2), (by decide +kernel), (by decide +kernel)⟩, _, .oGWO _ (wide_accepted m (by decide)) (wide_mirror m)⟩

/-- `CG_GWO` -/
example (m) : ∃ b, Tracked (wideCfg m) CG_GWO.algo b :=
  ⟨_, .cgGWO (wide_accepted m (by decide))⟩

/-- `IOBL_GWO` -/
example (m) : ∃ b, Tracked (wideCfg m) IOBL_GWO.algo b :=
  ⟨_, .ioblGWO (wide_accepted m (by decide)) (wide_mirror m)⟩

/-- `DS_GWO` -/
example (m) : ∃ p b, Tracked (wideCfg m) (DS_GWO.algo p) b :=
  ⟨⟨1 / 2, 5, by decide +kernel, by decide +kernel⟩, _, .dsGWO _ (wide_accepted m (by decide)) (by cases m <;> wide)⟩

/-- `OriginalDE` -/
example (m) : ∃ p b, Elitist (wideCfg m) (OriginalDE.algo p) b :=
  ⟨⟨(1 / 2), (1 / 2), 5, (by decide +kernel), (by decide +kernel), (by decide +kernel)⟩, _, .originalDE _ (wide_accepted m (by decide)) (by cases m <;> wide)⟩

/-- `JADE` -/
example (m) : ∃ p b, Elitist (wideCfg m) (JADE.algo p) b :=
  ⟨⟨(1 / 2), (1 / 2), (1 / 2), (1 / 2), (by decide +kernel), (by decide +kernel), (by decide +kernel), (by decide +kernel)⟩, _, .jade _ (wide_accepted m (by decide)) (by cases m <;> wide) (by cases m <;> wide)⟩

/-- `SADE` -/
example (m) : ∃ b, Elitist (wideCfg m) SADE.algo b :=
  ⟨_, .sade (wide_accepted m (by decide)) (by cases m <;> wide)⟩

/-- `OriginalSA` -/
example (m) : ∃ p b, Keeping (wideCfg m) (OriginalSA.algo p) b :=
  ⟨⟨100, (1 / 2), (by decide +kernel), (by decide +kernel)⟩, _, .originalSA _ (wide_accepted m (by decide))⟩

/-- `GaussianSA` -/
example (m) : ∃ p b, Keeping (wideCfg m) (GaussianSA.algo p) b :=
  ⟨⟨100, (1 / 2), (1 / 2), (by decide +kernel), (by decide +kernel), (by decide +kernel)⟩, _, .gaussianSA _ (wide_accepted m (by decide))⟩

/-- `SwarmSA` -/
example (m) : ∃ p b, Tracked (wideCfg m) (SwarmSA.algo p) b :=
  ⟨⟨5, 1000, 1, 5, 1 / 2, 1 / 2, 1 / 2, by decide +kernel, by decide +kernel, by decide +kernel, (by decide : 2 ≤ 5 ∧ 5 ≤ 36 / 2), by decide +kernel, by decide +kernel, by decide +kernel⟩, _, .swarmSA _ (wide_accepted m (by decide)) (by cases m <;> wide)⟩

/-- `OriginalHC` -/
example (m) : ∃ p b, Keeping (wideCfg m) (OriginalHC.algo p) b :=
  ⟨⟨5, (by first | decide | (cases m <;> decide))⟩, _, .originalHC _ (wide_accepted m (by decide))⟩

/-- `SwarmHC` -/
example (m) : ∃ p b, Elitist (wideCfg m) (SwarmHC.algo p) b :=
  ⟨⟨5, (by first | decide | (cases m <;> decide))⟩, _, .swarmHC _ (wide_accepted m (by decide))⟩

/-- `BaseGA` -/
example (m) : ∃ p b, Elitist (wideCfg m) (BaseGA.algo p) b :=
  ⟨⟨1 / 2, 1 / 2, .count 3, .tournament, .onePoint, .flip, true⟩, _, .baseGA _ (wide_accepted m (by decide)) (by cases m <;> wide) (by cases m <;> wide) (by cases m <;> wide) (by cases m <;> wide) (by cases m <;> wide)⟩

/-- `MultiGA` -/
example (m) : ∃ p b, Elitist (wideCfg m) (MultiGA.algo p) b :=
  ⟨⟨1 / 2, 1 / 2, .count 3, .tournament, .onePoint, .flip, true⟩, _, .multiGA _ (wide_accepted m (by decide)) (by cases m <;> wide) (by cases m <;> wide) (by cases m <;> wide) (by cases m <;> wide) (by cases m <;> wide)⟩

/-- `EliteMultiGA` -/
example (m) : ∃ p e b, Elitist (wideCfg m) (EliteMultiGA.algo p e) b :=
  ⟨⟨1 / 2, 1 / 2, .count 3, .tournament, .onePoint, .flip, true⟩, ⟨4, 18, 0⟩, _, .eliteMultiGA _ _ (wide_accepted m (by decide)) (by cases m <;> wide) (by cases m <;> wide) (by cases m <;> wide)⟩

/-- `OriginalGA` -/
example (m) : ∃ b, Elitist (wideCfg m) OriginalGA.algo b :=
  ⟨_, .originalGA (wide_accepted m (by decide))⟩

/-- `OriginalFFA` -/
example (m) : ∃ p b, Resizing (wideCfg m) (OriginalFFA.algo p) b :=
  ⟨⟨(1 / 2), (1 / 2), (1 / 2), (1 / 2), (1 / 2), 5⟩, _, .originalFFA _ (wide_accepted m (by decide))⟩

/-- `OriginalFOA` -/
example (m) : ∃ b, Wild (wideCfg m) OriginalFOA.algo b [.value] :=
  ⟨_, .originalFOA (wide_accepted m (by decide))⟩

/-- `OriginalFOA` -/
example : ∃ b, Loose (wideCfg .thread) OriginalFOA.algo b :=
  ⟨_, .originalFOA (wide_accepted .thread (by decide)) (by wide) (by wide)⟩

/-- `DevFOA` -/
example (m) : ∃ b, Wild (wideCfg m) DevFOA.algo b [.value] :=
  ⟨_, .devFOA (wide_accepted m (by decide))⟩

/-- `DevFOA` -/
example : ∃ b, Loose (wideCfg .thread) DevFOA.algo b :=
  ⟨_, .devFOA (wide_accepted .thread (by decide)) (by wide) (by wide)⟩

/-- `WhaleFOA` -/
example (m) : ∃ b, Wild (wideCfg m) WhaleFOA.algo b [] :=
  ⟨_, .whaleFOA (wide_accepted m (by decide))⟩

/-- `WhaleFOA` -/
example : ∃ b, Loose (wideCfg .thread) WhaleFOA.algo b :=
  ⟨_, .whaleFOA (wide_accepted .thread (by decide)) (by wide)⟩

/-- `BaseGA` -/
example (m) : ∃ p b, InPlace (wideCfg m) (BaseGA.algo p) b [.value, .index] :=
  ⟨⟨1 / 2, 1 / 2, .count 3, .tournament, .onePoint, .flip, true⟩, _, .baseGA _ (wide_accepted m (by decide))⟩

/-- `MultiGA` -/
example (m) : ∃ p b, InPlace (wideCfg m) (MultiGA.algo p) b [.value, .index] :=
  ⟨⟨1 / 2, 1 / 2, .count 3, .tournament, .onePoint, .flip, true⟩, _, .multiGA _ (wide_accepted m (by decide))⟩

/-- `SingleGA` -/
example (m) : ∃ p b, InPlace (wideCfg m) (SingleGA.algo p) b [.value, .index] :=
  ⟨⟨1 / 2, 1 / 2, .count 3, .tournament, .onePoint, .flip, true⟩, _, .singleGA _ (wide_accepted m (by decide))⟩

/-- `EliteSingleGA` -/
example : ∃ p e b, InPlace (wideCfg .single) (EliteSingleGA.algo p e) b [.value, .index] :=
  ⟨⟨1 / 2, 1 / 2, .count 3, .tournament, .onePoint, .flip, true⟩, ⟨4, 18, 0⟩, _, .eliteSingleGA _ _ (wide_accepted .single (by decide)) (by wide)⟩

/-- `EliteMultiGA` -/
example : ∃ p e b, InPlace (wideCfg .single) (EliteMultiGA.algo p e) b [.value, .index] :=
  ⟨⟨1 / 2, 1 / 2, .count 3, .tournament, .onePoint, .flip, true⟩, ⟨4, 18, 0⟩, _, .eliteMultiGA _ _ (wide_accepted .single (by decide)) (by wide)⟩

/-- `OriginalHBO` -/
example (m) : ∃ p q b, InPlace (wideCfg m) (OriginalHBO.algo p q) b [.value, .index] :=
  ⟨2, (fun _ => (0, 1)), _, .originalHBO _ _ (wide_accepted m (by decide))⟩

/-- `OriginalICA` -/
example (m) : ∃ p b, Shrinking (wideCfg m) (OriginalICA.algo p) b [.value, .overflow, .index] :=
  ⟨⟨5, (1 / 2), (1 / 2), (1 / 2), (1 / 2), (1 / 2)⟩, _, .originalICA _ (wide_accepted m (by decide)) (by cases m <;> wide) (by cases m <;> wide)⟩

/-- `OriginalHCO` -/
example (m) : ∃ p b, Fallible (wideCfg m) (OriginalHCO.algo p) b [.hang] :=
  ⟨⟨(1 / 2), (1 / 2), (1 / 2), (1 / 2), 5⟩, _, .originalHCO _ (wide_accepted m (by decide))⟩

/-- `DevSMO` -/
example (m) : ∃ p b, Fallible (wideCfg m) (DevSMO.algo p) b [.index, .value, .hang] :=
  ⟨⟨5, (1 / 2), 5⟩, _, .devSMO _ (wide_accepted m (by decide)) (by cases m <;> wide) (by cases m <;> wide)⟩

/-- `DevSMO` -/
example (m) : ∃ p b, Fallible (wideCfg m) (DevSMO.algo p) b [.hang] :=
  ⟨⟨6, 7 / 10, 50⟩, _, .devSMOEven _ (wide_accepted m (by decide)) (by cases m <;> wide) (by cases m <;> wide) (by cases m <;> exact (by decide : 6 * 6 = 36))⟩

/-- `OriginalOrcaOA` -/
example (m) : ∃ p b, Resizing (wideCfg m) (OriginalOrcaOA.algo p) b :=
  ⟨⟨(1 / 2), 5⟩, _, .originalOrcaOA _ (wide_accepted m (by decide)) (by cases m <;> wide)⟩

/-- `DevSARO` -/
example (m) : ∃ p b, Resizing (wideCfg m) (DevSARO.algo p) b :=
  ⟨⟨1 / 2, 5⟩, _, .devSARO _ (wide_accepted m (by decide))⟩

/-- `OriginalSARO` -/
example (m) : ∃ p b, Resizing (wideCfg m) (OriginalSARO.algo p) b :=
  ⟨⟨1 / 2, 5⟩, _, .originalSARO _ (wide_accepted m (by decide)) (by cases m <;> wide)⟩

/-- `OriginalTS` -/
example (m) : ∃ p b, Risky (wideCfg m) (OriginalTS.algo p) b [.index] :=
  ⟨⟨5, 5, (1 / 2)⟩, _, .originalTS _ (wide_accepted m (by decide)) (by cases m <;> wide)⟩

/-- `ABFO` -/
example (m) : ∃ p b, Risky (wideCfg m) (ABFO.algo p) b [.index, .zeroDiv] :=
  ⟨⟨(1 / 2), (1 / 2), (1 / 2), 5, 5, 5⟩, _, .aBFO _ (wide_accepted m (by decide)) (by cases m <;> wide)⟩

/-- `SAP_DE` -/
example (m) : ∃ p b, Resizing (wideCfg m) (SAP_DE.algo p) b :=
  ⟨true, _, .sAPDE _ (wide_accepted m (by decide)) sapde_rat⟩

/-- `OriginalLSHADEcnEpSin` -/
example (m) : ∃ p b, Risky (wideCfg m) (OriginalLSHADEcnEpSin.algo p) b [.value, .index] :=
  ⟨⟨(1 / 2), (1 / 2), (1 / 2), 5, (1 / 2), (1 / 2), 5⟩, _, .originalLSHADEcnEpSin _ (wide_accepted m (by decide)) (by cases m <;> wide) (by cases m <;> wide) (by cases m <;> wide)⟩

/-- `OriginalHGSO` -/
example (m) : ∃ p b, Resizing (wideCfg m) (OriginalHGSO.algo p) b :=
  ⟨4, _, .originalHGSO _ (wide_accepted m (by decide)) (by cases m <;> wide) (by cases m <;> wide)⟩

/-- `OriginalBSO` -/
example (m) : ∃ p b, Risky (wideCfg m) (OriginalBSO.algo p) b [.index] :=
  ⟨⟨⟨6, 1 / 4, 1 / 2, 3 / 4, 1 / 2⟩, 20⟩, _, .originalBSO _ (wide_accepted m (by decide)) (by cases m <;> wide) (by cases m <;> wide)⟩

/-- `ImprovedTLO` -/
example (m) : ∃ p b, Resizing (wideCfg m) (ImprovedTLO.algo p) b :=
  ⟨3, _, .improvedTLO _ (wide_accepted m (by decide)) (by cases m <;> wide) (by cases m <;> wide)⟩

/-- `ModifiedSLOPool` -/
example : ∃ b, Fallible (wideCfg .thread) ModifiedSLOPool.algo b [.attribute] :=
  ⟨_, .modifiedSLOPool (wide_accepted .thread (by decide)) (by wide)⟩

/-- `ImprovedSLOPool` -/
example : ∃ p b, Fallible (wideCfg .thread) (ImprovedSLOPool.algo p) b [.attribute] :=
  ⟨⟨(1 / 2), (1 / 2)⟩, _, .improvedSLOPool _ (wide_accepted .thread (by decide)) (by wide)⟩

/-- `OriginalBeesA` -/
example (m) : ∃ p b, InPlace (wideCfg m) (OriginalBeesA.algo p) b [] :=
  ⟨⟨(1 / 2), (1 / 2), (1 / 2), 5, 5, 5, 5⟩, _, .originalBeesA _ (wide_accepted m (by decide)) (by cases m <;> wide) (by cases m <;> wide) (by cases m <;> wide)⟩

/-- `ProbBeesA` -/
example (m) : ∃ p b, InPlace (wideCfg m) (ProbBeesA.algo p) b [] :=
  ⟨⟨(1 / 2), (1 / 2), (1 / 2), 5⟩, _, .probBeesA _ (wide_accepted m (by decide)) (by cases m <;> wide)⟩

/-- `OriginalTHRO` -/
example (m) : ∃ b, InPlace (wideCfg m) OriginalTHRO.algo b [] :=
  ⟨_, .originalTHRO (wide_accepted m (by decide))⟩

/-- `OriginalBMO` -/
example (m) : ∃ p b, Elitist (wideCfg m) (OriginalBMO.algo p) b :=
  ⟨⟨5⟩, _, .originalBMO _ (wide_accepted m (by decide))⟩

/-- `OriginalFPA` -/
example (m) : ∃ p b, Elitist (wideCfg m) (OriginalFPA.algo p) b :=
  ⟨⟨(1 / 2), (1 / 2)⟩, _, .originalFPA _ (wide_accepted m (by decide))⟩

/-- `OriginalTSA` -/
example (m) : ∃ b, Elitist (wideCfg m) OriginalTSA.algo b :=
  ⟨_, .originalTSA (wide_accepted m (by decide))⟩

/-- `OriginalMGOA` -/
example (m) : ∃ p b, Elitist (wideCfg m) (OriginalMGOA.algo p) b :=
  ⟨⟨(1 / 2)⟩, _, .originalMGOA _ (wide_accepted m (by decide)) (by cases m <;> wide) (by cases m <;> wide)⟩

/-- `OriginalRIME` -/
example (m) : ∃ p b, Elitist (wideCfg m) (OriginalRIME.algo p) b :=
  ⟨⟨(1 / 2)⟩, _, .originalRIME _ (wide_accepted m (by decide))⟩

/-- `OriginalSHIO` -/
example (m) : ∃ b, Elitist (wideCfg m) OriginalSHIO.algo b :=
  ⟨_, .originalSHIO (wide_accepted m (by decide))⟩

/-- `OriginalCircleSA` -/
example (m) : ∃ p b, Elitist (wideCfg m) (OriginalCircleSA.algo p) b :=
  ⟨⟨(1 / 2)⟩, _, .originalCircleSA _ (wide_accepted m (by decide))⟩

/-- `OriginalSCSO` -/
example (m) : ∃ b, Elitist (wideCfg m) OriginalSCSO.algo b :=
  ⟨_, .originalSCSO (wide_accepted m (by decide))⟩

/-- `OriginalGJO` -/
example (m) : ∃ b, Elitist (wideCfg m) OriginalGJO.algo b :=
  ⟨_, .originalGJO (wide_accepted m (by decide))⟩

/-- `DevJA` -/
example (m) : ∃ b, Elitist (wideCfg m) DevJA.algo b :=
  ⟨_, .devJA (wide_accepted m (by decide))⟩

/-- `OriginalJA` -/
example (m) : ∃ b, Elitist (wideCfg m) OriginalJA.algo b :=
  ⟨_, .originalJA (wide_accepted m (by decide))⟩

/-- `LevyJA` -/
example (m) : ∃ b, Elitist (wideCfg m) LevyJA.algo b :=
  ⟨_, .levyJA (wide_accepted m (by decide))⟩

/-- `DevSCA` -/
example (m) : ∃ b, Elitist (wideCfg m) DevSCA.algo b :=
  ⟨_, .devSCA (wide_accepted m (by decide))⟩

/-- `OriginalSCA` -/
example (m) : ∃ b, Elitist (wideCfg m) OriginalSCA.algo b :=
  ⟨_, .originalSCA (wide_accepted m (by decide))⟩

/-- `OriginalLCO` -/
example (m) : ∃ p b, Elitist (wideCfg m) (OriginalLCO.algo p) b :=
  ⟨⟨(1 / 2)⟩, _, .originalLCO _ (wide_accepted m (by decide))⟩

/-- `DevLCO` -/
example (m) : ∃ p b, Elitist (wideCfg m) (DevLCO.algo p) b :=
  ⟨⟨(1 / 2)⟩, _, .devLCO _ (wide_accepted m (by decide))⟩

/-- `DevHS` -/
example (m) : ∃ p b, Elitist (wideCfg m) (DevHS.algo p) b :=
  ⟨⟨(1 / 2), (1 / 2)⟩, _, .devHS _ (wide_accepted m (by decide)) (by cases m <;> wide)⟩

/-- `OriginalHS` -/
example (m) : ∃ p b, Elitist (wideCfg m) (OriginalHS.algo p) b :=
  ⟨⟨(1 / 2), (1 / 2)⟩, _, .originalHS _ (wide_accepted m (by decide))⟩

/-- `OriginalWOA` -/
example (m) : ∃ b, Elitist (wideCfg m) OriginalWOA.algo b :=
  ⟨_, .originalWOA (wide_accepted m (by decide))⟩

/-- `DevWOA` -/
example (m) : ∃ b, Elitist (wideCfg m) DevWOA.algo b :=
  ⟨_, .devWOA (wide_accepted m (by decide))⟩

/-- `HI_WOA` -/
example (m) : ∃ p b, Tracked (wideCfg m) (HI_WOA.algo p) b :=
  ⟨⟨5⟩, _, .hIWOA _ (wide_accepted m (by decide))⟩

/-- `OriginalPOA` -/
example (m) : ∃ b, Elitist (wideCfg m) OriginalPOA.algo b :=
  ⟨_, .originalPOA (wide_accepted m (by decide))⟩

/-- `DevVCS` -/
example (m) : ∃ p b, Elitist (wideCfg m) (DevVCS.algo p) b :=
  ⟨⟨5, (1 / 2)⟩, _, .devVCS _ (wide_accepted m (by decide))⟩

/-- `OriginalVCS` -/
example (m) : ∃ p b, Elitist (wideCfg m) (OriginalVCS.algo p) b :=
  ⟨⟨5, (1 / 2)⟩, _, .originalVCS _ (wide_accepted m (by decide))⟩

/-- `OriginalSPBO` -/
example (m) : ∃ b, Elitist (wideCfg m) OriginalSPBO.algo b :=
  ⟨_, .originalSPBO (wide_accepted m (by decide))⟩

/-- `DevSPBO` -/
example (m) : ∃ b, Elitist (wideCfg m) DevSPBO.algo b :=
  ⟨_, .devSPBO (wide_accepted m (by decide))⟩

/-- `OriginalAOA` -/
example (m) : ∃ p b, Elitist (wideCfg m) (OriginalAOA.algo p) b :=
  ⟨⟨5, (1 / 2), (1 / 2), (1 / 2)⟩, _, .originalAOA _ (wide_accepted m (by decide))⟩

/-- `OriginalCEM` -/
example (m) : ∃ p b, Elitist (wideCfg m) (OriginalCEM.algo p) b :=
  ⟨⟨5, (1 / 2)⟩, _, .originalCEM _ (wide_accepted m (by decide))⟩

/-- `OriginalEO` -/
example (m) : ∃ b, Tracked (wideCfg m) OriginalEO.algo b :=
  ⟨_, .originalEO (wide_accepted m (by decide))⟩

/-- `ModifiedEO` -/
example (m) : ∃ b, Tracked (wideCfg m) ModifiedEO.algo b :=
  ⟨_, .modifiedEO (wide_accepted m (by decide))⟩

/-- `AdaptiveEO` -/
example (m) : ∃ b, Tracked (wideCfg m) AdaptiveEO.algo b :=
  ⟨_, .adaptiveEO (wide_accepted m (by decide))⟩

/-- `OriginalSSO` -/
example (m) : ∃ b, Elitist (wideCfg m) OriginalSSO.algo b :=
  ⟨_, .originalSSO (wide_accepted m (by decide))⟩

/-- `OriginalMFO` -/
example (m) : ∃ b, Elitist (wideCfg m) OriginalMFO.algo b :=
  ⟨_, .originalMFO (wide_accepted m (by decide))⟩

/-- `OriginalPFA` -/
example (m) : ∃ b, Elitist (wideCfg m) OriginalPFA.algo b :=
  ⟨_, .originalPFA (wide_accepted m (by decide))⟩

/-- `OriginalRSA` -/
example (m) : ∃ p b, Elitist (wideCfg m) (OriginalRSA.algo p) b :=
  ⟨⟨(1 / 2), (1 / 2)⟩, _, .originalRSA _ (wide_accepted m (by decide))⟩

/-- `OriginalWarSO` -/
example (m) : ∃ p b, Elitist (wideCfg m) (OriginalWarSO.algo p) b :=
  ⟨⟨(1 / 2)⟩, _, .originalWarSO _ (wide_accepted m (by decide))⟩

/-- `OriginalCSA` -/
example (m) : ∃ p b, Elitist (wideCfg m) (OriginalCSA.algo p) b :=
  ⟨⟨5⟩, _, .originalCSA _ (wide_accepted m (by decide)) (by cases m <;> wide)⟩

/-- `OriginalCDO` -/
example (m) : ∃ b, Elitist (wideCfg m) OriginalCDO.algo b :=
  ⟨_, .originalCDO (wide_accepted m (by decide))⟩

/-- `OriginalSOS` -/
example (m) : ∃ b, Elitist (wideCfg m) OriginalSOS.algo b :=
  ⟨_, .originalSOS (wide_accepted m (by decide)) (by cases m <;> wide)⟩

/-- `OriginalChOA` -/
example (m) : ∃ b, Elitist (wideCfg m) OriginalChOA.algo b :=
  ⟨_, .originalChOA (wide_accepted m (by decide))⟩

/-- `OriginalSSDO` -/
example (m) : ∃ b, Elitist (wideCfg m) OriginalSSDO.algo b :=
  ⟨_, .originalSSDO (wide_accepted m (by decide))⟩

/-- `OriginalEOA` -/
example (m) : ∃ p b, Elitist (wideCfg m) (OriginalEOA.algo p) b :=
  ⟨⟨(1 / 2), (1 / 2), 5, (1 / 2), (1 / 2), (1 / 2)⟩, _, .originalEOA _ (wide_accepted m (by decide)) (by cases m <;> wide) (by cases m <;> wide)⟩

/-- `OriginalEAO` -/
example (m) : ∃ p b, Elitist (wideCfg m) (OriginalEAO.algo p) b :=
  ⟨⟨(1 / 2)⟩, _, .originalEAO _ (wide_accepted m (by decide))⟩

/-- `OriginalGOA` -/
example (m) : ∃ p b, Elitist (wideCfg m) (OriginalGOA.algo p) b :=
  ⟨⟨(1 / 2), (1 / 2)⟩, _, .originalGOA _ (wide_accepted m (by decide))⟩

/-- `OriginalHBA` -/
example (m) : ∃ b, Elitist (wideCfg m) OriginalHBA.algo b :=
  ⟨_, .originalHBA (wide_accepted m (by decide))⟩

/-- `OriginalServalOA` -/
example (m) : ∃ b, Elitist (wideCfg m) OriginalServalOA.algo b :=
  ⟨_, .originalServalOA (wide_accepted m (by decide))⟩

/-- `OriginalKLA` -/
example (m) : ∃ b, Elitist (wideCfg m) OriginalKLA.algo b :=
  ⟨_, .originalKLA (wide_accepted m (by decide))⟩

/-- `OriginalBBOA` -/
example (m) : ∃ b, Elitist (wideCfg m) OriginalBBOA.algo b :=
  ⟨_, .originalBBOA (wide_accepted m (by decide))⟩

/-- `OriginalDSO` -/
example (m) : ∃ p b, Elitist (wideCfg m) (OriginalDSO.algo p) b :=
  ⟨⟨(1 / 2), (1 / 2)⟩, _, .originalDSO _ (wide_accepted m (by decide))⟩

/-- `OriginalSHO` -/
example (m) : ∃ p b, Tracked (wideCfg m) (OriginalSHO.algo p) b :=
  ⟨⟨(1 / 2), 5⟩, _, .originalSHO _ (wide_accepted m (by decide)) (by cases m <;> wide)⟩

/-- `OriginalWaOA` -/
example (m) : ∃ b, Elitist (wideCfg m) OriginalWaOA.algo b :=
  ⟨_, .originalWaOA (wide_accepted m (by decide))⟩

/-- `OriginalCrayfishOA` -/
example (m) : ∃ b, Elitist (wideCfg m) OriginalCrayfishOA.algo b :=
  ⟨_, .originalCrayfishOA (wide_accepted m (by decide))⟩

/-- `OriginalCGO` -/
example (m) : ∃ b, Elitist (wideCfg m) OriginalCGO.algo b :=
  ⟨_, .originalCGO (wide_accepted m (by decide)) (by cases m <;> wide)⟩

/-- `OriginalEHO` -/
example (m) : ∃ p b, Elitist (wideCfg m) (OriginalEHO.algo p) b :=
  ⟨⟨1 / 2, 1 / 2, 6, 6⟩, _, .originalEHO _ (wide_accepted m (by decide)) (by cases m <;> wide)⟩

/-- `OriginalWDO` -/
example (m) : ∃ p b, Elitist (wideCfg m) (OriginalWDO.algo p) b :=
  ⟨⟨(1 / 2), (1 / 2), (1 / 2), (1 / 2), (1 / 2)⟩, _, .originalWDO _ (wide_accepted m (by decide)) (by cases m <;> wide)⟩

/-- `OriginalMPA` -/
example (m) : ∃ b, Elitist (wideCfg m) OriginalMPA.algo b :=
  ⟨_, .originalMPA (wide_accepted m (by decide))⟩

/-- `OriginalACOR` -/
example (m) : ∃ p b, Elitist (wideCfg m) (OriginalACOR.algo p) b :=
  ⟨⟨5, (1 / 2), (1 / 2)⟩, _, .originalACOR _ (wide_accepted m (by decide))⟩

/-- `OriginalAFT` -/
example (m) : ∃ b, Elitist (wideCfg m) OriginalAFT.algo b :=
  ⟨_, .originalAFT (wide_accepted m (by decide))⟩

/-- `OriginalABC` -/
example (m) : ∃ p b, Tracked (wideCfg m) (OriginalABC.algo p) b :=
  ⟨⟨5⟩, _, .originalABC _ (wide_accepted m (by decide))⟩

/-- `OriginalIWO` -/
example (m) : ∃ p b, Elitist (wideCfg m) (OriginalIWO.algo p) b :=
  ⟨⟨2, 10, 2, 1, 1 / 100⟩, _, .originalIWO _ (wide_accepted m (by decide)) sows_rat⟩

/-- `OriginalCA` -/
example (m) : ∃ p b, Tracked (wideCfg m) (OriginalCA.algo p) b :=
  ⟨⟨5⟩, _, .originalCA _ (wide_accepted m (by decide)) (by cases m <;> wide)⟩

/-- `OriginalMGO` -/
example (m) : ∃ b, Elitist (wideCfg m) OriginalMGO.algo b :=
  ⟨_, .originalMGO (wide_accepted m (by decide))⟩

/-- `OriginalNGO` -/
example (m) : ∃ b, Elitist (wideCfg m) OriginalNGO.algo b :=
  ⟨_, .originalNGO (wide_accepted m (by decide))⟩

/-- `OriginalSeaHO` -/
example (m) : ∃ b, Elitist (wideCfg m) OriginalSeaHO.algo b :=
  ⟨_, .originalSeaHO (wide_accepted m (by decide))⟩

/-- `OriginalSTO` -/
example (m) : ∃ b, Elitist (wideCfg m) OriginalSTO.algo b :=
  ⟨_, .originalSTO (wide_accepted m (by decide))⟩

/-- `OriginalOOA` -/
example (m) : ∃ b, Elitist (wideCfg m) OriginalOOA.algo b :=
  ⟨_, .originalOOA (wide_accepted m (by decide))⟩

/-- `OriginalOSA` -/
example (m) : ∃ p b, Elitist (wideCfg m) (OriginalOSA.algo p) b :=
  ⟨⟨(1 / 2), (1 / 2)⟩, _, .originalOSA _ (wide_accepted m (by decide))⟩

/-- `OriginalTSeedA` -/
example : ∃ p b, Elitist (wideCfg .thread) (OriginalTSeedA.algo p) b :=
  ⟨⟨(1 / 2)⟩, _, .originalTSeedA _ (wide_accepted .thread (by decide)) (by wide)⟩

/-- `OriginalMSA` -/
example (m) : ∃ p b, Elitist (wideCfg m) (OriginalMSA.algo p) b :=
  ⟨⟨5, 5, (1 / 2)⟩, _, .originalMSA _ (wide_accepted m (by decide)) (by cases m <;> wide)⟩

/-- `OriginalEVO` -/
example (m) : ∃ b, Elitist (wideCfg m) OriginalEVO.algo b :=
  ⟨_, .originalEVO (wide_accepted m (by decide)) (by cases m <;> wide)⟩

/-- `OriginalFFO` -/
example (m) : ∃ b, Elitist (wideCfg m) OriginalFFO.algo b :=
  ⟨_, .originalFFO (wide_accepted m (by decide))⟩

/-- `OriginalTDO` -/
example (m) : ∃ b, Elitist (wideCfg m) OriginalTDO.algo b :=
  ⟨_, .originalTDO (wide_accepted m (by decide))⟩

/-- `OriginalCoatiOA` -/
example (m) : ∃ b, Tracked (wideCfg m) OriginalCoatiOA.algo b :=
  ⟨_, .originalCoatiOA (wide_accepted m (by decide))⟩

/-- `OriginalFHO` -/
example (m) : ∃ b, Elitist (wideCfg m) OriginalFHO.algo b :=
  ⟨_, .originalFHO (wide_accepted m (by decide))⟩

/-- `OriginalSBOA` -/
example (m) : ∃ b, Elitist (wideCfg m) OriginalSBOA.algo b :=
  ⟨_, .originalSBOA (wide_accepted m (by decide))⟩

/-- `OriginalRFO` -/
example (m) : ∃ p b, Elitist (wideCfg m) (OriginalRFO.algo p) b :=
  ⟨⟨(1 / 2), (1 / 2)⟩, _, .originalRFO _ (wide_accepted m (by decide))⟩

/-- `OriginalTSO` -/
example (m) : ∃ b, Elitist (wideCfg m) OriginalTSO.algo b :=
  ⟨_, .originalTSO (wide_accepted m (by decide))⟩

/-- `OriginalTOA` -/
example (m) : ∃ b, Tracked (wideCfg m) OriginalTOA.algo b :=
  ⟨_, .originalTOA (wide_accepted m (by decide))⟩

/-- `OriginalHGS` -/
example (m) : ∃ p b, Elitist (wideCfg m) (OriginalHGS.algo p) b :=
  ⟨⟨(1 / 2), (1 / 2)⟩, _, .originalHGS _ (wide_accepted m (by decide))⟩

/-- `OriginalHHO` -/
example (m) : ∃ b, Tracked (wideCfg m) OriginalHHO.algo b :=
  ⟨_, .originalHHO (wide_accepted m (by decide))⟩

/-- `OriginalZOA` -/
example (m) : ∃ b, Elitist (wideCfg m) OriginalZOA.algo b :=
  ⟨_, .originalZOA (wide_accepted m (by decide))⟩

/-- `OriginalAVOA` -/
example (m) : ∃ p b, Elitist (wideCfg m) (OriginalAVOA.algo p) b :=
  ⟨⟨(1 / 2), (1 / 2), (1 / 2), (1 / 2), (1 / 2)⟩, _, .originalAVOA _ (wide_accepted m (by decide))⟩

/-- `OriginalBWO` -/
example (m) : ∃ b, Elitist (wideCfg m) OriginalBWO.algo b :=
  ⟨_, .originalBWO (wide_accepted m (by decide)) (by cases m <;> wide)⟩

/-- `OriginalFA` -/
example (m) : ∃ p b, Elitist (wideCfg m) (OriginalFA.algo p) b :=
  ⟨⟨5, (1 / 2), (1 / 2), 5, 5⟩, _, .originalFA _ (wide_accepted m (by decide)) (by cases m <;> wide) roundMono_rat⟩

/-- `OriginalBWOA` -/
example (m) : ∃ p b, Elitist (wideCfg m) (OriginalBWOA.algo p) b :=
  ⟨⟨5, 5, (1 / 2)⟩, _, .originalBWOA _ (wide_accepted m (by decide)) (by cases m <;> wide) (by cases m <;> wide)⟩

/-- `OriginalESO` -/
example (m) : ∃ b, Tracked (unitCfg m) OriginalESO.algo b :=
  ⟨_, .originalESO (unit_accepted m (by decide)) (unit_eso m)⟩

/-- `OriginalFDO` -/
example (m) : ∃ p b, Elitist (wideCfg m) (OriginalFDO.algo p) b :=
  ⟨(1 / 2), _, .originalFDO _ (wide_accepted m (by decide))⟩

/-- `OriginalESOA` -/
example (m) : ∃ b, Tracked (wideCfg m) OriginalESOA.algo b :=
  ⟨_, .originalESOA (wide_accepted m (by decide))⟩

/-- `DevSOA` -/
example (m) : ∃ p b, Elitist (wideCfg m) (DevSOA.algo p) b :=
  ⟨(1 / 2), _, .devSOA _ (wide_accepted m (by decide))⟩

/-- `OriginalSOA` -/
example (m) : ∃ p b, Elitist (wideCfg m) (OriginalSOA.algo p) b :=
  ⟨(1 / 2), _, .originalSOA _ (wide_accepted m (by decide))⟩

/-- `OriginalCDDO` -/
example (m) : ∃ p b, Elitist (wideCfg m) (OriginalCDDO.algo p) b :=
  ⟨⟨5, (1 / 2)⟩, _, .originalCDDO _ (wide_accepted m (by decide)) (by cases m <;> wide) (by cases m <;> wide) (by cases m <;> wide)⟩

/-- `OriginalDBO` -/
example (m) : ∃ p b, Elitist (wideCfg m) (OriginalDBO.algo p) b :=
  ⟨⟨(1 / 2), (1 / 2), (1 / 2)⟩, _, .originalDBO _ (wide_accepted m (by decide))⟩

/-- `OriginalSOO` -/
example (m) : ∃ b, Elitist (wideCfg m) OriginalSOO.algo b :=
  ⟨_, .originalSOO (wide_accepted m (by decide))⟩

/-- `OriginalGJA` -/
example (m) : ∃ p b, Tracked (wideCfg m) (OriginalGJA.algo p) b :=
  ⟨⟨(1 / 2), (1 / 2), (1 / 2)⟩, _, .originalGJA _ (wide_accepted m (by decide))⟩

/-- `OriginalArchOA` -/
example : ∃ p b, Elitist (wideCfg .thread) (OriginalArchOA.algo p) b :=
  ⟨⟨(1 / 2), (1 / 2), (1 / 2), (1 / 2), (1 / 2)⟩, _, .originalArchOA _ (wide_accepted .thread (by decide)) (by wide)⟩

/-- `OriginalAPO` -/
example (m) : ∃ p b, Elitist (wideCfg m) (OriginalAPO.algo p) b :=
  ⟨⟨(1 / 2), 5⟩, _, .originalAPO _ (wide_accepted m (by decide)) (by cases m <;> wide)⟩

/-- `OriginalCOA` -/
example (m) : ∃ p b, Tracked (wideCfg m) (OriginalCOA.algo p) b :=
  ⟨⟨6, 6, 1 / 2⟩, _, .originalCOA _ (wide_accepted m (by decide)) (by cases m <;> wide) (by cases m <;> wide)⟩

/-- `OriginalASO` -/
example (m) : ∃ p b, Tracked (wideCfg m) (OriginalASO.algo p) b :=
  ⟨⟨5, (1 / 2)⟩, _, .originalASO _ (wide_accepted m (by decide))⟩

/-- `DevSSpiderA` -/
example (m) : ∃ p b, Elitist (wideCfg m) (DevSSpiderA.algo p) b :=
  ⟨⟨(1 / 2), (1 / 2)⟩, _, .devSSpiderA _ (wide_accepted m (by decide))⟩

/-- `OriginalPSO` -/
example (m) : ∃ p b, Elitist (wideCfg m) (OriginalPSO.algo p) b :=
  ⟨⟨(1 / 2), (1 / 2), (1 / 2)⟩, _, .originalPSO _ (wide_accepted m (by decide))⟩

/-- `AIW_PSO` -/
example (m) : ∃ p b, Elitist (wideCfg m) (AIW_PSO.algo p) b :=
  ⟨⟨(1 / 2), (1 / 2), (1 / 2)⟩, _, .aIWPSO _ (wide_accepted m (by decide))⟩

/-- `LDW_PSO` -/
example (m) : ∃ p b, Elitist (wideCfg m) (LDW_PSO.algo p) b :=
  ⟨⟨(1 / 2), (1 / 2), (1 / 2), (1 / 2)⟩, _, .lDWPSO _ (wide_accepted m (by decide))⟩

/-- `P_PSO` -/
example (m) : ∃ b, Elitist (wideCfg m) P_PSO.algo b :=
  ⟨_, .pPSO (wide_accepted m (by decide))⟩

/-- `HPSO_TVAC` -/
example (m) : ∃ p b, Elitist (wideCfg m) (HPSO_TVAC.algo p) b :=
  ⟨⟨(1 / 2), (1 / 2)⟩, _, .hPSOTVAC _ (wide_accepted m (by decide))⟩

/-- `C_PSO` -/
example (m) : ∃ p b, Tracked (wideCfg m) (C_PSO.algo p) b :=
  ⟨⟨(1 / 2), (1 / 2), (1 / 2), (1 / 2)⟩, _, .cPSO _ (wide_accepted m (by decide))⟩

/-- `CL_PSO` -/
example (m) : ∃ p b, Elitist (wideCfg m) (CL_PSO.algo p) b :=
  ⟨⟨(1 / 2), (1 / 2), (1 / 2)⟩, _, .cLPSO _ (wide_accepted m (by decide))⟩

/-- `OriginalAO` -/
example (m) : ∃ b, Elitist (wideCfg m) OriginalAO.algo b :=
  ⟨_, .originalAO (wide_accepted m (by decide)) (by cases m <;> wide)⟩

/-- `AAO` -/
example (m) : ∃ p b, Elitist (wideCfg m) (AAO.algo p) b :=
  ⟨⟨(1 / 2), (1 / 2)⟩, _, .aAO _ (wide_accepted m (by decide)) (by cases m <;> wide)⟩

/-- `OriginalARO` -/
example (m) : ∃ b, Elitist (wideCfg m) OriginalARO.algo b :=
  ⟨_, .originalARO (wide_accepted m (by decide)) (by cases m <;> wide)⟩

/-- `LARO` -/
example (m) : ∃ b, Elitist (wideCfg m) LARO.algo b :=
  ⟨_, .lARO (wide_accepted m (by decide)) (by cases m <;> wide)⟩

/-- `IARO` -/
example (m) : ∃ b, Elitist (wideCfg m) IARO.algo b :=
  ⟨_, .iARO (wide_accepted m (by decide)) (by cases m <;> wide)⟩

/-- `OriginalBES` -/
example (m) : ∃ p b, Elitist (wideCfg m) (OriginalBES.algo p) b :=
  ⟨⟨(1 / 2), (1 / 2), (1 / 2), (1 / 2), (1 / 2)⟩, _, .originalBES _ (wide_accepted m (by decide))⟩

/-- `DevMVO` -/
example (m) : ∃ p b, Elitist (wideCfg m) (DevMVO.algo p) b :=
  ⟨⟨(1 / 2), (1 / 2)⟩, _, .devMVO _ (wide_accepted m (by decide))⟩

/-- `OriginalMVO` -/
example (m) : ∃ p b, Elitist (wideCfg m) (OriginalMVO.algo p) b :=
  ⟨⟨(1 / 2), (1 / 2)⟩, _, .originalMVO _ (wide_accepted m (by decide))⟩

/-- `OriginalKOA` -/
example (m) : ∃ p b, Elitist (wideCfg m) (OriginalKOA.algo p) b :=
  ⟨⟨5, (1 / 2), (1 / 2)⟩, _, .originalKOA _ (wide_accepted m (by decide))⟩

/-- `DevSMA` -/
example (m) : ∃ p b, Elitist (wideCfg m) (DevSMA.algo p) b :=
  ⟨(1 / 2), _, .devSMA _ (wide_accepted m (by decide))⟩

/-- `OriginalSMA` -/
example (m) : ∃ p b, Elitist (wideCfg m) (OriginalSMA.algo p) b :=
  ⟨(1 / 2), _, .originalSMA _ (wide_accepted m (by decide))⟩

/-- `DevSBO` -/
example (m) : ∃ p b, Elitist (wideCfg m) (DevSBO.algo p) b :=
  ⟨⟨(1 / 2), (1 / 2), (1 / 2)⟩, _, .devSBO _ (wide_accepted m (by decide))⟩

/-- `OriginalFOX` -/
example (m) : ∃ p b, Elitist (wideCfg m) (OriginalFOX.algo p) b :=
  ⟨⟨(1 / 2), (1 / 2), (1 / 2)⟩, _, .originalFOX _ (wide_accepted m (by decide))⟩

/-- `DevFOX` -/
example (m) : ∃ p b, Elitist (wideCfg m) (DevFOX.algo p) b :=
  ⟨⟨(1 / 2), (1 / 2), (1 / 2)⟩, _, .devFOX _ (wide_accepted m (by decide))⟩

/-- `OriginalDandelionO` -/
example (m) : ∃ b, Elitist (wideCfg m) OriginalDandelionO.algo b :=
  ⟨_, .originalDandelionO (wide_accepted m (by decide)) (by cases m <;> wide)⟩

/-- `DevDandelionO` -/
example (m) : ∃ b, Elitist (wideCfg m) DevDandelionO.algo b :=
  ⟨_, .devDandelionO (wide_accepted m (by decide))⟩

/-- `OriginalINFO` -/
example (m) : ∃ b, Elitist (wideCfg m) OriginalINFO.algo b :=
  ⟨_, .originalINFO (wide_accepted m (by decide)) (by cases m <;> wide)⟩

/-- `OriginalTLO` -/
example (m) : ∃ b, Elitist (wideCfg m) OriginalTLO.algo b :=
  ⟨_, .originalTLO (wide_accepted m (by decide))⟩

/-- `OriginalALO` -/
example (m) : ∃ b, Elitist (wideCfg m) OriginalALO.algo b :=
  ⟨_, .originalALO (wide_accepted m (by decide)) (by cases m <;> wide)⟩

/-- `DevALO` -/
example (m) : ∃ b, Elitist (wideCfg m) DevALO.algo b :=
  ⟨_, .devALO (wide_accepted m (by decide))⟩

/-- `OriginalBBO` -/
example (m) : ∃ p b, Elitist (wideCfg m) (OriginalBBO.algo p) b :=
  ⟨⟨(1 / 2), 5⟩, _, .originalBBO _ (wide_accepted m (by decide))⟩

/-- `DevBBO` -/
example (m) : ∃ p b, Elitist (wideCfg m) (DevBBO.algo p) b :=
  ⟨⟨(1 / 2), 5⟩, _, .devBBO _ (wide_accepted m (by decide))⟩

/-- `OriginalNMRA` -/
example (m) : ∃ p b, Tracked (wideCfg m) (OriginalNMRA.algo p) b :=
  ⟨(1 / 2), _, .originalNMRA _ (wide_accepted m (by decide))⟩

/-- `ImprovedNMRA` -/
example (m) : ∃ p b, Tracked (wideCfg m) (ImprovedNMRA.algo p) b :=
  ⟨⟨(1 / 2), (1 / 2)⟩, _, .improvedNMRA _ (wide_accepted m (by decide)) (by cases m <;> wide)⟩

/-- `OriginalCEO` -/
example (m) : ∃ p b, Elitist (wideCfg m) (OriginalCEO.algo p) b :=
  ⟨⟨(1 / 2), (1 / 2), (1 / 2)⟩, _, .originalCEO _ (wide_accepted m (by decide))⟩

/-- `OriginalSFOA` -/
example (m) : ∃ p b, Elitist (wideCfg m) (OriginalSFOA.algo p) b :=
  ⟨(1 / 2), _, .originalSFOA _ (wide_accepted m (by decide)) (by cases m <;> wide)⟩

/-- `OriginalEEFO` -/
example (m) : ∃ b, Elitist (wideCfg m) OriginalEEFO.algo b :=
  ⟨_, .originalEEFO (wide_accepted m (by decide)) (by cases m <;> wide)⟩

/-- `DevGCO` -/
example (m) : ∃ p b, Elitist (wideCfg m) (DevGCO.algo p) b :=
  ⟨⟨(1 / 2), (1 / 2)⟩, _, .devGCO _ (wide_accepted m (by decide))⟩

/-- `OriginalGCO` -/
example (m) : ∃ p b, Elitist (wideCfg m) (OriginalGCO.algo p) b :=
  ⟨⟨(1 / 2), (1 / 2)⟩, _, .originalGCO _ (wide_accepted m (by decide))⟩

/-- `OriginalRUN` -/
example (m) : ∃ b, Elitist (wideCfg m) OriginalRUN.algo b :=
  ⟨_, .originalRUN (wide_accepted m (by decide)) (by cases m <;> wide)⟩

/-- `OriginalGBO` -/
example (m) : ∃ p b, Elitist (wideCfg m) (OriginalGBO.algo p) b :=
  ⟨⟨(1 / 2), (1 / 2), (1 / 2)⟩, _, .originalGBO _ (wide_accepted m (by decide))⟩

/-- `OriginalGRSA` -/
example (m) : ∃ p b, Tracked (wideCfg m) (OriginalGRSA.algo p) b :=
  ⟨⟨5, (1 / 2), (1 / 2), (1 / 2), (1 / 2)⟩, _, .originalGRSA _ (wide_accepted m (by decide)) (by cases m <;> wide)⟩

/-- `OriginalEP` -/
example (m) : ∃ p b, Tracked (wideCfg m) (OriginalEP.algo p) b :=
  ⟨(1 / 2), _, .originalEP _ (wide_accepted m (by decide))⟩

/-- `LevyEP` -/
example (m) : ∃ p b, Tracked (wideCfg m) (LevyEP.algo p) b :=
  ⟨(1 / 2), _, .levyEP _ (wide_accepted m (by decide))⟩

/-- `OriginalAHO` -/
example (m) : ∃ p b, Tracked (wideCfg m) (OriginalAHO.algo p) b :=
  ⟨⟨(1 / 2), (1 / 2)⟩, _, .originalAHO _ (wide_accepted m (by decide)) (by cases m <;> wide)⟩

/-- `OriginalWHO` -/
example : ∃ p b, Careless (wideCfg .single) (OriginalWHO.algo p) b [] :=
  ⟨⟨5, 5, (1 / 2), (1 / 2), (1 / 2), (1 / 2), (1 / 2), (1 / 2), (1 / 2), (1 / 2)⟩, _, .originalWHO _ (wide_accepted .single (by decide)) (by wide) (by wide)⟩

/-- `OriginalWHO` -/
example : ∃ p b, Loose (wideCfg .thread) (OriginalWHO.algo p) b :=
  ⟨⟨5, 5, (1 / 2), (1 / 2), (1 / 2), (1 / 2), (1 / 2), (1 / 2), (1 / 2), (1 / 2)⟩, _, .originalWHO _ (wide_accepted .thread (by decide)) (by wide) (by wide) (by wide)⟩

/-- `OriginalSBO` -/
example : ∃ p b, Careless (wideCfg .single) (OriginalSBO.algo p) b [.index] :=
  ⟨⟨(1 / 2), (1 / 2), (1 / 2)⟩, _, .originalSBO _ (wide_accepted .single (by decide)) (by wide)⟩

/-- `OriginalSBO` -/
example : ∃ p b, Fallible (wideCfg .thread) (OriginalSBO.algo p) b [.index] :=
  ⟨⟨(1 / 2), (1 / 2), (1 / 2)⟩, _, .originalSBO _ (wide_accepted .thread (by decide)) (by wide)⟩

/-- `OriginalAAA` -/
example (m) : ∃ p b, Careless (wideCfg m) (OriginalAAA.algo p) b [.hang] :=
  ⟨⟨(1 / 2), (1 / 2), (1 / 2), 5⟩, _, .originalAAA _ (wide_accepted m (by decide)) (by cases m <;> wide)⟩

/-- `OriginalBCO` -/
example (m) : ∃ p b, Wild (wideCfg m) (OriginalBCO.algo p) b [] :=
  ⟨⟨(1 / 2), (1 / 2), 5, 5, (1 / 2)⟩, _, .originalBCO _ (wide_accepted m (by decide))⟩

/-- `EnhancedTWO` -/
example : ∃ b, Tracked (wideCfg .thread) EnhancedTWO.algo b :=
  ⟨_, .enhancedTWO (wide_accepted .thread (by decide)) (by wide)⟩

/-- `EnhancedTWO` -/
example (m) : ∃ b, Wild (wideCfg m) EnhancedTWO.algo b [] :=
  ⟨_, .enhancedTWO (wide_accepted m (by decide))⟩

/-- `OriginalLSHADEcnEpSin` -/
example (m) : ∃ p b, Resizing (wideCfg m) (OriginalLSHADEcnEpSin.algo p) b :=
  ⟨⟨(1 / 2), (1 / 2), (1 / 2), 5, (1 / 2), (1 / 2), 5⟩, _, .originalLSHADEcnEpSin _ (wide_accepted m (by decide)) (by cases m <;> wide) (by cases m <;> wide) (by cases m <;> wide) (by cases m <;> wide)⟩

/-- `OriginalCSO` -/
example (m) : ∃ p b, Tracked (wideCfg m) (OriginalCSO.algo p) b :=
  ⟨⟨3 / 20, 5, false, 4 / 5, 3 / 20, 2 / 5, 2 / 5, 9 / 10, 1⟩, _, .originalCSO _ (wide_accepted m (by decide)) (by cases m <;> wide) (by cases m <;> wide) (by cases m <;> wide)⟩

/-- `OriginalMA` -/
example (m) : ∃ p b, Tracked (wideCfg m) (OriginalMA.algo p) b :=
  ⟨⟨(1 / 2), (1 / 2), 5, 5⟩, _, .originalMA _ (wide_accepted m (by decide)) (by cases m <;> wide)⟩

/-- `OriginalHGSO` -/
example (m) : ∃ p b, Tracked (wideCfg m) (OriginalHGSO.algo p) b :=
  ⟨4, _, .originalHGSO _ (wide_accepted m (by decide)) (by cases m <;> wide)⟩

/-- `OriginalDOA` -/
example (m) : ∃ b, Tracked (wideCfg m) OriginalDOA.algo b :=
  ⟨_, .originalDOA (wide_accepted m (by decide)) (by cases m <;> wide)⟩

/-- `OriginalCCO` -/
example (m) : ∃ p b, Tracked (wideCfg m) (OriginalCCO.algo p) b :=
  ⟨⟨(1 / 2), (1 / 2)⟩, _, .originalCCO _ (wide_accepted m (by decide))⟩

/-- `ETLBO` -/
example (m) : ∃ p b, Elitist (wideCfg m) (ETLBO.algo p) b :=
  ⟨5, _, .eTLBO _ (wide_accepted m (by decide)) (by cases m <;> wide)⟩

/-- `ImprovedTLO` -/
example (m) : ∃ p b, Tracked (wideCfg m) (ImprovedTLO.algo p) b :=
  ⟨3, _, .improvedTLO _ (wide_accepted m (by decide)) (by cases m <;> wide) (by cases m <;> wide) (by cases m <;> wide)⟩

/-- `DevTPO` -/
example (m) : ∃ p b, Tracked (wideCfg m) (DevTPO.algo p) b :=
  ⟨⟨(1 / 2), (1 / 2), (1 / 2)⟩, _, .devTPO _ (wide_accepted m (by decide))⟩

/-- `OriginalDO` -/
example (m) : ∃ b, Tracked (wideCfg m) OriginalDO.algo b :=
  ⟨_, .originalDO (wide_accepted m (by decide))⟩

/-- `OriginalAEO` -/
example (m) : ∃ b, Elitist (wideCfg m) OriginalAEO.algo b :=
  ⟨_, .originalAEO (wide_accepted m (by decide))⟩

/-- `ImprovedAEO` -/
example (m) : ∃ b, Elitist (wideCfg m) ImprovedAEO.algo b :=
  ⟨_, .improvedAEO (wide_accepted m (by decide))⟩

/-- `EnhancedAEO` -/
example (m) : ∃ b, Elitist (wideCfg m) EnhancedAEO.algo b :=
  ⟨_, .enhancedAEO (wide_accepted m (by decide))⟩

/-- `ModifiedAEO` -/
example (m) : ∃ b, Elitist (wideCfg m) ModifiedAEO.algo b :=
  ⟨_, .modifiedAEO (wide_accepted m (by decide))⟩

/-- `AugmentedAEO` -/
example (m) : ∃ b, Elitist (wideCfg m) AugmentedAEO.algo b :=
  ⟨_, .augmentedAEO (wide_accepted m (by decide))⟩

/-- `DevQSA` -/
example (m) : ∃ b, Elitist (wideCfg m) DevQSA.algo b :=
  ⟨_, .devQSA (wide_accepted m (by decide))⟩

/-- `OppoQSA` -/
example (m) : ∃ b, Elitist (wideCfg m) OppoQSA.algo b :=
  ⟨_, .oppoQSA (wide_accepted m (by decide))⟩

/-- `LevyQSA` -/
example (m) : ∃ b, Elitist (wideCfg m) LevyQSA.algo b :=
  ⟨_, .levyQSA (wide_accepted m (by decide))⟩

/-- `ImprovedQSA` -/
example (m) : ∃ b, Elitist (wideCfg m) ImprovedQSA.algo b :=
  ⟨_, .improvedQSA (wide_accepted m (by decide))⟩

/-- `OriginalQSA` -/
example (m) : ∃ b, Elitist (wideCfg m) OriginalQSA.algo b :=
  ⟨_, .originalQSA (wide_accepted m (by decide))⟩

/-- `DevSSA` -/
example (m) : ∃ p b, Elitist (wideCfg m) (DevSSA.algo p) b :=
  ⟨⟨(1 / 2), (1 / 2), (1 / 2)⟩, _, .devSSA _ (wide_accepted m (by decide))⟩

/-- `OriginalSSA` -/
example (m) : ∃ p b, Elitist (wideCfg m) (OriginalSSA.algo p) b :=
  ⟨⟨(1 / 2), (1 / 2), (1 / 2)⟩, _, .originalSSA _ (wide_accepted m (by decide))⟩

/-- `OriginalSLO` -/
example (m) : ∃ b, Elitist (wideCfg m) OriginalSLO.algo b :=
  ⟨_, .originalSLO (wide_accepted m (by decide))⟩

/-- `DevGSKA` -/
example (m) : ∃ p b, Elitist (wideCfg m) (DevGSKA.algo p) b :=
  ⟨⟨1 / 10, 7 / 10⟩, _, .devGSKA _ (wide_accepted m (by decide)) (by cases m <;> wide)⟩

/-- `OriginalGSKA` -/
example (m) : ∃ p b, Elitist (wideCfg m) (OriginalGSKA.algo p) b :=
  ⟨⟨1 / 10, 1 / 2, 9 / 10, 5⟩, _, .originalGSKA _ (wide_accepted m (by decide)) (by cases m <;> wide)⟩

/-- `DevFBIO` -/
example (m) : ∃ b, Elitist (wideCfg m) DevFBIO.algo b :=
  ⟨_, .devFBIO (wide_accepted m (by decide)) (by cases m <;> wide)⟩

/-- `OriginalFBIO` -/
example (m) : ∃ b, Elitist (wideCfg m) OriginalFBIO.algo b :=
  ⟨_, .originalFBIO (wide_accepted m (by decide)) (by cases m <;> wide)⟩

/-- `OriginalMRFO` -/
example (m) : ∃ p b, Tracked (wideCfg m) (OriginalMRFO.algo p) b :=
  ⟨(1 / 2), _, .originalMRFO _ (wide_accepted m (by decide))⟩

/-- `WMQIMRFO` -/
example (m) : ∃ p b, Tracked (wideCfg m) (WMQIMRFO.algo p) b :=
  ⟨⟨(1 / 2), (1 / 2)⟩, _, .wMQIMRFO _ (wide_accepted m (by decide))⟩

/-- `OriginalBA` -/
example (m) : ∃ p b, Tracked (wideCfg m) (OriginalBA.algo p) b :=
  ⟨⟨(1 / 2), (1 / 2), (1 / 2), (1 / 2)⟩, _, .originalBA _ (wide_accepted m (by decide))⟩

/-- `AdaptiveBA` -/
example (m) : ∃ p b, Tracked (wideCfg m) (AdaptiveBA.algo p) b :=
  ⟨⟨(1 / 2), (1 / 2), (1 / 2), (1 / 2), (1 / 2), (1 / 2)⟩, _, .adaptiveBA _ (wide_accepted m (by decide))⟩

/-- `DevBA` -/
example (m) : ∃ p b, Elitist (wideCfg m) (DevBA.algo p) b :=
  ⟨⟨(1 / 2), (1 / 2), (1 / 2)⟩, _, .devBA _ (wide_accepted m (by decide))⟩

/-- `DevEFO` -/
example (m) : ∃ p b, Elitist (wideCfg m) (DevEFO.algo p) b :=
  ⟨⟨3 / 10, 17 / 20, 1 / 10, 9 / 20⟩, _, .devEFO _ (wide_accepted m (by decide)) (by cases m <;> wide) (by cases m <;> wide)⟩

/-- `OriginalEFO` -/
example (m) : ∃ p b, Tracked (wideCfg m) (OriginalEFO.algo p) b :=
  ⟨⟨3 / 10, 17 / 20, 1 / 10, 9 / 20⟩, _, .originalEFO _ (wide_accepted m (by decide)) (by cases m <;> wide) (by cases m <;> wide)⟩

/-- `OriginalNWOA` -/
example (m) : ∃ p b, Elitist (wideCfg m) (OriginalNWOA.algo p) b :=
  ⟨⟨(1 / 2), (1 / 2), (1 / 2)⟩, _, .originalNWOA _ (wide_accepted m (by decide))⟩

/-- `OriginalNO` -/
example (m) : ∃ p b, Elitist (wideCfg m) (OriginalNO.algo p) b :=
  ⟨⟨(1 / 2), (1 / 2)⟩, _, .originalNO _ (wide_accepted m (by decide))⟩

/-- `OriginalLSO` -/
example (m) : ∃ p b, Elitist (wideCfg m) (OriginalLSO.algo p) b :=
  ⟨⟨(1 / 2), (1 / 2), (1 / 2), (1 / 2)⟩, _, .originalLSO _ (wide_accepted m (by decide))⟩

/-- `DevLSO` -/
example (m) : ∃ p b, Elitist (wideCfg m) (DevLSO.algo p) b :=
  ⟨⟨(1 / 2), (1 / 2), (1 / 2)⟩, _, .devLSO _ (wide_accepted m (by decide))⟩

/-- `OriginalDMOA` -/
example (m) : ∃ p b, Tracked (wideCfg m) (OriginalDMOA.algo p) b :=
  ⟨⟨5, (1 / 2)⟩, _, .originalDMOA _ (wide_accepted m (by decide)) (by cases m <;> wide)⟩

/-- `DevDMOA` -/
example (m) : ∃ p b, Tracked (wideCfg m) (DevDMOA.algo p) b :=
  ⟨(1 / 2), _, .devDMOA _ (wide_accepted m (by decide))⟩

/-- `OriginalFLA` -/
example (m) : ∃ p b, Elitist (wideCfg m) (OriginalFLA.algo p) b :=
  ⟨⟨1 / 2, 2, 1 / 10, 1 / 5, 2, 1 / 100⟩, _, .originalFLA _ (wide_accepted m (by decide)) (wide_fla m)⟩

/-- `DevBRO` -/
example (m) : ∃ p b, Tracked (wideCfg m) (DevBRO.algo p) b :=
  ⟨(1 / 2), _, .devBRO _ (wide_accepted m (by decide))⟩

/-- `OriginalBRO` -/
example (m) : ∃ p b, Tracked (wideCfg m) (OriginalBRO.algo p) b :=
  ⟨(1 / 2), _, .originalBRO _ (wide_accepted m (by decide))⟩

/-- `OriginalSFO` -/
example (m) : ∃ p b, Tracked (wideCfg m) (OriginalSFO.algo p) b :=
  ⟨⟨1 / 10, 4, 1 / 100⟩, _, .originalSFO _ (wide_accepted m (by decide)) (by cases m <;> wide) (by cases m <;> wide) (wide_sfo m)⟩

/-- `ImprovedSFO` -/
example (m) : ∃ p b, Tracked (wideCfg m) (ImprovedSFO.algo p) b :=
  ⟨(1 / 10), _, .improvedSFO _ (wide_accepted m (by decide)) (by cases m <;> wide)⟩

/-- `MLFA_GD` -/
example (m) : ∃ p b, Tracked (wideCfg m) (MLFA_GD.algo p) b :=
  ⟨⟨5, (1 / 2), (1 / 2), 5⟩, _, .mLFAGD _ (wide_accepted m (by decide)) (by cases m <;> wide)⟩

/-- `ImprovedBSO` -/
example (m) : ∃ p b, Tracked (wideCfg m) (ImprovedBSO.algo p) b :=
  ⟨⟨6, 1 / 4, 1 / 2, 3 / 4, 1 / 2⟩, _, .improvedBSO _ (wide_accepted m (by decide)) (by cases m <;> wide)⟩

/-- `OriginalBSO` -/
example (m) : ∃ p b, Tracked (wideCfg m) (OriginalBSO.algo p) b :=
  ⟨⟨⟨6, 1 / 4, 1 / 2, 3 / 4, 1 / 2⟩, 20⟩, _, .originalBSO _ (wide_accepted m (by decide)) (by cases m <;> wide)⟩

/-- `OriginalTWO` -/
example (m) : ∃ b, Tracked (wideCfg m) OriginalTWO.algo b :=
  ⟨_, .originalTWO (wide_accepted m (by decide))⟩

/-- `OppoTWO` -/
example : ∃ b, Tracked (wideCfg .thread) OppoTWO.algo b :=
  ⟨_, .oppoTWO (wide_accepted .thread (by decide)) (by wide) (by wide)⟩

/-- `LevyTWO` -/
example : ∃ b, Tracked (wideCfg .thread) LevyTWO.algo b :=
  ⟨_, .levyTWO (wide_accepted .thread (by decide)) (by wide)⟩

/-- `OriginalMShOA` -/
example (m) : ∃ b, Elitist (wideCfg m) OriginalMShOA.algo b :=
  ⟨_, .originalMShOA (wide_accepted m (by decide))⟩

/-- `DevMShOA` -/
example (m) : ∃ p b, Elitist (wideCfg m) (DevMShOA.algo p) b :=
  ⟨(1 / 2), _, .devMShOA _ (wide_accepted m (by decide))⟩

/-- `OriginalSRSR` -/
example (m) : ∃ b, Tracked (wideCfg m) OriginalSRSR.algo b :=
  ⟨_, .originalSRSR (wide_accepted m (by decide)) (wide_srsr m)⟩

/-- `OriginalAGTO` -/
example (m) : ∃ p b, Tracked (wideCfg m) (OriginalAGTO.algo p) b :=
  ⟨⟨(1 / 2), (1 / 2), (1 / 2)⟩, _, .originalAGTO _ (wide_accepted m (by decide))⟩

/-- `MGTO` -/
example (m) : ∃ p b, Tracked (wideCfg m) (MGTO.algo p) b :=
  ⟨(1 / 2), _, .mGTO _ (wide_accepted m (by decide))⟩

/-- `OriginalGTO` -/
example (m) : ∃ p b, Tracked (wideCfg m) (OriginalGTO.algo p) b :=
  ⟨⟨(1 / 2), (1 / 2)⟩, _, .originalGTO _ (wide_accepted m (by decide))⟩

/-- `Matlab102GTO` -/
example (m) : ∃ b, Tracked (wideCfg m) Matlab102GTO.algo b :=
  ⟨_, .matlab102GTO (wide_accepted m (by decide))⟩

/-- `Matlab101GTO` -/
example (m) : ∃ b, Tracked (wideCfg m) Matlab101GTO.algo b :=
  ⟨_, .matlab101GTO (wide_accepted m (by decide))⟩

/-- `OriginalWSO` -/
example (m) : ∃ p b, Elitist (wideCfg m) (OriginalWSO.algo p) b :=
  ⟨⟨(1 / 2), (1 / 2), (1 / 2), (1 / 2), (1 / 2), (1 / 2), (1 / 2), (1 / 2)⟩, _, .originalWSO _ (wide_accepted m (by decide)) (wide_wso m)⟩

/-- `OriginalPSS` -/
example (m) : ∃ p b, Tracked (wideCfg m) (OriginalPSS.algo p) b :=
  ⟨⟨9 / 10, false⟩, _, .originalPSS _ (wide_accepted m (by decide)) (by cases m <;> wide)⟩

/-- `OriginalMSO` -/
example (m) : ∃ b, Elitist (wideCfg m) OriginalMSO.algo b :=
  ⟨_, .originalMSO (wide_accepted m (by decide))⟩

/-- `OriginalOrcaPA` -/
example (m) : ∃ p b, Tracked (wideCfg m) (OriginalOrcaPA.algo p) b :=
  ⟨⟨(1 / 2), (1 / 2), (1 / 2)⟩, _, .originalOrcaPA _ (wide_accepted m (by decide))⟩

/-- `OriginalNRO` -/
example (m) : ∃ b, Fallible (wideCfg m) OriginalNRO.algo b [.value] :=
  ⟨_, .originalNRO (wide_accepted m (by decide))⟩

/-- `OriginalSquirrelSA` -/
example (m) : ∃ p b, Fallible (wideCfg m) (OriginalSquirrelSA.algo p) b [.type] :=
  ⟨⟨5, (1 / 2), (1 / 2), (1 / 2), (1 / 2)⟩, _, .originalSquirrelSA _ (wide_accepted m (by decide)) (by cases m <;> wide)⟩

/-- `OriginalSHADE` -/
example (m) : ∃ p b, Elitist (wideCfg m) (OriginalSHADE.algo p) b :=
  ⟨⟨(1 / 2), (1 / 2)⟩, _, .originalSHADE _ (wide_accepted m (by decide)) (by cases m <;> wide) (wide_shade m)⟩

/-- `L_SHADE` -/
example (m) : ∃ p b, Elitist (wideCfg m) (L_SHADE.algo p) b :=
  ⟨⟨1 / 2, 1 / 2⟩, _, .lSHADE _ (wide_accepted m (by decide)) (by cases m <;> wide) (wide_lshade m)⟩

/-- `OriginalES` -/
example (m) : ∃ p b, Elitist (wideCfg m) (OriginalES.algo p) b :=
  ⟨⟨5⟩, _, .originalES _ (wide_accepted m (by decide)) (by cases m <;> wide)⟩

/-- `LevyES` -/
example (m) : ∃ p b, Elitist (wideCfg m) (LevyES.algo p) b :=
  ⟨⟨5⟩, _, .levyES _ (wide_accepted m (by decide)) (by cases m <;> wide)⟩

/-- `CMA_ES` -/
example (m) : ∃ b, Fallible (wideCfg m) CMA_ES.algo b [.value] :=
  ⟨_, .cMAES (wide_accepted m (by decide))⟩

/-- `Simple_CMA_ES` -/
example (m) : ∃ b, Elitist (wideCfg m) Simple_CMA_ES.algo b :=
  ⟨_, .simpleCMAES (wide_accepted m (by decide))⟩

/-- `CleverBookBeesA` -/
example (m) : ∃ p b, Elitist (wideCfg m) (CleverBookBeesA.algo p) b :=
  ⟨⟨5, 5, (1 / 2), 5, 5⟩, _, .cleverBookBeesA _ (wide_accepted m (by decide)) (by cases m <;> wide) (by cases m <;> wide) (by cases m <;> wide)⟩

/-- `OriginalWOAmM` -/
example (m) : ∃ p b, Tracked (wideCfg m) (OriginalWOAmM.algo p) b :=
  ⟨⟨true, 5, (1 / 2), .reflect⟩, _, .originalWOAmM _ (wide_accepted m (by decide))⟩

/-- `DevWOAmM` -/
example : ∃ p b, Elitist (wideCfg .single) (DevWOAmM.algo p) b :=
  ⟨⟨true, 5, 1 / 2, .reflect⟩, _, .devWOAmM _ (wide_accepted .single (by decide)) (by wide)⟩

/-- `OriginalCRO` -/
example (m) : ∃ p b, Tracked (wideCfg m) (OriginalCRO.algo p) b :=
  ⟨⟨2 / 5, 9 / 10, 1 / 10, 1 / 10, 1 / 2, 1 / 10, 1 / 50, 1 / 5, 5⟩, _, .originalCRO _ (wide_accepted m (by decide)) (by cases m <;> wide) (wide_cro m)⟩

/-- `OCRO` -/
example (m) : ∃ p b, Tracked (wideCfg m) (OCRO.algo p) b :=
  ⟨⟨⟨2 / 5, 9 / 10, 1 / 10, 1 / 10, 1 / 2, 1 / 10, 1 / 50, 1 / 5, 5⟩, 20⟩, _, .oCRO _ (wide_accepted m (by decide)) (by cases m <;> wide) (wide_cro m)⟩

/-- `OriginalBSA` -/
example (m) : ∃ p b, Elitist (wideCfg m) (OriginalBSA.algo p) b :=
  ⟨⟨5, (1 / 2), (1 / 2), (1 / 2), (1 / 2), (1 / 2), (1 / 2)⟩, _, .originalBSA _ (wide_accepted m (by decide))⟩

/-- `OriginalPO` -/
example (m) : ∃ p b, Elitist (wideCfg m) (OriginalPO.algo p) b :=
  ⟨⟨6, 1⟩, _, .originalPO _ (wide_accepted m (by decide)) (by cases m <;> wide) (by cases m <;> wide)⟩

/-- `OriginalBFO` -/
example (m) : ∃ p b, Tracked (wideCfg m) (OriginalBFO.algo p) b :=
  ⟨⟨5, (1 / 2), 5, 5, (1 / 2), (1 / 2), (1 / 2), (1 / 2)⟩, _, .originalBFO _ (wide_accepted m (by decide)) (by cases m <;> wide) (by cases m <;> wide)⟩

/-- `OriginalChameleonSA` -/
example (m) : ∃ p b, Elitist (wideCfg m) (OriginalChameleonSA.algo p) b :=
  ⟨⟨(1 / 2), (1 / 2), (1 / 2), (1 / 2), (1 / 2), (1 / 2), (1 / 2), (1 / 2)⟩, _, .originalChameleonSA _ (wide_accepted m (by decide))⟩

/-- `IChameleonSA` -/
example (m) : ∃ p b, Tracked (wideCfg m) (IChameleonSA.algo p) b :=
  ⟨⟨(1 / 2), (1 / 2), (1 / 2), (1 / 2)⟩, _, .iChameleonSA _ (wide_accepted m (by decide))⟩

/-- `OriginalCHIO` -/
example (m) : ∃ p b, Fallible (wideCfg m) (OriginalCHIO.algo p) b [.value] :=
  ⟨⟨(1 / 2), 5⟩, _, .originalCHIO _ (wide_accepted m (by decide))⟩

/-- `DevCHIO` -/
example (m) : ∃ p b, Fallible (wideCfg m) (DevCHIO.algo p) b [.value] :=
  ⟨⟨3 / 20, 10⟩, _, .devCHIO _ (wide_accepted m (by decide))⟩

/-- `OriginalWCA` -/
example (m) : ∃ p b, Fallible (wideCfg m) (OriginalWCA.algo p) b [.value, .index] :=
  ⟨⟨5, (1 / 2), (1 / 2)⟩, _, .originalWCA _ (wide_accepted m (by decide)) (by cases m <;> wide)⟩

/-- `ModifiedSLO` -/
example : ∃ b, Tracked (wideCfg .single) ModifiedSLO.algo b :=
  ⟨_, .modifiedSLO (wide_accepted .single (by decide)) (by wide)⟩

/-- `ImprovedSLO` -/
example : ∃ p b, Tracked (wideCfg .single) (ImprovedSLO.algo p) b :=
  ⟨⟨(1 / 2), (1 / 2)⟩, _, .improvedSLO _ (wide_accepted .single (by decide)) (by wide)⟩

/-- `ImprovedLCO` -/
example (m) : ∃ b, Elitist (wideCfg m) ImprovedLCO.algo b :=
  ⟨_, .improvedLCO (wide_accepted m (by decide))⟩

/-- `DevEPC` -/
example (m) : ∃ p b, Elitist (wideCfg m) (DevEPC.algo p) b :=
  ⟨⟨(1 / 2), (1 / 2), (1 / 2), (1 / 2)⟩, _, .devEPC _ (wide_accepted m (by decide))⟩

/-- `QleSCA` -/
example (m) : ∃ p b, Fallible (wideCfg m) (QleSCA.algo p) b [.stopIteration] :=
  ⟨⟨(1 / 2), (1 / 2)⟩, _, .qleSCA _ (wide_accepted m (by decide))⟩

/-- `OriginalILA` -/
example (m) : ∃ p b, Elitist (wideCfg m) (OriginalILA.algo p) b :=
  ⟨⟨5, (1 / 2), (1 / 2), (1 / 2), (1 / 2)⟩, _, .originalILA _ (wide_accepted m (by decide))⟩

/-- `OriginalSSpiderO` -/
example (m) : ∃ p b, Tracked (wideCfg m) (OriginalSSpiderO.algo p) b :=
  ⟨⟨13 / 20, 9 / 10⟩, _, .originalSSpiderO _ (wide_accepted m (by decide)) (wide_spiders m)⟩

/-- `OriginalIMODE` -/
example (m) : ∃ p b, Tracked (wideCfg m) (OriginalIMODE.algo p) b :=
  ⟨⟨5, 5⟩, _, .originalIMODE _ (wide_accepted m (by decide)) (by cases m <;> wide) (by cases m <;> wide)⟩

/-- `DevGSKA` -/
example (m) : ∃ p b, Fallible (wideCfg m) (DevGSKA.algo p) b [.value, .index] :=
  ⟨⟨1 / 10, 7 / 10⟩, _, .devGSKA _ (wide_accepted m (by decide))⟩

/-- `OriginalGSKA` -/
example (m) : ∃ p b, Fallible (wideCfg m) (OriginalGSKA.algo p) b [.value, .index] :=
  ⟨⟨1 / 10, 1 / 2, 9 / 10, 5⟩, _, .originalGSKA _ (wide_accepted m (by decide))⟩

/-- `OriginalSHO` -/
example (m) : ∃ p b, Fallible (wideCfg m) (OriginalSHO.algo p) b [.value] :=
  ⟨⟨(1 / 2), 5⟩, _, .originalSHO _ (wide_accepted m (by decide))⟩

/-- `ImprovedNMRA` -/
example (m) : ∃ p b, Fallible (wideCfg m) (ImprovedNMRA.algo p) b [.value] :=
  ⟨⟨(1 / 2), (1 / 2)⟩, _, .improvedNMRA _ (wide_accepted m (by decide))⟩

/-- `OriginalINFO` -/
example (m) : ∃ b, Fallible (wideCfg m) OriginalINFO.algo b [.index] :=
  ⟨_, .originalINFO (wide_accepted m (by decide))⟩

/-- `OriginalCSO` -/
example (m) : ∃ p b, Fallible (wideCfg m) (OriginalCSO.algo p) b [.value] :=
  ⟨⟨3 / 20, 5, false, 4 / 5, 3 / 20, 2 / 5, 2 / 5, 9 / 10, 1⟩, _, .originalCSO _ (wide_accepted m (by decide)) (by cases m <;> wide) (by cases m <;> wide)⟩

/-- `OriginalDOA` -/
example (m) : ∃ b, Fallible (wideCfg m) OriginalDOA.algo b [.value, .index] :=
  ⟨_, .originalDOA (wide_accepted m (by decide)) (by cases m <;> wide)⟩

/-- `OriginalMA` -/
example (m) : ∃ p b, Fallible (wideCfg m) (OriginalMA.algo p) b [.index] :=
  ⟨⟨(1 / 2), (1 / 2), 5, 5⟩, _, .originalMA _ (wide_accepted m (by decide))⟩

/-- `DevEFO` -/
example (m) : ∃ p b, Fallible (wideCfg m) (DevEFO.algo p) b [.value, .index] :=
  ⟨⟨3 / 10, 17 / 20, 1 / 10, 9 / 20⟩, _, .devEFO _ (wide_accepted m (by decide))⟩

/-- `OriginalEFO` -/
example (m) : ∃ p b, Fallible (wideCfg m) (OriginalEFO.algo p) b [.value, .index] :=
  ⟨⟨3 / 10, 17 / 20, 1 / 10, 9 / 20⟩, _, .originalEFO _ (wide_accepted m (by decide))⟩

/-- `OriginalFLA` -/
example (m) : ∃ p b, Fallible (wideCfg m) (OriginalFLA.algo p) b [.index] :=
  ⟨⟨1 / 2, 2, 1 / 10, 1 / 5, 2, 1 / 100⟩, _, .originalFLA _ (wide_accepted m (by decide))⟩

/-- `OriginalSRSR` -/
example (m) : ∃ b, Fallible (wideCfg m) OriginalSRSR.algo b [.value] :=
  ⟨_, .originalSRSR (wide_accepted m (by decide))⟩

/-- `OriginalESO` -/
example (m) : ∃ b, Fallible (unitCfg m) OriginalESO.algo b [.value] :=
  ⟨_, .originalESO (unit_accepted m (by decide))⟩

/-- `OriginalCDDO` -/
example (m) : ∃ p b, Fallible (wideCfg m) (OriginalCDDO.algo p) b [.value] :=
  ⟨⟨5, (1 / 2)⟩, _, .originalCDDO _ (wide_accepted m (by decide)) (by cases m <;> wide) (by cases m <;> wide)⟩

/-- `CleverBookBeesA` -/
example (m) : ∃ p b, Fallible (wideCfg m) (CleverBookBeesA.algo p) b [.value] :=
  ⟨⟨5, 5, (1 / 2), 5, 5⟩, _, .cleverBookBeesA _ (wide_accepted m (by decide)) (by cases m <;> wide) (by cases m <;> wide)⟩

/-- `OriginalCRO` -/
example (m) : ∃ p b, Fallible (wideCfg m) (OriginalCRO.algo p) b [.value] :=
  ⟨⟨2 / 5, 9 / 10, 1 / 10, 1 / 10, 1 / 2, 1 / 10, 1 / 50, 1 / 5, 5⟩, _, .originalCRO _ (wide_accepted m (by decide)) (wide_cro m)⟩

/-- `OCRO` -/
example (m) : ∃ p b, Fallible (wideCfg m) (OCRO.algo p) b [.value] :=
  ⟨⟨⟨2 / 5, 9 / 10, 1 / 10, 1 / 10, 1 / 2, 1 / 10, 1 / 50, 1 / 5, 5⟩, 20⟩, _, .oCRO _ (wide_accepted m (by decide)) (wide_cro m)⟩

/-- `OriginalSHADE` -/
example (m) : ∃ p b, Fallible (wideCfg m) (OriginalSHADE.algo p) b [.value, .index] :=
  ⟨⟨(1 / 2), (1 / 2)⟩, _, .originalSHADE _ (wide_accepted m (by decide)) (by cases m <;> wide)⟩

/-- `OriginalSFO` -/
example (m) : ∃ p b, Fallible (wideCfg m) (OriginalSFO.algo p) b [.value] :=
  ⟨⟨1 / 10, 4, 1 / 100⟩, _, .originalSFO _ (wide_accepted m (by decide)) (by cases m <;> wide)⟩

/-- `OppoTWO` -/
example (m) : ∃ b, Wild (wideCfg m) OppoTWO.algo b [] :=
  ⟨_, .oppoTWO (wide_accepted m (by decide)) (by cases m <;> wide)⟩

/-- `LevyTWO` -/
example (m) : ∃ b, Wild (wideCfg m) LevyTWO.algo b [] :=
  ⟨_, .levyTWO (wide_accepted m (by decide))⟩

/-- `OriginalTSeedA` -/
example (m) : ∃ p b, Wild (wideCfg m) (OriginalTSeedA.algo p) b [] :=
  ⟨⟨(1 / 2)⟩, _, .originalTSeedA _ (wide_accepted m (by decide))⟩

/-- `OriginalArchOA` -/
example (m) : ∃ p b, Wild (wideCfg m) (OriginalArchOA.algo p) b [] :=
  ⟨⟨(1 / 2), (1 / 2), (1 / 2), (1 / 2), (1 / 2)⟩, _, .originalArchOA _ (wide_accepted m (by decide))⟩

end Mealpy
