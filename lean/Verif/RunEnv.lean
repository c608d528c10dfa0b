import Verif.OptWitness
import Mathlib.Data.List.Sort

/-!
# A second concrete environment, whose runs the kernel can evaluate

Every uniform draw answers with the same fraction `r` of its interval, every other continuous draw with
the same deviate `n`; `np.argsort` is insertion sort.  Used for counterexamples.
-/

set_option linter.unusedVariables false

namespace Mealpy

/-- `np.argsort` by insertion -/
def insArgsort {K : Type} [LinearOrder K] (l : List K) : List Nat :=
  (l.zipIdx.insertionSort (fun a b => a.1 ≤ b.1)).map (·.2)

theorem insArgsort_law {K : Type} [LinearOrder K] : ArgsortLaw (insArgsort (K := K)) where
  perm l := by
    have h := (List.perm_insertionSort (fun a b : K × Nat => a.1 ≤ b.1) l.zipIdx).map (·.2)
    refine h.trans ?_
    have : l.zipIdx.map (·.2) = List.range l.length := by
      rw [List.zipIdx_map_snd, List.range_eq_range']
    rw [this]
  sorted l := by
    have : Std.Total (fun a b : K × Nat => a.1 ≤ b.1) := ⟨fun a b => le_total a.1 b.1⟩
    have : IsTrans (K × Nat) (fun a b : K × Nat => a.1 ≤ b.1) := ⟨fun a b c h1 h2 => le_trans h1 h2⟩
    have hp := List.pairwise_insertionSort (fun a b : K × Nat => a.1 ≤ b.1) l.zipIdx
    have hm : ∀ p ∈ l.zipIdx.insertionSort (fun a b : K × Nat => a.1 ≤ b.1), l[p.2]? = some p.1 := by
      intro p hp
      rw [List.mem_insertionSort] at hp
      rwa [← List.mem_zipIdx_iff_getElem?]
    unfold insArgsort
    rw [List.pairwise_map]
    refine hp.imp_of_mem ?_
    intro p q hpm hqm hle a b ha hb
    rw [hm p hpm] at ha
    rw [hm q hqm] at hb
    simp only [Option.some.injEq] at ha hb
    subst ha; subst hb
    exact hle

/-- draws at a fixed fraction `r` resp. deviate `n` -/
def runEnv (r n : ℚ) : Env ℚ where
  σ := Unit
  random s := (r, s)
  uniform lo hi s := (lo + r * (hi - lo), s)
  normal loc scale s := (loc + scale * n, s)
  dist _ _ s := (n, s)
  integers lo hi s := (lo, s)
  choice m k replace s := (if replace || decide (m < k) then List.replicate k 0 else List.range k, s)
  choiceP p s := (p.findIdx (fun x => decide (x ≠ 0)) % p.length, s)
  permutation m s := (List.range m, s)
  order m s := (List.range m, s)
  lost m s := (0, s)
  clock s := (0, s)
  argsort := insArgsort

theorem runEnv_lawful {r n : ℚ} (h0 : 0 ≤ r) (h1 : r < 1) : (runEnv r n).Lawful where
  random_ge s := h0
  random_lt s := h1
  uniform_ge lo hi s h := by
    show lo ≤ lo + r * (hi - lo)
    have := mul_nonneg h0 (sub_nonneg.2 h)
    linarith
  uniform_le lo hi s h := by
    show lo + r * (hi - lo) ≤ hi
    have h2 : 0 ≤ hi - lo := by linarith
    nlinarith
  integers_ge lo hi s h := le_refl _
  integers_lt lo hi s h := h
  choice_length m k rp s := by
    show (if _ then _ else _ : List Nat).length = k
    split <;> simp
  choice_lt m k rp s hn i hi := by
    change i ∈ (if (rp || decide (m < k)) = true then List.replicate k 0 else List.range k) at hi
    split at hi
    · rw [(List.mem_replicate.1 hi).2]; exact hn
    · rename_i h
      simp at h hi
      omega
  choice_nodup m k s h := by
    show (if (false || decide (m < k)) = true then List.replicate k 0 else List.range k).Nodup
    rw [if_neg (by simp; omega)]
    exact List.nodup_range
  choiceP_lt p s hp := by
    show _ % p.length < p.length
    exact Nat.mod_lt _ (List.length_pos_iff.2 hp)
  choiceP_pos p s h := by
    have := detEnv_lawful.choiceP_pos p (0 : Nat) h
    exact this
  permutation_perm m s := List.Perm.refl _
  order_perm m s := List.Perm.refl _
  lost_lt m s := Nat.zero_le _
  argsort_perm := insArgsort_law.perm
  argsort_sorted := insArgsort_law.sorted

/-- one variable in `[-5, 5]`; every generated position is `x0`; the objective is `f` -/
def pointProb (f : ℚ → ℚ) (x0 : ℚ) (mm : MinMax) : Prob 1 ℚ where
  S := Unit
  lb := fun _ => -5
  ub := fun _ => 5
  mm := mm
  target := fun x => ⟨[f (x 0)], f (x 0)⟩
  correct := fun x s => (fun j => clip (x j) (-5) 5, s)
  generate := fun s => (fun _ => x0, s)

theorem pointProb_lawful {f : ℚ → ℚ} {x0 : ℚ} {mm : MinMax} (h : -5 ≤ x0 ∧ x0 ≤ 5) : (pointProb f x0 mm).Lawful where
  correct_in x s j := by
    show (-5 : ℚ) ≤ min (max (x j) (-5)) 5 ∧ min (max (x j) (-5)) 5 ≤ 5
    exact ⟨le_min (le_max_right _ _) (by norm_num), min_le_right _ _⟩
  generate_in s j := h

end Mealpy
