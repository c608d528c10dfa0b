import Verif.SelectLemmas
import Mathlib.Data.List.Range
import Mathlib.Tactic.Linarith
import Mathlib.Tactic.Positivity
import Mathlib.Algebra.Order.Field.Basic
import Mathlib.Data.Nat.Cast.Order.Field

/-!
# A concrete lawful environment

Exact rationals with a deterministic generator.  It shows that the hypotheses `E.Lawful` used by
the theorems can be met, and it runs the `example`s beside them.
-/

namespace Mealpy

/-- Exact rationals as numbers; the transcendental functions are arbitrary (here: identity). -/
instance instNumRat : Num ℚ where
  ofRat := id
  exp := id
  log := id
  sin := id
  cos := id
  tan := id
  ufunc := fun _ => id
  sqrt := id
  pow := fun a _ => a
  mod := fun a _ => a
  floor := fun a => a.floor

/-- `np.argsort` with a stable tie order: merge sort of (value, position) pairs. -/
def stableArgsort {K : Type} [LinearOrder K] (l : List K) : List Nat :=
  (l.zipIdx.mergeSort (fun a b => decide (a.1 ≤ b.1))).map (·.2)

theorem stableArgsort_law {K : Type} [LinearOrder K] : ArgsortLaw (stableArgsort (K := K)) where
  perm l := by
    have h := (List.mergeSort_perm l.zipIdx (fun a b => decide (a.1 ≤ b.1))).map (·.2)
    refine h.trans ?_
    have : l.zipIdx.map (·.2) = List.range l.length := by
      rw [List.zipIdx_map_snd, List.range_eq_range']
    rw [this]
  sorted l := by
    have hp : (l.zipIdx.mergeSort (fun a b => decide (a.1 ≤ b.1))).Pairwise
        (fun a b => decide (a.1 ≤ b.1) = true) :=
      List.pairwise_mergeSort
        (fun a b c h1 h2 => by simp at *; exact le_trans h1 h2)
        (fun a b => by simp; exact le_total a.1 b.1) _
    have hm : ∀ p ∈ l.zipIdx.mergeSort (fun a b => decide (a.1 ≤ b.1)), l[p.2]? = some p.1 := by
      intro p hp
      rw [List.mem_mergeSort] at hp
      rwa [← List.mem_zipIdx_iff_getElem?]
    unfold stableArgsort
    rw [List.pairwise_map]
    refine hp.imp_of_mem ?_
    intro p q hpm hqm hle a b ha hb
    rw [hm p hpm] at ha
    rw [hm q hqm] at hb
    simp only [Option.some.injEq] at ha hb
    subst ha; subst hb
    simpa using hle

/-- A deterministic environment: the state is a counter. -/
def detEnv : Env ℚ where
  σ := Nat
  random s := ((s % 7 : Nat) / 7, s + 1)
  uniform lo hi s := (lo + ((s % 7 : Nat) / 7) * (hi - lo), s + 1)
  normal loc scale s := (loc + scale * ((s % 5 : Nat) - 2), s + 1)
  dist _ _ s := (((s % 5 : Nat) - 2), s + 1)
  integers lo hi s := (lo + ((s : Int) % (hi - lo)), s + 1)
  choice n k replace s :=
    (if replace || decide (n < k) then List.replicate k (s % n) else List.range k, s + 1)
  choiceP p s := (p.findIdx (fun x => decide (x ≠ 0)) % p.length, s + 1)
  permutation n s := (List.range n, s + 1)
  order n s := ((List.range n).reverse, s + 1)
  lost n s := ((n - 1) / 2, s + 1)
  clock s := ((s : ℚ), s + 1)
  argsort := stableArgsort

theorem detEnv_lawful : detEnv.Lawful where
  random_ge s := by
    change Nat at s
    show (0 : ℚ) ≤ ((s % 7 : Nat) : ℚ) / 7
    positivity
  random_lt s := by
    change Nat at s
    show ((s % 7 : Nat) : ℚ) / 7 < 1
    have : ((s % 7 : Nat) : ℚ) < 7 := by exact_mod_cast Nat.mod_lt s (by norm_num)
    linarith
  uniform_ge lo hi s h := by
    change Nat at s
    show lo ≤ lo + ((s % 7 : Nat) : ℚ) / 7 * (hi - lo)
    have h1 : 0 ≤ ((s % 7 : Nat) : ℚ) / 7 := by positivity
    have h2 : 0 ≤ hi - lo := by linarith
    have := mul_nonneg h1 h2
    linarith
  uniform_le lo hi s h := by
    change Nat at s
    show lo + ((s % 7 : Nat) : ℚ) / 7 * (hi - lo) ≤ hi
    have h1 : ((s % 7 : Nat) : ℚ) / 7 ≤ 1 := by
      have : ((s % 7 : Nat) : ℚ) < 7 := by exact_mod_cast Nat.mod_lt s (by norm_num)
      linarith
    have h2 : 0 ≤ hi - lo := by linarith
    nlinarith
  integers_ge lo hi s h := by
    change Nat at s
    show lo ≤ lo + ((s : Nat) : Int) % (hi - lo)
    have := Int.emod_nonneg (s : Nat) (b := hi - lo) (by omega)
    omega
  integers_lt lo hi s h := by
    change Nat at s
    show lo + ((s : Nat) : Int) % (hi - lo) < hi
    have := Int.emod_lt_of_pos (s : Nat) (b := hi - lo) (by omega)
    omega
  choice_length n k r s := by
    change Nat at s
    show (if _ then _ else _ : List Nat).length = k
    split <;> simp
  choice_lt n k r s hn i hi := by
    change Nat at s
    change i ∈ (if (r || decide (n < k)) = true then List.replicate k (s % n) else List.range k) at hi
    split at hi
    · rw [(List.mem_replicate.1 hi).2]; exact Nat.mod_lt _ hn
    · rename_i h
      simp at h hi
      omega
  choice_nodup n k s h := by
    change Nat at s
    show (if (false || decide (n < k)) = true then List.replicate k (s % n) else List.range k).Nodup
    rw [if_neg (by simp; omega)]
    exact List.nodup_range
  choiceP_lt p s hp := by
    change Nat at s
    show _ % p.length < p.length
    exact Nat.mod_lt _ (List.length_pos_iff.2 hp)
  choiceP_pos p s h := by
    change Nat at s
    show p[p.findIdx (fun x => decide (x ≠ 0)) % p.length]? ≠ some (0 : ℚ)
    obtain ⟨x, hx, hx0⟩ := h
    have hx0 : x ≠ (0 : ℚ) := hx0
    have hlt : p.findIdx (fun x => decide (x ≠ 0)) < p.length :=
      List.findIdx_lt_length_of_exists ⟨x, hx, by simpa using hx0⟩
    rw [Nat.mod_eq_of_lt hlt, List.getElem?_eq_getElem hlt]
    have := List.findIdx_getElem (w := hlt)
    intro hh
    simp only [Option.some.injEq] at hh
    rw [hh] at this
    simp at this
  permutation_perm n s := List.Perm.refl _
  order_perm n s := List.reverse_perm _
  lost_lt n s := by
    change Nat at s
    show (n - 1) / 2 ≤ n - 1
    omega
  argsort_perm := stableArgsort_law.perm
  argsort_sorted := stableArgsort_law.sorted

end Mealpy
