import Verif.Target
import Mathlib.Tactic.Linarith
import Mathlib.Tactic.NormNum
import Mathlib.Tactic.Ring

/-!
# C14, C15, C58: fitness of a target, agent equality and hash, number of objectives
-/

set_option linter.unusedSectionVars false
set_option linter.unusedSimpArgs false

namespace Mealpy
open Tgt

variable {K : Type} [Semiring K]

/-! ## C14 -/

/-- the weighted sum of the English statement -/
def Spec.weightedSum (w o : List K) : K := (List.zipWith (fun a b => a * b) w o).sum

/-- C14: with an array of weights of the right length the fitness is the weighted sum. -/
theorem C14_weighted_sum (o w : List K) (h : w.length = o.length) :
    ∃ t, Tgt.mk (.arr o) (.arr w) = .ok t ∧ t.objectives = o ∧ t.weights = some w
      ∧ t.fitness = Spec.weightedSum w o := by
  refine ⟨⟨o, some w, Spec.weightedSum w o⟩, ?_, rfl, rfl, rfl⟩
  simp [Tgt.mk, setObjectives, setWeights, bind, Except.bind, calculateFitness, h, dot,
    Spec.weightedSum]

theorem ones_dot (o : List K) : dot (List.replicate o.length 1) o = o.sum := by
  induction o with
  | nil => simp [dot]
  | cons a o ih => simp [dot, List.replicate_succ] at ih ⊢; rw [ih]

theorem const_dot (w : K) (o : List K) : dot (List.replicate o.length w) o = w * o.sum := by
  induction o with
  | nil => simp [dot]
  | cons a o ih => simp [dot, List.replicate_succ, mul_add] at ih ⊢; rw [ih]

/-- C14: without weights, or with an array of the wrong length (no error!), the fitness is the plain
sum of the objectives. -/
theorem C14_plain_sum (o : List K) :
    (∃ t, Tgt.mk (.arr o) .none = .ok t ∧ t.objectives = o ∧ t.fitness = o.sum)
    ∧ ∀ w : List K, w.length ≠ o.length →
      ∃ t, Tgt.mk (.arr o) (.arr w) = .ok t ∧ t.objectives = o ∧ t.fitness = o.sum := by
  refine ⟨⟨⟨o, none, o.sum⟩, ?_, rfl, rfl⟩, fun w h => ⟨⟨o, some w, o.sum⟩, ?_, rfl, rfl⟩⟩
  · simp [Tgt.mk, setObjectives, setWeights, bind, Except.bind, calculateFitness, ones_dot]
  · simp [Tgt.mk, setObjectives, setWeights, bind, Except.bind, calculateFitness, ones_dot, h]

/-- C14: a number as weight is used for every objective. -/
theorem C14_scalar_weight (o : List K) (w : K) :
    ∃ t, Tgt.mk (.arr o) (.num w) = .ok t ∧ t.objectives = o ∧ t.fitness = w * o.sum := by
  refine ⟨⟨o, some (List.replicate o.length w), w * o.sum⟩, ?_, rfl, rfl⟩
  simp [Tgt.mk, setObjectives, setWeights, bind, Except.bind, calculateFitness, const_dot]

/-- C14: a single number as objective is its own fitness (without weights). -/
theorem C14_single_objective (x : K) :
    ∃ t, Tgt.mk (.num x) .none = .ok t ∧ t.objectives = [x] ∧ t.fitness = x := by
  refine ⟨⟨[x], none, x⟩, ?_, rfl, rfl⟩
  simp [Tgt.mk, setObjectives, setWeights, bind, Except.bind, calculateFitness, dot]

/-- C14: exactly the missing or unsupported objectives and the unsupported weights are rejected. -/
theorem C14_rejects (o w : Arg K) :
    (∃ t, Tgt.mk o w = .ok t)
      ↔ ((∃ x, o = .num x) ∨ (∃ l, o = .arr l)) ∧ w ≠ .other := by
  cases o <;> cases w <;>
    simp [Tgt.mk, setObjectives, setWeights, bind, Except.bind]

/-- C14: `copy()` of a target built by the constructor succeeds and preserves objectives, weights
and fitness. -/
theorem C14_copy (o w : Arg K) (t : Obj K) (h : Tgt.mk o w = .ok t) : Tgt.copy t = .ok t := by
  cases o <;> cases w <;>
    simp [Tgt.mk, setObjectives, setWeights, bind, Except.bind] at h <;> subst h <;>
    simp [Tgt.copy, Tgt.mk, setObjectives, setWeights, bind, Except.bind]

/-- two objectives 3 and 4 with weights 2 and 1: fitness 10; with one weight only: silently 7 -/
example : (∃ t, Tgt.mk (.arr [(3 : ℚ), 4]) (.arr [2, 1]) = .ok t ∧ t.fitness = 10)
    ∧ (∃ t, Tgt.mk (.arr [(3 : ℚ), 4]) (.arr [2]) = .ok t ∧ t.fitness = 7) := by
  constructor
  · obtain ⟨t, h, _, _, hf⟩ := C14_weighted_sum [(3 : ℚ), 4] [2, 1] rfl
    exact ⟨t, h, by rw [hf]; norm_num [Spec.weightedSum]⟩
  · obtain ⟨t, h, _, hf⟩ := (C14_plain_sum [(3 : ℚ), 4]).2 [2] (by decide)
    exact ⟨t, h, by rw [hf]; norm_num⟩

/-! ## C15 -/

theorem rint_near (x : ℚ) : |x - rint x| ≤ 1 / 2 := by
  have h0 := Int.floor_le x
  have h1 := Int.lt_floor_add_one x
  unfold rint
  simp only
  rw [abs_le]
  split
  · constructor <;> linarith
  · split
    · push_cast; constructor <;> linarith
    · split
      · constructor <;> linarith
      · push_cast; constructor <;> linarith

/-- C15: `==` on solutions of equal length is the coordinatewise tolerance test. -/
theorem C15_eq_iff (a b : List ℚ) (h : a.length = b.length) :
    agentEq a b = .ok true ↔
      ∀ (i : Nat) (x y : ℚ), a[i]? = some x → b[i]? = some y → |x - y| ≤ 1 / 10 ^ 6 + 1 / 10 ^ 5 * |y| := by
  unfold agentEq
  rw [if_pos h]
  simp only [Except.ok.injEq]
  unfold allclose
  induction a generalizing b with
  | nil => cases b <;> simp_all
  | cons x a ih =>
    cases b with
    | nil => simp at h
    | cons y b =>
      simp only [List.length_cons, Nat.add_right_cancel_iff] at h
      simp only [List.zipWith_cons_cons, List.all_cons, id, Bool.and_eq_true, decide_eq_true_eq]
      rw [ih b h]
      constructor
      · rintro ⟨h1, h2⟩ i u v hu hv
        cases i with
        | zero => simp at hu hv; subst hu; subst hv; norm_num at h1 ⊢; exact h1
        | succ i => exact h2 i u v (by simpa using hu) (by simpa using hv)
      · intro hh
        refine ⟨?_, fun i u v hu hv => hh (i + 1) u v (by simpa using hu) (by simpa using hv)⟩
        have := hh 0 x y (by simp) (by simp)
        norm_num at this ⊢; exact this

/-- C15: `==` is reflexive. -/
theorem C15_refl (a : List ℚ) : agentEq a a = .ok true := by
  rw [C15_eq_iff a a rfl]
  intro i x y hx hy
  rw [hx] at hy; simp at hy; subst hy
  have := abs_nonneg x
  simp; positivity

/-- C15: equal solutions have equal hashes, and equal hashes (equal rounded solutions) imply `==`. -/
theorem C15_hash_eq_imp_eq (a b : List ℚ) :
    (a = b → hashKey a = hashKey b) ∧ (hashKey a = hashKey b → agentEq a b = .ok true) := by
  refine ⟨fun h => by rw [h], fun h => ?_⟩
  have hl : a.length = b.length := by simpa [hashKey] using congrArg List.length h
  rw [C15_eq_iff a b hl]
  intro i x y hx hy
  have h1 : (hashKey a)[i]? = some (rint (x * 1000000)) := by simp [hashKey, hx]
  have h2 : (hashKey b)[i]? = some (rint (y * 1000000)) := by simp [hashKey, hy]
  rw [h, h2] at h1
  simp only [Option.some.injEq] at h1
  have hx' := rint_near (x * 1000000)
  have hy' := rint_near (y * 1000000)
  rw [← h1] at hx'
  rw [abs_le] at hx' hy'
  have := abs_nonneg y
  have hxy : |x - y| ≤ 1 / 1000000 := by
    rw [abs_le]; constructor <;> linarith [hx'.1, hx'.2, hy'.1, hy'.2]
  norm_num at hxy ⊢
  linarith

/-- C15: the hash contract of python is broken: there are agents with `a == b` whose hashes are
computed from different tuples. -/
theorem C15_eq_not_hash : ∃ a b : List ℚ, agentEq a b = .ok true ∧ agentEq b a = .ok true
    ∧ hashKey a ≠ hashKey b := by
  refine ⟨[4 / 10 ^ 7], [6 / 10 ^ 7], ?_, ?_, ?_⟩
  · decide +kernel
  · decide +kernel
  · decide +kernel

/-- C15: `==` is not symmetric. -/
theorem C15_not_symmetric : ∃ a b : List ℚ, agentEq a b = .ok true ∧ agentEq b a = .ok false :=
  ⟨[0], [1000005 / 10 ^ 12], by decide +kernel, by decide +kernel⟩

/-- C15: `==` is not transitive. -/
theorem C15_not_transitive : ∃ a b c : List ℚ, agentEq a b = .ok true ∧ agentEq b c = .ok true
    ∧ agentEq a c = .ok false :=
  ⟨[0], [1 / 10 ^ 6], [2 / 10 ^ 6], by decide +kernel, by decide +kernel, by decide +kernel⟩

/-- C15: `sync_if_duplicate` takes over the other target exactly when the agents are `==`, and
leaves the own target alone otherwise. -/
theorem C15_sync {T : Type} (a b : List ℚ) (ta tb : T) (hl : a.length = b.length) :
    (agentEq a b = .ok true ∧ syncIfDuplicate a ta b tb = .ok (true, tb))
    ∨ (agentEq a b = .ok false ∧ syncIfDuplicate a ta b tb = .ok (false, ta)) := by
  unfold syncIfDuplicate
  have : agentEq a b = .ok (allclose a b) := by simp [agentEq, hl]
  rw [this]
  cases allclose a b <;> simp [bind, Except.bind]

/-! ## C58 -/

/-- C58: reading `n_objs` never changes the fitness of any later evaluation: whatever the state of
the problem, the objectives and the outcome of the read, targets built afterwards have the same
objectives and fitness as targets built before. -/
theorem C58_read_preserves_fitness (p : NObjs K) (first : Arg K) (o : List K)
    (hfirst : ∀ l, first = .arr l → l.length = o.length) (hnum : ∀ x, first = .num x → o.length = 1) :
    (∀ t, getTarget p (.arr o) = .ok t →
      ∃ t', getTarget (readNObjs first p).2 (.arr o) = .ok t'
        ∧ t'.objectives = t.objectives ∧ t'.fitness = t.fitness) := by
  intro t ht
  obtain ⟨n, w⟩ := p
  have key : (readNObjs first ⟨n, w⟩).2.objWeights = w
      ∨ (w = .none ∧ (readNObjs first ⟨n, w⟩).2.objWeights = .arr (List.replicate o.length 1)) := by
    cases n with
    | some n => left; rfl
    | none =>
      cases first with
      | none => left; rfl
      | other => left; rfl
      | num x =>
        have := hnum x rfl
        cases w <;> simp [readNObjs, this] <;> split <;> simp
      | arr l =>
        have := hfirst l rfl
        cases w <;> simp [readNObjs, this] <;> split <;> simp
  rcases key with key | ⟨hw, key⟩
  · exact ⟨t, by simpa [getTarget, key] using ht, rfl, rfl⟩
  · subst hw
    obtain ⟨t', h1, h2, _, h3⟩ := C14_weighted_sum o (List.replicate o.length (1 : K)) (by simp)
    refine ⟨t', by simpa [getTarget, key] using h1, ?_⟩
    simp [getTarget, Tgt.mk, setObjectives, setWeights, bind, Except.bind] at ht
    subst ht
    exact ⟨h2, h3⟩

/-- C58: a first read of `n_objs` with an array of weights raises exactly when the length differs
from the number of objectives ... -/
theorem C58_raises_iff (w l : List K) :
    (readNObjs (.arr l) ⟨none, .arr w⟩).1 =
      if w.length = l.length then .ok l.length else .error .value := by
  by_cases h : w.length = l.length <;> simp [readNObjs, h]

/-- C58: ... but only the first time: after the exception a second read returns normally, so the
wrong weights are then accepted (and, by C14, ignored). -/
theorem C58_raises_once (w l l' : List K) (h : w.length ≠ l.length) :
    let p := (readNObjs (.arr l) ⟨none, .arr w⟩).2
    (readNObjs (.arr l) ⟨none, .arr w⟩).1 = .error .value
    ∧ (readNObjs (.arr l') p).1 = .ok l.length
    ∧ ∃ t, getTarget p (.arr l) = .ok t ∧ t.fitness = l.sum := by
  obtain ⟨t, h1, _, h2⟩ := (C14_plain_sum l).2 w h
  refine ⟨by simp [readNObjs, h], by simp [readNObjs, h], t, ?_, h2⟩
  simpa [getTarget, readNObjs, h] using h1

example : ([2] : List ℚ).length ≠ ([3, 4] : List ℚ).length := by decide

end Mealpy
