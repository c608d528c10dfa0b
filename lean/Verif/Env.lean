import Verif.Spec

/-!
# The environment: everything mealpy asks of numpy, the OS and the clock

The random generator, the tie order of `np.argsort`, the order in which pool workers finish, lost
increments of a shared counter and the wall clock are *choices of the environment*.  They are a
state machine; `Env.Lawful` says what the libraries document about the answers.  Theorems quantify
over every lawful environment.
-/

namespace Mealpy

/-- Python exceptions the models can raise. -/
inductive Err where
  | value | index | key | type | attribute | zeroDiv | notImplemented | overflow | stopIteration
  /-- not an exception: a `while` loop of the code did not end within the number of rounds given to the model -/
  | hang
  deriving DecidableEq, Repr

/-- External services.  `σ` is the joint state of all generators (numpy `Generator`s of the
optimizer, `mealpy/optimizer.py:172`, and of the variables, `mealpy/utils/space.py:132`; python's
`random.Random`, `mealpy/optimizer.py:173`), of the thread/process scheduler and of the clock. -/
structure Env (K : Type) where
  σ : Type
  /-- `generator.random()`, `generator.uniform()`, `rng.random()` -/
  random : σ → K × σ
  /-- `generator.uniform(lo, hi)` -/
  uniform : K → K → σ → K × σ
  /-- `generator.normal(loc, scale)` -/
  normal : K → K → σ → K × σ
  /-- any other continuous distribution (`standard_cauchy`, `exponential`, `levy`, `beta`, ...),
  by name and parameters -/
  dist : String → List K → σ → K × σ
  /-- `generator.integers(lo, hi)` for `lo < hi` -/
  integers : Int → Int → σ → Int × σ
  /-- indices drawn by `generator.choice(n, size=k, replace)`, when numpy does not raise -/
  choice : Nat → Nat → Bool → σ → List Nat × σ
  /-- index drawn by `generator.choice(n, p=prob)` -/
  choiceP : List K → σ → Nat × σ
  /-- `generator.permutation(n)` -/
  permutation : Nat → σ → List Nat × σ
  /-- the order in which `n` submitted pool tasks complete -/
  order : Nat → σ → List Nat × σ
  /-- how many of `n` concurrent unsynchronised `+= 1` are lost -/
  lost : Nat → σ → Nat × σ
  /-- `time.perf_counter()` -/
  clock : σ → K × σ
  /-- `np.argsort(l)` (introsort: any order among equal entries) -/
  argsort : List K → List Nat

/-- What numpy / concurrent.futures document about the answers. -/
structure Env.Lawful {K : Type} [Num K] (E : Env K) : Prop where
  random_ge : ∀ s, (0 : K) ≤ (E.random s).1
  random_lt : ∀ s, (E.random s).1 < (1 : K)
  uniform_ge : ∀ lo hi s, lo ≤ hi → lo ≤ (E.uniform lo hi s).1
  uniform_le : ∀ lo hi s, lo ≤ hi → (E.uniform lo hi s).1 ≤ hi
  integers_ge : ∀ lo hi s, lo < hi → lo ≤ (E.integers lo hi s).1
  integers_lt : ∀ lo hi s, lo < hi → (E.integers lo hi s).1 < hi
  choice_length : ∀ n k r s, (E.choice n k r s).1.length = k
  choice_lt : ∀ n k r s, 0 < n → ∀ i ∈ (E.choice n k r s).1, i < n
  choice_nodup : ∀ n k s, k ≤ n → (E.choice n k false s).1.Nodup
  choiceP_lt : ∀ p s, p ≠ [] → (E.choiceP p s).1 < p.length
  /-- an index of probability zero is never drawn -/
  choiceP_pos : ∀ p s, (∃ x ∈ p, x ≠ (0 : K)) → p[(E.choiceP p s).1]? ≠ some (0 : K)
  permutation_perm : ∀ n s, (E.permutation n s).1.Perm (List.range n)
  order_perm : ∀ n s, (E.order n s).1.Perm (List.range n)
  lost_lt : ∀ n s, (E.lost n s).1 ≤ n - 1
  argsort_perm : ∀ l, (E.argsort l).Perm (List.range l.length)
  argsort_sorted : ∀ l, (E.argsort l).Pairwise
    (fun i j => ∀ a b, l[i]? = some a → l[j]? = some b → a ≤ b)

end Mealpy
