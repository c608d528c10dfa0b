import Verif.Env

/-!
# Agents and the static selection helpers of `Optimizer`

Models `mealpy/utils/agent.py` (values only; object identity is in `Verif.Heap`) and the pure
helpers of `mealpy/optimizer.py:438-607,646-717,770-801`.
-/

namespace Mealpy

/-- `Target` (`mealpy/utils/target.py:12-87`) after construction: objectives and their weighted
sum.  How the sum is formed is modelled in `Verif.Target`. -/
structure Target (K : Type) where
  objectives : List K
  fitness : K
  deriving DecidableEq, Repr

/-- `Agent` (`mealpy/utils/agent.py:11-19`): solution, target, and the algorithm-specific keyword
attributes (velocity, local_solution, ...) as a value of type `X`.  The `id` counter is not
modelled here. -/
structure Agent (d : Nat) (K X : Type) where
  sol : Vec d K
  tgt : Target K
  ext : X

namespace Agent
variable {d : Nat} {K X : Type}
/-- `agent.target.fitness` -/
def fit (a : Agent d K X) : K := a.tgt.fitness
end Agent

variable {d : Nat} {K X : Type} [LinearOrder K]

/-- `Optimizer.compare_target` (`mealpy/optimizer.py:438-443`). -/
def compareTarget (x y : Target K) : MinMax → Bool
  | .min => if x.fitness < y.fitness then true else false
  | .max => if x.fitness < y.fitness then false else true

/-- `Optimizer.compare_fitness` (`mealpy/optimizer.py:445-450`). -/
def compareFitness (x y : K) : MinMax → Bool
  | .min => if x < y then true else false
  | .max => if x < y then false else true

/-- `Agent._compare_fitness` (`mealpy/utils/agent.py:58-72`): -1, 0 or 1. -/
def agentCompare (a b : Agent d K X) (mm : MinMax) : Int :=
  if a.fit = b.fit then 0
  else match mm with
    | .min => if a.fit < b.fit then -1 else 1
    | .max => if a.fit > b.fit then -1 else 1

/-- `Agent.get_better_solution` (`mealpy/utils/agent.py:74-82`). -/
def getBetterSolution (a b : Agent d K X) (mm : MinMax) : Agent d K X :=
  if agentCompare a b mm ≤ 0 then a else b

/-- `Agent.is_better_than` (`mealpy/utils/agent.py:84-92`). -/
def isBetterThan (a b : Agent d K X) (mm : MinMax) : Bool :=
  agentCompare a b mm = -1

/-- `Optimizer.get_better_agent` (`mealpy/optimizer.py:554-573`); `copy()` is the identity on
values.  `minmax_dict[minmax]` cannot fail for the two legal strings (see `Verif.Valid` for others). -/
def getBetterAgent (x y : Agent d K X) (mm : MinMax) (reverse : Bool := false) : Agent d K X :=
  let idx : Nat := match mm with | .min => 0 | .max => 1
  let idx := if reverse then 1 - idx else idx
  if idx = 0 then (if x.fit < y.fit then x else y)
  else (if x.fit < y.fit then y else x)

/-- `Optimizer.get_sorted_population` (`mealpy/optimizer.py:456-474`).  `argsort` is
`np.argsort(..).tolist()`; `pop[idx]` never fails because the indices are a permutation of the
positions (proved: `getSorted_perm`), so the list comprehension is a `filterMap`. -/
def getSorted (argsort : List K → List Nat) (pop : List (Agent d K X)) (mm : MinMax) :
    List (Agent d K X) × List Nat :=
  let listFits := pop.map Agent.fit
  let indices := argsort listFits
  let indices := match mm with | .max => indices.reverse | .min => indices
  (indices.filterMap (fun i => pop[i]?), indices)

/-- `Optimizer.get_best_agent` (`mealpy/optimizer.py:476-488`). -/
def getBest (argsort : List K → List Nat) (pop : List (Agent d K X)) (mm : MinMax) :
    Except Err (Agent d K X × Nat) :=
  let (pop, indices) := getSorted argsort pop mm
  match pop[0]?, indices[0]? with
  | some a, some i => .ok (a, i)
  | _, _ => .error .index

/-- `Optimizer.get_worst_agent` (`mealpy/optimizer.py:490-502`). -/
def getWorst (argsort : List K → List Nat) (pop : List (Agent d K X)) (mm : MinMax) :
    Except Err (Agent d K X × Nat) :=
  let (pop, indices) := getSorted argsort pop mm
  match pop.getLast?, indices.getLast? with
  | some a, some i => .ok (a, i)
  | _, _ => .error .index

/-- `Optimizer.get_special_agents(..., return_index=False)` (`mealpy/optimizer.py:504-535`).
`None` for a count means `None` for the result. -/
def getSpecial (argsort : List K → List Nat) (pop : List (Agent d K X)) (nBest nWorst : Option Nat)
    (mm : MinMax) :
    List (Agent d K X) × Option (List (Agent d K X)) × Option (List (Agent d K X)) :=
  let (sorted, _) := getSorted argsort pop mm
  (sorted, nBest.map (fun n => sorted.take n), nWorst.map (fun n => sorted.reverse.take n))

/-- `Optimizer.get_special_agents(..., return_index=True)` (`mealpy/optimizer.py:524-525,531-532`). -/
def getSpecialIdx (argsort : List K → List Nat) (pop : List (Agent d K X))
    (nBest nWorst : Option Nat) (mm : MinMax) :
    List (Agent d K X) × Option (List Nat) × Option (List Nat) :=
  let (sorted, indexes) := getSorted argsort pop mm
  (sorted, nBest.map (fun n => indexes.take n), nWorst.map (fun n => indexes.reverse.take n))

/-- `Optimizer.greedy_selection_population` (`mealpy/optimizer.py:576-593`). -/
def greedySelection (old new : List (Agent d K X)) (mm : MinMax) :
    Except Err (List (Agent d K X)) :=
  if old.length ≠ new.length then .error .value
  else match mm with
    | .min => .ok (List.zipWith (fun o n => if n.fit < o.fit then n else o) old new)
    | .max => .ok (List.zipWith (fun o n => if n.fit > o.fit then n else o) old new)

/-- `Optimizer.get_sorted_and_trimmed_population` (`mealpy/optimizer.py:595-607`). -/
def getSortedTrimmed (argsort : List K → List Nat) (pop : List (Agent d K X)) (popSize : Nat)
    (mm : MinMax) : List (Agent d K X) :=
  (getSorted argsort pop mm).1.take popSize

/-- `Optimizer.generate_group_population` (`mealpy/optimizer.py:770-786`):
group `idx` is `pop[idx*m : (idx+1)*m]`. -/
def generateGroups (pop : List (Agent d K X)) (nGroups mAgents : Nat) :
    List (List (Agent d K X)) :=
  (List.range nGroups).map
    (fun idx => (pop.drop (idx * mAgents)).take ((idx + 1) * mAgents - idx * mAgents))

/-- The offset trick of `Optimizer.sample_indexes_exclude_one`
(`mealpy/optimizer.py:646-656`): `rand_indices[rand_indices >= exclude_idx] += 1`. -/
def shiftExclude (excludeIdx : Nat) (r : List Nat) : List Nat :=
  r.map (fun i => if i ≥ excludeIdx then i + 1 else i)

/-- Errors raised by numpy's `Generator.choice(n, size=k, replace)`: an empty range cannot be
sampled, nor can more than `n` values be taken without replacement. -/
def choiceErr (n k : Nat) (replace : Bool) : Bool :=
  (n = 0 && k ≠ 0) || (!replace && n < k)

/-- `Optimizer.sample_indexes_exclude_one` (`mealpy/optimizer.py:646-656`). The scalar returned for
`n_samples == 1` is represented by the one-element list. For `pop_size = 0` numpy rejects the
negative range `-1`. -/
def sampleExcludeOne (E : Env K) (popSize excludeIdx nSamples : Nat) (replace : Bool) (s : E.σ) :
    Except Err (List Nat × E.σ) :=
  if popSize = 0 then .error .value
  else if choiceErr (popSize - 1) nSamples replace then .error .value
  else
    let (r, s) := E.choice (popSize - 1) nSamples replace s
    .ok (shiftExclude excludeIdx r, s)

/-- `mask = ones(pop_size); mask[exclude_list] = False; nonzero(mask)[0]`
(`mealpy/optimizer.py:665-667`). Non-negative indices only; an index `≥ pop_size` raises. -/
def validCandidates (popSize : Nat) (excl : List Nat) : Except Err (List Nat) :=
  if excl.all (· < popSize) then .ok ((List.range popSize).filter (fun i => i ∉ excl))
  else .error .index

/-- `Optimizer.sample_indexes_exclude_list` (`mealpy/optimizer.py:658-671`). -/
def sampleExcludeList (E : Env K) (popSize : Nat) (excl : List Nat) (nSamples : Nat)
    (replace : Bool) (s : E.σ) : Except Err (List Nat × E.σ) := do
  let cand ← validCandidates popSize excl
  if choiceErr cand.length nSamples replace then .error .value
  else
    let (r, s) := E.choice cand.length nSamples replace s
    .ok (r.filterMap (fun i => cand[i]?), s)

end Mealpy
