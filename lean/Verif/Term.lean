import Verif.Valid

/-!
# Stopping conditions

Models `mealpy/utils/termination.py:59-120` and `History.get_global_repeated_times`
(`mealpy/utils/history.py:102-110`).
-/

namespace Mealpy

/-- The limits of a `Termination` object (`mealpy/utils/termination.py:60-64`), after validation,
with the start time recorded by `set_start_values`. -/
structure Term (K : Type) where
  maxEpoch : Option Int
  maxFe : Option Int
  maxTime : Option K
  maxEarlyStop : Option Int
  epsilon : K
  startTime : K
  deriving DecidableEq

/-- Which message `should_terminate` leaves (`mealpy/utils/termination.py:105,109,113,117`). -/
inductive StopMsg where
  | MG | FE | TB | ES
  deriving DecidableEq, Repr

/-- `self.max_x is not None and p(self.max_x)` -/
def limitHit {α : Type} (limit : Option α) (p : α → Bool) : Bool :=
  match limit with
  | some m => p m
  | none => false

/-- `Termination.should_terminate` (`mealpy/utils/termination.py:103-120`): `none` is `False`,
`some m` is `True` with message `m`. -/
def shouldTerminate {K : Type} [LinearOrder K] [Sub K] (t : Term K) (epoch fe : Int) (time : K)
    (es : Int) : Option StopMsg :=
  if limitHit t.maxEpoch (fun m => decide (epoch ≥ m)) then some .MG
  else if limitHit t.maxFe (fun m => decide (fe ≥ m)) then some .FE
  else if limitHit t.maxTime (fun m => decide (time - t.startTime ≥ m)) then some .TB
  else if limitHit t.maxEarlyStop (fun m => decide (es ≥ m)) then some .ES
  else none

namespace Valid

/-- `[1, 10000000]` (`mealpy/utils/termination.py:87`) -/
def epochRange : Bound := .list (.fin 1) (.fin 10000000)
/-- `[10, 1000000000]` (`mealpy/utils/termination.py:89`) -/
def feRange : Bound := .list (.fin 10) (.fin 1000000000)
/-- `[0.1, 1000000]` (`mealpy/utils/termination.py:91`) -/
def timeRange : Bound := .list (.fin (1 / 10)) (.fin 1000000)
/-- `[1, 100000]` (`mealpy/utils/termination.py:93`) -/
def esRange : Bound := .list (.fin 1) (.fin 100000)

/-- an optional `check_int` -/
def optInt (v : PyVal) (b : Bound) : Except Err (Option Int) :=
  if v = .none then .ok none else (checkInt v (some b)).map some

/-- an optional `check_float`; a finite value because the range is finite -/
def optTime (v : PyVal) (b : Bound) : Except Err (Option ℚ) :=
  if v = .none then .ok none
  else match checkFloat v (some b) with
    | .ok (.fin q) => .ok (some q)
    | .ok _ => .error .value
    | .error e => .error e

/-- `Termination.__init__` with `__set_condition` (`mealpy/utils/termination.py:59-93`).  The keyword
arguments `epsilon`, `log_to`, ... are set without validation (lines 74-80); only `epsilon` matters
here. -/
def mkTermination (maxEpoch maxFe maxTime maxEarlyStop : PyVal) (epsilon : ℚ) :
    Except Err (Term ℚ) :=
  if maxEpoch = .none ∧ maxFe = .none ∧ maxTime = .none ∧ maxEarlyStop = .none then .error .value
  else do
    let e ← optInt maxEpoch epochRange
    let f ← optInt maxFe feRange
    let t ← optTime maxTime timeRange
    let s ← optInt maxEarlyStop esRange
    .ok ⟨e, f, t, s, epsilon, 0⟩

end Valid

/-! ## Early stopping counter -/

variable {K : Type} [LinearOrder K] [Sub K]

/-- the loop of `History.get_global_repeated_times` (`mealpy/utils/history.py:102-110`) over the
fitness values of `list_global_best`, from index 0, with the running `count`;
`absf` is `np.abs`. -/
def repeatedTimesFrom (absf : K → K) (eps : K) : List K → Nat → Nat
  | a :: b :: l, count =>
    repeatedTimesFrom absf eps (b :: l) (if absf (a - b) ≤ eps then count + 1 else 0)
  | _, count => count

/-- `History.get_global_repeated_times` (`mealpy/utils/history.py:102-110`). -/
def repeatedTimes (absf : K → K) (eps : K) (globalBest : List K) : Nat :=
  repeatedTimesFrom absf eps globalBest 0

end Mealpy
