import Verif.Select
import Verif.SelectLemmas
import Mathlib.Order.WithBot

/-!
# Fitness values that may be NaN

Everywhere else fitness values are linearly ordered, which excludes NaN.  Here they are floats with
a NaN, to state what the selection helpers of `mealpy/optimizer.py` do with one (C51).
-/

namespace Mealpy

/-- a float: a number, or NaN -/
inductive Fl (K : Type) where
  | num (k : K)
  | nan
  deriving DecidableEq

namespace Fl
variable {K : Type} [LinearOrder K]

/-- IEEE `x < y`: false when one side is NaN -/
def lt : Fl K → Fl K → Bool
  | num a, num b => decide (a < b)
  | _, _ => false

/-- numpy's sort order: NaN after every number (`np.sort` documentation) -/
def key : Fl K → WithTop K
  | num a => (a : WithTop K)
  | nan => ⊤

/-- `np.maximum` and `np.minimum` return NaN if one argument is NaN -/
def maximum : Fl K → Fl K → Fl K
  | num a, num b => num (max a b)
  | _, _ => nan

/-- see `maximum` -/
def minimum : Fl K → Fl K → Fl K
  | num a, num b => num (min a b)
  | _, _ => nan

/-- `np.clip(x, lb, ub) = np.minimum(np.maximum(x, lb), ub)` (`mealpy/optimizer.py:376`) -/
def clip (x lb ub : Fl K) : Fl K := minimum (maximum x lb) ub

-- agents of any kind with a fitness
variable {α : Type} (fit : α → Fl K)

/-- `Optimizer.compare_target` (`mealpy/optimizer.py:438-443`) -/
def compareTarget (x y : Fl K) : MinMax → Bool
  | .min => if x.lt y then true else false
  | .max => if x.lt y then false else true

/-- `Optimizer.get_better_agent` (`mealpy/optimizer.py:554-573`) -/
def getBetterAgent (x y : α) : MinMax → α
  | .min => if (fit x).lt (fit y) then x else y
  | .max => if (fit x).lt (fit y) then y else x

/-- `Optimizer.get_sorted_population` (`mealpy/optimizer.py:456-474`) -/
def getSorted (argsort : List (Fl K) → List Nat) (pop : List α) (mm : MinMax) : List α :=
  let indices := argsort (pop.map fit)
  let indices := match mm with | .max => indices.reverse | .min => indices
  indices.filterMap (fun i => pop[i]?)

/-- `Optimizer.greedy_selection_population` (`mealpy/optimizer.py:576-593`) -/
def greedySelection (old new : List α) (mm : MinMax) : Except Err (List α) :=
  if old.length ≠ new.length then .error .value
  else match mm with
    | .min => .ok (List.zipWith (fun o n => if (fit n).lt (fit o) then n else o) old new)
    | .max => .ok (List.zipWith (fun o n => if (fit o).lt (fit n) then n else o) old new)

/-- the global best after every `update_global_best_agent` call (`mealpy/optimizer.py:621-632`), given
the population of each epoch; a crash on an empty population is left out: such epochs are skipped -/
def globalBest (argsort : List (Fl K) → List Nat) (mm : MinMax) : α → List (List α) → α
  | g, [] => g
  | g, pop :: rest =>
    match (getSorted fit argsort pop mm).head? with
    | none => globalBest argsort mm g rest
    | some b => globalBest argsort mm (getBetterAgent fit b g mm) rest

end Fl
end Mealpy
