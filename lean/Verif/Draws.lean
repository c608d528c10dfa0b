import Verif.Select

/-!
# Random selection helpers that compute with fitness values

Models `mealpy/optimizer.py:674-717` (roulette wheel, k-way tournament), `:758-768` (opposition)
and `:789-801` (arithmetic crossover).  The arithmetic is exact (`ℚ` in the theorems).
-/

namespace Mealpy

variable {d : Nat} {K X : Type} [LinearOrder K]

/-- `np.max` of a non-empty list (`none` stands for numpy's ValueError on an empty array). -/
def listMax : List K → Option K
  | [] => none
  | x :: xs => some (xs.foldl max x)

/-- `np.min` of a non-empty list. -/
def listMin : List K → Option K
  | [] => none
  | x :: xs => some (xs.foldl min x)

/-- `Optimizer.get_special_fitness` (`mealpy/optimizer.py:538-552`): total, best and worst fitness. -/
def getSpecialFitness [Add K] [Zero K] (argsort : List K → List Nat) (pop : List (Agent d K X))
    (mm : MinMax) : Except Err (K × K × K) :=
  let total := (pop.map Agent.fit).foldl (· + ·) 0
  let (sorted, _) := getSorted argsort pop mm
  match sorted[0]?, sorted.getLast? with
  | some a, some b => .ok (total, a.fit, b.fit)
  | _, _ => .error .index

/-- The probability vector of `get_index_roulette_wheel_selection`
(`mealpy/optimizer.py:688-693`), for a list whose `np.ptp` is not zero:
shift by the minimum if some value is negative, mirror for minimisation, normalise by the sum. -/
def rouletteProb [Sub K] [Add K] [Div K] [Zero K] (fits : List K) (mm : MinMax) : List K :=
  let mn := (listMin fits).getD 0
  let fits := if fits.any (fun x => decide (x < 0)) then fits.map (fun x => x - mn) else fits
  let mx := (listMax fits).getD 0
  let final := match mm with | .min => fits.map (fun x => mx - x) | .max => fits
  let total := final.foldl (· + ·) 0
  final.map (fun x => x / total)

/-- `get_index_roulette_wheel_selection` (`mealpy/optimizer.py:674-694`).  `np.ptp` of an empty
array raises ValueError. -/
def roulette [Sub K] [Add K] [Div K] [Zero K] (E : Env K) (fits : List K) (mm : MinMax) (s : E.σ) :
    Except Err (Nat × E.σ) :=
  match listMax fits, listMin fits with
  | some mx, some mn =>
    if mx - mn = 0 then
      let (i, s) := E.integers 0 fits.length s
      .ok (i.toNat, s)
    else .ok (E.choiceP (rouletteProb fits mm) s)
  | _, _ => .error .value

/-- The `k_way` argument: a number strictly between 0 and 1 is a fraction, otherwise a count. -/
inductive KWay where
  | frac (p : ℚ)
  | count (n : Int)
  deriving DecidableEq, Repr

/-- `if 0 < k_way < 1: k_way = int(k_way * len(pop))` (`mealpy/optimizer.py:707-708`). -/
def KWay.size (k : KWay) (len : Nat) : Int :=
  match k with
  | .frac p => (p * (len : ℚ)).floor
  | .count n => n

/-- `get_index_kway_tournament_selection` (`mealpy/optimizer.py:696-717`).  python's `sorted` is
stable (also with `reverse=True`), like `List.mergeSort`; `l[-0:]` is the whole list. -/
def tournament (E : Env K) (pop : List (Agent d K X)) (kWay : KWay) (output : Nat)
    (reverse : Bool) (mm : MinMax) (s : E.σ) : Except Err (List Nat × E.σ) :=
  let k := kWay.size pop.length
  if k < 0 then .error .value
  else if choiceErr pop.length k.toNat false then .error .value
  else
    let (listId, s) := E.choice pop.length k.toNat false s
    let parents : List (Nat × K) := listId.filterMap (fun i => pop[i]?.map (fun a => (i, a.fit)))
    let parents := match mm with
      | .min => parents.mergeSort (fun a b => decide (a.2 ≤ b.2))
      | .max => parents.mergeSort (fun a b => decide (b.2 ≤ a.2))
    if reverse then
      .ok ((if output = 0 then parents else parents.drop (parents.length - output)).map (·.1), s)
    else .ok ((parents.take output).map (·.1), s)

/-- `crossover_arithmetic` (`mealpy/optimizer.py:789-801`) for the drawn `r`. -/
def crossoverArithmetic [Sub K] [Add K] [Mul K] [One K] (r : K) (dad mom : Vec d K) :
    Vec d K × Vec d K :=
  (fun i => r * dad i + (1 - r) * mom i, fun i => r * mom i + (1 - r) * dad i)

end Mealpy
