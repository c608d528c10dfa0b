import Verif.Select
import Mathlib.Data.Rat.Floor
import Mathlib.Algebra.Order.Floor.Ring
import Mathlib.Algebra.BigOperators.Group.List.Basic
import Mathlib.Algebra.Order.AbsoluteValue.Basic

/-!
# Target and Agent objects

Models `mealpy/utils/target.py`, the equality/hash part of `mealpy/utils/agent.py` and
`Problem.n_objs` / `Problem.get_target` of `mealpy/utils/problem.py`.
Exact arithmetic: `np.dot` is the exact sum of products.
-/

namespace Mealpy.Tgt

/-- What can be passed as objectives or weights: `None`, a number, a supported array (already
flattened, `np.array(..).flatten()`), or anything else. -/
inductive Arg (K : Type) where
  | none
  | num (x : K)
  | arr (l : List K)
  | other

variable {K : Type} [Semiring K]

/-- The attributes of a `Target` (`mealpy/utils/target.py:24`). -/
structure Obj (K : Type) where
  objectives : List K
  weights : Option (List K)
  fitness : K

/-- `Target.set_objectives` (`mealpy/utils/target.py:37-47`). -/
def setObjectives : Arg K → Except Err (List K)
  | .none => .error .value
  | .num x => .ok [x]
  | .arr l => .ok l
  | .other => .error .value

/-- `Target.set_weights` (`mealpy/utils/target.py:54-64`).  For `None` the attribute first becomes
`len(self.objectives)` (line 56) and is then overwritten by `None` (line 64). -/
def setWeights (n : Nat) : Arg K → Except Err (Option (List K))
  | .none => .ok none
  | .num x => .ok (some (List.replicate n x))
  | .arr l => .ok (some l)
  | .other => .error .value

/-- `np.dot` of two vectors of the same length. -/
def dot (w o : List K) : K := (List.zipWith (· * ·) w o).sum

/-- `Target.calculate_fitness` (`mealpy/utils/target.py:71-84`). -/
def calculateFitness (objectives : List K) (weights : Option (List K)) : K :=
  let weights := match weights with
    | some w => if w.length = objectives.length then w else List.replicate objectives.length 1
    | Option.none => List.replicate objectives.length 1
  dot weights objectives

/-- `Target.__init__` (`mealpy/utils/target.py:15-27`). -/
def mk (objectives weights : Arg K) : Except Err (Obj K) := do
  let o ← setObjectives objectives
  let w ← setWeights o.length weights
  .ok ⟨o, w, calculateFitness o w⟩

/-- `Target.copy` (`mealpy/utils/target.py:29-30`): rebuilds from the two attributes. -/
def copy (t : Obj K) : Except Err (Obj K) :=
  mk (.arr t.objectives) (match t.weights with | some w => .arr w | Option.none => .none)

/-! ## Problem.n_objs and Problem.get_target -/

/-- The two attributes of a `Problem` involved (`mealpy/utils/problem.py:25`): `_n_objs` and
`obj_weights`. -/
structure NObjs (K : Type) where
  nObjs : Option Nat
  objWeights : Arg K

/-- The property getter `Problem.n_objs` (`mealpy/utils/problem.py:37-57`) for the value `result`
returned by one call of the objective.  Note that `_n_objs` is assigned (lines 43, 45) before the
weights are checked (line 55), so the assignment survives the exception: the state is returned
beside the outcome.  For a scalar `obj_weights` of the wrong length the message itself fails
(`len` of a number, TypeError). -/
def readNObjs (result : Arg K) (p : NObjs K) : Except Err Nat × NObjs K :=
  match p.nObjs with
  | some n => (.ok n, p)
  | Option.none =>
    match (match result with | .arr l => some l.length | .num _ => some 1 | _ => Option.none) with
    | Option.none => (.error .value, p)
    | some n =>
      let p := { p with nObjs := some n }
      match p.objWeights with
      | .none => (.ok n, { p with objWeights := .arr (List.replicate n 1) })
      | .arr w => if w.length ≠ n then (.error .value, p) else (.ok n, p)
      | .num _ => if 1 ≠ n then (.error .type, p) else (.ok n, p)
      | .other => if 1 ≠ n then (.error .type, p) else (.ok n, p)

/-- `Problem.get_target` (`mealpy/utils/problem.py:190-199`) for the value returned by the
objective. -/
def getTarget (p : NObjs K) (result : Arg K) : Except Err (Obj K) := mk result p.objWeights

/-! ## Agent equality and hash -/

/-- `np.allclose(a, b, atol=1e-6)` on vectors of equal length, with numpy's default
`rtol = 1e-5`: `|a - b| <= atol + rtol * |b|` elementwise. -/
def allclose (a b : List ℚ) : Bool :=
  (List.zipWith (fun x y => decide (|x - y| ≤ 1 / 1000000 + 1 / 100000 * |y|)) a b).all id

/-- `Agent.__eq__` (`mealpy/utils/agent.py:97-101`) on the two solutions.  A length-1 vector is
broadcast; other length mismatches raise ValueError. -/
def agentEq (a b : List ℚ) : Except Err Bool :=
  if a.length = b.length then .ok (allclose a b)
  else match a, b with
    | [x], b => .ok (allclose (List.replicate b.length x) b)
    | a, [y] => .ok (allclose a (List.replicate a.length y))
    | _, _ => .error .value

/-- `np.rint`: nearest integer, ties to even. -/
def rint (x : ℚ) : Int :=
  let f := ⌊x⌋
  if x - f < 1 / 2 then f
  else if 1 / 2 < x - f then f + 1
  else if f % 2 = 0 then f else f + 1

/-- What `Agent.__hash__` hashes (`mealpy/utils/agent.py:103-106`): the tuple of coordinates
rounded to six decimals, here as integers (multiples of 1e-6). -/
def hashKey (a : List ℚ) : List Int := a.map (fun x => rint (x * 1000000))

/-- `Agent.sync_if_duplicate` (`mealpy/utils/agent.py:46-56`): returns the flag and the own target
afterwards. -/
def syncIfDuplicate {T : Type} (solA : List ℚ) (tgtA : T) (solB : List ℚ) (tgtB : T) :
    Except Err (Bool × T) := do
  if ← agentEq solA solB then .ok (true, tgtB) else .ok (false, tgtA)

end Mealpy.Tgt
