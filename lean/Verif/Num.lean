import Mathlib.Order.Defs.LinearOrder
import Mathlib.Algebra.Order.Field.Rat

/-!
# Numbers and vectors

mealpy computes with IEEE doubles (`numpy.float64`).  The algorithm models never use an
arithmetic law: they only need that numbers are linearly ordered (doubles without NaN are) and
that the operations are total.  `Num K` therefore packages a linear order together with
*arbitrary* operations.  Every theorem stated for all `[Num K]` holds for doubles as long as no
NaN is produced, whatever the rounding.
-/

namespace Mealpy

/-- Numbers as numpy sees them, NaN excluded: a linear order with lawless total arithmetic.
Models `numpy.float64` and the ufuncs used throughout `mealpy/`. -/
class Num (K : Type) extends LinearOrder K, Add K, Sub K, Mul K, Div K, Neg K where
  /-- a python literal -/
  ofRat : ℚ → K
  /-- `np.exp` -/
  exp : K → K
  /-- `np.log` -/
  log : K → K
  /-- `np.sin` -/
  sin : K → K
  /-- `np.cos` -/
  cos : K → K
  /-- `np.tan` -/
  tan : K → K
  /-- `np.tanh` and the other unary ufuncs, selected by name -/
  ufunc : String → K → K
  /-- `np.sqrt` -/
  sqrt : K → K
  /-- `a ** b`, `np.power` -/
  pow : K → K → K
  /-- `a % b` -/
  mod : K → K → K
  /-- `np.floor` followed by `int`, or `int` itself on non-negative values -/
  floor : K → Int

variable {K : Type} [Num K]

/-- literals `0, 1, 2, ...` inside formulas -/
instance (priority := 50) instOfNatNum (n : Nat) : OfNat K n := ⟨Num.ofRat (n : ℚ)⟩
/-- literals `0.5, 1e-3, ...` inside formulas -/
instance (priority := 50) instOfScientificNum : OfScientific K :=
  ⟨fun m s e => Num.ofRat (OfScientific.ofScientific m s e : ℚ)⟩
/-- integers used inside formulas (epoch numbers, sizes) -/
def Num.ofNat (n : Nat) : K := Num.ofRat (n : ℚ)
/-- signed integers used inside formulas -/
def Num.ofInt (n : Int) : K := Num.ofRat (n : ℚ)

/-- `np.abs` -/
def Num.abs (x : K) : K := if x < 0 then -x else x
/-- `np.sign` -/
def Num.sign (x : K) : K := if x < 0 then -1 else if 0 < x then 1 else 0

/-- `np.clip(x, lb, ub)` on scalars: `minimum(maximum(x, lb), ub)` (numpy reference; used at
`mealpy/optimizer.py:376`, `mealpy/utils/space.py:184,219,265,304,358,388,416,437`). -/
def clip {α : Type} [LinearOrder α] (x lb ub : α) : α := min (max x lb) ub

/-- A position: the 1-d array `agent.solution` of length `problem.n_dims`. -/
abbrev Vec (d : Nat) (K : Type) := Fin d → K

end Mealpy
