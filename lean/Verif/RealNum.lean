import Verif.Chaotic
import Mathlib.Analysis.SpecialFunctions.Trigonometric.Bounds
import Mathlib.Analysis.SpecialFunctions.Trigonometric.Inverse
import Mathlib.Analysis.SpecialFunctions.Log.Basic
import Mathlib.Analysis.SpecialFunctions.Pow.Real
import Mathlib.Analysis.SpecialFunctions.Trigonometric.Arctan
import Mathlib.Analysis.SpecialFunctions.Artanh
import Mathlib.Analysis.SpecialFunctions.Gamma.Basic

/-!
# Exact real arithmetic as an instance of `Num`

Used for the statements that need arithmetic laws (C49, C50): they are about exact real arithmetic,
rounding is not modelled.
-/

namespace Mealpy

/-- `np.round` and python's `round`: to the nearest integer, halves to the even one -/
noncomputable def roundEven (x : ℝ) : ℝ :=
  if Int.fract x < 1 / 2 then ⌊x⌋ else if 1 / 2 < Int.fract x then ⌊x⌋ + 1 else if ⌊x⌋ % 2 = 0 then ⌊x⌋ else ⌊x⌋ + 1

open Classical in
/-- the unary functions the code uses by name: those of `numpy` and `math.gamma`; `round6` is `np.round(x, 6)`. Any other name is the identity. -/
noncomputable def realFunc (s : String) (x : ℝ) : ℝ :=
  if s = "arccos" then Real.arccos x else if s = "tanh" then Real.tanh x else if s = "round" then roundEven x
  else if s = "sinh" then Real.sinh x else if s = "cosh" then Real.cosh x else if s = "arcsin" then Real.arcsin x
  else if s = "arctan" then Real.arctan x else if s = "arctanh" then Real.artanh x else if s = "gamma" then Real.Gamma x
  else if s = "log10" then Real.log x / Real.log 10 else if s = "log1p" then Real.log (1 + x)
  else if s = "deg2rad" ∨ s = "radians" then x * Real.pi / 180 else if s = "rad2deg" ∨ s = "degrees" then x * 180 / Real.pi
  else if s = "cbrt" then (if x < 0 then -((-x) ^ (1 / 3 : ℝ)) else x ^ (1 / 3 : ℝ))
  else if s = "fix" then (if x < 0 then ⌈x⌉ else ⌊x⌋) else if s = "round6" then roundEven (x * 10 ^ 6) / 10 ^ 6 else x

open Classical in
/-- exact reals -/
noncomputable instance instNumReal : Num ℝ where
  ofRat q := (q : ℝ)
  exp := Real.exp
  log := Real.log
  sin := Real.sin
  cos := Real.cos
  tan := Real.tan
  ufunc := realFunc
  sqrt := Real.sqrt
  pow := fun a b => a ^ b
  mod := fun a b => a - b * ⌊a / b⌋
  floor := fun a => ⌊a⌋

theorem real_ofNat (n : Nat) : @OfNat.ofNat ℝ n (instOfNatNum n) = (n : ℝ) := by
  show ((n : ℚ) : ℝ) = _
  simp

theorem real_ofSci (m : Nat) (s : Bool) (e : Nat) :
    @OfScientific.ofScientific ℝ instOfScientificNum m s e = ((OfScientific.ofScientific m s e : ℚ) : ℝ) := rfl

theorem real_sin (x : ℝ) : Num.sin x = Real.sin x := rfl
theorem real_cos (x : ℝ) : Num.cos x = Real.cos x := rfl
theorem real_abs (x : ℝ) : Num.abs x = |x| := by
  unfold Num.abs
  rw [real_ofNat]
  simp only [Nat.cast_zero]
  split
  · rename_i h; exact (abs_of_neg h).symm
  · rename_i h; exact (abs_of_nonneg (not_lt.1 h)).symm

end Mealpy
