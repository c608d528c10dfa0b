import Verif.Num

/-!
# Vocabulary of the properties

A small specification, independent of the model: what "better", "best of", "inside the box"
mean.  Nothing here mentions a mealpy function.
-/

namespace Mealpy

/-- The two problem types a user can ask for. -/
inductive MinMax where
  | min
  | max
  deriving DecidableEq, Repr

namespace Spec

/-- `a` is strictly better than `b` for the given problem type. -/
def Better {K : Type} [LinearOrder K] : MinMax → K → K → Prop
  | .min, a, b => a < b
  | .max, a, b => b < a

/-- `a` is at least as good as `b`. -/
def NoWorse {K : Type} [LinearOrder K] : MinMax → K → K → Prop
  | .min, a, b => a ≤ b
  | .max, a, b => b ≤ a

instance {K : Type} [LinearOrder K] (mm : MinMax) (a b : K) : Decidable (Better mm a b) := by
  cases mm <;> simp only [Better] <;> infer_instance

instance {K : Type} [LinearOrder K] (mm : MinMax) (a b : K) : Decidable (NoWorse mm a b) := by
  cases mm <;> simp only [NoWorse] <;> infer_instance

/-- Every coordinate of `x` lies between the bounds. -/
def InBox {K : Type} [LinearOrder K] {d : Nat} (lb ub x : Vec d K) : Prop :=
  ∀ i, lb i ≤ x i ∧ x i ≤ ub i

/-- `v` is the best value of the list `l` (it occurs there and nothing beats it). -/
def IsBestOf {K : Type} [LinearOrder K] (mm : MinMax) (v : K) (l : List K) : Prop :=
  v ∈ l ∧ ∀ w ∈ l, NoWorse mm v w

/-- `v` is the worst value of the list `l`. -/
def IsWorstOf {K : Type} [LinearOrder K] (mm : MinMax) (v : K) (l : List K) : Prop :=
  v ∈ l ∧ ∀ w ∈ l, NoWorse mm w v

/-- The list runs from best to worst. -/
def BestFirst {K : Type} [LinearOrder K] (mm : MinMax) (l : List K) : Prop :=
  l.Pairwise (NoWorse mm)

variable {K : Type} [LinearOrder K] {mm : MinMax} {a b c : K}

theorem NoWorse.refl (mm : MinMax) (a : K) : NoWorse mm a a := by
  cases mm <;> simp [NoWorse]

theorem NoWorse.rfl : NoWorse mm a a := NoWorse.refl mm a

theorem NoWorse.trans (h₁ : NoWorse mm a b) (h₂ : NoWorse mm b c) : NoWorse mm a c := by
  cases mm
  · exact le_trans h₁ h₂
  · exact le_trans h₂ h₁

theorem NoWorse.total (mm : MinMax) (a b : K) : NoWorse mm a b ∨ NoWorse mm b a := by
  cases mm
  · exact le_total a b
  · exact le_total b a

theorem Better.noWorse (h : Better mm a b) : NoWorse mm a b := by
  cases mm <;> exact le_of_lt h

theorem not_better : ¬ Better mm a b ↔ NoWorse mm b a := by
  cases mm <;> simp [Better, NoWorse]

theorem not_noWorse : ¬ NoWorse mm a b ↔ Better mm b a := by
  cases mm <;> simp [Better, NoWorse]

theorem better_irrefl : ¬ Better mm a a := by
  cases mm <;> simp [Better]

theorem NoWorse.antisymm (h₁ : NoWorse mm a b) (h₂ : NoWorse mm b a) : a = b := by
  cases mm
  · exact le_antisymm h₁ h₂
  · exact le_antisymm h₂ h₁

end Spec
end Mealpy
