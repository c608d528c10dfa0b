import Verif.Space
import Mathlib.Data.List.Forall2

/-!
# Specification vocabulary for variables and problems

What the properties C01-C13 talk about, independent of how `correct`, `decode`, ... are computed.
-/

namespace Mealpy.Space

variable {K : Type} [Field K] [LinearOrder K] [IsStrictOrderedRing K] [FloorRing K]

/-- every coordinate between its bounds; the three lists have the same length -/
def InBoxL (lb ub x : List K) : Prop :=
  match lb, ub, x with
  | [], [], [] => True
  | l :: ls, u :: us, v :: vs => l ≤ v ∧ v ≤ u ∧ InBoxL ls us vs
  | _, _, _ => False

/-- What a user must supply for the declared box to be a box: `lb ≤ ub`, non-empty label sets, and
room for the value 1 in transfer variables. -/
def Kind.WF : Kind K → Prop
  | .float lb ub => List.Forall₂ (· ≤ ·) lb ub
  | .integer lb ub => List.Forall₂ (· ≤ ·) lb ub
  | .string sets => ∀ s ∈ sets, s ≠ []
  | .categorical sets => ∀ s ∈ sets, s ≠ []
  | .sequence sets => sets ≠ []
  | .permutation _ => True
  | .binary _ => True
  | .bool _ => True
  | .tbinary _ _ _ ub _ => 1 ≤ ub
  | .tbool _ _ _ ub => 1 ≤ ub

/-- the bounds of integer variables are integers (the constructor truncates scalar bounds, so this
can only fail for array bounds) -/
def Kind.IntBounds : Kind K → Prop
  | .integer lb ub => (∃ zs : List Int, lb = zs.map (fun z : Int => (z : K)))
      ∧ ∃ zs : List Int, ub = zs.map (fun z : Int => (z : K))
  | _ => True

/-- no label occurs twice in a valid set -/
def Kind.Distinct : Kind K → Prop
  | .string sets => ∀ s ∈ sets, s.Nodup
  | .categorical sets => ∀ s ∈ sets, s.Nodup
  | .permutation set => set.Nodup
  | _ => True

/-- the labels of a `StringVar` are strings -/
def Kind.StringLabels : Kind K → Prop
  | .string sets => ∀ s ∈ sets, ∀ l ∈ s, ∃ t, l = .str t
  | _ => True

/-- the real-world values a variable stands for -/
def Legal : Kind K → List (Val K) → Prop
  | .float lb ub, v => ∃ xs : List K, v = xs.map .real ∧ InBoxL lb ub xs
  | .integer lb ub, v => ∃ zs : List Int, v = zs.map .int ∧ InBoxL lb ub (zs.map (fun z : Int => (z : K)))
  | .string sets, v => List.Forall₂ (fun s w => ∃ l ∈ s, w = Val.label l) sets v
  | .categorical sets, v => List.Forall₂ (fun s w => ∃ l ∈ s, w = Val.label l) sets v
  | .sequence sets, v => ∃ s ∈ sets, v = [.seq s]
  | .permutation set, v => ∃ ls : List Label, ls.Perm set ∧ v = ls.map .label
  | .binary n, v => v.length = n ∧ ∀ w ∈ v, w = .int 0 ∨ w = .int 1
  | .tbinary n _ _ _ _, v => v.length = n ∧ ∀ w ∈ v, w = .int 0 ∨ w = .int 1
  | .bool n, v => v.length = n ∧ ∀ w ∈ v, ∃ b, w = .bool b
  | .tbool n _ _ _, v => v.length = n ∧ ∀ w ∈ v, ∃ b, w = .bool b

/-- offset of variable number `i` in the solution vector -/
def offset (vs : List (Var K)) (i : Nat) : Nat := nDims (vs.take i)


end Mealpy.Space
