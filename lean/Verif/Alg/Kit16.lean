import Verif.Alg.Kit15

/-! # Runs that may raise -/

set_option linter.unusedSectionVars false
set_option linter.unusedVariables false

namespace Mealpy
open Spec

variable {d : Nat} {K : Type} [Num K] {c : Cfg d K} {X Y : Type} {Er : Err → Prop}

/-- the only exceptions that may escape are those of `es` -/
def only (es : List Err) : Err → Prop := fun e => e ∈ es

/-- `l[:k]`, where `k` may be negative -/
def sliceTo {α : Type} (l : List α) (k : Int) : List α :=
  if 0 ≤ k then l.take k.toNat else l.take (l.length - (-k).toNat)

theorem sliceTo_length {α : Type} (l : List α) (k : Int) : (sliceTo l k).length ≤ l.length := by
  unfold sliceTo
  split <;> simp

theorem sliceTo_mem {α : Type} {l : List α} {k : Int} {a : α} (h : a ∈ sliceTo l k) : a ∈ l := by
  unfold sliceTo at h
  split at h <;> exact List.mem_of_mem_take h

/-- `np.allclose(x, y, rtol=1e-05, atol=atol)` (`mealpy/utils/agent.py:97-101`) -/
def allclose (atol : K) (x y : Vec d K) : Bool :=
  decide (∀ j, Num.abs (x j - y j) ≤ atol + 1.0e-5 * Num.abs (y j))

/-- `normal(loc, scale)` when a negative scale is one of the tolerated exceptions -/
theorem DT.normalS_err {loc scale : K} (h : Er .value) : DT Er (Mealpy.normalS loc scale : D c K) (fun _ => True) := by
  unfold Mealpy.normalS
  split
  · exact DT.throw h
  · exact DT.normal

end Mealpy
