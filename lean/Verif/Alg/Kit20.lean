import Verif.Alg.Kit19

/-! # Kit 20: the order of sets -/

set_option linter.unusedSectionVars false
set_option linter.unusedVariables false

namespace Mealpy
open Spec

variable {d : Nat} {K : Type} [Num K] {c : Cfg d K} {α : Type}

/-- the order in which python goes through a set of `n` elements: any -/
def setOrder (n : Nat) : D c (List Nat) := rngCall (c.E.order n)

theorem DT.setOrder (hE : c.E.Lawful) {n : Nat} {Er : Err → Prop} : DT Er (Mealpy.setOrder n : D c _) (fun l => l.Perm (List.range n)) :=
  DT.rngCall fun s => hE.order_perm n s

/-- `list(set(l))` when the elements of `l` are different -/
def inSomeOrder (l : List α) : D c (List α) := do
  let ord ← setOrder l.length
  pure (ord.filterMap (fun i => l[i]?))

theorem DT.inSomeOrder (hE : c.E.Lawful) {l : List α} {Er : Err → Prop} : DT Er (Mealpy.inSomeOrder l : D c _) (fun r => r.Perm l) := by
  unfold Mealpy.inSomeOrder
  refine DT.bind (DT.setOrder hE) fun ord ho => DT.pure ?_
  refine (ho.filterMap _).trans ?_
  have : (List.range l.length).filterMap (fun i => l[i]?) = l := by
    clear ho
    induction l with
    | nil => rfl
    | cons a l ih =>
      rw [List.length_cons, List.range_succ_eq_map, List.filterMap_cons]
      simp only [List.getElem?_cons_zero, List.filterMap_map]
      refine congrArg _ (Eq.trans ?_ ih)
      exact List.filterMap_congr fun i _ => by simp
  rw [this]

theorem lookup_all {l : List Nat} {α : Type} {pop : List α} (h : ∀ i ∈ l, i < pop.length) : (l.filterMap (fun i => pop[i]?)).length = l.length := by
  rw [List.length_filterMap_eq_countP, List.countP_eq_length]
  intro i hi
  simp [h i hi]

end Mealpy
