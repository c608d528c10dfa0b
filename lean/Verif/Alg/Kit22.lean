import Verif.Alg.Kit21
import Verif.Alg.Kit13

/-! # The walk over position-building code when `ValueError` and `IndexError` are tolerated -/

set_option linter.unusedSectionVars false
set_option linter.unusedVariables false

namespace Mealpy
open Spec

variable {d : Nat} {K : Type} [Num K] {c : Cfg d K} {X Y α : Type} {Er : Err → Prop}

theorem Wp.lax {S β : Type} {m : StateT S (Except Err) β} {s : S} {Q : β → S → Prop} (h : Wp noErr m s Q) : Wp Er m s Q := by
  unfold Wp at h ⊢
  split at h
  · exact h
  · exact h.elim

/-- what does not raise raises only what is tolerated -/
theorem DT.lax {m : D c α} {Q : α → Prop} (h : DT noErr m Q) : DT Er m Q := fun g => Wp.lax (h g)

theorem WT.lax {I : Inv c X Y} {lo hi : Nat} {m : M c X Y α} {Q : α → Prop} (h : WT noErr I lo hi m Q) : WT Er I lo hi m Q := fun s hs => Wp.lax (h s hs)

theorem DT.normalArr_tol {loc scale : Vec d K} (h : Er .value) : DT Er (Mealpy.normalArr loc scale : D c (Vec d K)) (fun _ => True) :=
  DT.ite (fun _ => DT.throw h) fun _ => DT.vecM_true fun _ => DT.normal

theorem DT.choice1_tol (hE : c.E.Lawful) {n : Nat} (h : Er .value) : DT Er (Mealpy.choice1 n : D c Nat) (fun i => i < n) := by
  by_cases hl : 0 < n
  · exact DT.choice1 hE hl
  · have e : n = 0 := by omega
    subst e
    intro g
    exact Wp.of_err (e := .value) rfl h

theorem DT.pickRange_tol (hE : c.E.Lawful) {lo hi idx : Nat} (h : Er .value) :
    DT Er (Mealpy.pickRange lo hi idx : D c Nat) (fun i => i < hi ∧ i ≠ idx) := by
  unfold Mealpy.pickRange
  refine DT.mono (DT.pick_err hE h) fun i hi => ?_
  obtain ⟨h1, h2⟩ := List.mem_filter.1 hi
  have := List.mem_range'_1.1 h1
  exact ⟨by omega, by simpa using h2⟩

macro_rules
  | `(tactic| dext) => `(tactic| first
    | (at_head nth; exact DT.mono (DT.nth_tol (by assumption)) fun _ _ => trivial)
    | (at_head nthI; exact DT.mono (DT.nthI_tol (by assumption)) fun _ _ => trivial)
    | (at_head integers; exact DT.mono (DT.integers_tol (by assumption) (by assumption)) fun _ _ => trivial)
    | (at_head index; exact DT.mono (DT.index_tol (by assumption) (by assumption)) fun _ _ => trivial)
    | (at_head choice; exact DT.mono (DT.choice_err (by assumption) (by assumption)) fun _ _ => trivial)
    | (at_head choice1; exact DT.mono (DT.choice1_tol (by assumption) (by assumption)) fun _ _ => trivial)
    | (at_head choose2; exact DT.mono (DT.choose2_tol (by assumption) (by assumption)) fun _ _ => trivial)
    | (at_head choose3; exact DT.mono (DT.choose3_tol (by assumption) (by assumption)) fun _ _ => trivial)
    | (at_head pick; exact DT.mono (DT.pick_err (by assumption) (by assumption)) fun _ _ => trivial)
    | (at_head pickRange; exact DT.mono (DT.pickRange_tol (by assumption) (by assumption)) fun _ _ => trivial)
    | (at_head pickWithout; exact DT.mono (DT.pickWithout_tol (by assumption) (by assumption)) fun _ _ => trivial)
    | (at_head choose2Without; exact DT.mono (DT.choose2Without_tol (by assumption) (by assumption)) fun _ _ => trivial)
    | (at_head choose3Without; exact DT.mono (DT.choose3Without_tol (by assumption) (by assumption)) fun _ _ => trivial)
    | (at_head rouletteIdx; exact DT.mono (DT.rouletteIdx_tol (by assumption) (by assumption)) fun _ _ => trivial)
    | (at_head repM; exact DT.mono (DT.repMT fun _ _ => ?_) fun _ _ => trivial))

end Mealpy
