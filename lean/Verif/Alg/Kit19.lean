import Verif.Alg.Kit16
import Verif.Alg.Kit18

/-! # Operations that may raise, and loops whose rounds differ -/

set_option linter.unusedSectionVars false
set_option linter.unusedVariables false

namespace Mealpy
open Spec

variable {d : Nat} {K : Type} [Num K] {c : Cfg d K} {X Y : Type} {Er : Err → Prop}

/-- `choice(n, k, replace)` when its `ValueError` is one of the tolerated exceptions -/
theorem DT.choice_err (hE : c.E.Lawful) {n k : Nat} {r : Bool} (h : Er .value) :
    DT Er (Mealpy.choice n k r : D c (List Nat)) (fun l => l.length = k ∧ (∀ i ∈ l, i < n) ∧ (r = false → l.Nodup)) := by
  cases hc : choiceErr n k r with
  | false => exact DT.choice hE hc
  | true =>
    unfold Mealpy.choice
    rw [if_pos hc]
    exact DT.throw h

/-- likewise, choosing from what is left of a range -/
theorem DT.choiceWithout_err (hE : c.E.Lawful) {n k : Nat} {excl : List Nat} (h : Er .value) :
    DT Er (Mealpy.choiceWithout n excl k false : D c _) (fun l => l.Nodup ∧ ∀ i ∈ l, i < n ∧ i ∉ excl) := by
  unfold Mealpy.choiceWithout
  refine DT.bind (DT.choice_err hE h) fun is his => DT.pure ⟨?_, fun i hi => ?_⟩
  · refine List.Nodup.filterMap (fun a b x ha hb => ?_) (his.2.2 rfl)
    have hnd : (rangeWithout n excl).Nodup := List.Nodup.filter _ List.nodup_range
    obtain ⟨h1, e1⟩ := List.getElem?_eq_some_iff.1 (Option.mem_def.1 ha)
    obtain ⟨h2, e2⟩ := List.getElem?_eq_some_iff.1 (Option.mem_def.1 hb)
    exact (hnd.getElem_inj_iff (hi := h1) (hj := h2)).1 (e1.trans e2.symm)
  · obtain ⟨j, -, hj⟩ := List.mem_filterMap.1 hi
    exact rangeWithout_mem.1 (List.mem_of_getElem? hj)

/-- `choice(l)` -/
theorem DT.pick_err (hE : c.E.Lawful) {α : Type} {l : List α} (h : Er .value) : DT Er (Mealpy.pick l : D c _) (fun a => a ∈ l) := by
  by_cases hl : 0 < l.length
  · exact DT.pick hE hl
  · obtain rfl : l = [] := List.eq_nil_of_length_eq_zero (by omega)
    unfold Mealpy.pick Mealpy.choice1 Mealpy.choice
    rw [if_pos (by rfl)]
    exact DT.bind (DT.bind (R := fun _ => False) (DT.throw h) fun _ f => f.elim) fun (_ : Nat) (f : False) => f.elim

/-- `get_best_agent(pop)` -/
theorem DT.bestAgent_err (hE : c.E.Lawful) {pop : List (Agent d K X)} (h : Er .index) : DT Er (Mealpy.bestAgent pop : D c _) (fun a => a ∈ pop) := by
  by_cases hl : 0 < pop.length
  · exact DT.bestAgent hE hl
  · obtain rfl : pop = [] := List.eq_nil_of_length_eq_zero (by omega)
    have : (getSorted c.E.argsort ([] : List (Agent d K X)) c.P.mm).1 = [] := by
      unfold getSorted
      simp
    intro g
    unfold Mealpy.bestAgent getBest
    simp only [this]
    exact h

/-- what is left of a range when some distinct numbers are taken away -/
theorem rangeWithout_length_eq {n : Nat} {excl : List Nat} (hn : excl.Nodup) (hl : ∀ i ∈ excl, i < n) :
    (rangeWithout n excl).length + excl.length = n := by
  have hp : (rangeWithout n excl ++ excl).Perm (List.range n) := by
    refine (List.perm_ext_iff_of_nodup ?_ List.nodup_range).2 fun i => ?_
    · exact List.Nodup.append (List.Nodup.filter _ List.nodup_range) hn (fun i hi he => (rangeWithout_mem.1 hi).2 he)
    · rw [List.mem_append, rangeWithout_mem, List.mem_range]
      exact ⟨fun h => h.elim (·.1) (hl i), fun h => (em (i ∈ excl)).elim .inr fun h' => .inl ⟨h, h'⟩⟩
  have := hp.length_eq
  simpa using this

/-- a loop whose rounds have budgets of their own -/
theorem WT.iterV {I : Inv c X Y} {f : Nat → α → M c X Y α} (lo hi : Nat → Nat) (P : Nat → α → Prop) {a : α} (h0 : P 0 a) : ∀ (n : Nat),
    (∀ (i : Nat) (a : α), i < n → P i a → WT Er I (lo i) (hi i) (f i a) (P (i + 1))) →
    WT Er I ((List.range n).map lo).sum ((List.range n).map hi).sum (Mealpy.iter n f a) (P n)
  | 0, _ => WT.pure h0
  | n + 1, hf => by
    have := WT.bind (WT.iterV lo hi P h0 n (fun i a h => hf i a (by omega))) (fun a ha => hf n a (by omega) ha)
    rw [List.range_succ, List.map_append, List.map_append, List.sum_append, List.sum_append]
    simp only [List.map_cons, List.map_nil, List.sum_cons, List.sum_nil, Nat.add_zero]
    exact this

end Mealpy
