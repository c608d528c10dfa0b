import Verif.Select
import Mathlib.Data.List.Basic
import Mathlib.Data.List.Perm.Basic
import Mathlib.Data.List.Induction

set_option linter.unusedSectionVars false

/-! Helper lemmas about the selection helpers. -/

namespace Mealpy
open Spec

variable {d : Nat} {K X : Type} [LinearOrder K]

/-- What numpy documents about `np.argsort`: a permutation of the positions that sorts. -/
structure ArgsortLaw (as : List K → List Nat) : Prop where
  perm : ∀ l, (as l).Perm (List.range l.length)
  sorted : ∀ l, (as l).Pairwise (fun i j => ∀ a b, l[i]? = some a → l[j]? = some b → a ≤ b)

theorem Env.Lawful.argsortLaw {K : Type} [Num K] {E : Env K} (h : E.Lawful) :
    ArgsortLaw E.argsort := ⟨h.argsort_perm, h.argsort_sorted⟩

theorem filterMap_range_getElem? {α : Type} (l : List α) :
    (List.range l.length).filterMap (fun i => l[i]?) = l := by
  induction l using List.reverseRecOn with
  | nil => simp
  | append_singleton xs x ih =>
    rw [List.length_append, List.length_singleton, List.range_succ, List.filterMap_append]
    have h : (List.range xs.length).filterMap (fun i => (xs ++ [x])[i]?)
        = (List.range xs.length).filterMap (fun i => xs[i]?) := by
      apply List.filterMap_congr
      intro i hi
      rw [List.mem_range] at hi
      simp [List.getElem?_append_left hi]
    rw [h, ih]
    simp

/-- the index list of the model, named for the proofs -/
def sortedIdx (as : List K → List Nat) (pop : List (Agent d K X)) (mm : MinMax) : List Nat :=
  match mm with
  | .max => (as (pop.map Agent.fit)).reverse
  | .min => as (pop.map Agent.fit)

theorem getSorted_eq (as : List K → List Nat) (pop : List (Agent d K X)) (mm : MinMax) :
    getSorted as pop mm
      = ((sortedIdx as pop mm).filterMap (fun i => pop[i]?), sortedIdx as pop mm) := by
  cases mm <;> rfl

theorem sortedIdx_perm {as : List K → List Nat} (h : ArgsortLaw as) (pop : List (Agent d K X))
    (mm : MinMax) : (sortedIdx as pop mm).Perm (List.range pop.length) := by
  have := h.perm (pop.map Agent.fit)
  rw [List.length_map] at this
  cases mm
  · exact this
  · exact (List.reverse_perm _).trans this

theorem getSorted_perm {as : List K → List Nat} (h : ArgsortLaw as) (pop : List (Agent d K X))
    (mm : MinMax) : (getSorted as pop mm).1.Perm pop := by
  rw [getSorted_eq]
  have := (sortedIdx_perm h pop mm).filterMap (fun i => pop[i]?)
  rwa [filterMap_range_getElem?] at this

theorem getSorted_length {as : List K → List Nat} (h : ArgsortLaw as) (pop : List (Agent d K X))
    (mm : MinMax) : (getSorted as pop mm).1.length = pop.length :=
  (getSorted_perm h pop mm).length_eq

theorem getSorted_mem {as : List K → List Nat} (h : ArgsortLaw as) {pop : List (Agent d K X)}
    {mm : MinMax} {a : Agent d K X} : a ∈ (getSorted as pop mm).1 ↔ a ∈ pop :=
  (getSorted_perm h pop mm).mem_iff

theorem sortedIdx_pairwise {as : List K → List Nat} (h : ArgsortLaw as)
    (pop : List (Agent d K X)) (mm : MinMax) :
    (sortedIdx as pop mm).Pairwise
      (fun i j => ∀ a, pop[i]? = some a → ∀ b, pop[j]? = some b → NoWorse mm a.fit b.fit) := by
  have hs := h.sorted (pop.map Agent.fit)
  cases mm
  · refine hs.imp ?_
    intro i j hij a ha b hb
    exact hij a.fit b.fit (by simp [ha]) (by simp [hb])
  · simp only [sortedIdx]
    rw [List.pairwise_reverse]
    refine hs.imp ?_
    intro i j hij a ha b hb
    exact hij b.fit a.fit (by simp [hb]) (by simp [ha])

theorem getSorted_bestFirst {as : List K → List Nat} (h : ArgsortLaw as)
    (pop : List (Agent d K X)) (mm : MinMax) :
    (getSorted as pop mm).1.Pairwise (fun a b => NoWorse mm a.fit b.fit) := by
  rw [getSorted_eq, List.pairwise_filterMap]
  exact sortedIdx_pairwise h pop mm

/-- agent `i` of the sorted population is agent `indices[i]` of the original one -/
theorem getSorted_index {as : List K → List Nat} (h : ArgsortLaw as) (pop : List (Agent d K X))
    (mm : MinMax) (i : Nat) :
    (getSorted as pop mm).1[i]? = ((getSorted as pop mm).2[i]?).bind (fun j => pop[j]?) := by
  rw [getSorted_eq]
  have hlt : ∀ j ∈ sortedIdx as pop mm, j < pop.length := by
    intro j hj
    have := (sortedIdx_perm h pop mm).mem_iff.1 hj
    simpa using this
  generalize sortedIdx as pop mm = l at hlt
  induction l generalizing i with
  | nil => simp
  | cons x xs ih =>
    have hx : x < pop.length := hlt x (by simp)
    have hx' : pop[x]? = some pop[x] := List.getElem?_eq_getElem hx
    rw [List.filterMap_cons_some hx']
    cases i with
    | zero => simp [hx']
    | succ n =>
      simp only [List.getElem?_cons_succ]
      exact ih n (fun j hj => hlt j (List.mem_cons_of_mem _ hj))

theorem head_best {as : List K → List Nat} (h : ArgsortLaw as) {pop : List (Agent d K X)}
    {mm : MinMax} {a : Agent d K X} (ha : (getSorted as pop mm).1[0]? = some a) :
    a ∈ pop ∧ ∀ b ∈ pop, NoWorse mm a.fit b.fit := by
  have hm : a ∈ (getSorted as pop mm).1 := List.mem_of_getElem? ha
  refine ⟨(getSorted_mem h).1 hm, ?_⟩
  intro b hb
  rw [← getSorted_mem h (mm := mm)] at hb
  have hs := getSorted_bestFirst h pop mm
  generalize (getSorted as pop mm).1 = l at *
  cases l with
  | nil => simp at ha
  | cons x xs =>
    simp only [List.getElem?_cons_zero, Option.some.injEq] at ha
    subst ha
    rcases List.mem_cons.1 hb with rfl | hb
    · exact NoWorse.rfl
    · exact (List.pairwise_cons.1 hs).1 b hb

theorem last_worst {as : List K → List Nat} (h : ArgsortLaw as) {pop : List (Agent d K X)}
    {mm : MinMax} {a : Agent d K X} (ha : (getSorted as pop mm).1.getLast? = some a) :
    a ∈ pop ∧ ∀ b ∈ pop, NoWorse mm b.fit a.fit := by
  have hm : a ∈ (getSorted as pop mm).1 := List.mem_of_getLast? ha
  refine ⟨(getSorted_mem h).1 hm, ?_⟩
  intro b hb
  rw [← getSorted_mem h (mm := mm)] at hb
  have hs := getSorted_bestFirst h pop mm
  generalize (getSorted as pop mm).1 = l at *
  obtain ⟨ys, rfl⟩ := List.getLast?_eq_some_iff.1 ha
  rcases List.mem_append.1 hb with hb | hb
  · exact (List.pairwise_append.1 hs).2.2 b hb a (by simp)
  · simp only [List.mem_singleton] at hb
    subst hb; exact NoWorse.rfl

/-! ### comparison -/

theorem getBetterAgent_eq (x y : Agent d K X) (mm : MinMax) :
    getBetterAgent x y mm = match mm with
      | .min => if x.fit < y.fit then x else y
      | .max => if x.fit < y.fit then y else x := by
  cases mm <;> simp [getBetterAgent]

theorem getBetterAgent_reverse_eq (x y : Agent d K X) (mm : MinMax) :
    getBetterAgent x y mm true = match mm with
      | .min => if x.fit < y.fit then y else x
      | .max => if x.fit < y.fit then x else y := by
  cases mm <;> simp [getBetterAgent]

theorem getBetterAgent_cases (x y : Agent d K X) (mm : MinMax) :
    (getBetterAgent x y mm = x ∨ getBetterAgent x y mm = y)
      ∧ NoWorse mm (getBetterAgent x y mm).fit x.fit
      ∧ NoWorse mm (getBetterAgent x y mm).fit y.fit := by
  rw [getBetterAgent_eq]
  cases mm <;> simp only [NoWorse] <;> split <;> rename_i h
  · exact ⟨.inl rfl, le_rfl, le_of_lt h⟩
  · exact ⟨.inr rfl, not_lt.1 h, le_rfl⟩
  · exact ⟨.inr rfl, le_of_lt h, le_rfl⟩
  · exact ⟨.inl rfl, le_rfl, not_lt.1 h⟩

theorem getBetterAgent_reverse_cases (x y : Agent d K X) (mm : MinMax) :
    (getBetterAgent x y mm true = x ∨ getBetterAgent x y mm true = y)
      ∧ NoWorse mm x.fit (getBetterAgent x y mm true).fit
      ∧ NoWorse mm y.fit (getBetterAgent x y mm true).fit := by
  rw [getBetterAgent_reverse_eq]
  cases mm <;> simp only [NoWorse] <;> split <;> rename_i h
  · exact ⟨.inr rfl, le_of_lt h, le_rfl⟩
  · exact ⟨.inl rfl, le_rfl, not_lt.1 h⟩
  · exact ⟨.inl rfl, le_rfl, le_of_lt h⟩
  · exact ⟨.inr rfl, not_lt.1 h, le_rfl⟩

theorem compareTarget_true {x y : Target K} {mm : MinMax} (h : compareTarget x y mm = true) :
    NoWorse mm x.fitness y.fitness := by
  cases mm <;> simp [compareTarget, NoWorse] at *
  · exact le_of_lt h
  · exact h

theorem compareTarget_false {x y : Target K} {mm : MinMax} (h : compareTarget x y mm = false) :
    NoWorse mm y.fitness x.fitness := by
  cases mm <;> simp [compareTarget, NoWorse] at *
  · exact h
  · exact le_of_lt h

/-! ### greedy -/

/-- slot-wise choice made by greedy selection -/
def greedyPick (mm : MinMax) (o n : Agent d K X) : Agent d K X :=
  match mm with
  | .min => if n.fit < o.fit then n else o
  | .max => if n.fit > o.fit then n else o

theorem greedySelection_ok {old new : List (Agent d K X)} {mm : MinMax}
    (h : old.length = new.length) :
    greedySelection old new mm = .ok (List.zipWith (greedyPick mm) old new) := by
  cases mm <;> simp [greedySelection, h] <;> rfl

theorem greedyPick_cases (mm : MinMax) (o n : Agent d K X) :
    (greedyPick mm o n = o ∨ greedyPick mm o n = n)
      ∧ NoWorse mm (greedyPick mm o n).fit o.fit ∧ NoWorse mm (greedyPick mm o n).fit n.fit
      ∧ (o.fit = n.fit → greedyPick mm o n = o) := by
  cases mm <;> simp only [greedyPick, NoWorse] <;> split <;> rename_i h
  · exact ⟨.inr rfl, le_of_lt h, le_rfl, fun e => absurd h (by simp [e])⟩
  · exact ⟨.inl rfl, le_rfl, not_lt.1 h, fun _ => rfl⟩
  · exact ⟨.inr rfl, le_of_lt h, le_rfl, fun e => absurd h (by simp [e])⟩
  · exact ⟨.inl rfl, le_rfl, not_lt.1 h, fun _ => rfl⟩

end Mealpy
