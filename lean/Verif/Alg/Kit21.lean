import Verif.Alg.Alias
import Verif.Alg.Careless
import Verif.Alg.Kit19

/-! # Draws when the exceptions they may raise are tolerated

The same conclusions as in `Verif.Alg.Base`, without hypotheses on sizes. -/

set_option linter.unusedSectionVars false
set_option linter.unusedVariables false

namespace Mealpy
open Spec

variable {d : Nat} {K : Type} [Num K] {c : Cfg d K} {X Y α : Type} {Er : Err → Prop}

theorem DT.nth_tol {l : List α} {i : Nat} (h : Er .index) : DT Er (Mealpy.nth l i : D c α) (fun a => a ∈ l) := by
  by_cases hi : i < l.length
  · exact DT.nth_mem hi
  · unfold Mealpy.nth
    rw [List.getElem?_eq_none (by omega)]
    exact DT.throw h

theorem DT.nthI_tol {l : List α} {i : Int} (h : Er .index) : DT Er (Mealpy.nthI l i : D c α) (fun a => a ∈ l) := by
  unfold Mealpy.nthI
  exact DT.ite (fun _ => DT.nth_tol h) fun _ => DT.ite (fun _ => DT.nth_tol h) fun _ => DT.throw h

theorem DT.integers_tol (hE : c.E.Lawful) {lo hi : Int} (h : Er .value) :
    DT Er (Mealpy.integers lo hi : D c Int) (fun i => lo ≤ i ∧ i < hi) := by
  by_cases hl : lo < hi
  · exact DT.integers hE hl
  · unfold Mealpy.integers
    rw [if_neg hl]
    exact DT.throw h

theorem DT.index_tol (hE : c.E.Lawful) {n : Nat} (h : Er .value) : DT Er (Mealpy.index n : D c Nat) (fun i => i < n) := by
  by_cases hl : 0 < n
  · exact DT.index hE hl
  · unfold Mealpy.index Mealpy.integers
    rw [if_neg (by omega)]
    exact DT.bind (R := fun _ => False) (DT.throw h) fun _ f => f.elim

theorem DT.unpack2_tol {l : List α} (h : Er .value) : DT Er (Mealpy.unpack2 l : D c _) (fun p => p.1 ∈ l ∧ p.2 ∈ l ∧ l = [p.1, p.2]) := by
  unfold Mealpy.unpack2
  split
  · exact DT.pure (by simp)
  · exact DT.throw h

theorem DT.unpack3_tol {l : List α} (h : Er .value) :
    DT Er (Mealpy.unpack3 l : D c _) (fun p => p.1 ∈ l ∧ p.2.1 ∈ l ∧ p.2.2 ∈ l ∧ l = [p.1, p.2.1, p.2.2]) := by
  unfold Mealpy.unpack3
  split
  · exact DT.pure (by simp)
  · exact DT.throw h

theorem DT.choose2_tol (hE : c.E.Lawful) {n : Nat} (h : Er .value) :
    DT Er (Mealpy.choose2 n : D c _) (fun p => p.1 < n ∧ p.2 < n ∧ p.1 ≠ p.2) := by
  refine DT.bind (DT.choice_err hE h) ?_
  rintro l ⟨h1, h2, h3⟩
  refine DT.mono (DT.unpack2 h1) ?_
  rintro p ⟨a, b, e⟩
  refine ⟨h2 _ a, h2 _ b, ?_⟩
  have := h3 rfl
  rw [e] at this
  simpa using this

theorem DT.choose3_tol (hE : c.E.Lawful) {n : Nat} (h : Er .value) :
    DT Er (Mealpy.choose3 n : D c _) (fun p => p.1 < n ∧ p.2.1 < n ∧ p.2.2 < n) := by
  refine DT.bind (DT.choice_err hE h) ?_
  rintro l ⟨h1, h2, h3⟩
  refine DT.mono (DT.unpack3 h1) ?_
  rintro p ⟨a, b, z, e⟩
  exact ⟨h2 _ a, h2 _ b, h2 _ z⟩

theorem DT.pickWithout_tol (hE : c.E.Lawful) {n : Nat} {excl : List Nat} (h : Er .value) :
    DT Er (Mealpy.pickWithout n excl : D c _) (fun i => i < n ∧ i ∉ excl) :=
  DT.mono (DT.pick_err hE h) fun i hi => rangeWithout_mem.1 hi

theorem DT.choose2Without_tol (hE : c.E.Lawful) {n : Nat} {excl : List Nat} (h : Er .value) :
    DT Er (Mealpy.choose2Without n excl : D c _) (fun p => p.1 < n ∧ p.2 < n ∧ p.1 ∉ excl ∧ p.2 ∉ excl) := by
  refine DT.bind (DT.choiceWithout_err hE h) ?_
  rintro l ⟨-, h2⟩
  refine DT.mono (DT.unpack2_tol h) ?_
  rintro p ⟨a, b, e⟩
  exact ⟨(h2 _ a).1, (h2 _ b).1, (h2 _ a).2, (h2 _ b).2⟩

theorem DT.choose3Without_tol (hE : c.E.Lawful) {n : Nat} {excl : List Nat} (h : Er .value) :
    DT Er (Mealpy.choose3Without n excl : D c _) (fun p => p.1 < n ∧ p.2.1 < n ∧ p.2.2 < n) := by
  refine DT.bind (DT.choiceWithout_err hE h) ?_
  rintro l ⟨-, h2⟩
  refine DT.mono (DT.unpack3_tol h) ?_
  rintro p ⟨a, b, z, e⟩
  exact ⟨(h2 _ a).1, (h2 _ b).1, (h2 _ z).1⟩

theorem DT.rouletteIdx_tol (hE : c.E.Lawful) {fits : List K} (h : Er .value) : DT Er (Mealpy.rouletteIdx fits : D c _) (fun i => i < fits.length) := by
  by_cases hl : 0 < fits.length
  · exact DT.rouletteIdx hE hl
  · obtain rfl : fits = [] := List.eq_nil_of_length_eq_zero (by omega)
    intro g
    exact h

theorem DT.kwayIdx_tol (hE : c.E.Lawful) {pop : List (Agent d K X)} {k : KWay} {output : Nat} {reverse : Bool} (ho : 0 < output) (h : Er .value) :
    DT Er (Mealpy.kwayIdx pop k output reverse : D c (List Nat)) (fun r => ∀ i ∈ r, i < pop.length) := by
  by_cases hk : 0 ≤ k.size pop.length ∧ k.size pop.length ≤ pop.length
  · exact DT.mono (DT.kwayIdx hE ho hk.1 hk.2) fun _ h => h.2
  · intro g
    have ht : tournament c.E pop k output reverse c.P.mm g.1 = .error .value := by
      unfold tournament
      dsimp only
      by_cases hn : k.size pop.length < 0
      · rw [if_pos hn]
      · rw [if_neg hn, if_pos (by unfold choiceErr; simp; omega)]
    refine Wp.of_err (e := .value) ?_ h
    unfold Mealpy.kwayIdx
    rw [ht]

theorem DT.sampleOne_tol (hE : c.E.Lawful) {n ex k : Nat} {r : Bool} (hex : ex < n) (h : Er .value) :
    DT Er (Mealpy.sampleOne n ex k r : D c _) (fun l => ∀ i ∈ l, i < n) := by
  by_cases hc : choiceErr (n - 1) k r = true
  · intro g
    refine Wp.of_err (e := .value) ?_ h
    unfold Mealpy.sampleOne sampleExcludeOne
    rw [if_neg (by omega), if_pos hc]
  · intro g
    have he : sampleExcludeOne c.E n ex k r g.1 = .ok (shiftExclude ex (c.E.choice (n - 1) k r g.1).1,
        (c.E.choice (n - 1) k r g.1).2) := by
      unfold sampleExcludeOne
      rw [if_neg (by omega), if_neg hc]
    refine Wp.of_ok (a := shiftExclude ex (c.E.choice (n - 1) k r g.1).1) (s' := ((c.E.choice (n - 1) k r g.1).2, g.2)) ?_ ?_
    · unfold Mealpy.sampleOne
      rw [he]
    · intro i hi
      simp only [shiftExclude, List.mem_map] at hi
      obtain ⟨j, hj, rfl⟩ := hi
      by_cases hn : n - 1 = 0
      · have hl := hE.choice_length (n - 1) k r g.1
        have hk : k = 0 := by
          by_contra hk
          exact hc (by unfold choiceErr; simp [hn, hk])
        rw [hk] at hj hl
        rw [List.eq_nil_of_length_eq_zero hl] at hj
        simp at hj
      · have := hE.choice_lt (n - 1) k r g.1 (by omega) j hj
        split <;> omega

end Mealpy
