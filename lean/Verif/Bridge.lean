import Verif.Opt
import Verif.Props.Space3

/-!
# The problem of an optimizer, made from declared variables

`Verif.Opt` models optimizers over an abstract `Prob`; `Verif.Space` models variables and `Problem`.  Here the second is turned into the first, and
`Prob.Lawful`, which every theorem about optimizers assumes, is derived from C01 and C06.
-/

set_option linter.unusedSectionVars false

namespace Mealpy
open Space

variable {K : Type} [Field K] [LinearOrder K] [IsStrictOrderedRing K] [FloorRing K]

/-- a solution vector (numpy array) as a function of the coordinate -/
def ofList (d : Nat) (l : List K) : Vec d K := fun j => l.getD j.val 0

theorem ofFn_ofList {d : Nat} {l : List K} (h : l.length = d) : List.ofFn (ofList d l) = l := by
  subst h
  apply List.ext_getElem
  · simp
  · intro i h1 h2
    simp [ofList, List.getD, h2]

theorem inBox_ofList {d : Nat} {lb ub l : List K} (h : InBoxL lb ub l) : Spec.InBox (ofList d lb) (ofList d ub) (ofList d l) := by
  intro j
  obtain ⟨h1, h2⟩ := h.length
  unfold ofList
  by_cases hj : j.val < l.length
  · have a1 : j.val < lb.length := by omega
    have a2 : j.val < ub.length := by omega
    have := h.get j.val _ _ _ (List.getElem?_eq_getElem a1) (List.getElem?_eq_getElem a2) (List.getElem?_eq_getElem hj)
    simpa [List.getD, List.getElem?_eq_getElem a1, List.getElem?_eq_getElem a2, List.getElem?_eq_getElem hj] using this
  · have a1 : ¬ j.val < lb.length := by omega
    have a2 : ¬ j.val < ub.length := by omega
    simp [List.getD, List.getElem?_eq_none (Nat.le_of_not_lt a1), List.getElem?_eq_none (Nat.le_of_not_lt a2),
      List.getElem?_eq_none (Nat.le_of_not_lt hj)]

theorem inBoxL_ofFn : ∀ {lb ub : List K} {x : Vec lb.length K}, ub.length = lb.length →
    Spec.InBox (ofList _ lb) (ofList _ ub) x → InBoxL lb ub (List.ofFn x)
  | [], [], x, _, _ => by simp [InBoxL]
  | l :: ls, u :: us, x, hl, h => by
    rw [List.ofFn_succ]
    refine ⟨?_, ?_, ?_⟩
    · simpa [ofList] using (h 0).1
    · simpa [ofList] using (h 0).2
    · refine inBoxL_ofFn (by simpa using hl) fun j => ?_
      simpa [ofList] using h j.succ
  | [], _ :: _, _, hl, _ => by simp at hl
  | _ :: _, [], _, hl, _ => by simp at hl

/-- A `Problem` (`mealpy/utils/problem.py:14-199`) with variables `vars`, as the optimizers see it.  `as` is `np.argsort`, `V` the generators of
the variables (one each, `mealpy/utils/problem.py:81-84`), `f` the objective with its aggregation.  `generate_solution` does not raise for
well-formed variables (C06), so that its error is replaced by the lower bounds is never seen. -/
def problem (as : List K → List Nat) (V : VGen K) (vars : List (Var K)) (mm : MinMax) (f : Vec (nDims vars) K → Target K) :
    Prob (nDims vars) K where
  S := { gs : List V.G // gs.length = vars.length }
  lb := ofList _ (problemLb vars)
  ub := ofList _ (problemUb vars)
  mm := mm
  target := f
  correct := fun x s =>
    (ofList _ (correctSolution as V vars (List.ofFn x) s.1).1,
      ⟨(correctSolution as V vars (List.ofFn x) s.1).2, (correctFrom_gens as V _ vars 0 s.1).trans s.2⟩)
  generate := fun s =>
    match generateSolution V vars s.1 with
    | .ok (x, gs) => if h : gs.length = vars.length then (ofList _ x, ⟨gs, h⟩) else (ofList _ (problemLb vars), s)
    | .error _ => (ofList _ (problemLb vars), s)
where
  correctFrom_gens (as : List K → List Nat) (V : VGen K) (x : List K) : ∀ (vs : List (Var K)) (off : Nat) (gs : List V.G),
      (correctFrom as V x vs off gs).2.length = gs.length
    | [], off, gs => by simp [correctFrom]
    | v :: vs, off, [] => by simp [correctFrom]
    | v :: vs, off, g :: gs => by
      simp only [correctFrom, List.length_cons]
      rw [correctFrom_gens as V x vs _ gs]

/-- the generators after `set_seed` (`mealpy/utils/problem.py:60-84`) -/
def seeded (V : VGen K) (vars : List (Var K)) (seed : Int) : { gs : List V.G // gs.length = vars.length } :=
  ⟨setSeed V vars seed, by simp [setSeed]⟩

theorem problem_lawful {as : List K → List Nat} (has : ArgsortLaw as) {V : VGen K} (hV : V.Lawful) {vars : List (Var K)}
    (hwf : ∀ v ∈ vars, v.kind.WF) (hint : ∀ v ∈ vars, v.kind.IntBounds) (hstr : ∀ v ∈ vars, v.kind.StringLabels)
    (mm : MinMax) (f : Vec (nDims vars) K → Target K) : (problem as V vars mm f).Lawful where
  correct_in x s := inBox_ofList (C01_correct_solution_in_box has V vars hwf (List.ofFn x) (by simp) s.1 s.2).1
  generate_in s := by
    obtain ⟨x, gs, h1, h2, h3, h4⟩ := C06_generated_solution_feasible V hV vars hwf hint hstr s.1 s.2
    have : ((problem as V vars mm f).generate s).1 = ofList _ x := by
      show (match generateSolution V vars s.1 with
        | .ok (x, gs) => if h : gs.length = vars.length then (ofList _ x, ⟨gs, h⟩) else (ofList _ (problemLb vars), s)
        | .error _ => (ofList _ (problemLb vars), s) : Vec (nDims vars) K × { gs : List V.G // gs.length = vars.length }).1 = _
      rw [h1]
      simp only
      rw [dif_pos h4]
    rw [this]
    exact inBox_ofList h2

end Mealpy
