import Verif.Bridge
import Verif.Props.Algorithms

/-!
# C52: optimizers on declared variables

The theorems of `Verif.Props.Algorithms` are about an abstract problem.  Here the problem is a list of declared variables, and what the optimizer
evaluates is stated in terms of them: within `problem.lb`, `problem.ub`, and decodable to legal values.  Numbers form an ordered field, as C01 and C06 need;
the optimizers' own arithmetic (`Num K`) need not be related to it beyond the order.
-/

set_option linter.overlappingInstances false

namespace Mealpy
open Spec Space

section
variable {X Y : Type} {K : Type} [Num K] [Field K] [IsStrictOrderedRing K] [FloorRing K]

/-- an optimizer's settings on declared variables -/
abbrev declared (E : Env K) (as : List K → List Nat) (V : VGen K) (vars : List (Var K)) (mm : MinMax) (f : Vec (nDims vars) K → Target K)
    (mode : Valid.Mode) (popSize epoch : Nat) : Cfg (nDims vars) K := ⟨E, problem as V vars mm f, mode, popSize, epoch⟩

/-- **C52**, end to end: whatever a catalogued optimizer evaluates on a problem of well-formed variables has `n_dims` coordinates between
`problem.lb` and `problem.ub`, and `decode_solution` turns it into a dictionary with a legal value for every variable (the last of a name). -/
theorem C52_declared_variables {E : Env K} (hE : E.Lawful) {as : List K → List Nat} (has : ArgsortLaw as) {V : VGen K} (hV : V.Lawful)
    {vars : List (Var K)} (hwf : ∀ v ∈ vars, v.kind.WF) (hint : ∀ v ∈ vars, v.kind.IntBounds) (hstr : ∀ v ∈ vars, v.kind.StringLabels)
    (hd : ∀ v ∈ vars, v.kind.Distinct) {mm : MinMax} {f : Vec (nDims vars) K → Target K} {mode : Valid.Mode} {popSize epoch : Nat}
    {A : Algo (declared E as V vars mm f mode popSize epoch) X Y} {bud : Budget} (hA : StaysIn _ A bud) {o : RunOpts K}
    (hst : FeasibleStart (declared E as V vars mm f mode popSize epoch) o.starting) (rng : E.σ) (seed : Int)
    {s : St (declared E as V vars mm f mode popSize epoch) X Y} {h : FinalHist (nDims vars) K X}
    (hs : solve A o ⟨rng, seeded V vars seed, [], 1⟩ = .ok (s, h)) :
    ∀ x ∈ s.base.log, InBoxL (problemLb vars) (problemUb vars) (List.ofFn x) ∧
      ∀ gs : List V.G, gs.length = vars.length → ∃ dict gs', decodeSolution as V vars (List.ofFn x) gs = .ok (dict, gs') ∧
        ∀ (i : Nat) (v : Var K), vars[i]? = some v → (∀ (j : Nat) (w : Var K), i < j → vars[j]? = some w → w.name ≠ v.name) →
          ∃ y, Legal v.kind y ∧
            ((v.kind.n = 1 ∧ ∃ w, y = [w] ∧ dictGet dict v.name = some (.one w))
            ∨ (v.kind.n ≠ 1 ∧ dictGet dict v.name = some (.many y))) := by
  intro x hx
  have hbox := C52_evaluates_feasible_points_partial hA hE (problem_lawful has hV hwf hint hstr mm f) hst rfl hs x hx
  refine ⟨inBoxL_ofFn ?_ hbox, fun gs hgs => ?_⟩
  · have := C06_generated_solution_feasible V hV vars hwf hint hstr (setSeed V vars 0) (by simp [setSeed])
    obtain ⟨y, _, _, h2, _⟩ := this
    have := h2.length
    omega
  · exact C03_decode_solution_legal has V vars hwf hint hd (List.ofFn x) (by simp) gs hgs

end

/-- the settings of the example: six kinds of variables, eleven coordinates -/
abbrev declaredCfg : Cfg (nDims exVars) ℚ :=
  declared detEnv stableArgsort detVGen exVars .min (fun x => ⟨List.ofFn x, sumL (List.ofFn x)⟩) .single 5 3

example : (∀ v ∈ exVars, v.kind.WF) ∧ (∀ v ∈ exVars, v.kind.IntBounds) ∧ (∀ v ∈ exVars, v.kind.StringLabels)
    ∧ (∀ v ∈ exVars, v.kind.Distinct) ∧ detEnv.Lawful ∧ ArgsortLaw (stableArgsort (K := ℚ)) ∧ detVGen.Lawful
    ∧ ∃ bud, StaysIn declaredCfg OriginalJA.algo bud ∧ FeasibleStart declaredCfg .none
      ∧ ∃ s h, solve (OriginalJA.algo (c := declaredCfg)) ⟨none, .none, true⟩ ⟨(0 : Nat), seeded detVGen exVars 7, [], 1⟩ = .ok (s, h) := by
  have hwf := exVars_wf
  have hint : ∀ v ∈ exVars, v.kind.IntBounds := by
    simp only [exVars, List.mem_cons, List.not_mem_nil, or_false, forall_eq_or_imp, forall_eq]
    exact ⟨trivial, ⟨⟨[-2], by simp⟩, ⟨[3], by simp⟩⟩, trivial, trivial, trivial, trivial⟩
  have hstr : ∀ v ∈ exVars, v.kind.StringLabels := by
    simp only [exVars, List.mem_cons, List.not_mem_nil, or_false, forall_eq_or_imp, forall_eq]
    exact ⟨trivial, trivial, trivial, trivial, trivial, trivial⟩
  have hd : ∀ v ∈ exVars, v.kind.Distinct := by
    simp only [exVars, List.mem_cons, List.not_mem_nil, or_false, forall_eq_or_imp, forall_eq]
    refine ⟨trivial, trivial, ?_, ?_, trivial, trivial⟩
    · intro s hs; simp at hs; subst hs; decide
    · show ([.num 1, .num 2, .num 3] : List Label).Nodup
      decide
  have hP := problem_lawful stableArgsort_law detVGen_lawful hwf hint hstr .min (fun x => ⟨List.ofFn x, sumL (List.ofFn x)⟩)
  have hA : Elitist declaredCfg OriginalJA.algo _ := .originalJA (by constructor <;> decide)
  obtain ⟨s, h, hs, -⟩ := C57_never_raises_partial (.inl (.inl (.inl hA))) detEnv_lawful hP ⟨none, .none, true⟩ trivial
    ⟨(0 : Nat), seeded detVGen exVars 7, [], 1⟩ rfl
  exact ⟨hwf, hint, hstr, hd, detEnv_lawful, stableArgsort_law, detVGen_lawful, _, .inl (.inl (.inl (.inl hA))), trivial, s, h, hs⟩

end Mealpy
