import Verif.Alg.RankBased
import Verif.Alg.Simple2
import Verif.TapeEnv
import Mathlib.Tactic.Linarith

/-!
# C63: an increasing change of the fitness scale does not change a run

`RankBased` lists algorithms.  `c.rescale g` is the configuration `c` whose objective is followed by `g`, `b.rescale g` the same generators, log and
counter for it.  `OrderKept c g`: `g` is strictly increasing, and `np.argsort` gives the same positions before and after it, as every sort that only
compares does (`insArgsort_map`).
-/

set_option linter.unusedSectionVars false
set_option linter.unusedVariables false

namespace Mealpy
open Spec

variable {d : Nat} {K : Type} [Num K]

/-- C63: for each algorithm of `RankBased`, a call of `solve` on the objective followed by an increasing `g` does what the call on the objective does,
with every target and fitness sent through `g`: same exception or same optimizer object and history, in every mode, with every starting population and
every termination that has no early stopping. -/
theorem C63_run {A : ∀ c : Cfg d K, Algo c Unit Unit} (hA : RankBased A) {c : Cfg d K} {g : K → K} (hg : OrderKept c g) {o : RunOpts K}
    (ho : ∀ t, o.term = some t → t.maxEarlyStop = none) (b : Base c) :
    solve (A (c.rescale g)) o (b.rescale g) = (solve (A c) o b).map (fun r => (r.1.rescale g, r.2.rescale g)) :=
  (hA.sim hg).solve hg ho b

/-- C63, in terms of what a user sees: the run on the new scale evaluates the same points in the same order, ends with the same population, returns the
same point with the new fitness, counts the same evaluations, and records the same curves with the fitness curves sent through `g`. -/
theorem C63_same_points {A : ∀ c : Cfg d K, Algo c Unit Unit} (hA : RankBased A) {c : Cfg d K} {g : K → K} (hg : OrderKept c g) {o : RunOpts K}
    (ho : ∀ t, o.term = some t → t.maxEarlyStop = none) (b : Base c) {s : St c Unit Unit} {h : FinalHist d K Unit}
    (hr : solve (A c) o b = .ok (s, h)) :
    ∃ s' h', solve (A (c.rescale g)) o (b.rescale g) = .ok (s', h')
      ∧ s'.base.log = s.base.log ∧ s'.base.nfe = s.base.nfe
      ∧ s'.pop.map Agent.sol = s.pop.map Agent.sol ∧ s'.pop.map Agent.fit = (s.pop.map Agent.fit).map g
      ∧ s'.gbest.sol = s.gbest.sol ∧ s'.gbest.fit = g s.gbest.fit
      ∧ h'.globalBestFit = h.globalBestFit.map g ∧ h'.currentBestFit = h.currentBestFit.map g
      ∧ h'.globalBest.map Agent.sol = h.globalBest.map Agent.sol ∧ h'.diversity = h.diversity ∧ h'.exploration = h.exploration
      ∧ h'.population.map (List.map Agent.sol) = h.population.map (List.map Agent.sol) := by
  refine ⟨s.rescale g, h.rescale g, ?_, rfl, rfl, ?_, ?_, rfl, rfl, rfl, rfl, ?_, rfl, rfl, ?_⟩
  · rw [C63_run hA hg ho b, hr]; rfl
  · show (s.pop.map _).map _ = _
    rw [List.map_map]; rfl
  · show (s.pop.map _).map _ = _
    rw [List.map_map, List.map_map]; rfl
  · show (h.globalBest.map _).map _ = _
    rw [List.map_map]; rfl
  · show (h.population.map _).map _ = _
    rw [List.map_map]
    congr 1
    funext l
    show (l.map _).map _ = _
    rw [List.map_map]; rfl

/-- C63: it raises if and only if the other one does, with the same exception. -/
theorem C63_same_exception {A : ∀ c : Cfg d K, Algo c Unit Unit} (hA : RankBased A) {c : Cfg d K} {g : K → K} (hg : OrderKept c g) {o : RunOpts K}
    (ho : ∀ t, o.term = some t → t.maxEarlyStop = none) (b : Base c) (e : Err) :
    solve (A (c.rescale g)) o (b.rescale g) = .error e ↔ solve (A c) o b = .error e := by
  rw [C63_run hA hg ho b]
  rcases solve (A c) o b with e' | r <;> simp [Except.map]

/-- `np.argsort` as a sort that only compares gives the same positions after an increasing function -/
theorem insArgsort_map {K : Type} [LinearOrder K] {g : K → K} (hg : StrictMono g) (l : List K) : insArgsort (l.map g) = insArgsort l := by
  unfold insArgsort
  rw [List.zipIdx_map]
  have h := List.map_insertionSort (r := fun a b : K × Nat => a.1 ≤ b.1) (s := fun a b : K × Nat => a.1 ≤ b.1) (f := Prod.map g id)
    (l := l.zipIdx) (fun a _ b _ => by simp [hg.le_iff_le])
  rw [← h, List.map_map]
  rfl

/-- the hypotheses are met: the tape environment sorts by insertion, and doubling and adding one is increasing -/
theorem orderKept_tape (q t d : Nat) (f : Vec d ℚ → ℚ) (mm : MinMax) (mode : Valid.Mode) (n e : Nat) :
    OrderKept (tapeCfg q t d f mm mode n e) (fun x => 2 * x + 1) := by
  have h : StrictMono (fun x : ℚ => 2 * x + 1) := fun a b h => by show 2 * a + 1 < 2 * b + 1; linarith
  exact ⟨h, fun l => insArgsort_map h l⟩

/-- a complete run to which `C63_run` applies: two epochs of `OriginalGWO` on `x ↦ x²` -/
example : RankBased (K := ℚ) (d := 1) (fun c => OriginalGWO.algo (c := c)) ∧
    OrderKept (tapeCfg 1 3 1 (fun x => x 0 * x 0) .min .single 5 2) (fun x => 2 * x + 1) ∧
    (solve (OriginalGWO.algo (c := tapeCfg 1 3 1 (fun x => x 0 * x 0) .min .single 5 2)) ⟨none, .rows [[1], [2], [3], [2], [1]], false⟩
      ⟨(1 : Nat), (17 : Nat), [], 1⟩).isOk = true :=
  ⟨.originalGWO, orderKept_tape .., by decide +kernel⟩

/-- the points a run evaluated -/
def pointsOf {d : Nat} {c : Cfg d ℚ} {X Y : Type} : Except Err (St c X Y × FinalHist d ℚ X) → Option (List (List ℚ))
  | .ok (s, _) => some (s.base.log.map List.ofFn)
  | .error _ => none

/-- C63: not every algorithm is like that. `AdaptiveEO` compares a fitness with the mean fitness (`mealpy/physics_based/EO.py:305-308`), and evaluates other
points when the objective `x` is replaced by its cube, with the same random numbers. (The draws and the exponential are those of the tape instance.) -/
theorem C63_mean_fitness_differs :
    pointsOf (solve (AdaptiveEO.algo (c := tapeCfg 1 3 1 (fun x => x 0) .min .single 5 1)) ⟨none, .rows [[1], [2], [3], [3], [0]], false⟩
      ⟨(1 : Nat), (17 : Nat), [], 1⟩) ≠
    pointsOf (solve (AdaptiveEO.algo (c := tapeCfg 1 3 1 (fun x => x 0 * x 0 * x 0) .min .single 5 1)) ⟨none, .rows [[1], [2], [3], [3], [0]], false⟩
      ⟨(1 : Nat), (17 : Nat), [], 1⟩) := by
  decide +kernel

end Mealpy
