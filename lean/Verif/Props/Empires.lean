import Verif.Props.Outside

/-!
# C53, C55, C57: the empires of `OriginalICA`

The one class that may lose agents *and* writes into shared arrays (`Shrinking` of the catalogue).  Runs that show it, and how far it goes.
-/

namespace Mealpy
open Spec

section
variable {d : Nat} {K : Type} [Num K] {c : Cfg d K}

/-- The population after a completed run of `OriginalICA`, and every population recorded, has `pop_size` or `pop_size - 1` agents. -/
theorem C55_ica_loses_at_most_one (hE : c.E.Lawful) (hP : c.P.Lawful) (hc : Accepted c 10) (p : OriginalICA.Params K) (h2 : 2 ≤ p.empires)
    (h5 : p.empires ≤ 2 + c.popSize / 5) {o : RunOpts K} (hst : FeasibleStart c o.starting) {b : Base c} (hb : b.log = [])
    {s : St c Nat (OriginalICA.World d K)} {h : FinalHist d K Nat} (hs : solve (OriginalICA.algo p) o b = .ok (s, h)) :
    (s.pop.length = c.popSize ∨ s.pop.length + 1 = c.popSize) ∧
      ∀ pop ∈ h.population, pop.length = c.popSize ∨ pop.length + 1 = c.popSize := by
  have := (OriginalICA.lok hE hP hc p h2 h5).solve hE (by have := hc.pop; omega) (by have := hc.epoch; omega) o hst b hb
  rw [hs] at this
  exact ⟨this.size, this.sizes⟩

end

/-- one variable in [-5, 5], ten agents -/
def icaCfg (f : ℚ → ℚ) (epoch : Nat) : Cfg 1 ℚ := ⟨runEnv (1/2) (-1), pointProb f 1 .min, .single, 10, epoch⟩

theorem icaCfg_lawful {f : ℚ → ℚ} {epoch : Nat} : (icaCfg f epoch).E.Lawful ∧ (icaCfg f epoch).P.Lawful :=
  ⟨runEnv_lawful (by norm_num) (by norm_num), pointProb_lawful (f := f) (x0 := 1) (mm := .min) (by norm_num)⟩

/-- two empires, the other parameters at their defaults but for a larger step -/
def icaParams : OriginalICA.Params ℚ := ⟨2, 3/2, 1/20, 1/10, 1/2, 1/10⟩

/-- the squared distance to -4.9 -/
def icaBowl (x : ℚ) : ℚ := (x + 49/10) * (x + 49/10)

/-- the first country sits on the optimum of `icaBowl` -/
def icaRows : List (List ℚ) := [[-49/10], [1], [2], [1], [2], [1], [2], [1], [2], [3]]

/-- `OriginalICA` writes the revolution of an imperialist, uncorrected, into an array that the best agent recorded in the history holds as well
(`mealpy/human_based/ICA.py:96`, `:103`, `:149`): the agent returned lies outside the box and carries the target of another position. -/
theorem C53_ica_lies : (icaCfg icaBowl 1).E.Lawful ∧ (icaCfg icaBowl 1).P.Lawful ∧ Accepted (icaCfg icaBowl 1) 10 ∧
    ∃ s h, solve (OriginalICA.algo (c := icaCfg icaBowl 1) icaParams) ⟨none, .rows icaRows, false⟩ ⟨(), (), [], 1⟩ = .ok (s, h) ∧
      s.gbest.tgt ≠ (icaCfg icaBowl 1).P.target s.gbest.sol ∧ ¬ InBox (icaCfg icaBowl 1).P.lb (icaCfg icaBowl 1).P.ub s.gbest.sol := by
  refine ⟨icaCfg_lawful.1, icaCfg_lawful.2, ⟨by decide, by decide⟩, liesOut_spec ?_⟩
  decide +kernel

/-- In the same run the second empire got no colony (the cost of the first is 0), and its imperialist is popped (`mealpy/human_based/ICA.py:189`):
the population shrinks. -/
theorem C55_ica_shrinks : (icaCfg icaBowl 1).E.Lawful ∧ (icaCfg icaBowl 1).P.Lawful ∧ Accepted (icaCfg icaBowl 1) 10 ∧
    ∃ s h, solve (OriginalICA.algo (c := icaCfg icaBowl 1) icaParams) ⟨none, .rows icaRows, false⟩ ⟨(), (), [], 1⟩ = .ok (s, h) ∧
      s.pop.length ≠ (icaCfg icaBowl 1).popSize := by
  refine ⟨icaCfg_lawful.1, icaCfg_lawful.2, ⟨by decide, by decide⟩, resizes_spec ?_⟩
  decide +kernel

/-- When the second of two imperialists has cost 0 and the best a negative cost, it is the best that gets no colony.  The mean over its colonies
is nan, `np.argmax` takes nan for the largest cost, and the best country is popped (`mealpy/human_based/ICA.py:174`, `:184`, `:189`). -/
theorem C55_ica_drops_the_best : (icaCfg id 1).E.Lawful ∧ (icaCfg id 1).P.Lawful ∧ Accepted (icaCfg id 1) 10 ∧
    ∃ s h, solve (OriginalICA.algo (c := icaCfg id 1) icaParams) ⟨none, .rows [[-1], [0], [2], [2], [2], [2], [2], [2], [2], [2]], false⟩
      ⟨(), (), [], 1⟩ = .ok (s, h) ∧ s.pop.length ≠ (icaCfg id 1).popSize := by
  refine ⟨icaCfg_lawful.1, icaCfg_lawful.2, ⟨by decide, by decide⟩, resizes_spec ?_⟩
  decide +kernel

/-- the run raised the given exception -/
def raised {d : Nat} {c : Cfg d ℚ} {X Y : Type} (e : Err) (r : Except Err (St c X Y × FinalHist d ℚ X)) : Bool :=
  match r with
  | .ok _ => false
  | .error x => decide (x = e)

theorem raised_spec {d : Nat} {c : Cfg d ℚ} {X Y : Type} {e : Err} {r : Except Err (St c X Y × FinalHist d ℚ X)} (h : raised e r = true) :
    r = .error e := by
  unfold raised at h
  split at h
  · cases h
  · rw [of_decide_eq_true h]

/-- A second epoch then raises `IndexError` at `self.pop_empires[idx]` (`mealpy/human_based/ICA.py:140`). -/
theorem C57_ica_index_error : (icaCfg icaBowl 2).E.Lawful ∧ (icaCfg icaBowl 2).P.Lawful ∧ Accepted (icaCfg icaBowl 2) 10 ∧
    solve (OriginalICA.algo (c := icaCfg icaBowl 2) icaParams) ⟨none, .rows icaRows, false⟩ ⟨(), (), [], 1⟩ = .error .index := by
  refine ⟨icaCfg_lawful.1, icaCfg_lawful.2, ⟨by decide, by decide⟩, raised_spec ?_⟩
  decide +kernel

/-- Initial costs that are all 0 make the shares of the empires nan: `ValueError` (`mealpy/human_based/ICA.py:113`, `:119`). -/
theorem C57_ica_zero_costs : (icaCfg (fun _ => 0) 1).E.Lawful ∧ (icaCfg (fun _ => 0) 1).P.Lawful ∧ Accepted (icaCfg (fun _ => 0) 1) 10 ∧
    solve (OriginalICA.algo (c := icaCfg (fun _ => 0) 1) icaParams) ⟨none, .none, false⟩ ⟨(), (), [], 1⟩ = .error .value := by
  refine ⟨icaCfg_lawful.1, icaCfg_lawful.2, ⟨by decide, by decide⟩, raised_spec ?_⟩
  decide +kernel

/-- Initial costs -1 and 1 make them infinite: `OverflowError`. -/
theorem C57_ica_opposite_costs : (icaCfg id 1).E.Lawful ∧ (icaCfg id 1).P.Lawful ∧ Accepted (icaCfg id 1) 10 ∧
    solve (OriginalICA.algo (c := icaCfg id 1) icaParams) ⟨none, .rows [[-1], [1], [2], [2], [2], [2], [2], [2], [2], [2]], false⟩
      ⟨(), (), [], 1⟩ = .error .overflow := by
  refine ⟨icaCfg_lawful.1, icaCfg_lawful.2, ⟨by decide, by decide⟩, raised_spec ?_⟩
  decide +kernel

/-- Initial costs -1 and 3 give the first empire half as many colonies again as there are: `ValueError` (`mealpy/human_based/ICA.py:120`). -/
theorem C57_ica_mixed_costs : (icaCfg id 1).E.Lawful ∧ (icaCfg id 1).P.Lawful ∧ Accepted (icaCfg id 1) 10 ∧
    solve (OriginalICA.algo (c := icaCfg id 1) icaParams) ⟨none, .rows [[-1], [3], [4], [4], [4], [4], [4], [4], [4], [4]], false⟩
      ⟨(), (), [], 1⟩ = .error .value := by
  refine ⟨icaCfg_lawful.1, icaCfg_lawful.2, ⟨by decide, by decide⟩, raised_spec ?_⟩
  decide +kernel

/-- the parameters are accepted -/
example : 2 ≤ icaParams.empires ∧ icaParams.empires ≤ 2 + (icaCfg icaBowl 1).popSize / 5 := by decide

end Mealpy
