import Verif.Props.Sizes
import Verif.Props.InPlace

/-!
# C52 and C53: hill climbing stays in the box, the fruit flies and the wildebeests leave it
-/

namespace Mealpy
open Spec

section
variable {d : Nat} {K : Type} [Num K] {c : Cfg d K}

/-- `OriginalHC` hands only corrected positions to the objective (`mealpy/math_based/HC.py:84-89`). -/
theorem C52_hc_stays_in_box (hE : c.E.Lawful) (hP : c.P.Lawful) (hc : Accepted c 2) (p : OriginalHC.Params) (o : RunOpts K)
    (hst : FeasibleStart c o.starting) (b : Base c) (hb : b.log = []) :
    ∃ s h, solve (OriginalHC.algo p) o b = .ok (s, h) ∧ ∀ x ∈ s.base.log, InBox c.P.lb c.P.ub x := by
  have := (OriginalHC.wok hE hP hc p).solve hE (by have := hc.pop; omega) (by have := hc.epoch; omega) o hst b hb
  cases hs : solve (OriginalHC.algo p) o b with
  | error e => rw [hs] at this; exact this.elim
  | ok q =>
    obtain ⟨s, h⟩ := q
    rw [hs] at this
    exact ⟨s, h, rfl, fun x hx => this.log x hx⟩
end

/-- two agents and two neighbours -/
example : Accepted (tapeCfg 1 3 1 bowl .min .single 2 1) 2 ∧ ∃ p : OriginalHC.Params, p.neighbours = 2 :=
  ⟨⟨by decide, by decide⟩, ⟨2, by decide⟩, rfl⟩

/-- `OriginalFOA` evaluates the norms of the coordinates of a generated solution (`mealpy/swarm_based/FOA.py:62-66`), uncorrected: the first one
here has coordinates 4 and 2 up to sign in a box of radius 4, and the square root of 20 is more than 4 as well. -/
theorem C52_foa_leaves_box : Accepted (tapeCfg 1 3 2 bowl .min .single 5 1) 5 ∧
    ∃ s h, solve (OriginalFOA.algo (c := tapeCfg 1 3 2 bowl .min .single 5 1)) ⟨none, .none, false⟩ ⟨(0 : Nat), (17 : Nat), [], 1⟩ = .ok (s, h) ∧
      ∃ x ∈ s.base.log, ¬ InBox (tapeCfg 1 3 2 bowl .min .single 5 1).P.lb (tapeCfg 1 3 2 bowl .min .single 5 1).P.ub x := by
  refine ⟨⟨by decide, by decide⟩, escapes_spec ?_⟩
  decide +kernel

/-- So does `WhaleFOA`, which inherits the generation of agents (`mealpy/swarm_based/FOA.py:155`). -/
theorem C52_whale_foa_leaves_box : Accepted (tapeCfg 1 3 2 bowl .min .single 5 1) 5 ∧
    ∃ s h, solve (WhaleFOA.algo (c := tapeCfg 1 3 2 bowl .min .single 5 1)) ⟨none, .none, false⟩ ⟨(0 : Nat), (17 : Nat), [], 1⟩ = .ok (s, h) ∧
      ∃ x ∈ s.base.log, ¬ InBox (tapeCfg 1 3 2 bowl .min .single 5 1).P.lb (tapeCfg 1 3 2 bowl .min .single 5 1).P.ub x := by
  refine ⟨⟨by decide, by decide⟩, escapes_spec ?_⟩
  decide +kernel

/-- `DevFOA` returns an agent at the norms of the position whose target it carries (`mealpy/swarm_based/FOA.py:144-149`): here the target is that
of the corner 4 of the box. -/
theorem C53_dev_foa_lies : Accepted (tapeCfg 1 3 1 (fun x => x 0) .max .single 5 2) 5 ∧
    ∃ s h, solve (DevFOA.algo (c := tapeCfg 1 3 1 (fun x => x 0) .max .single 5 2)) ⟨none, .none, false⟩ ⟨(22 : Nat), (39 : Nat), [], 1⟩ = .ok (s, h) ∧
      s.gbest.tgt ≠ (tapeCfg 1 3 1 (fun x => x 0) .max .single 5 2).P.target s.gbest.sol := by
  refine ⟨⟨by decide, by decide⟩, lies_spec ?_⟩
  decide +kernel

/-- `OriginalWHO` in a pool mode evaluates the positions around the best agent uncorrected (`mealpy/bio_based/WHO.py:170-172`, `:178`); in mode
`single` it evaluates the corrected ones. -/
theorem C52_who_leaves_box : Accepted (tapeCfg 1 3 1 bowl .max .thread 5 1) 5 ∧
    ∃ s h, solve (OriginalWHO.algo (c := tapeCfg 1 3 1 bowl .max .thread 5 1) ⟨2, 2, 3/20, 9/10, 9/10, 3/10, 1/5, 4/5, 2, 2⟩)
        ⟨none, .rows [[4], [4], [4], [3], [2]], false⟩ ⟨(0 : Nat), (17 : Nat), [], 1⟩ = .ok (s, h) ∧
      ∃ x ∈ s.base.log, ¬ InBox (tapeCfg 1 3 1 bowl .max .thread 5 1).P.lb (tapeCfg 1 3 1 bowl .max .thread 5 1).P.ub x := by
  refine ⟨⟨by decide, by decide⟩, escapes_spec ?_⟩
  decide +kernel

/-- `MultiGA(pc=0.25, pm=0.8, selection="random", mutation="swap")`: without a crossover the swap is written into the array of a parent
(`mealpy/evolutionary_based/GA.py:685-689`), which the returned agent shares. -/
theorem C53_multi_ga_lies : Accepted (tapeCfg 1 3 2 (fun x => x 0) .min .single 10 1) 5 ∧
    ∃ s h, solve (MultiGA.algo (c := tapeCfg 1 3 2 (fun x => x 0) .min .single 10 1) ⟨1/4, 4/5, .frac (1/5), .random, .uniform, .swap, true⟩)
        ⟨none, .none, false⟩ ⟨(6 : Nat), (23 : Nat), [], 1⟩ = .ok (s, h) ∧
      s.gbest.tgt ≠ (tapeCfg 1 3 2 (fun x => x 0) .min .single 10 1).P.target s.gbest.sol := by
  refine ⟨⟨by decide, by decide⟩, lies_spec ?_⟩
  decide +kernel

end Mealpy
