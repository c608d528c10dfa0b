import Verif.Props.Solve
import Verif.Props.Algorithms

/-!
# C28, C29, C32, C33 for the algorithms of the catalogue

The theorems of `Verif.Props.Solve` hold of every algorithm that reads and writes the history only through the
methods of `Optimizer` (`Disciplined`).  Here they are stated for the algorithms of the catalogue, which satisfy
this: all but those that write into position arrays shared with agents of the history (`InPlace`).
-/

set_option linter.unusedSectionVars false

namespace Mealpy
open Spec

variable {d : Nat} {K : Type} [Num K] {c : Cfg d K} {X Y : Type}

/-- `OriginalGWO`, and `OriginalBCO` whose agents carry wrong targets, leave the history alone -/
example (mode : Valid.Mode) : KeepsHistory (exCfg mode) OriginalGWO.algo (.of 5 5 5) ∧
    KeepsHistory (exCfg mode) (OriginalBCO.algo ⟨1/10, 1/5, 2, 4, 3/10⟩) (.of 5 5 35) := by
  have hacc : Accepted (exCfg mode) 5 := ⟨by simp [exCfg], by simp [exCfg]⟩
  exact ⟨.inl (.inl (.inl (.inl (.inl (.originalGWO hacc))))), .inr ⟨[], .inr (.originalBCO _ hacc)⟩⟩

/-- The recorded global bests never get worse, the last one is the returned agent, and no member of the initial
population or of the population at the end of an epoch is better than it. -/
theorem C28_catalogue_best_monotone {A : Algo c X Y} {bud : Budget} (hA : KeepsHistory c A bud) (hE : c.E.Lawful) (hP : c.P.Lawful)
    {o : RunOpts K} {b : Base c} {s : St c X Y} {h : FinalHist d K X} (hs : solve A o b = .ok (s, h)) :
    (∀ (i j : Nat) (g g' : Agent d K X), i ≤ j → h.globalBest[i]? = some g → h.globalBest[j]? = some g' →
        NoWorse c.P.mm g'.fit g.fit) ∧
      h.globalBest.getLast? = some s.gbest ∧
      ∃ pop0 o' L, InitialPopulation A o b pop0 ∧ EpochRecord A o b o' L ∧ L.length = h.epoch ∧
        (∀ a ∈ pop0, NoWorse c.P.mm s.gbest.fit a.fit) ∧ ∀ r ∈ L, ∀ a ∈ r.2.pop, NoWorse c.P.mm s.gbest.fit a.fit := by
  obtain ⟨q, hq⟩ := hA.disciplined hE hP
  obtain ⟨pop0, o', L, h1, h2, h3, h4, h5, h6, h7, -⟩ := C28_global_best_monotone hE hq hs
  exact ⟨h4, h5, pop0, o', L, h1, h2, h3, h6, h7⟩

/-- Every history list has one entry per executed epoch. -/
theorem C29_catalogue_lengths {A : Algo c X Y} {bud : Budget} (hA : KeepsHistory c A bud) (hE : c.E.Lawful) (hP : c.P.Lawful)
    {o : RunOpts K} {b : Base c} {s : St c X Y} {h : FinalHist d K X} (hs : solve A o b = .ok (s, h)) :
    h.globalBest.length = h.epoch ∧ h.currentBest.length = h.epoch ∧ h.globalWorst.length = h.epoch ∧
      h.currentWorst.length = h.epoch ∧ h.globalBestFit.length = h.epoch ∧ h.currentBestFit.length = h.epoch ∧
      h.diversity.length = h.epoch ∧ h.epochTime.length = h.epoch := by
  obtain ⟨q, hq⟩ := hA.disciplined hE hP
  obtain ⟨o', L, -, -, hl⟩ := C29_lengths hE hq hs
  exact hl

/-- Without a termination all `epoch` epochs run; with one, no epoch follows an epoch at whose end a configured limit is reached. -/
theorem C32_catalogue_stops {A : Algo c X Y} {bud : Budget} (hA : KeepsHistory c A bud) (hE : c.E.Lawful) (hP : c.P.Lawful)
    {o : RunOpts K} {b : Base c} {s : St c X Y} {h : FinalHist d K X} (hs : solve A o b = .ok (s, h)) :
    (o.term = none → h.epoch = c.epoch) ∧
      ∀ t, o.term = some t → 1 ≤ h.epoch ∧ h.epoch ≤ c.epoch ∧ ∃ o' L, EpochRecord A o b o' L ∧ L.length = h.epoch ∧
        ∀ (i : Nat) (f : Bool) (s' : St c X Y), L[i]? = some (f, s') → i + 1 < h.epoch → ∃ time streak, LastClock s' time ∧
          TrailingStreak Num.abs t.epsilon (s'.hist.globalBest.map Agent.fit) streak ∧
          ¬ ∃ m, Reached { t with startTime := (c.E.clock b.rng).1 } (i + 1 : Nat) s'.base.nfe time streak m := by
  obtain ⟨q, hq⟩ := hA.disciplined hE hP
  refine ⟨fun ht => C32_no_termination hE hq ht hs, fun t ht => ?_⟩
  obtain ⟨o', L, h1, h2, h3, h4, -, h5, h6, -⟩ := C32_stops_at_first_true_test hE hq ht hs
  refine ⟨h3, h4, o', L, h1, h2, fun i f s' hi hlt => ?_⟩
  obtain ⟨time, streak, k1, k2, k3⟩ := h5 i f s' hi
  refine ⟨time, streak, k1, k2, fun hm => ?_⟩
  have := h6 i f s' hi hlt
  rw [k3.2 hm] at this
  cases this

end Mealpy
