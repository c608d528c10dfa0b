import Verif.Alg.Kit12

/-! # Rules, part 13: greedy selection that keeps the new agent on a tie, greedy selection on the last agents -/

set_option linter.unusedSectionVars false
set_option linter.unusedVariables false

namespace Mealpy
open Spec

variable {d : Nat} {K : Type} [Num K] {c : Cfg d K} {X Y : Type} {α β : Type}
variable {F : Agent d K X → Prop} {J : Y → Prop} {Er : Err → Prop}

/-- `greedyLoop` whose pool modes select with `self.greedy_selection_population(pop_new, self.pop, minmax)`, the arguments
swapped (`mealpy/human_based/FBIO.py:91-109`) -/
def greedyLoopS (mk : St c X Y → Nat → D c (Vec d K × X)) : M c X Y Unit :=
  if c.swarmLike then do
    let s ← get
    let pend ← draw (buildPending c.popSize (mk s))
    let new ← liftB (updateTargets pend)
    reshape (fun pop => zipGreedy c.P.mm new pop)
  else
    iter c.popSize (fun i _ => do
      let s ← get
      let p ← draw (mk s i)
      tryBetter i p) ()

theorem IT.greedyLoopS (hE : c.E.Lawful) {mk : St c X Y → Nat → D c (Vec d K × X)}
    (hmk : ∀ (s : St c X Y) (i : Nat), Mid F J s → s.pop.length = c.popSize → i < c.popSize → DT noErr (mk s i) (MkOk F c)) :
    IT F J c.popSize c.popSize (Mealpy.greedyLoopS mk : M c X Y Unit) (fun _ => True) := by
  unfold Mealpy.greedyLoopS
  by_cases hsw : c.swarmLike = true
  · rw [if_pos hsw]
    apply HJ.it
    refine HJ.bind0 (HJ.ofIT IT.get) fun s hs => ?_
    refine HJ.bind0 (HJ.draw (buildPending_dt fun i hi => hmk s i hs hs.len hi)) fun pend hp => ?_
    have hu := HJ.updateTargets (F := F) (J := J) (Y := Y) hE hsw (G := []) hp.2
    rw [hp.1] at hu
    refine HJ.bindS hu (by omega) fun new hnew => ?_
    refine HJ.weaken (HJ.reshape fun pop hpl => ?_) (by omega) (by omega)
    have hlen : new.length = c.popSize := hnew.1
    simp only [List.nil_append]
    refine ⟨by rw [zipGreedy_length]; omega, zipGreedy_all (p := fun a => a ∈ pop ∨ a ∈ new) (fun x hx => .inr hx) (fun x hx => .inl hx), ?_⟩
    rintro a (ha | ha)
    · exact zipGreedy_right (by omega) a ha
    · exact zipGreedy_left (by omega) a ha
  · rw [if_neg hsw]
    refine IT.iterS 1 1 (by omega) (by omega) fun i hi => ?_
    exact IT.bind0 IT.get fun s hs => IT.bind0 (IT.draw (hmk s i hs hs.len hi)) fun p hp => IT.tryBetter (by omega) hp

theorem Framed.greedyLoopS {q : Bool} (hE : c.E.Lawful) {mk : St c X Y → Nat → D c (Vec d K × X)} :
    Framed q (Mealpy.greedyLoopS mk : M c X Y Unit) :=
  .ite (.bind .get fun _ => .bind .draw fun _ => .bind (.liftB (.updateTargets hE)) fun _ => .reshape)
    (.iter fun _ _ => .bind .get fun _ => .bind .draw fun _ => .tryBetter)

macro_rules
  | `(tactic| fprim) => `(tactic| (at_last greedyLoopS; exact Framed.greedyLoopS (by assumption)))
macro_rules
  | `(tactic| istep) => `(tactic| first
    | (at_head greedyLoopS; refine IT.weaken (IT.greedyLoopS (by assumption) ?_) (by omega) (by omega); mkgo)
    | (at_bind greedyLoopS; refine IT.bindS (IT.greedyLoopS (by assumption) ?_) (by omega) (fun _ _ => ?_); focus (mkgo; done)))

/-- the agents from the `k`-th on against new ones: `pop2 = self.pop[k:]`, `get_better_agent(pop2[idx], agent)` in `single` mode,
`greedy_selection_population(pop2, child)` in the pool modes, `self.pop = self.pop[:k] + pop2` (`mealpy/swarm_based/SSA.py:118-136`) -/
def betterSuffix (sw : Bool) (mm : MinMax) (k : Nat) (new pop : List (Agent d K X)) : List (Agent d K X) :=
  pop.take k ++ (if sw then zipGreedy mm (pop.drop k) new else zipBetter mm (pop.drop k) new)

theorem betterSuffix_ok {sw : Bool} {mm : MinMax} {k : Nat} {new pop : List (Agent d K X)} (hn : new.length = pop.length - k) :
    (betterSuffix sw mm k new pop).length = pop.length ∧ (∀ a ∈ betterSuffix sw mm k new pop, a ∈ pop ∨ a ∈ new) ∧
      ∀ a, a ∈ pop ∨ a ∈ new → ∃ a' ∈ betterSuffix sw mm k new pop, NoWorse mm a'.fit a.fit := by
  unfold betterSuffix
  have hd : (pop.drop k).length = new.length := by rw [List.length_drop]; omega
  have hsplit : ∀ a ∈ pop, a ∈ pop.take k ∨ a ∈ pop.drop k := fun a ha => by
    rw [← List.take_append_drop k pop] at ha; exact List.mem_append.1 ha
  have hsel : ∃ z : List (Agent d K X), (if sw then zipGreedy mm (pop.drop k) new else zipBetter mm (pop.drop k) new) = z ∧
      z.length = new.length ∧ (∀ a ∈ z, a ∈ pop.drop k ∨ a ∈ new) ∧ ∀ a, a ∈ pop.drop k ∨ a ∈ new → ∃ a' ∈ z, NoWorse mm a'.fit a.fit := by
    cases sw
    · refine ⟨_, rfl, by simp only [Bool.false_eq_true, if_false]; rw [zipBetter_length]; omega,
        zipBetter_all (p := fun a => a ∈ pop.drop k ∨ a ∈ new) (fun x hx => .inl hx) (fun x hx => .inr hx), ?_⟩
      rintro a (ha | ha)
      · exact zipBetter_left (by omega) a ha
      · exact zipBetter_right (by omega) a ha
    · refine ⟨_, rfl, by simp only [if_true]; rw [zipGreedy_length]; omega,
        zipGreedy_all (p := fun a => a ∈ pop.drop k ∨ a ∈ new) (fun x hx => .inl hx) (fun x hx => .inr hx), ?_⟩
      rintro a (ha | ha)
      · exact zipGreedy_left (by omega) a ha
      · exact zipGreedy_right (by omega) a ha
  obtain ⟨z, hz, hzl, hzm, hzk⟩ := hsel
  rw [hz]
  refine ⟨by rw [List.length_append, List.length_take, hzl]; omega, fun a ha => ?_, fun a ha => ?_⟩
  · rcases List.mem_append.1 ha with h | h
    · exact .inl (List.mem_of_mem_take h)
    · rcases hzm a h with h | h
      · exact .inl (List.mem_of_mem_drop h)
      · exact .inr h
  · rcases ha with h | h
    · rcases hsplit a h with h | h
      · exact ⟨a, List.mem_append_left _ h, NoWorse.rfl⟩
      · obtain ⟨a', h1, h2⟩ := hzk a (.inl h)
        exact ⟨a', List.mem_append_right _ h1, h2⟩
    · obtain ⟨a', h1, h2⟩ := hzk a (.inr h)
      exact ⟨a', List.mem_append_right _ h1, h2⟩

/-- new agents for the agents from the `k`-th on, kept slot by slot if better -/
def evalSuffix (k : Nat) (mk : St c X Y → Nat → D c (Vec d K × X)) : M c X Y Unit := do
  let new ← buildEval (c.popSize - k) mk
  reshape (betterSuffix c.swarmLike c.P.mm k new)

theorem IT.evalSuffix (hE : c.E.Lawful) {k : Nat} {mk : St c X Y → Nat → D c (Vec d K × X)}
    (hmk : ∀ (s : St c X Y) (i : Nat), Mid F J s → s.pop.length = c.popSize → i < c.popSize - k → DT noErr (mk s i) (MkOk F c)) :
    IT F J (c.popSize - k) (c.popSize - k) (Mealpy.evalSuffix k mk : M c X Y Unit) (fun _ => True) := by
  unfold Mealpy.evalSuffix
  refine HJ.it (HJ.bindS (HJ.buildEval hE hmk) (by omega) fun new hnew => HJ.weaken (HJ.reshape fun pop hpl => ?_) (by omega) (by omega))
  have := betterSuffix_ok (sw := c.swarmLike) (mm := c.P.mm) (k := k) (new := new) (pop := pop) (by rw [hpl]; exact hnew.1)
  simpa only [List.nil_append, hpl] using this

theorem Framed.evalSuffix {q : Bool} (hE : c.E.Lawful) {k : Nat} {mk : St c X Y → Nat → D c (Vec d K × X)} :
    Framed q (Mealpy.evalSuffix k mk : M c X Y Unit) := by
  unfold Mealpy.evalSuffix; framed

macro_rules
  | `(tactic| fprim) => `(tactic| (at_last evalSuffix; exact Framed.evalSuffix (by assumption)))

/-- `generator.choice(list(set(range(lo, hi)) - {idx}))` -/
def pickRange (lo hi idx : Nat) : D c Nat := pick ((List.range' lo (hi - lo)).filter (fun i => i ≠ idx))

theorem DT.pickRange (hE : c.E.Lawful) {lo hi idx : Nat} (h : lo + 2 ≤ hi) :
    DT Er (Mealpy.pickRange lo hi idx : D c Nat) (fun i => i < hi ∧ i ≠ idx) := by
  unfold Mealpy.pickRange
  refine DT.mono (DT.pick hE ?_) fun i hi => ?_
  · by_cases hx : lo = idx
    · refine List.length_pos_of_mem (a := lo + 1) (List.mem_filter.2 ⟨List.mem_range'_1.2 ⟨by omega, by omega⟩, ?_⟩)
      simp only [ne_eq, decide_not, Bool.not_eq_eq_eq_not, Bool.not_true, decide_eq_false_iff_not]; omega
    · refine List.length_pos_of_mem (a := lo) (List.mem_filter.2 ⟨List.mem_range'_1.2 ⟨by omega, by omega⟩, ?_⟩)
      simp only [ne_eq, decide_not, Bool.not_eq_eq_eq_not, Bool.not_true, decide_eq_false_iff_not]; omega
  · obtain ⟨h1, h2⟩ := List.mem_filter.1 hi
    have := List.mem_range'_1.1 h1
    exact ⟨by omega, by simpa using h2⟩

end Mealpy
