import Verif.Alg.Kit11

/-! # Rules, part 12: greedy selection on the first agents, on a local copy of the population, on slots -/

set_option linter.unusedSectionVars false
set_option linter.unusedVariables false

namespace Mealpy
open Spec

variable {d : Nat} {K : Type} [Num K] {c : Cfg d K} {X Y : Type} {α β : Type}
variable {F : Agent d K X → Prop} {J : Y → Prop} {Er : Err → Prop}

/-- `self.pop[:k] = self.greedy_selection_population(self.pop[:k], pop_new, minmax)` -/
def greedyPrefix (mm : MinMax) (k : Nat) (new pop : List (Agent d K X)) : List (Agent d K X) :=
  zipGreedy mm (pop.take k) new ++ pop.drop k

/-- `greedyLoop` over the first `k` agents only; the pool modes select with `self.pop[:k] = greedy(self.pop[:k], pop_new)`
(`mealpy/system_based/AEO.py:77-104`) -/
def greedyFirst (k : Nat) (mk : St c X Y → Nat → D c (Vec d K × X)) : M c X Y Unit :=
  if c.swarmLike then do
    let s ← get
    let pend ← draw (buildPending k (mk s))
    let new ← liftB (updateTargets pend)
    reshape (greedyPrefix c.P.mm k new)
  else
    iter k (fun i _ => do
      let s ← get
      let p ← draw (mk s i)
      tryBetter i p) ()

theorem greedyPrefix_ok {mm : MinMax} {k : Nat} {new pop : List (Agent d K X)} (hk : k ≤ pop.length) (hn : new.length = k) :
    (greedyPrefix mm k new pop).length = pop.length ∧ (∀ a ∈ greedyPrefix mm k new pop, a ∈ pop ∨ a ∈ new) ∧
      ∀ a, a ∈ pop ∨ a ∈ new → ∃ a' ∈ greedyPrefix mm k new pop, NoWorse mm a'.fit a.fit := by
  have ht : (pop.take k).length = k := by rw [List.length_take]; omega
  refine ⟨?_, fun a ha => ?_, ?_⟩
  · unfold greedyPrefix
    rw [List.length_append, zipGreedy_length, List.length_drop]
    omega
  · unfold greedyPrefix at ha
    rcases List.mem_append.1 ha with h | h
    · exact zipGreedy_all (p := fun a => a ∈ pop ∨ a ∈ new) (fun x hx => .inl (List.mem_of_mem_take hx)) (fun x hx => .inr hx) a h
    · exact .inl (List.mem_of_mem_drop h)
  · rintro a (ha | ha)
    · rw [← List.take_append_drop k pop] at ha
      rcases List.mem_append.1 ha with h | h
      · obtain ⟨z, hz, hz2⟩ := zipGreedy_left (mm := mm) (b := new) (by omega) a h
        exact ⟨z, List.mem_append_left _ hz, hz2⟩
      · exact ⟨a, List.mem_append_right _ h, NoWorse.rfl⟩
    · obtain ⟨z, hz, hz2⟩ := zipGreedy_right (mm := mm) (a := pop.take k) (by omega) a ha
      exact ⟨z, List.mem_append_left _ hz, hz2⟩

theorem IT.greedyFirst (hE : c.E.Lawful) {k : Nat} (hk : k ≤ c.popSize) {mk : St c X Y → Nat → D c (Vec d K × X)}
    (hmk : ∀ (s : St c X Y) (i : Nat), Mid F J s → s.pop.length = c.popSize → i < k → DT noErr (mk s i) (MkOk F c)) :
    IT F J k k (Mealpy.greedyFirst k mk : M c X Y Unit) (fun _ => True) := by
  unfold Mealpy.greedyFirst
  by_cases hsw : c.swarmLike
  · rw [if_pos hsw]
    refine HJ.it ?_
    refine HJ.bind0 (HJ.ofIT IT.get) fun s hs => ?_
    refine HJ.bind0 (HJ.draw (buildPending_dt fun i hi => hmk s i hs hs.len hi)) fun pend hp => ?_
    have hu := HJ.updateTargets (F := F) (J := J) (Y := Y) hE hsw (G := []) hp.2
    rw [hp.1] at hu
    refine HJ.bindS hu (by omega) fun new hnew => ?_
    refine HJ.weaken (HJ.reshape fun pop hpl => ?_) (by omega) (by omega)
    have := greedyPrefix_ok (mm := c.P.mm) (k := k) (new := new) (pop := pop) (by omega) hnew.1
    simpa only [List.nil_append, hpl] using this
  · rw [if_neg hsw]
    refine IT.iterS 1 1 (by omega) (by omega) fun i hi => ?_
    exact IT.bind0 IT.get fun s hs => IT.bind0 (IT.draw (hmk s i hs hs.len hi)) fun p hp => IT.tryBetter (by omega) hp

theorem Framed.greedyFirst {q : Bool} (hE : c.E.Lawful) {k : Nat} {mk : St c X Y → Nat → D c (Vec d K × X)} :
    Framed q (Mealpy.greedyFirst k mk : M c X Y Unit) :=
  .ite (.bind .get fun _ => .bind .draw fun _ => .bind (.liftB (.updateTargets hE)) fun _ => .reshape)
    (.iter fun _ _ => .bind .get fun _ => .bind .draw fun _ => .tryBetter)

macro_rules
  | `(tactic| fprim) => `(tactic| (at_last greedyFirst; exact Framed.greedyFirst (by assumption)))

/-- new agents, made from the population as it is and evaluated, against the old ones slot by slot:
`pop_new[-1] = self.get_better_agent(agent, pop[idx], minmax)` in `single` mode, `self.greedy_selection_population(pop, pop_new, minmax)`
in the pool modes (`mealpy/human_based/QSA.py:137-162`) -/
def evalBetter (mk : St c X Y → Nat → D c (Vec d K × X)) : M c X Y Unit := do
  let new ← buildEval c.popSize mk
  reshape (fun pop => if c.swarmLike then zipGreedy c.P.mm pop new else zipBetter c.P.mm new pop)

theorem IT.evalBetter (hE : c.E.Lawful) {mk : St c X Y → Nat → D c (Vec d K × X)}
    (hmk : ∀ (s : St c X Y) (i : Nat), Mid F J s → s.pop.length = c.popSize → i < c.popSize → DT noErr (mk s i) (MkOk F c)) :
    IT F J c.popSize c.popSize (Mealpy.evalBetter mk : M c X Y Unit) (fun _ => True) := by
  unfold Mealpy.evalBetter
  refine HJ.it (HJ.bindS (HJ.buildEval hE hmk) (by omega) fun new hnew => HJ.weaken (HJ.reshape fun pop hpl => ?_) (by omega) (by omega))
  have hlen : new.length = c.popSize := hnew.1
  simp only [List.nil_append]
  by_cases hsw : c.swarmLike
  · simp only [hsw, if_true]
    refine ⟨by rw [zipGreedy_length]; omega, zipGreedy_all (p := fun a => a ∈ pop ∨ a ∈ new) (fun x hx => .inl hx) (fun x hx => .inr hx), ?_⟩
    rintro a (ha | ha)
    · exact zipGreedy_left (by omega) a ha
    · exact zipGreedy_right (by omega) a ha
  · simp only [hsw]
    refine ⟨by simp only [Bool.false_eq_true, if_false]; rw [zipBetter_length]; omega, zipBetter_all (p := fun a => a ∈ pop ∨ a ∈ new) (fun x hx => .inr hx) (fun x hx => .inl hx), ?_⟩
    rintro a (ha | ha)
    · exact zipBetter_right (by omega) a ha
    · exact zipBetter_left (by omega) a ha

theorem Framed.evalBetter {q : Bool} (hE : c.E.Lawful) {mk : St c X Y → Nat → D c (Vec d K × X)} :
    Framed q (Mealpy.evalBetter mk : M c X Y Unit) := by
  unfold Mealpy.evalBetter; framed

macro_rules
  | `(tactic| fprim) => `(tactic| (at_last evalBetter; exact Framed.evalBetter (by assumption)))

/-- `self.pop[-1] = agent` -/
theorem RT.setLast {a : Agent d K X} (h : 0 < c.popSize) :
    RT F J 0 0 [a] (Mealpy.reshape (fun pop => pop.set (pop.length - 1) a) : M c X Y Unit) (fun _ => True) := by
  refine RT.reshape fun pop hp => ⟨by simpa using hp, fun b hb => ?_, fun b hb => ?_⟩
  · exact (List.mem_or_eq_of_mem_set hb).imp id (fun h => by simp [h])
  · rw [List.mem_singleton.1 hb]
    exact ⟨a, List.mem_set (by omega) a, NoWorse.rfl⟩

end Mealpy
