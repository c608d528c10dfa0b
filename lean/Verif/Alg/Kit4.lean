import Verif.Alg.Kit3

/-! # More program pieces, part 4

Single trials that report whether they were accepted, changes of the agents' extra attributes, and a population whose
worst members are exchanged. -/

set_option linter.unusedSectionVars false
set_option linter.unusedVariables false

namespace Mealpy
open Spec

variable {d : Nat} {K : Type} [Num K] {c : Cfg d K} {X Y : Type} {α β : Type} {Er : Err → Prop}
variable {F : Agent d K X → Prop} {J : Y → Prop}

/-! ## Draws inside the bounds -/

/-- `generator.uniform(problem.lb, problem.ub)` -/
theorem DT.uniformBox (hE : c.E.Lawful) (hP : c.P.Lawful) :
    DT Er (Mealpy.uniformVec c.P.lb c.P.ub : D c (Vec d K)) (fun x => Spec.InBox c.P.lb c.P.ub x) := by
  intro g
  have hb : ∀ j, c.P.lb j ≤ c.P.ub j := fun j => le_trans (hP.generate_in g.2 j).1 (hP.generate_in g.2 j).2
  exact DT.vecM (Q := fun j x => c.P.lb j ≤ x ∧ x ≤ c.P.ub j) (fun j => DT.uniform hE (hb j)) g

macro_rules
  | `(tactic| dprim) => `(tactic| (at_head uniformVec; exact DT.uniformBox (by assumption) (by assumption)))

/-- the position of a member may be evaluated again -/
theorem MkOk.ofPop {s : St c X Y} (hs : Mid (FA c) J s) {a : Agent d K X} (ha : a ∈ s.pop) {e : X} : MkOk (FA c) c (a.sol, e) :=
  ⟨hs.feas a ha, hs.feas a ha⟩

macro_rules
  | `(tactic| dfin) => `(tactic| exact MkOk.ofPop (by assumption) (by assumption))

/-! ## Trials with a result -/

/-- `agent = self.generate_agent(pos_new)`;
`if self.compare_target(agent.target, self.pop[i].target, minmax): self.pop[i] = agent; …` (for example
`mealpy/human_based/WarSO.py:92-94`); the result says whether the slot was changed -/
def tryComp (mkExt : Vec d K → D c X) (i : Nat) (x : Vec d K) : M c X Y Bool := do
  let a ← liftB (agentOf mkExt x)
  let old ← popAt i
  if compareTarget a.tgt old.tgt c.P.mm then do
    setAt i a
    pure true
  else pure false

/-- `target = self.get_target(pos_new)`;
`if self.compare_target(target, self.pop[i].target, minmax): self.pop[i].update(solution=pos_new, target=target)`
(for example `mealpy/bio_based/SOS.py:83-85`); the other attributes of the agent stay -/
def tryUpd (i : Nat) (x : Vec d K) : M c X Y Bool := do
  let t ← liftB (getTarget x)
  let old ← popAt i
  if compareTarget t old.tgt c.P.mm then do
    updateAt i x t
    pure true
  else pure false

theorem IT.tryComp {i : Nat} (hi : i < c.popSize) {mkExt : Vec d K → D c X} {x : Vec d K} (hx : Feas c x)
    (hmk : DT noErr (mkExt x) (fun e => F ⟨x, c.P.target x, e⟩)) :
    IT F J 1 1 (tryComp mkExt i x : M c X Y Bool) (fun _ => True) := by
  intro s hs
  have hg := hs.toGoodPop
  have hi' : i < s.pop.length := by rw [hg.len]; exact hi
  refine Wp.bind (Wp.liftB ?_)
  refine Wp.bind (Wp.liftD hmk ?_)
  intro e r v he
  refine Wp.bind (Wp.getTarget (Wp.pure ?_))
  refine Wp.bind (Wp.popAt hi' ?_)
  refine Wp.ite (fun h => Wp.bind (Wp.setAt hi' (Wp.pure ⟨?_, trivial⟩))) (fun h => Wp.pure ⟨?_, trivial⟩)
  · exact Imp.ofSlot hg hi' hx he (.inl rfl) NoWorse.rfl (compareTarget_true h) rfl rfl rfl rfl rfl rfl
  · exact Imp.dropOne hg hx (List.getElem_mem hi') (compareTarget_false (by simpa using h)) rfl rfl rfl rfl rfl rfl

theorem Wp.updateAt' {Er : Err → Prop} {i : Nat} {x : Vec d K} {t : Target K} {s : St c X Y} (hi : i < s.pop.length)
    {Q : Unit → St c X Y → Prop}
    (h : Q () { s with pop := s.pop.set i { s.pop[i] with sol := x, tgt := t } }) : Wp Er (Mealpy.updateAt i x t) s Q := by
  refine Wp.of_ok (a := ()) ?_ h
  unfold Mealpy.updateAt
  rw [List.getElem?_eq_getElem hi]

theorem IT.tryUpd {i : Nat} (hi : i < c.popSize) {x : Vec d K} (hx : Feas c x)
    (hF : ∀ (a : Agent d K X), F a → F { a with sol := x, tgt := c.P.target x }) :
    IT F J 1 1 (tryUpd i x : M c X Y Bool) (fun _ => True) := by
  intro s hs
  have hg := hs.toGoodPop
  have hi' : i < s.pop.length := by rw [hg.len]; exact hi
  refine Wp.bind (Wp.liftB (Wp.getTarget ?_))
  refine Wp.bind (Wp.popAt hi' ?_)
  refine Wp.ite (fun h => Wp.bind (Wp.updateAt' (by exact hi') (Wp.pure (And.intro ?_ trivial)))) (fun h => Wp.pure (And.intro ?_ trivial))
  · exact Imp.ofSlot (e := (s.pop[i]).ext) hg hi' hx (hF _ (hg.feas _ (List.getElem_mem _))) (.inl rfl) NoWorse.rfl (compareTarget_true h) rfl rfl rfl rfl rfl rfl
  · exact Imp.dropOne hg hx (List.getElem_mem hi') (compareTarget_false (by simpa using h)) rfl rfl rfl rfl rfl rfl

theorem FA.updF {x : Vec d K} {t : Target K} (hx : Feas c x) (a : Agent d K X) (_ : FA c a) : FA c { a with sol := x, tgt := t } := hx

theorem WT.tryComp {I : Inv c X Y} {i : Nat} (hi : ∀ n, I.size n → i < n) {mkExt : Vec d K → D c X} {x : Vec d K} (hx : I.pos x)
    (hmk : DT Er (mkExt x) (fun e => I.agent ⟨x, c.P.target x, e⟩)) :
    WT Er I 1 1 (tryComp mkExt i x : M c X Y Bool) (fun _ => True) := by
  refine WT.bindS (WT.agentOf hx hmk) (by omega) ?_
  rintro a ⟨ha, -⟩
  refine WT.bind0 (WT.popAt hi) fun old ho => ?_
  exact WT.ite (fun _ => WT.bind0 (WT.setAt hi ha) fun _ _ => WT.pure trivial) (fun _ => WT.pure trivial)

theorem WT.tryUpd {I : Inv c X Y} (hU : I.Upd) {i : Nat} (hi : ∀ n, I.size n → i < n) {x : Vec d K} (hx : I.pos x) :
    WT Er I 1 1 (tryUpd i x : M c X Y Bool) (fun _ => True) := by
  refine WT.bindS (WT.getTarget hx) (by omega) ?_
  rintro t rfl
  refine WT.bind0 (WT.popAt hi) fun old ho => ?_
  exact WT.ite (fun _ => WT.bind0 (WT.updateAt hi hU hx rfl) fun _ _ => WT.pure trivial) (fun _ => WT.pure trivial)

theorem Framed.tryComp {q : Bool} {mkExt : Vec d K → D c X} {i : Nat} {x : Vec d K} :
    Framed q (tryComp mkExt i x : M c X Y _) :=
  .bind (.liftB .agentOf) fun _ => .bind .popAt fun _ => .ite (.bind .setAt fun _ => .pure) .pure

theorem Framed.tryUpd {q : Bool} {i : Nat} {x : Vec d K} :
    Framed q (tryUpd i x : M c X Y _) :=
  .bind (.liftB .getTarget) fun _ => .bind .popAt fun _ => .ite (.bind .updateAt fun _ => .pure) .pure

macro_rules
  | `(tactic| fprim) => `(tactic| first
    | (at_last tryComp; exact Framed.tryComp)
    | (at_last tryUpd; exact Framed.tryUpd))

/-- `if self.compare_target(a.target, self.pop[i].target, minmax): self.pop[i] = a` for an agent evaluated before -/
def slotComp (i : Nat) (a : Agent d K X) : M c X Y Unit := do
  let old ← popAt i
  if compareTarget a.tgt old.tgt c.P.mm then setAt i a else pure ()

theorem HJ.slotComp {i : Nat} (hi : i < c.popSize) {G G' : List (Agent d K X)} {a : Agent d K X} (ha : a ∈ G)
    (hG : ∀ b ∈ G, b ∈ G' ∨ NoWorse c.P.mm a.fit b.fit) (hG' : ∀ b ∈ G', b ∈ G) :
    HJ F J 0 0 G (slotComp i a : M c X Y Unit) (fun _ => G') (fun _ => True) := HJ.slotCompare hi ha hG hG'

theorem WT.slotComp {I : Inv c X Y} {i : Nat} (hi : ∀ n, I.size n → i < n) {a : Agent d K X} (ha : I.Ag a) :
    WT Er I 0 0 (slotComp i a : M c X Y Unit) (fun _ => True) := by
  refine WT.bind0 (WT.popAt hi) fun old ho => ?_
  exact WT.ite (fun _ => WT.setAt hi ha) (fun _ => WT.pure trivial)

theorem Framed.slotComp {q : Bool} {i : Nat} {a : Agent d K X} : Framed q (slotComp i a : M c X Y _) :=
  .bind .popAt fun _ => .ite .setAt .pure

/-- two trials evaluated before either is compared (for example `mealpy/bio_based/SOS.py:73-78`) -/
def tryPair (mkExt : Vec d K → D c X) (i : Nat) (x : Vec d K) (j : Nat) (y : Vec d K) : M c X Y Unit := do
  let a ← liftB (agentOf mkExt x)
  let b ← liftB (agentOf mkExt y)
  slotComp i a
  slotComp j b

theorem IT.tryPair {i j : Nat} (hi : i < c.popSize) (hj : j < c.popSize) {mkExt : Vec d K → D c X} {x y : Vec d K} (hx : Feas c x)
    (hy : Feas c y) (hmk : ∀ x, Feas c x → DT noErr (mkExt x) (fun e => F ⟨x, c.P.target x, e⟩)) :
    IT F J 2 2 (tryPair mkExt i x j y : M c X Y Unit) (fun _ => True) := by
  refine HJ.it ?_
  refine HJ.bindS (HJ.agentOf hx (hmk x hx)) (by omega) fun a _ => ?_
  refine HJ.bindS (HJ.agentOf hy (hmk y hy)) (by omega) fun b _ => ?_
  refine HJ.bind0 (HJ.slotComp hi (G' := [b]) (by simp) ?_ (by simp)) fun _ _ => ?_
  · intro b' hb'
    simp only [List.nil_append, List.cons_append, List.mem_cons, List.not_mem_nil, or_false] at hb'
    rcases hb' with rfl | rfl
    · exact .inr NoWorse.rfl
    · exact .inl (by simp)
  · refine HJ.slotComp hj (by simp) ?_ (by simp)
    intro b' hb'
    rw [List.mem_singleton.1 hb']
    exact .inr NoWorse.rfl

theorem WT.tryPair {I : Inv c X Y} {i j : Nat} (hi : ∀ n, I.size n → i < n) (hj : ∀ n, I.size n → j < n) {mkExt : Vec d K → D c X}
    {x y : Vec d K} (hx : I.pos x) (hy : I.pos y) (hmk : ∀ x, I.pos x → DT Er (mkExt x) (fun e => I.agent ⟨x, c.P.target x, e⟩)) :
    WT Er I 2 2 (tryPair mkExt i x j y : M c X Y Unit) (fun _ => True) := by
  refine WT.bindS (WT.agentOf hx (hmk x hx)) (by omega) ?_
  rintro a ⟨ha, -⟩
  refine WT.bindS (WT.agentOf hy (hmk y hy)) (by omega) ?_
  rintro b ⟨hb, -⟩
  exact WT.bind0 (WT.slotComp hi ha) fun _ _ => WT.slotComp hj hb

theorem Framed.tryPair {q : Bool} {mkExt : Vec d K → D c X} {i j : Nat} {x y : Vec d K} : Framed q (tryPair mkExt i x j y : M c X Y _) :=
  .bind (.liftB .agentOf) fun _ => .bind (.liftB .agentOf) fun _ => .bind .slotComp fun _ => .slotComp

macro_rules
  | `(tactic| fprim) => `(tactic| first
    | (at_last tryPair; exact Framed.tryPair)
    | (at_last slotComp; exact Framed.slotComp))

/-! ## The agents' extra attributes -/

/-- `for idx, agent in enumerate(self.pop): agent.attr = …` -/
def mapExt (f : Nat → Agent d K X → X) : M c X Y Unit :=
  reshape (fun l => l.mapIdx (fun i a => { a with ext := f i a }))

theorem IT.mapExt {f : Nat → Agent d K X → X} (hF : ∀ i a, F a → F { a with ext := f i a }) :
    IT F J 0 0 (mapExt f : M c X Y Unit) (fun _ => True) := by
  intro s hs
  have hmem : ∀ b ∈ s.pop.mapIdx (fun i a => { a with ext := f i a }), ∃ i, ∃ a ∈ s.pop, b = { a with ext := f i a } := by
    intro b hb
    obtain ⟨i, hi, rfl⟩ := List.mem_iff_getElem.1 hb
    simp only [List.length_mapIdx] at hi
    exact ⟨i, s.pop[i], List.getElem_mem _, by simp⟩
  have hmem' : ∀ a ∈ s.pop, ∃ i, ({ a with ext := f i a } : Agent d K X) ∈ s.pop.mapIdx (fun i a => { a with ext := f i a }) := by
    intro a ha
    obtain ⟨i, hi, rfl⟩ := List.mem_iff_getElem.1 ha
    refine ⟨i, List.mem_iff_getElem.2 ⟨i, by simpa using hi, by simp⟩⟩
  refine Wp.modify ⟨⟨⟨⟨⟨?_, ?_, ?_, hs.ext⟩, rfl, [], by simp, by simp, by simp, by simp, by simp⟩, rfl⟩, ?_⟩, trivial⟩
  · simpa using hs.len
  · intro b hb
    obtain ⟨i, a, ha, rfl⟩ := hmem b hb
    exact hs.ev a ha
  · intro b hb
    obtain ⟨i, a, ha, rfl⟩ := hmem b hb
    exact hF i a (hs.feas a ha)
  · intro a ha
    obtain ⟨i, hi⟩ := hmem' a ha
    exact ⟨_, hi, NoWorse.rfl⟩

theorem WT.mapExt {J : Y → Prop} {f : Nat → Agent d K X → X} :
    WT Er (Inv.std c X J) 0 0 (mapExt f : M c X Y Unit) (fun _ => True) := by
  refine WT.reshape fun pop h1 h2 => ⟨by simpa using h1, ?_⟩
  intro b hb
  obtain ⟨i, hi, rfl⟩ := List.mem_iff_getElem.1 hb
  simp only [List.length_mapIdx] at hi
  have := h2 _ (List.getElem_mem hi)
  rw [List.getElem_mapIdx]
  exact this

theorem Framed.mapExt {q : Bool} {f : Nat → Agent d K X → X} : Framed q (mapExt f : M c X Y Unit) := Framed.reshape

macro_rules
  | `(tactic| fprim) => `(tactic| (at_last mapExt; exact Framed.mapExt))

/-! ## The worst members are exchanged -/

/-- `self.pop = get_sorted_and_trimmed_population(self.pop, …)[: k] + new` -/
def keepBest (k : Nat) (new : List (Agent d K X)) : M c X Y Unit :=
  reshape (fun l => (getSorted c.E.argsort l c.P.mm).1.take k ++ new)

theorem HJ.keepBest (hE : c.E.Lawful) {k : Nat} {G : List (Agent d K X)} (hk : 0 < k) (hl : k + G.length = c.popSize) :
    HJ F J 0 0 G (keepBest k G : M c X Y Unit) (fun _ => []) (fun _ => True) := by
  refine HJ.reshape fun pop hp => ⟨?_, ?_, ?_⟩
  · have := getSorted_length hE.argsortLaw pop c.P.mm
    simp only [List.length_append, List.length_take]; omega
  · intro a ha
    rcases List.mem_append.1 ha with h | h
    · exact .inl ((getSorted_perm hE.argsortLaw pop c.P.mm).mem_iff.1 (List.mem_of_mem_take h))
    · exact .inr h
  · rintro a (ha | ha)
    · obtain ⟨b, hb, hn⟩ := sorted_take_cover hE hk ha
      exact ⟨b, List.mem_append_left _ hb, hn⟩
    · exact ⟨a, List.mem_append_right _ ha, NoWorse.rfl⟩

theorem WT.keepBest (hE : c.E.Lawful) {J : Y → Prop} {k : Nat} {G : List (Agent d K X)} (hl : k + G.length = c.popSize)
    (hG : ∀ a ∈ G, CF c a) : WT Er (Inv.std c X J) 0 0 (keepBest k G : M c X Y Unit) (fun _ => True) := by
  refine WT.reshape fun pop h1 h2 => ⟨?_, ?_⟩
  · change _ = c.popSize
    change _ = c.popSize at h1
    have := getSorted_length hE.argsortLaw pop c.P.mm
    simp only [List.length_append, List.length_take]; omega
  · intro a ha
    rcases List.mem_append.1 ha with h | h
    · exact h2 a ((getSorted_perm hE.argsortLaw pop c.P.mm).mem_iff.1 (List.mem_of_mem_take h))
    · exact hG a h

theorem Framed.keepBest {q : Bool} {k : Nat} {G : List (Agent d K X)} : Framed q (keepBest k G : M c X Y Unit) := Framed.reshape

macro_rules
  | `(tactic| fprim) => `(tactic| (at_last keepBest; exact Framed.keepBest))

/-! ## Steps -/

macro_rules
  | `(tactic| istep) => `(tactic| first
    | (at_bind tryPair; refine IT.bindS (IT.tryPair (by omega) (by omega) (by dfin) (by dfin) (fun _ _ => DT.pure (by dfin))) (by omega) (fun _ _ => ?_))
    | (at_head tryPair; exact IT.weaken (IT.tryPair (by omega) (by omega) (by dfin) (by dfin) (fun _ _ => DT.pure (by dfin))) (by omega) (by omega))
    | (at_bind tryComp; refine IT.bindS (IT.tryComp (by omega) (by dfin) (DT.pure (by dfin))) (by omega) (fun _ _ => ?_))
    | (at_bind tryUpd; refine IT.bindS (IT.tryUpd (by omega) (by dfin) (FA.updF (by dfin))) (by omega) (fun _ _ => ?_))
    | (at_bind mapExt; refine IT.bind0 (IT.mapExt (fun _ _ h => h)) (fun _ _ => ?_))
    | (at_head mapExt; exact IT.weaken (IT.mapExt (fun _ _ h => h)) (by omega) (by omega)))

macro_rules
  | `(tactic| wstep) => `(tactic| first
    | (at_bind slotComp; refine WT.bind0 (WT.slotComp (by wsz) (Inv.std_ag (by wcf))) (fun _ _ => ?_))
    | (at_head slotComp; exact WT.weaken (WT.slotComp (by wsz) (Inv.std_ag (by wcf))) (by omega) (by omega))
    | (at_bind tryPair; refine WT.bindS (WT.tryPair (by wsz) (by wsz) (by assumption) (by assumption) (by intros; dgo)) (by omega) (fun _ _ => ?_))
    | (at_head tryPair; exact WT.weaken (WT.tryPair (by wsz) (by wsz) (by assumption) (by assumption) (by intros; dgo)) (by omega) (by omega))
    | (at_bind tryComp; refine WT.bindS (WT.tryComp (by wsz) (by assumption) (by dgo)) (by omega) (fun _ _ => ?_))
    | (at_bind tryUpd; refine WT.bindS (WT.tryUpd Inv.std_upd (by wsz) (by assumption)) (by omega) (fun _ _ => ?_))
    | (at_bind mapExt; refine WT.bind0 WT.mapExt (fun _ _ => ?_))
    | (at_head mapExt; exact WT.weaken WT.mapExt (by omega) (by omega))
    | (at_head keepBest; exact WT.weaken (WT.keepBest (by assumption) (by dside) (by wcf)) (by omega) (by omega)))

macro_rules
  | `(tactic| hstep) => `(tactic| first
    | (at_head keepBest; exact HJ.weaken (HJ.keepBest (by assumption) (by omega) (by dside)) (by omega) (by omega))
    | (at_bind mapExt; refine HJ.bind0 (HJ.ofIT (IT.mapExt (fun _ _ h => h))) (fun _ _ => ?_))
    | (at_head reshape; refine HJ.weaken (HJ.reshape (fun _ _ => ?_)) (by omega) (by omega)))

end Mealpy
