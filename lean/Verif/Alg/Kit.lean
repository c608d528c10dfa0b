import Verif.Alg.Weak

/-! # More idioms of the `evolve` methods -/

set_option linter.unusedSectionVars false
set_option linter.unusedVariables false

namespace Mealpy
open Spec

variable {d : Nat} {K : Type} [Num K] {c : Cfg d K} {X Y : Type} {α : Type} {Er : Err → Prop}
variable {F : Agent d K X → Prop} {J : Y → Prop}

/-- the agents at `generator.choice(list(set(range(0, pop_size)) - set(excl)), k, replace=False)`
(for example `mealpy/evolutionary_based/DE.py:99-100`) -/
def othersOf (pop : List (Agent d K X)) (excl : List Nat) (k : Nat) : D c (List (Agent d K X)) := do
  let l ← choiceWithout pop.length excl k false
  l.mapM (nth pop)

theorem DT.othersOf (hE : c.E.Lawful) {pop : List (Agent d K X)} {excl : List Nat} {k : Nat}
    (h : k + excl.length ≤ pop.length) (h0 : excl.length < pop.length) :
    DT Er (Mealpy.othersOf pop excl k : D c _) (fun l => l.length = k ∧ ∀ a ∈ l, a ∈ pop) := by
  refine DT.bind (DT.choiceWithout hE h h0) ?_
  rintro l ⟨h1, h2, -⟩
  refine DT.mono (DT.mapM (Q := fun a => a ∈ pop) (fun i hi => DT.nth_mem (h2 i hi).1)) ?_
  rintro r ⟨h3, h4⟩
  exact ⟨by omega, h4⟩

macro_rules
  | `(tactic| dprim) => `(tactic| (at_head othersOf; exact DT.othersOf (by assumption) (by dside) (by dside)))

/-- A loop over an evaluated batch:

```
for idx in range(0, n):
    if self.compare_target(pop_new[idx].target, self.pop[idx].target, minmax):
        ...                                     # upd
        self.pop[idx] = pop_new[idx].copy()
    else:
        ...                                     # els
```
(for example `mealpy/evolutionary_based/DE.py:289-294`) -/
def compareLoop (n : Nat) (new : List (Agent d K X)) (upd : Nat → Agent d K X → Y → Y := fun _ _ y => y)
    (els : Nat → Agent d K X → Y → Y := fun _ _ y => y) : M c X Y Unit :=
  iter n (fun i _ => do
    let a ← draw (nth new i)
    let old ← popAt i
    if compareTarget a.tgt old.tgt c.P.mm then do
      modify (fun s => { s with ext := upd i old s.ext })
      setAt i a
    else modify (fun s => { s with ext := els i old s.ext })) ()

/-- the state after `i` rounds of `compareLoop` -/
structure CmpMid (J : Y → Prop) (new : List (Agent d K X)) (s1 : St c X Y) (i : Nat) (s : St c X Y) : Prop where
  len : s.pop.length = s1.pop.length
  done : ∀ j a, j < i → s.pop[j]? = some a → (∀ o, s1.pop[j]? = some o → NoWorse c.P.mm a.fit o.fit) ∧
    (∀ o, new[j]? = some o → NoWorse c.P.mm a.fit o.fit)
  rest : ∀ j, i ≤ j → s.pop[j]? = s1.pop[j]?
  mem : ∀ a ∈ s.pop, a ∈ s1.pop ∨ a ∈ new
  log : s.base.log = s1.base.log
  nfe : s.base.nfe = s1.base.nfe
  gbest : s.gbest = s1.gbest
  hist : s.hist = s1.hist
  ext : J s.ext

theorem compareLoop_mid {n : Nat} {new : List (Agent d K X)} {upd els : Nat → Agent d K X → Y → Y} {s1 : St c X Y}
    (hn : n = new.length) (hl : s1.pop.length = n) (hj : J s1.ext)
    (hupd : ∀ i a y, i < n → J y → J (upd i a y)) (hels : ∀ i a y, i < n → J y → J (els i a y)) :
    Wp Er (compareLoop n new upd els) s1 (fun _ s => CmpMid J new s1 n s) := by
  unfold compareLoop
  refine Wp.iter (fun i _ s => CmpMid J new s1 i s) n ⟨rfl, by simp, by simp, fun a h => .inl h, rfl, rfl, rfl, rfl, hj⟩ ?_
  rintro i _ s hi h
  have hin : i < new.length := by omega
  have hil : i < s.pop.length := by rw [h.len]; omega
  refine Wp.bind (Wp.draw (DT.nth (Q := fun a => a = new[i]) hin rfl) ?_)
  rintro a r v rfl
  refine Wp.bind (Wp.popAt hil ?_)
  have hold : s1.pop[i]? = some (s.pop[i]) := by rw [← h.rest i (le_refl _)]; exact List.getElem?_eq_getElem hil
  refine Wp.ite (fun hc => ?_) (fun hc => ?_)
  · refine Wp.bind (Wp.modify ?_)
    refine Wp.setAt hil ?_
    have hb := compareTarget_true hc
    refine ⟨?_, ?_, ?_, ?_, h.log, h.nfe, h.gbest, h.hist, hupd i _ _ hi h.ext⟩
    · show (s.pop.set i _).length = _
      rw [List.length_set]; exact h.len
    · intro j a hj ha
      change (s.pop.set i _)[j]? = _ at ha
      rw [List.getElem?_set] at ha
      split at ha
      · rename_i hij
        subst hij
        obtain rfl := Option.some.inj ha
        constructor
        · intro o ho
          rw [hold] at ho
          obtain rfl := Option.some.inj ho
          exact hb
        · intro o ho
          rw [List.getElem?_eq_getElem hin] at ho
          obtain rfl := Option.some.inj ho
          exact NoWorse.rfl
      · exact h.done j a (by omega) ha
    · intro j hj
      show (s.pop.set i _)[j]? = _
      rw [List.getElem?_set_ne (by omega)]
      exact h.rest j (by omega)
    · intro a ha
      rcases mem_set_iff ha with rfl | ha
      · exact .inr (List.getElem_mem _)
      · exact h.mem a ha
  · refine Wp.modify ?_
    have hb := compareTarget_false (by simpa using hc)
    refine ⟨h.len, ?_, fun j hj => h.rest j (by omega), h.mem, h.log, h.nfe, h.gbest, h.hist, hels i _ _ hi h.ext⟩
    intro j a hj ha
    by_cases hij : j = i
    · subst hij
      rw [show (_ : St c X Y).pop = s.pop from rfl, List.getElem?_eq_getElem hil] at ha
      obtain rfl := Option.some.inj ha
      constructor
      · intro o ho
        rw [hold] at ho
        obtain rfl := Option.some.inj ho
        exact NoWorse.rfl
      · intro o ho
        rw [List.getElem?_eq_getElem hin] at ho
        obtain rfl := Option.some.inj ho
        exact hb
    · exact h.done j a (by omega) ha

theorem ImpH.compareLoop {lo hi n : Nat} {s s1 : St c X Y} {new : List (Agent d K X)} {upd els : Nat → Agent d K X → Y → Y}
    (h : ImpH F J lo hi s s1 new) (hn : n = new.length) (hp : n = c.popSize)
    (hupd : ∀ i a y, i < n → J y → J (upd i a y)) (hels : ∀ i a y, i < n → J y → J (els i a y)) :
    Wp Er (compareLoop n new upd els) s1 (fun _ s' => Imp F J lo hi s s') := by
  have hl := h.good.len
  refine Wp.mono (compareLoop_mid (J := J) hn (by omega) h.good.ext hupd hels) ?_
  rintro _ s2 h2
  have h3 : Imp F J lo hi s { s2 with ext := s1.ext } := by
    refine h.settle (by rw [← hl]; exact h2.len) h2.mem ?_ h2.log h2.nfe h2.gbest h2.hist rfl
    rintro a (ha | ha)
    · obtain ⟨j, hj, rfl⟩ := List.mem_iff_getElem.1 ha
      have hj2 : j < s2.pop.length := by rw [h2.len]; exact hj
      exact ⟨s2.pop[j], List.getElem_mem _, (h2.done j _ (by omega) (List.getElem?_eq_getElem hj2)).1 _
        (List.getElem?_eq_getElem hj)⟩
    · obtain ⟨j, hj, rfl⟩ := List.mem_iff_getElem.1 ha
      have hj2 : j < s2.pop.length := by rw [h2.len]; omega
      exact ⟨s2.pop[j], List.getElem_mem _, (h2.done j _ (by omega) (List.getElem?_eq_getElem hj2)).2 _
        (List.getElem?_eq_getElem hj)⟩
  exact ⟨⟨⟨⟨h3.good.len, h3.good.ev, h3.good.feas, h2.ext⟩, h3.hist, h3.evals⟩, h3.gbest⟩, h3.keep⟩

/-- evaluate a batch, compare slot by slot -/
theorem IT.evalCompare (hE : c.E.Lawful) {mk : St c X Y → Nat → D c (Vec d K × X)} {upd els : Nat → Agent d K X → Y → Y}
    (hmk : ∀ (s : St c X Y) (i : Nat), Mid F J s → s.pop.length = c.popSize → i < c.popSize → DT noErr (mk s i) (MkOk F c))
    (hupd : ∀ i a y, i < c.popSize → J y → J (upd i a y)) (hels : ∀ i a y, i < c.popSize → J y → J (els i a y)) :
    IT F J c.popSize c.popSize (do let new ← buildEval c.popSize mk; compareLoop c.popSize new upd els : M c X Y Unit)
      (fun _ => True) := by
  intro s hs
  refine Wp.bind (Wp.mono (buildEval_batch hE hs (fun s i hs => hmk s i hs hs.len)) ?_)
  rintro new s1 ⟨h1, h2⟩
  have := ImpH.ofBatch hs.toGoodPop h2
  rw [h1] at this
  exact Wp.mono (this.compareLoop h1.symm rfl hupd hels) fun _ _ h => ⟨h, trivial⟩

/-- the same, followed by code without evaluations -/
theorem IT.evalCompareThen (hE : c.E.Lawful) {mk : St c X Y → Nat → D c (Vec d K × X)} {upd els : Nat → Agent d K X → Y → Y}
    {k : M c X Y Unit}
    (hmk : ∀ (s : St c X Y) (i : Nat), Mid F J s → s.pop.length = c.popSize → i < c.popSize → DT noErr (mk s i) (MkOk F c))
    (hupd : ∀ i a y, i < c.popSize → J y → J (upd i a y)) (hels : ∀ i a y, i < c.popSize → J y → J (els i a y))
    (hk : IT F J 0 0 k (fun _ => True)) :
    IT F J c.popSize c.popSize (do
      let new ← buildEval c.popSize mk
      compareLoop c.popSize new upd els
      k : M c X Y Unit) (fun _ => True) := by
  intro s hs
  refine Wp.bind (Wp.mono (buildEval_batch hE hs (fun s i hs => hmk s i hs hs.len)) ?_)
  rintro new s1 ⟨h1, h2⟩
  have := ImpH.ofBatch hs.toGoodPop h2
  rw [h1] at this
  refine Wp.bind (Wp.mono (this.compareLoop h1.symm rfl hupd hels) fun _ s2 h => ?_)
  exact Wp.mono (hk s2 (h.toStep.mid hs)) fun _ _ h' => ⟨(h.trans h'.1).weaken (by omega) (by omega), trivial⟩

theorem Framed.compareLoop {q : Bool} {n : Nat} {new : List (Agent d K X)} {upd els : Nat → Agent d K X → Y → Y} :
    Framed q (Mealpy.compareLoop n new upd els : M c X Y Unit) := by
  unfold Mealpy.compareLoop; framed

macro_rules
  | `(tactic| fprim) => `(tactic| (at_last compareLoop; exact Framed.compareLoop))

/-- the loop of compareLoop, weak contract -/
theorem WT.compareLoop {I : Inv c X Y} {n : Nat} {new : List (Agent d K X)} {upd els : Nat → Agent d K X → Y → Y}
    (hn : n = new.length) (hsz : ∀ m, I.size m → m = n) (hag : ∀ a ∈ new, I.Ag a)
    (hupd : ∀ i a y, i < n → I.attr y → I.attr (upd i a y)) (hels : ∀ i a y, i < n → I.attr y → I.attr (els i a y)) :
    WT Er I 0 0 (Mealpy.compareLoop n new upd els : M c X Y Unit) (fun _ => True) := by
  unfold Mealpy.compareLoop
  refine WT.iterU 0 0 (by omega) (by omega) fun i hi => ?_
  refine WT.bind0 (WT.draw (DT.nth_mem (by omega))) fun a ha => ?_
  refine WT.bind0 (WT.popAt (fun m h => by rw [hsz m h]; exact hi)) fun old ho => ?_
  refine WT.ite (fun _ => ?_) fun _ => ?_
  · refine WT.bind0 (WT.setExt (fun y h => hupd i _ y hi h)) fun _ _ => ?_
    exact WT.setAt (fun m h => by rw [hsz m h]; exact hi) (hag a ha)
  · exact WT.setExt (fun y h => hels i _ y hi h)

/-- assignments to the algorithm's own attributes -/
def modExt (f : Y → Y) : M c X Y Unit := modify (fun s => { s with ext := f s.ext })

theorem IT.modExt {f : Y → Y} (h : ∀ y, J y → J (f y)) :
    IT F J 0 0 (Mealpy.modExt f : M c X Y _) (fun _ => True) := IT.setExt h

theorem WT.modExt {I : Inv c X Y} {f : Y → Y} (h : ∀ y, I.attr y → I.attr (f y)) :
    WT Er I 0 0 (Mealpy.modExt f : M c X Y _) (fun _ => True) := WT.setExt h

theorem Framed.modExt {q : Bool} {f : Y → Y} : Framed q (Mealpy.modExt f : M c X Y Unit) := by
  unfold Mealpy.modExt; framed

macro_rules
  | `(tactic| fprim) => `(tactic| (at_last modExt; exact Framed.modExt))

macro_rules
  | `(tactic| istep) => `(tactic| first
    | (at_bind modExt; refine IT.bind0 (IT.modExt (by intro _ h; first | exact trivial | exact h)) (fun _ _ => ?_))
    | (at_head modExt; refine IT.weaken (IT.modExt (by intro _ h; first | exact trivial | exact h)) (by omega) (by omega)))

macro_rules
  | `(tactic| wstep) => `(tactic| first
    | (at_bind modExt; refine WT.bind0 (WT.modExt (by intro _ h; first | exact trivial | exact h)) (fun _ _ => ?_))
    | (at_head modExt; refine WT.weaken (WT.modExt (by intro _ h; first | exact trivial | exact h)) (by omega) (by omega)))

/-- An algorithm that keeps the default `initialization` but has a `before_main_loop`. -/
theorem Algo.before_wok (hE : c.E.Lawful) (hP : c.P.Lawful) {I : Inv c X Y} {A : Algo c X Y} {J1 : Y → Prop} {b1 b2 lo hi : Nat}
    (hpos : 0 < c.popSize) (hsize : I.size c.popSize) (hne : ∀ n, I.size n → 0 < n)
    (hi' : A.initialization = defaultInit A.mkExt)
    (hB : I.Box Er A.mkExt) (hv : DT Er A.initVars J1)
    (hb : ∀ s, WInv { I with attr := J1 } s → Wp Er A.beforeMain s (fun _ s' => WStep I b1 b2 s s'))
    (h : ∀ ep, 1 ≤ ep → ep ≤ c.epoch → WT Er I lo hi (A.evolve ep) (fun _ => True)) :
    A.WOk Er I J1 J1 c.popSize c.popSize b1 b2 lo hi := by
  have h0 := Algo.std_wok (Er := Er) (I := { I with attr := J1 }) (lo := 0) (hi := 0)
    (A := { A with beforeMain := Pure.pure (), evolve := fun _ => Pure.pure () }) hE hP hpos hsize hne hi' rfl hB hv
    (fun ep _ _ => WT.pure trivial)
  exact ⟨h0.box, h0.nonempty, h0.mkExt, h0.initVars, h0.init, hb, h⟩

/-- `before_main_loop` only sets attributes -/
theorem WStep.setExt {I : Inv c X Y} {J1 : Y → Prop} {s : St c X Y} (hs : WInv { I with attr := J1 } s) {y : Y} (hy : I.attr y) :
    WStep I 0 0 s { s with ext := y } :=
  ⟨⟨hs.len, hs.pop, hy, hs.gbest, hs.record, hs.worst, hs.cbest, hs.cworst⟩, .refl rfl, .rfl⟩

macro_rules
  | `(tactic| wstep) => `(tactic| first
    | (at_head iter; refine WT.iterU 0 0 (by omega) (by omega) (fun i hi => ?_))
    | (at_head iter; refine WT.iterU 1 1 (by omega) (by omega) (fun i hi => ?_))
    | (at_head iter; refine WT.iterU 2 2 (by omega) (by omega) (fun i hi => ?_))
    | (at_head iter; refine WT.iterU 0 1 (by omega) (by omega) (fun i hi => ?_))
    | (at_head iter; refine WT.iterU 1 2 (by omega) (by omega) (fun i hi => ?_)))

end Mealpy
