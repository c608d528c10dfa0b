import Verif.Alg.Base

/-!
# Walking over an `evolve` method

`IT lo hi m R`: from any mid-epoch state, `m` does not raise, makes between `lo` and `hi` evaluations,
all feasible, loses nothing from the population, leaves `g_best` alone, and returns a value satisfying `R`.
`PT` is the weaker judgement for code that may drop old agents, but not those evaluated in it.
-/

set_option linter.unusedSectionVars false
set_option linter.unusedVariables false

namespace Mealpy
open Spec

variable {d : Nat} {K : Type} [Num K] {c : Cfg d K} {X Y : Type} {α β : Type}
variable {F : Agent d K X → Prop} {J : Y → Prop}

/-- improving code -/
def IT (F : Agent d K X → Prop) (J : Y → Prop) (lo hi : Nat) (m : M c X Y α) (R : α → Prop) : Prop :=
  ∀ s, Mid F J s → Wp noErr m s (fun a s' => Imp F J lo hi s s' ∧ R a)

/-- replacing code -/
def PT (F : Agent d K X → Prop) (J : Y → Prop) (lo hi : Nat) (m : M c X Y α) (R : α → Prop) : Prop :=
  ∀ s, Mid F J s → Wp noErr m s (fun a s' => Post F J lo hi s s' ∧ Mid F J s' ∧ R a)

theorem IT.pt {lo hi : Nat} {m : M c X Y α} {R : α → Prop} (h : IT F J lo hi m R) : PT F J lo hi m R :=
  fun s hs => Wp.mono (h s hs) fun a s' h => ⟨h.1.toPost, h.1.toStep.mid hs, h.2⟩

theorem IT.pure {a : α} {R : α → Prop} (h : R a) : IT F J 0 0 (pure a : M c X Y α) R :=
  fun s hs => Wp.pure ⟨Imp.refl hs.toGoodPop s.base.rng s.base.vg, h⟩

theorem IT.mono {lo hi : Nat} {m : M c X Y α} {R Q : α → Prop} (h : IT F J lo hi m R) (hQ : ∀ a, R a → Q a) :
    IT F J lo hi m Q :=
  fun s hs => Wp.mono (h s hs) fun a s' h => ⟨h.1, hQ a h.2⟩

theorem IT.weaken {lo hi lo' hi' : Nat} {m : M c X Y α} {R : α → Prop} (h : IT F J lo hi m R)
    (h1 : lo' ≤ lo) (h2 : hi ≤ hi') : IT F J lo' hi' m R :=
  fun s hs => Wp.mono (h s hs) fun a s' h => ⟨h.1.weaken h1 h2, h.2⟩

theorem PT.weaken {lo hi lo' hi' : Nat} {m : M c X Y α} {R : α → Prop} (h : PT F J lo hi m R)
    (h1 : lo' ≤ lo) (h2 : hi ≤ hi') : PT F J lo' hi' m R :=
  fun s hs => Wp.mono (h s hs) fun a s' h => ⟨h.1.weaken h1 h2, h.2⟩

theorem IT.bind {l1 h1 l2 h2 : Nat} {m : M c X Y α} {f : α → M c X Y β} {R : α → Prop} {Q : β → Prop}
    (h : IT F J l1 h1 m R) (h' : ∀ a, R a → IT F J l2 h2 (f a) Q) : IT F J (l1 + l2) (h1 + h2) (m >>= f) Q := by
  intro s hs
  refine Wp.bind (Wp.mono (h s hs) ?_)
  rintro a s' ⟨g1, g2⟩
  refine Wp.mono (h' a g2 s' (g1.toStep.mid hs)) ?_
  rintro b s'' ⟨k1, k2⟩
  exact ⟨g1.trans k1, k2⟩

/-- `IT.bind`, nothing known about the value -/
theorem IT.bindT {l1 h1 l2 h2 : Nat} {m : M c X Y α} {f : α → M c X Y β} {Q : β → Prop}
    (h : IT F J l1 h1 m (fun _ => True)) (h' : ∀ a, IT F J l2 h2 (f a) Q) :
    IT F J (l1 + l2) (h1 + h2) (m >>= f) Q := IT.bind h (fun a _ => h' a)

/-- code without evaluations first -/
theorem IT.bind0 {l h : Nat} {m : M c X Y α} {f : α → M c X Y β} {R : α → Prop} {Q : β → Prop}
    (hm : IT F J 0 0 m R) (h' : ∀ a, R a → IT F J l h (f a) Q) : IT F J l h (m >>= f) Q := by
  have := IT.bind hm h'
  rwa [Nat.zero_add, Nat.zero_add] at this

/-- code without evaluations last -/
theorem IT.bindL {l h : Nat} {m : M c X Y α} {f : α → M c X Y β} {R : α → Prop} {Q : β → Prop}
    (hm : IT F J l h m R) (h' : ∀ a, R a → IT F J 0 0 (f a) Q) : IT F J l h (m >>= f) Q :=
  IT.bind hm h'

theorem PT.bind0 {l h : Nat} {m : M c X Y α} {f : α → M c X Y β} {R : α → Prop} {Q : β → Prop}
    (hm : IT F J 0 0 m R) (h' : ∀ a, R a → PT F J l h (f a) Q) : PT F J l h (m >>= f) Q := by
  intro s hs
  refine Wp.bind (Wp.mono (hm s hs) ?_)
  rintro a s' ⟨g1, g2⟩
  refine Wp.mono (h' a g2 s' (g1.toStep.mid hs)) ?_
  rintro b s'' ⟨k1, k2, k3⟩
  refine ⟨⟨k1.good, by rw [k1.hist, g1.hist], ?_⟩, k2, k3⟩
  obtain ⟨n1, a1, a2, a3, a4, -⟩ := g1.evals
  obtain ⟨n2, b1, b2, b3, b4, b5⟩ := k1.evals
  have : n1 = [] := List.length_eq_zero_iff.1 (by omega)
  subst this
  simp only [List.append_nil, List.length_nil, Nat.add_zero] at a1 a4
  exact ⟨n2, by rw [b1, a1], b2, b3, by rw [b4, a4], b5⟩

/-- replacing code followed by improving code -/
theorem PT.bind {l1 h1 l2 h2 : Nat} {m : M c X Y α} {f : α → M c X Y β} {R : α → Prop} {Q : β → Prop}
    (hm : PT F J l1 h1 m R) (h' : ∀ a, R a → IT F J l2 h2 (f a) Q) : PT F J (l1 + l2) (h1 + h2) (m >>= f) Q := by
  intro s hs
  refine Wp.bind (Wp.mono (hm s hs) ?_)
  rintro a s' ⟨g1, g2, g3⟩
  refine Wp.mono (h' a g3 s' g2) ?_
  rintro b s'' ⟨k1, k2⟩
  refine ⟨⟨k1.good, by rw [k1.hist, g1.hist], ?_⟩, k1.toStep.mid g2, k2⟩
  obtain ⟨n1, a1, a2, a3, a4, a5⟩ := g1.evals
  obtain ⟨n2, b1, b2, b3, b4, b5⟩ := k1.evals
  refine ⟨n1 ++ n2, by rw [b1, a1, List.append_assoc], by simp; omega, by simp; omega,
    by simp; omega, ?_⟩
  intro x hx
  rcases List.mem_append.1 hx with hx | hx
  · exact ⟨(a5 x hx).1, (a5 x hx).2.imp k1⟩
  · exact b5 x hx

theorem IT.get : IT F J 0 0 (get : M c X Y _) (Mid F J) :=
  fun s hs => Wp.get ⟨Imp.refl hs.toGoodPop s.base.rng s.base.vg, hs⟩

theorem IT.draw {m : D c α} {R : α → Prop} (h : DT noErr m R) : IT F J 0 0 (draw m : M c X Y α) R :=
  fun s hs => Wp.draw h fun a r v hR => ⟨Imp.refl hs.toGoodPop r v, hR⟩

theorem IT.bindD {l h : Nat} {m : D c α} {f : α → M c X Y β} {Q : β → Prop}
    (hm : DT noErr m (fun _ => True)) (h' : ∀ a, IT F J l h (f a) Q) : IT F J l h (Mealpy.draw m >>= f) Q :=
  IT.bind0 (IT.draw hm) (fun a _ => h' a)

theorem PT.bindD {l h : Nat} {m : D c α} {f : α → M c X Y β} {Q : β → Prop}
    (hm : DT noErr m (fun _ => True)) (h' : ∀ a, PT F J l h (f a) Q) : PT F J l h (Mealpy.draw m >>= f) Q :=
  PT.bind0 (IT.draw hm) (fun a _ => h' a)

/-- replacing code, then improving code -/
theorem PT.bindT {l1 h1 l2 h2 : Nat} {m : M c X Y α} {f : α → M c X Y β} {Q : β → Prop}
    (h : PT F J l1 h1 m (fun _ => True)) (h' : ∀ a, IT F J l2 h2 (f a) Q) :
    PT F J (l1 + l2) (h1 + h2) (m >>= f) Q := PT.bind h (fun a _ => h' a)

theorem IT.ite {p : Prop} [Decidable p] {l1 h1 l2 h2 : Nat} {m n : M c X Y α} {R : α → Prop}
    (h : p → IT F J l1 h1 m R) (h' : ¬ p → IT F J l2 h2 n R) :
    IT F J (min l1 l2) (max h1 h2) (if p then m else n) R :=
  fun s hs => Wp.ite
    (fun hp => Wp.mono (h hp s hs) fun _ _ g => ⟨g.1.weaken (by omega) (by omega), g.2⟩)
    (fun hp => Wp.mono (h' hp s hs) fun _ _ g => ⟨g.1.weaken (by omega) (by omega), g.2⟩)

theorem PT.ite {p : Prop} [Decidable p] {l1 h1 l2 h2 : Nat} {m n : M c X Y α} {R : α → Prop}
    (h : p → PT F J l1 h1 m R) (h' : ¬ p → PT F J l2 h2 n R) :
    PT F J (min l1 l2) (max h1 h2) (if p then m else n) R :=
  fun s hs => Wp.ite
    (fun hp => Wp.mono (h hp s hs) fun _ _ g => ⟨g.1.weaken (by omega) (by omega), g.2⟩)
    (fun hp => Wp.mono (h' hp s hs) fun _ _ g => ⟨g.1.weaken (by omega) (by omega), g.2⟩)

theorem IT.greedyLoop (hE : c.E.Lawful) {mk : St c X Y → Nat → D c (Vec d K × X)}
    (hmk : ∀ (s : St c X Y) (i : Nat), Mid F J s → s.pop.length = c.popSize → i < c.popSize →
      DT noErr (mk s i) (MkOk F c)) :
    IT F J c.popSize c.popSize (greedyLoop c.popSize mk) (fun _ => True) :=
  fun s hs => Wp.mono (greedyLoop_imp hE hs (fun s i hs => hmk s i hs hs.len)) fun _ _ h => ⟨h, trivial⟩

theorem replaceLoop_mid (hE : c.E.Lawful) {mk : St c X Y → Nat → D c (Vec d K × X)}
    {s : St c X Y} (hs : Mid F J s)
    (hF : ∀ (a : Agent d K X) (x : Vec d K), F a → Feas c x → F { a with sol := x, tgt := c.P.target x })
    (hmk : ∀ (s : St c X Y) (i : Nat), Mid F J s → i < c.popSize → DT noErr (mk s i) (MkOk F c)) :
    Wp noErr (replaceLoop c.popSize mk) s (fun _ s' => Post F J c.popSize c.popSize s s' ∧ Mid F J s') := by
  unfold Mealpy.replaceLoop
  by_cases hm : c.swarmLike = true
  · rw [if_pos hm]
    refine Wp.bind (Wp.get ?_)
    refine Wp.bind (Wp.draw (buildPending_dt (fun i hi => hmk s i hs hi)) ?_)
    rintro pend r v ⟨h1, h2⟩
    refine Wp.bind (Wp.mono (updateTargets_batch hE hm h2 _) ?_)
    rintro new s' ⟨h3, h4⟩
    have h4' : Batch F s new s' := ⟨h4.ok, h4.log, h4.nfe, h4.pop, h4.gbest, h4.hist, h4.ext⟩
    have := Step.replace (J := J) hs.toGoodPop h4' (by omega) (s' := { s' with pop := new })
      rfl rfl rfl rfl rfl rfl
    exact Wp.modify ⟨Step.toPost this, Step.mid this hs⟩
  · rw [if_neg hm]
    refine Wp.mono (Wp.iter (fun i _ s' => RepMid F J s i s') c.popSize (RepMid.init hs) ?_)
      (fun _ _ h => ⟨h.post, h.mid⟩)
    rintro i _ s1 hi h
    have hil : i < s1.pop.length := by rw [h.mid.len]; exact hi
    refine Wp.bind (Wp.get ?_)
    refine Wp.bind (Wp.draw (hmk s1 i h.mid hi) ?_)
    intro p r v hp
    refine Wp.bind (Wp.liftB (Wp.getTarget ?_))
    refine Wp.updateAt hil ?_
    refine RepMid.succ h hi hp.1 (a := { s1.pop[i] with sol := p.1, tgt := c.P.target p.1 }) rfl rfl
      (hF _ _ (h.mid.feas _ (List.getElem_mem hil)) hp.1) rfl rfl rfl (.inl rfl) rfl rfl

theorem rebindLoop_mid (hE : c.E.Lawful) {mk : St c X Y → Nat → D c (Vec d K × X)}
    {s : St c X Y} (hs : Mid F J s)
    (hmk : ∀ (s : St c X Y) (i : Nat), Mid F J s → i < c.popSize → DT noErr (mk s i) (MkOk F c)) :
    Wp noErr (rebindLoop c.popSize mk) s (fun _ s' => Post F J c.popSize c.popSize s s' ∧ Mid F J s') := by
  unfold Mealpy.rebindLoop
  by_cases hm : c.swarmLike = true
  · rw [if_pos hm]
    refine Wp.bind (Wp.get ?_)
    refine Wp.bind (Wp.draw (buildPending_dt (fun i hi => hmk s i hs hi)) ?_)
    rintro pend r v ⟨h1, h2⟩
    refine Wp.bind (Wp.mono (updateTargets_batch hE hm h2 _) ?_)
    rintro new s' ⟨h3, h4⟩
    have h4' : Batch F s new s' := ⟨h4.ok, h4.log, h4.nfe, h4.pop, h4.gbest, h4.hist, h4.ext⟩
    have := Step.replace (J := J) hs.toGoodPop h4' (by omega) (s' := { s' with pop := new })
      rfl rfl rfl rfl rfl rfl
    exact Wp.modify ⟨Step.toPost this, Step.mid this hs⟩
  · rw [if_neg hm]
    refine Wp.mono (Wp.iter (fun i _ s' => RepMid F J s i s') c.popSize (RepMid.init hs) ?_)
      (fun _ _ h => ⟨h.post, h.mid⟩)
    rintro i _ s1 hi h
    have hil : i < s1.pop.length := by rw [h.mid.len]; exact hi
    refine Wp.bind (Wp.get ?_)
    refine Wp.bind (Wp.draw (hmk s1 i h.mid hi) ?_)
    intro p r v hp
    refine Wp.bind (Wp.liftB (Wp.getTarget ?_))
    refine Wp.setAt hil ?_
    exact RepMid.succ h hi hp.1 (a := ⟨p.1, c.P.target p.1, p.2⟩) rfl rfl hp.2 rfl rfl rfl (.inl rfl) rfl rfl

/-- `F` is kept when an agent's position and target are overwritten together -/
def Upd (c : Cfg d K) (F : Agent d K X → Prop) : Prop :=
  ∀ (a : Agent d K X) (x : Vec d K), F a → Feas c x → F { a with sol := x, tgt := c.P.target x }

theorem FA.upd : Upd c (FA c : Agent d K X → Prop) := fun _ _ _ h => h

theorem PT.replaceLoop (hE : c.E.Lawful) (hF : Upd c F) {mk : St c X Y → Nat → D c (Vec d K × X)}
    (hmk : ∀ (s : St c X Y) (i : Nat), Mid F J s → s.pop.length = c.popSize → i < c.popSize →
      DT noErr (mk s i) (MkOk F c)) :
    PT F J c.popSize c.popSize (replaceLoop c.popSize mk) (fun _ => True) :=
  fun s hs => Wp.mono (replaceLoop_mid hE hs hF (fun s i hs => hmk s i hs hs.len)) fun _ _ h => ⟨h.1, h.2, trivial⟩

theorem PT.rebindLoop (hE : c.E.Lawful) {mk : St c X Y → Nat → D c (Vec d K × X)}
    (hmk : ∀ (s : St c X Y) (i : Nat), Mid F J s → s.pop.length = c.popSize → i < c.popSize →
      DT noErr (mk s i) (MkOk F c)) :
    PT F J c.popSize c.popSize (rebindLoop c.popSize mk) (fun _ => True) :=
  fun s hs => Wp.mono (rebindLoop_mid hE hs (fun s i hs => hmk s i hs hs.len)) fun _ _ h => ⟨h.1, h.2, trivial⟩

theorem IT.tryBetter {i : Nat} (hi : i < c.popSize) {p : Vec d K × X} (hp : MkOk F c p) :
    IT F J 1 1 (tryBetter i p : M c X Y Unit) (fun _ => True) :=
  fun s hs => Wp.mono (tryBetter_imp hs.toGoodPop hi hp) fun _ _ h => ⟨h, trivial⟩

theorem IT.tryCompare {i : Nat} (hi : i < c.popSize) {mkExt : Vec d K → D c X} {x : Vec d K} (hx : Feas c x)
    (hmk : DT noErr (mkExt x) (fun e => F ⟨x, c.P.target x, e⟩)) :
    IT F J 1 1 (tryCompare mkExt i x : M c X Y Unit) (fun _ => True) :=
  fun s hs => Wp.mono (tryCompare_imp hs.toGoodPop hi hx hmk) fun _ _ h => ⟨h, trivial⟩

theorem IT.iter {f : Nat → α → M c X Y α} {lo hi : Nat} (I : Nat → α → Prop) (n : Nat) {a : α} (h0 : I 0 a)
    (hf : ∀ (i : Nat) (a : α), i < n → I i a → IT F J lo hi (f i a) (I (i + 1))) :
    IT F J (n * lo) (n * hi) (iter n f a) (I n) :=
  fun s hs => iter_imp I n hs h0 fun i a s hi hs h => hf i a hi h s hs

theorem IT.iter_unit {f : Nat → Unit → M c X Y Unit} {lo hi : Nat} (n : Nat)
    (hf : ∀ (i : Nat), i < n → IT F J lo hi (f i ()) (fun _ => True)) :
    IT F J (n * lo) (n * hi) (Mealpy.iter n f ()) (fun _ => True) :=
  IT.iter (fun _ _ => True) n trivial (fun i _ hi _ => hf i hi)

theorem IT.popAt {i : Nat} (hi : i < c.popSize) : IT F J 0 0 (popAt i : M c X Y _) F :=
  fun s hs => Wp.popAt (by rw [hs.len]; exact hi)
    ⟨Imp.refl hs.toGoodPop s.base.rng s.base.vg, hs.feas _ (List.getElem_mem _)⟩

/-- changing the algorithm's attributes -/
theorem IT.setExt {f : Y → Y} (h : ∀ y, J y → J (f y)) :
    IT F J 0 0 (modify (fun s => { s with ext := f s.ext }) : M c X Y _) (fun _ => True) :=
  fun s hs => Wp.modify ⟨⟨⟨⟨⟨hs.len, hs.ev, hs.feas, h _ hs.ext⟩, rfl, [], by simp, by simp, by simp, by simp, by simp⟩,
    rfl⟩, fun a ha => ⟨a, ha, NoWorse.rfl⟩⟩, trivial⟩

/-- evaluate a batch, keep the best `pop_size` of old and new -/
theorem IT.evalTrim (hE : c.E.Lawful) (hpos : 0 < c.popSize) {n : Nat} {mk : St c X Y → Nat → D c (Vec d K × X)}
    (hmk : ∀ (s : St c X Y) (i : Nat), Mid F J s → s.pop.length = c.popSize → i < n → DT noErr (mk s i) (MkOk F c)) :
    IT F J n n (do let new ← buildEval n mk; mergeTrim c.popSize new : M c X Y Unit) (fun _ => True) := by
  intro s hs
  refine Wp.bind (Wp.mono (buildEval_batch hE hs (fun s i hs => hmk s i hs hs.len)) ?_)
  rintro new s1 ⟨h1, h2⟩
  refine Wp.mono (mergeTrim_imp hE hs.toGoodPop hpos h2) ?_
  intro _ s' h
  rw [h1] at h
  exact ⟨h, trivial⟩

/-- evaluate a batch, select greedily slot by slot -/
theorem IT.evalGreedy (hE : c.E.Lawful) {mk : St c X Y → Nat → D c (Vec d K × X)}
    (hmk : ∀ (s : St c X Y) (i : Nat), Mid F J s → s.pop.length = c.popSize → i < c.popSize → DT noErr (mk s i) (MkOk F c)) :
    IT F J c.popSize c.popSize (do let new ← buildEval c.popSize mk; selectGreedy new : M c X Y Unit) (fun _ => True) := by
  intro s hs
  refine Wp.bind (Wp.mono (buildEval_batch hE hs (fun s i hs => hmk s i hs hs.len)) ?_)
  rintro new s1 ⟨h1, h2⟩
  refine Wp.mono (selectGreedy_imp hs.toGoodPop h2 h1) ?_
  intro _ s' h
  exact ⟨h, trivial⟩

/-- evaluate a batch which becomes the population -/
theorem PT.evalReplace (hE : c.E.Lawful) {mk : St c X Y → Nat → D c (Vec d K × X)}
    (hmk : ∀ (s : St c X Y) (i : Nat), Mid F J s → s.pop.length = c.popSize → i < c.popSize → DT noErr (mk s i) (MkOk F c)) :
    PT F J c.popSize c.popSize (do let new ← buildEval c.popSize mk; setPop new : M c X Y Unit) (fun _ => True) := by
  intro s hs
  refine Wp.bind (Wp.mono (buildEval_batch hE hs (fun s i hs => hmk s i hs hs.len)) ?_)
  rintro new s1 ⟨h1, h2⟩
  refine Wp.mono (setPop_step hs.toGoodPop h2 h1) ?_
  intro _ s' h
  exact ⟨h.toPost, h.mid hs, trivial⟩

/-! ## Agents held in local variables -/

/-- an improving step during which evaluated agents `H` are held outside the population -/
structure ImpH (F : Agent d K X → Prop) (J : Y → Prop) (lo hi : Nat) (s s' : St c X Y) (H : List (Agent d K X)) :
    Prop where
  good : GoodPop F J s'
  hist : s'.hist = s.hist
  gbest : s'.gbest = s.gbest
  evals : ∃ new, s'.base.log = s.base.log ++ new ∧ lo ≤ new.length ∧ new.length ≤ hi ∧
    s'.base.nfe = s.base.nfe + new.length ∧ ∀ x ∈ new, Feas c x ∧
      (Covered s' x ∨ ∃ a ∈ H, NoWorse c.P.mm a.fit (c.P.target x).fitness)
  keep : ∀ a ∈ s.pop, ∃ a', (a' ∈ s'.pop ∨ a' ∈ H) ∧ NoWorse c.P.mm a'.fit a.fit
  held : ∀ a ∈ H, Evald c s'.base.log a ∧ F a

theorem ImpH.log_sub {lo hi : Nat} {s s' : St c X Y} {H : List (Agent d K X)} (h : ImpH F J lo hi s s' H) :
    ∀ x ∈ s.base.log, x ∈ s'.base.log := by
  obtain ⟨new, h1, -⟩ := h.evals
  intro x hx
  rw [h1]
  exact List.mem_append_left _ hx

theorem ImpH.mid {lo hi : Nat} {s s' : St c X Y} {H : List (Agent d K X)} (h : ImpH F J lo hi s s' H)
    (hs : Mid F J s) : Mid F J s' :=
  ⟨h.good, by rw [h.gbest]; exact hs.gev.mono h.log_sub, by rw [h.gbest]; exact hs.gfeas⟩

theorem Imp.held {lo hi : Nat} {s s' : St c X Y} (h : Imp F J lo hi s s') : ImpH F J lo hi s s' [] where
  good := h.good
  hist := h.hist
  gbest := h.gbest
  evals := by
    obtain ⟨n1, a1, a2, a3, a4, a5⟩ := h.evals
    exact ⟨n1, a1, a2, a3, a4, fun x hx => ⟨(a5 x hx).1, .inl (a5 x hx).2⟩⟩
  keep := fun a ha => by
    obtain ⟨a', h1, h2⟩ := h.keep a ha
    exact ⟨a', .inl h1, h2⟩
  held := by simp

theorem ImpH.ofBatch {s s1 : St c X Y} {new : List (Agent d K X)} (hg : GoodPop F J s) (hb : Batch F s new s1) :
    ImpH F J new.length new.length s s1 new where
  good := ⟨by rw [hb.pop]; exact hg.len, by rw [hb.pop]; exact fun a ha => hb.old (hg.ev a ha),
    by rw [hb.pop]; exact hg.feas, by rw [hb.ext]; exact hg.ext⟩
  hist := hb.hist
  gbest := hb.gbest
  evals := by
    obtain ⟨xs, hx1, hx2⟩ := hb.log
    refine ⟨xs, hx1, by rw [hx2.length_eq]; simp, by rw [hx2.length_eq]; simp,
      by rw [hb.nfe, hx2.length_eq]; simp, ?_⟩
    intro x hx
    obtain ⟨a, ha, rfl⟩ := List.mem_map.1 (hx2.mem_iff.1 hx)
    refine ⟨(hb.ok a ha).1, .inr ⟨a, ha, ?_⟩⟩
    rw [← (hb.ok a ha).2.2]
    exact NoWorse.rfl
  keep := fun a ha => ⟨a, .inl (by rw [hb.pop]; exact ha), NoWorse.rfl⟩
  held := fun a ha => ⟨hb.evald a ha, (hb.ok a ha).2.1⟩

theorem ImpH.trans {lo hi lo' hi' : Nat} {s s' s'' : St c X Y} {H H' : List (Agent d K X)}
    (h : ImpH F J lo hi s s' H) (h' : ImpH F J lo' hi' s' s'' H') :
    ImpH F J (lo + lo') (hi + hi') s s'' (H ++ H') where
  good := h'.good
  hist := by rw [h'.hist, h.hist]
  gbest := by rw [h'.gbest, h.gbest]
  evals := by
    obtain ⟨n1, a1, a2, a3, a4, a5⟩ := h.evals
    obtain ⟨n2, b1, b2, b3, b4, b5⟩ := h'.evals
    refine ⟨n1 ++ n2, by rw [b1, a1, List.append_assoc], by simp; omega, by simp; omega,
      by simp; omega, ?_⟩
    intro x hx
    rcases List.mem_append.1 hx with hx | hx
    · refine ⟨(a5 x hx).1, ?_⟩
      rcases (a5 x hx).2 with (⟨g, hg, hn⟩ | ⟨a, ha, hn⟩) | ⟨a, ha, hn⟩
      · exact .inl (.inl ⟨g, by rw [h'.hist]; exact hg, hn⟩)
      · obtain ⟨a', ha' | ha', hn'⟩ := h'.keep a ha
        · exact .inl (.inr ⟨a', ha', hn'.trans hn⟩)
        · exact .inr ⟨a', List.mem_append_right _ ha', hn'.trans hn⟩
      · exact .inr ⟨a, List.mem_append_left _ ha, hn⟩
    · refine ⟨(b5 x hx).1, ?_⟩
      rcases (b5 x hx).2 with h | ⟨a, ha, hn⟩
      · exact .inl h
      · exact .inr ⟨a, List.mem_append_right _ ha, hn⟩
  keep := by
    intro a ha
    obtain ⟨a', ha' | ha', hn⟩ := h.keep a ha
    · obtain ⟨a'', ha'' | ha'', hn'⟩ := h'.keep a' ha'
      · exact ⟨a'', .inl ha'', hn'.trans hn⟩
      · exact ⟨a'', .inr (List.mem_append_right _ ha''), hn'.trans hn⟩
    · exact ⟨a', .inr (List.mem_append_left _ ha'), hn⟩
  held := by
    intro a ha
    rcases List.mem_append.1 ha with ha | ha
    · exact ⟨(h.held a ha).1.mono h'.log_sub, (h.held a ha).2⟩
    · exact h'.held a ha

theorem ImpH.trans_imp {lo hi lo' hi' : Nat} {s s' s'' : St c X Y} {H : List (Agent d K X)}
    (h : ImpH F J lo hi s s' H) (h' : Imp F J lo' hi' s' s'') : ImpH F J (lo + lo') (hi + hi') s s'' H := by
  have := h.trans h'.held
  rwa [List.append_nil] at this

/-- hold other agents, at least as good -/
theorem ImpH.swap {lo hi : Nat} {s s' : St c X Y} {H H' : List (Agent d K X)} (h : ImpH F J lo hi s s' H)
    (h1 : ∀ a ∈ H, ∃ a' ∈ H', NoWorse c.P.mm a'.fit a.fit) (h2 : ∀ a ∈ H', Evald c s'.base.log a ∧ F a) :
    ImpH F J lo hi s s' H' where
  good := h.good
  hist := h.hist
  gbest := h.gbest
  evals := by
    obtain ⟨n1, a1, a2, a3, a4, a5⟩ := h.evals
    refine ⟨n1, a1, a2, a3, a4, fun x hx => ⟨(a5 x hx).1, ?_⟩⟩
    rcases (a5 x hx).2 with h | ⟨a, ha, hn⟩
    · exact .inl h
    · obtain ⟨a', ha', hn'⟩ := h1 a ha
      exact .inr ⟨a', ha', hn'.trans hn⟩
  keep := by
    intro a ha
    obtain ⟨a', ha' | ha', hn⟩ := h.keep a ha
    · exact ⟨a', .inl ha', hn⟩
    · obtain ⟨a'', ha'', hn'⟩ := h1 a' ha'
      exact ⟨a'', .inr ha'', hn'.trans hn⟩
  held := h2

/-- a new population that covers the old one and the held agents -/
theorem ImpH.settle {lo hi : Nat} {s s' s'' : St c X Y} {H : List (Agent d K X)} (h : ImpH F J lo hi s s' H)
    (hlen : s''.pop.length = c.popSize) (hmem : ∀ a ∈ s''.pop, a ∈ s'.pop ∨ a ∈ H)
    (hcov : ∀ a, a ∈ s'.pop ∨ a ∈ H → ∃ a' ∈ s''.pop, NoWorse c.P.mm a'.fit a.fit)
    (hlog : s''.base.log = s'.base.log) (hnfe : s''.base.nfe = s'.base.nfe)
    (hgb : s''.gbest = s'.gbest) (hh : s''.hist = s'.hist) (he : s''.ext = s'.ext) : Imp F J lo hi s s'' := by
  obtain ⟨n1, a1, a2, a3, a4, a5⟩ := h.evals
  refine ⟨⟨⟨⟨hlen, ?_, ?_, by rw [he]; exact h.good.ext⟩, by rw [hh, h.hist], n1, by rw [hlog, a1], a2, a3,
    by rw [hnfe, a4], ?_⟩, by rw [hgb, h.gbest]⟩, ?_⟩
  · intro a ha
    rw [hlog]
    rcases hmem a ha with ha | ha
    · exact h.good.ev a ha
    · exact (h.held a ha).1
  · intro a ha
    rcases hmem a ha with ha | ha
    · exact h.good.feas a ha
    · exact (h.held a ha).2
  · intro x hx
    refine ⟨(a5 x hx).1, ?_⟩
    rcases (a5 x hx).2 with (⟨g, hg, hn⟩ | ⟨a, ha, hn⟩) | ⟨a, ha, hn⟩
    · exact .inl ⟨g, by rw [hh]; exact hg, hn⟩
    · obtain ⟨a', ha', hn'⟩ := hcov a (.inl ha)
      exact .inr ⟨a', ha', hn'.trans hn⟩
    · obtain ⟨a', ha', hn'⟩ := hcov a (.inr ha)
      exact .inr ⟨a', ha', hn'.trans hn⟩
  · intro a ha
    obtain ⟨a', ha', hn⟩ := h.keep a ha
    obtain ⟨a'', ha'', hn'⟩ := hcov a' ha'
    exact ⟨a'', ha'', hn'.trans hn⟩

theorem trimmed_length (hE : c.E.Lawful) (l : List (Agent d K X)) (n : Nat) :
    (getSortedTrimmed c.E.argsort l n c.P.mm).length = min n l.length := by
  unfold getSortedTrimmed
  rw [List.length_take, getSorted_length hE.argsortLaw]

theorem trimmed_mem (hE : c.E.Lawful) {l : List (Agent d K X)} {n : Nat} {a : Agent d K X}
    (h : a ∈ getSortedTrimmed c.E.argsort l n c.P.mm) : a ∈ l :=
  (getSorted_mem hE.argsortLaw).1 (List.mem_of_mem_take h)

theorem trimmed_cover (hE : c.E.Lawful) {l : List (Agent d K X)} {n : Nat} (hn : 0 < n) {b : Agent d K X}
    (hb : b ∈ l) : ∃ a ∈ getSortedTrimmed c.E.argsort l n c.P.mm, NoWorse c.P.mm a.fit b.fit := by
  have hbf := getSorted_bestFirst hE.argsortLaw l c.P.mm
  have hbm := (getSorted_mem hE.argsortLaw (mm := c.P.mm)).2 hb
  unfold getSortedTrimmed
  cases hl : (getSorted c.E.argsort l c.P.mm).1 with
  | nil => rw [hl] at hbm; cases hbm
  | cons x l =>
    rw [hl] at hbm hbf
    refine ⟨x, ?_, ?_⟩
    · cases n with
      | zero => omega
      | succ n => simp
    · rcases List.mem_cons.1 hbm with rfl | hbm
      · exact NoWorse.rfl
      · exact (List.pairwise_cons.1 hbf).1 b hbm

/-- the held agents are merged into the population, which is sorted and trimmed -/
theorem ImpH.trim {Er : Err → Prop} (hE : c.E.Lawful) (hpos : 0 < c.popSize) {lo hi : Nat} {s s' : St c X Y}
    {H : List (Agent d K X)} (h : ImpH F J lo hi s s' H) :
    Wp Er (mergeTrim c.popSize H) s' (fun _ s'' => Imp F J lo hi s s'') := by
  refine Wp.modify (h.settle ?_ ?_ ?_ rfl rfl rfl rfl rfl)
  · show (getSortedTrimmed c.E.argsort (s'.pop ++ H) c.popSize c.P.mm).length = _
    rw [trimmed_length hE, List.length_append, h.good.len]
    omega
  · intro a ha
    exact List.mem_append.1 (trimmed_mem hE ha)
  · intro a ha
    exact trimmed_cover hE hpos (List.mem_append.2 ha)

/-- the greedy choice between two lists, slot by slot -/
theorem zip_better {H old : List (Agent d K X)} (f : Agent d K X → Agent d K X → Agent d K X)
    (hf : ∀ o n, (f o n = o ∨ f o n = n) ∧ NoWorse c.P.mm (f o n).fit o.fit ∧ NoWorse c.P.mm (f o n).fit n.fit)
    (hl : H.length ≤ old.length) :
    (∀ a ∈ H, ∃ a' ∈ List.zipWith f old H, NoWorse c.P.mm a'.fit a.fit) ∧
      ∀ a ∈ List.zipWith f old H, a ∈ old ∨ a ∈ H := by
  constructor
  · intro a ha
    obtain ⟨i, hi, rfl⟩ := List.mem_iff_getElem.1 ha
    refine ⟨f (old[i]'(by omega)) (H[i]), ?_, (hf _ _).2.2⟩
    refine List.mem_of_getElem (i := i) (h := by simp; omega) ?_
    simp
  · intro a ha
    obtain ⟨i, hi, rfl⟩ := List.mem_iff_getElem.1 ha
    rw [List.length_zipWith] at hi
    rw [List.getElem_zipWith]
    rcases (hf (old[i]'(by omega)) (H[i]'(by omega))).1 with h | h
    · rw [h]; exact Or.inl (List.getElem_mem _)
    · rw [h]; exact Or.inr (List.getElem_mem _)

/-- An algorithm that overrides only `evolve` and keeps agents plain. -/
theorem Algo.plain_ok' (hE : c.E.Lawful) (hP : c.P.Lawful) {sf : Bool} {ev : Nat → M c Unit Unit Unit} {lo hi : Nat}
    (h : ∀ ep, 1 ≤ ep → ep ≤ c.epoch → PT (FA c) JT lo hi (ev ep) (fun _ => True)) :
    (Algo.plain sf ev).Ok (FA c) JT JT JT c.popSize lo hi :=
  Algo.plain_ok hE hP (fun ep s h1 h2 hs => Wp.mono (h ep h1 h2 s hs.mid) fun _ _ h => h.1)

/-- An algorithm that keeps the default `initialization` and `before_main_loop`. -/
theorem Algo.std_ok (hE : c.E.Lawful) (hP : c.P.Lawful) {A : Algo c X Y} {lo hi : Nat}
    (hi' : A.initialization = defaultInit A.mkExt) (hb : A.beforeMain = Pure.pure ())
    (hmk : ∀ x, Feas c x → DT noErr (A.mkExt x) (fun e => F ⟨x, c.P.target x, e⟩))
    (hv : DT noErr A.initVars J)
    (h : ∀ ep, 1 ≤ ep → ep ≤ c.epoch → PT F J lo hi (A.evolve ep) (fun _ => True)) :
    A.Ok F J J J c.popSize lo hi where
  mkExt := hmk
  initVars := hv
  init := by
    intro y p b hy hp
    rw [hi']
    exact defaultInit_spec hE hP hmk y p b hy hp
  before := by
    intro s hs
    rw [hb]
    exact Wp.pure (by
      have := (Imp.refl hs.toGoodPop s.base.rng s.base.vg).toStep
      exact this)
  evolve := fun ep s h1 h2 hs => Wp.mono (h ep h1 h2 s hs.mid) fun _ _ h => h.1

/-- An algorithm with attributes of its own, initialised by `init`. -/
def Algo.withState {Y : Type} (sortFlag : Bool) (init : D c Y) (evolve : Nat → M c Unit Y Unit) : Algo c Unit Y where
  sortFlag := sortFlag
  mkExt := fun _ => Pure.pure ()
  initVars := init
  initialization := defaultInit (fun _ => Pure.pure ())
  beforeMain := Pure.pure ()
  evolve := evolve

theorem Algo.withState_ok (hE : c.E.Lawful) (hP : c.P.Lawful) {sf : Bool} {init : D c Y}
    {ev : Nat → M c Unit Y Unit} {lo hi : Nat} (hv : DT noErr init J)
    (h : ∀ ep, 1 ≤ ep → ep ≤ c.epoch → PT (FA c) J lo hi (ev ep) (fun _ => True)) :
    (Algo.withState sf init ev).Ok (FA c) J J J c.popSize lo hi :=
  Algo.std_ok hE hP rfl rfl (fun x hx => DT.pure hx) hv h

/-- obligations of `mk` -/
syntax "mkgo" : tactic
macro_rules
  | `(tactic| mkgo) => `(tactic| (intro s i hs hlen hi; dgo))

/-- improving code whose number of evaluations is known, first -/
theorem IT.bindS {lo hi l1 h1 : Nat} {m : M c X Y α} {f : α → M c X Y β} {R : α → Prop} {Q : β → Prop}
    (h : IT F J l1 h1 m R) (hle : h1 ≤ hi) (h' : ∀ a, R a → IT F J (lo - l1) (hi - h1) (f a) Q) :
    IT F J lo hi (m >>= f) Q :=
  IT.weaken (IT.bind h h') (by omega) (by omega)

theorem PT.bindS {lo hi l1 h1 : Nat} {m : M c X Y α} {f : α → M c X Y β} {R : α → Prop} {Q : β → Prop}
    (h : PT F J l1 h1 m R) (hle : h1 ≤ hi) (h' : ∀ a, R a → IT F J (lo - l1) (hi - h1) (f a) Q) :
    PT F J lo hi (m >>= f) Q :=
  PT.weaken (PT.bind h h') (by omega) (by omega)

theorem IT.iteS {p : Prop} [Decidable p] {lo hi : Nat} {m n : M c X Y α} {R : α → Prop}
    (h : p → IT F J lo hi m R) (h' : ¬ p → IT F J lo hi n R) : IT F J lo hi (if p then m else n) R :=
  fun s hs => Wp.ite (fun hp => h hp s hs) (fun hp => h' hp s hs)

theorem PT.iteS {p : Prop} [Decidable p] {lo hi : Nat} {m n : M c X Y α} {R : α → Prop}
    (h : p → PT F J lo hi m R) (h' : ¬ p → PT F J lo hi n R) : PT F J lo hi (if p then m else n) R :=
  fun s hs => Wp.ite (fun hp => h hp s hs) (fun hp => h' hp s hs)

/-- a loop each round of which makes between `k1` and `k2` evaluations -/
theorem IT.iterS (k1 k2 : Nat) {f : Nat → Unit → M c X Y Unit} {lo hi n : Nat} (hl : lo ≤ n * k1) (hh : n * k2 ≤ hi)
    (hf : ∀ i, i < n → IT F J k1 k2 (f i ()) (fun _ => True)) :
    IT F J lo hi (Mealpy.iter n f ()) (fun _ => True) :=
  IT.weaken (IT.iter_unit n hf) hl hh

/-- one instruction of improving code -/
syntax "istep" : tactic
macro_rules
  | `(tactic| istep) => `(tactic|
    first
      | (at_bind MonadState.get; refine IT.bind0 IT.get (fun s hs => ?_); have hlen := GoodPop.len (Mid.toGoodPop hs))
      | (at_bind draw; refine IT.bind0 (IT.draw (by dprim)) (fun _ _ => ?_))
      | (at_bind draw; refine IT.bindD ?_ (fun _ => ?_); focus (dgo; done))
      | (at_head greedyLoop; refine IT.weaken (IT.greedyLoop (by assumption) ?_) (by omega) (by omega); mkgo)
      | (at_bind buildEval; refine IT.weaken (IT.evalTrim (by assumption) (by omega) ?_) (by omega) (by omega); mkgo)
      | (at_bind buildEval; refine IT.weaken (IT.evalGreedy (by assumption) ?_) (by omega) (by omega); mkgo)
      | (at_bind popAt; refine IT.bind0 (IT.popAt (by omega)) (fun _ _ => ?_))
      | (at_bind modify; refine IT.bind0 (IT.setExt (by intro _ h; first | exact trivial | exact h)) (fun _ _ => ?_))
      | (at_head modify; refine IT.weaken (IT.setExt (by intro _ h; first | exact trivial | exact h)) (by omega) (by omega))
      | (at_head tryBetter; exact IT.weaken (IT.tryBetter (by omega) (by dfin)) (by omega) (by omega))
      | (at_head tryCompare; exact IT.weaken (IT.tryCompare (by omega) (by dfin) (DT.pure (by dfin))) (by omega) (by omega))
      | (at_head Pure.pure; exact IT.weaken (IT.pure (by dfin)) (by omega) (by omega))
      | (at_bind greedyLoop; refine IT.bindS (IT.greedyLoop (by assumption) ?_) (by omega) (fun _ _ => ?_); focus (mkgo; done))
      | (at_bind tryBetter; refine IT.bindS (IT.tryBetter (by omega) (by dfin)) (by omega) (fun _ _ => ?_))
      | (at_bind tryCompare; refine IT.bindS (IT.tryCompare (by omega) (by dfin) (DT.pure (by dfin))) (by omega) (fun _ _ => ?_))
      | (at_head ite; refine IT.iteS (fun _ => ?_) (fun _ => ?_))
      | (at_head iter; refine IT.iterS 1 1 (by omega) (by omega) (fun i hi => ?_))
      | (at_head iter; refine IT.iterS 2 2 (by omega) (by omega) (fun i hi => ?_))
      | (at_head iter; refine IT.iterS 0 1 (by omega) (by omega) (fun i hi => ?_))
      | (at_head iter; refine IT.iterS 1 2 (by omega) (by omega) (fun i hi => ?_)))

/-- walk over improving code -/
syntax "iwalk" : tactic
macro_rules
  | `(tactic| iwalk) => `(tactic| repeat' istep)

/-- a whole improving `evolve` -/
syntax "iauto" : tactic
macro_rules
  | `(tactic| iauto) => `(tactic| (refine IT.pt ?_; iwalk))

/-- walk over code ending in a replacement -/
syntax "pwalk" : tactic
macro_rules
  | `(tactic| pwalk) => `(tactic|
    repeat' (first
      | (at_bind MonadState.get; refine PT.bind0 IT.get (fun s hs => ?_); have hlen := GoodPop.len (Mid.toGoodPop hs))
      | (at_bind draw; refine PT.bind0 (IT.draw (by dprim)) (fun _ _ => ?_))
      | (at_bind draw; refine PT.bindD ?_ (fun _ => ?_); focus (dgo; done))
      | (at_head replaceLoop; refine PT.weaken (PT.replaceLoop (by assumption) FA.upd ?_) (by omega) (by omega); mkgo)
      | (at_head rebindLoop; refine PT.weaken (PT.rebindLoop (by assumption) ?_) (by omega) (by omega); mkgo)
      | (at_bind buildEval; refine PT.weaken (PT.evalReplace (by assumption) ?_) (by omega) (by omega); mkgo)
      | (at_head ite; refine PT.iteS (fun _ => ?_) (fun _ => ?_))
      | (at_bind replaceLoop; refine PT.bindS (PT.replaceLoop (by assumption) FA.upd ?_) (by omega) (fun _ _ => ?_); focus (mkgo; done); iwalk)
      | (at_bind rebindLoop; refine PT.bindS (PT.rebindLoop (by assumption) ?_) (by omega) (fun _ _ => ?_); focus (mkgo; done); iwalk)))

/-- An algorithm that overrides only `evolve`; the names `hE`, `hP`, `hc` are those of the theorem. -/
macro "plainalg " hE:ident hP:ident hc:ident ev:ident : tactic => `(tactic|
  (have hpop := Accepted.pop $hc
   refine Algo.plain_ok' $hE $hP (fun ep hep1 hep2 => ?_)
   unfold $ev))

end Mealpy
