import Verif.CombLemmas
import Verif.Tactics

/-!
# What no algorithm can do

Frame facts that hold for every algorithm written with the operations of `Verif.Opt` and
`Verif.Comb`, from every state, also for algorithms that break other rules: evaluations are counted
(in `single` and `swarm` mode), the log only grows, and history is changed at most by
`update_global_best_agent`.  The tactic `framed` proves them by walking over the code.
-/

set_option linter.unusedSectionVars false
set_option linter.unusedVariables false

namespace Mealpy
open Spec

variable {d : Nat} {K : Type} [Num K] {c : Cfg d K} {X Y α β : Type}

/-- `l'` is `l`, except that its last entry may have been replaced by one related by `R` -/
def ImproveLast {α : Type} (R : α → α → Prop) (l l' : List α) : Prop :=
  l' = l ∨ ∃ p a b, l = p ++ [a] ∧ l' = p ++ [b] ∧ R a b

theorem ImproveLast.rfl {R : α → α → Prop} {l : List α} : ImproveLast R l l := Or.inl _root_.rfl

theorem ImproveLast.trans {R : α → α → Prop} (hR : ∀ a b c, R a b → R b c → R a c) {l l' l'' : List α}
    (h : ImproveLast R l l') (h' : ImproveLast R l' l'') : ImproveLast R l l'' := by
  rcases h with rfl | ⟨p, a, b, rfl, rfl, hab⟩
  · exact h'
  · rcases h' with rfl | ⟨p', a', b', h1, rfl, hab'⟩
    · exact Or.inr ⟨p, a, b, _root_.rfl, _root_.rfl, hab⟩
    · obtain ⟨rfl, h2⟩ := List.append_inj' h1 _root_.rfl
      simp only [List.cons.injEq, and_true] at h2
      subst h2
      exact Or.inr ⟨p, a, b', _root_.rfl, _root_.rfl, hR _ _ _ hab hab'⟩

theorem ImproveLast.length {R : α → α → Prop} {l l' : List α} (h : ImproveLast R l l') :
    l'.length = l.length := by
  rcases h with rfl | ⟨p, a, b, rfl, rfl, -⟩ <;> simp

/-- the changes `update_global_best_agent(save=False)` can make to the history: the newest entries
of the four agent lists are replaced; the record of the best cannot get worse, nor the record of the
worst better -/
structure HistStep (mm : MinMax) (h h' : Hist d K X) : Prop where
  globalBest : ImproveLast (fun a b : Agent d K X => NoWorse mm b.fit a.fit) h.globalBest h'.globalBest
  globalWorst : ImproveLast (fun a b : Agent d K X => NoWorse mm a.fit b.fit) h.globalWorst h'.globalWorst
  currentBest : ImproveLast (fun _ _ => True) h.currentBest h'.currentBest
  currentWorst : ImproveLast (fun _ _ => True) h.currentWorst h'.currentWorst
  globalBestFit : h'.globalBestFit = h.globalBestFit
  currentBestFit : h'.currentBestFit = h.currentBestFit
  diversity : h'.diversity = h.diversity
  epochTime : h'.epochTime = h.epochTime
  population : h'.population = h.population

theorem HistStep.rfl {mm : MinMax} {h : Hist d K X} : HistStep mm h h :=
  ⟨.rfl, .rfl, .rfl, .rfl, _root_.rfl, _root_.rfl, _root_.rfl, _root_.rfl, _root_.rfl⟩

theorem HistStep.trans {mm : MinMax} {h h' h'' : Hist d K X} (a : HistStep mm h h') (b : HistStep mm h' h'') :
    HistStep mm h h'' where
  globalBest := a.globalBest.trans (fun _ _ _ h1 h2 => h2.trans h1) b.globalBest
  globalWorst := a.globalWorst.trans (fun _ _ _ h1 h2 => h1.trans h2) b.globalWorst
  currentBest := a.currentBest.trans (fun _ _ _ _ _ => trivial) b.currentBest
  currentWorst := a.currentWorst.trans (fun _ _ _ _ _ => trivial) b.currentWorst
  globalBestFit := by rw [b.globalBestFit, a.globalBestFit]
  currentBestFit := by rw [b.currentBestFit, a.currentBestFit]
  diversity := by rw [b.diversity, a.diversity]
  epochTime := by rw [b.epochTime, a.epochTime]
  population := by rw [b.population, a.population]

/-- evaluation bookkeeping between two states -/
structure FrB (b b' : Base c) : Prop where
  log : ∃ new, b'.log = b.log ++ new
  count : c.mode = .single ∨ c.mode = .swarm → b'.nfe + b.log.length = b.nfe + b'.log.length
  under : b'.nfe + b.log.length ≤ b.nfe + b'.log.length

/-- frame relation; `q`: the history is not touched at all -/
structure Fr (q : Bool) (s s' : St c X Y) : Prop where
  base : FrB s.base s'.base
  hist : HistStep c.P.mm s.hist s'.hist
  quiet : q = true → s'.hist = s.hist

theorem FrB.rfl {b : Base c} : FrB b b := ⟨⟨[], by simp⟩, fun _ => _root_.rfl, le_rfl⟩

theorem FrB.trans {b b' b'' : Base c} (h : FrB b b') (h' : FrB b' b'') : FrB b b'' := by
  obtain ⟨⟨n, h1⟩, h2, h3⟩ := h
  obtain ⟨⟨n', h1'⟩, h2', h3'⟩ := h'
  refine ⟨⟨n ++ n', by rw [h1', h1, List.append_assoc]⟩, fun hm => ?_, by omega⟩
  have := h2 hm
  have := h2' hm
  omega

theorem Fr.rfl {q : Bool} {s : St c X Y} : Fr q s s := ⟨.rfl, .rfl, fun _ => _root_.rfl⟩

theorem Fr.trans {q : Bool} {s s' s'' : St c X Y} (h : Fr q s s') (h' : Fr q s' s'') : Fr q s s'' :=
  ⟨h.base.trans h'.base, h.hist.trans h'.hist, fun hq => by rw [h'.quiet hq, h.quiet hq]⟩

/-- every successful run is framed -/
def Framed (q : Bool) (m : M c X Y α) : Prop := ∀ s, Wp (fun _ => True) m s (fun _ s' => Fr q s s')
def FramedB (m : B c α) : Prop := ∀ b, Wp (fun _ => True) m b (fun _ b' => FrB b b')

section B

theorem FramedB.pure {a : α} : FramedB (pure a : B c α) := fun b => Wp.pure .rfl

theorem FramedB.bind {m : B c α} {f : α → B c β} (h : FramedB m) (h' : ∀ a, FramedB (f a)) :
    FramedB (m >>= f) := fun b =>
  Wp.bind (Wp.mono (h b) fun a b' hb => Wp.mono (h' a b') fun _ _ hb' => hb.trans hb')

theorem FramedB.ite {p : Prop} [Decidable p] {m n : B c α} (h : FramedB m) (h' : FramedB n) :
    FramedB (if p then m else n) := by split <;> assumption

theorem FramedB.throw {e : Err} : FramedB (fun _ => .error e : B c α) := fun b => trivial

theorem Wp.any {S α : Type} {m : StateT S (Except Err) α} {s : S} {Q : α → S → Prop}
    (h : ∀ a s', m s = .ok (a, s') → Q a s') : Wp (fun _ => True) m s Q := by
  unfold Wp
  cases hm : m s with
  | error e => trivial
  | ok p => exact h _ _ hm

theorem FramedB.liftD {m : D c α} : FramedB (liftD m : B c α) := fun b => Wp.any (by
  intro a b' h
  unfold Mealpy.liftD at h
  split at h
  · injection h with h
    obtain ⟨rfl, rfl⟩ := Prod.mk.inj h
    exact ⟨⟨[], by simp⟩, fun _ => rfl, le_rfl⟩
  · cases h)

theorem FramedB.getTarget {x : Vec d K} : FramedB (getTarget x : B c (Target K)) := fun b =>
  Wp.getTarget ⟨⟨[x], rfl⟩, fun _ => by simp; omega, by simp; omega⟩

theorem FramedB.agentOf {mkExt : Vec d K → D c X} {x : Vec d K} : FramedB (agentOf mkExt x : B c (Agent d K X)) :=
  .bind .liftD fun _ => .bind .getTarget fun _ => .pure

theorem FramedB.generateAgent {mkExt : Vec d K → D c X} : FramedB (generateAgent mkExt : B c (Agent d K X)) :=
  .bind .liftD fun _ => .agentOf

theorem FramedB.iter {f : Nat → α → B c α} {n : Nat} {a : α} (h : ∀ i a, FramedB (f i a)) :
    FramedB (iter n f a : B c α) := fun b =>
  Wp.iter (fun _ _ b' => FrB b b') n .rfl fun i a s _ hs => Wp.mono (h i a s) fun _ _ h => hs.trans h

theorem FramedB.mapM {f : α → B c β} {l : List α} (h : ∀ a, FramedB (f a)) : FramedB (l.mapM f) := by
  induction l with
  | nil => rw [List.mapM_nil]; exact .pure
  | cons a l ih => rw [List.mapM_cons]; exact .bind (h a) fun _ => .bind ih fun _ => .pure

theorem FramedB.generateSeq {mkExt : Vec d K → D c X} {n : Nat} : FramedB (generateSeq mkExt n : B c _) :=
  .iter fun _ _ => .bind .generateAgent fun _ => .pure

theorem DT.any {m : D c α} : DT (fun _ => True) m (fun _ => True) := fun _ => Wp.any fun _ _ _ => trivial

/-- `generateSeq` counts in every mode -/
theorem generateSeq_count {mkExt : Vec d K → D c X} {n : Nat} (b : Base c) :
    Wp (fun _ => True) (generateSeq mkExt n) b (fun _ b' => (∃ new, b'.log = b.log ++ new) ∧
      b'.nfe + b.log.length = b.nfe + b'.log.length) := by
  refine Wp.iter (fun _ _ (b' : Base c) => (∃ new, b'.log = b.log ++ new) ∧
      b'.nfe + b.log.length = b.nfe + b'.log.length) n ⟨⟨[], by simp⟩, rfl⟩ ?_
  rintro i a b1 - ⟨⟨new, h1⟩, h2⟩
  unfold Mealpy.generateAgent Mealpy.agentOf
  refine Wp.bind (Wp.bind (Wp.liftD DT.any fun x r v _ => ?_))
  refine Wp.bind (Wp.liftD DT.any fun e r v _ => ?_)
  refine Wp.bind (Wp.getTarget (Wp.pure (Wp.pure ?_)))
  exact ⟨⟨new ++ [x], by simp [h1]⟩, by simp; omega⟩

theorem FramedB.generatePopulation {mkExt : Vec d K → D c X} {n : Nat} (hE : c.E.Lawful) :
    FramedB (generatePopulation mkExt n : B c (List (Agent d K X))) := by
  unfold Mealpy.generatePopulation
  split
  · rename_i hm
    intro b
    refine Wp.bind (Wp.mono (generateSeq_count b) ?_)
    rintro pop b1 ⟨⟨new, h1⟩, h2⟩
    refine Wp.bind (Wp.liftD (DT.rngCall (Q := fun _ => True) fun _ => trivial) ?_)
    intro ord r v _
    refine Wp.bind (Wp.liftD (DT.rngCall (Q := fun _ => True) fun _ => trivial) ?_)
    intro l r v _
    refine Wp.bind (Wp.modify (Wp.pure ⟨⟨new, h1⟩, ?_, ?_⟩))
    · rintro (h | h) <;> rw [hm] at h <;> cases h
    · show b1.nfe - l + b.log.length ≤ b.nfe + b1.log.length
      omega
  · rename_i hm
    intro b
    refine Wp.any ?_
    intro a b' h
    simp only [Bind.bind, Except.bind, Pure.pure, Except.pure] at h
    split at h
    · cases h
    · injection h with h
      obtain ⟨-, rfl⟩ := Prod.mk.inj h
      refine ⟨⟨_, rfl⟩, ?_, ?_⟩
      · rintro (h | h) <;> rw [hm] at h <;> cases h
      · simp
  · exact .generateSeq

theorem FramedB.updateTargets {pend : List (Vec d K × X)} (hE : c.E.Lawful) :
    FramedB (updateTargets pend : B c (List (Agent d K X))) := by
  intro b
  cases hs : c.swarmLike with
  | true =>
    refine Wp.mono (updateTargets_spec hE hs pend b) ?_
    rintro a b' ⟨-, new, h1, h2, h3⟩
    have := h1.length_eq
    rw [List.length_map] at this
    exact ⟨⟨new, h2⟩, fun _ => by rw [h2, List.length_append]; omega, by rw [h2, List.length_append]; omega⟩
  | false =>
    have : c.mode = .single := by
      unfold Cfg.swarmLike at hs
      split at hs <;> simp_all
    unfold Mealpy.updateTargets
    rw [this]
    exact trivial

end B

section M
variable {q : Bool}

theorem Framed.pure {a : α} : Framed q (pure a : M c X Y α) := fun b => Wp.pure .rfl

theorem Framed.bind {m : M c X Y α} {f : α → M c X Y β} (h : Framed q m) (h' : ∀ a, Framed q (f a)) :
    Framed q (m >>= f) := fun b =>
  Wp.bind (Wp.mono (h b) fun a b' hb => Wp.mono (h' a b') fun _ _ hb' => hb.trans hb')

theorem Framed.ite {p : Prop} [Decidable p] {m n : M c X Y α} (h : Framed q m) (h' : Framed q n) :
    Framed q (if p then m else n) := by split <;> assumption

theorem Framed.mthrow {e : Err} : Framed q (mthrow e : M c X Y α) := fun b => trivial

theorem Framed.get : Framed q (get : M c X Y _) := fun b => Wp.get .rfl

/-- assignments that leave base and history alone -/
theorem Framed.modify {f : St c X Y → St c X Y} (h : ∀ s, (f s).base = s.base ∧ (f s).hist = s.hist) :
    Framed q (modify f : M c X Y PUnit) := fun s => Wp.modify
  ⟨by rw [(h s).1]; exact .rfl, by rw [(h s).2]; exact .rfl, fun _ => (h s).2⟩

theorem Framed.liftB {m : B c α} (h : FramedB m) : Framed q (liftB m : M c X Y α) := fun s =>
  Wp.liftB (Wp.mono (h s.base) fun a b hb => ⟨hb, .rfl, fun _ => rfl⟩)

theorem Framed.draw {m : D c α} : Framed q (draw m : M c X Y α) := .liftB .liftD

theorem Framed.iter {f : Nat → α → M c X Y α} {n : Nat} {a : α} (h : ∀ i a, Framed q (f i a)) :
    Framed q (iter n f a : M c X Y α) := fun b =>
  Wp.iter (fun _ _ b' => Fr q b b') n .rfl fun i a s _ hs => Wp.mono (h i a s) fun _ _ h => hs.trans h

theorem Framed.mapM {f : α → M c X Y β} {l : List α} (h : ∀ a, Framed q (f a)) : Framed q (l.mapM f) := by
  induction l with
  | nil => rw [List.mapM_nil]; exact .pure
  | cons a l ih => rw [List.mapM_cons]; exact .bind (h a) fun _ => .bind ih fun _ => .pure

theorem Framed.popAt {i : Nat} : Framed q (popAt i : M c X Y _) := fun s => Wp.any (by
  intro a s' h
  unfold Mealpy.popAt at h
  split at h
  · injection h with h
    obtain ⟨rfl, rfl⟩ := Prod.mk.inj h
    exact .rfl
  · cases h)

theorem Framed.setAt {i : Nat} {a : Agent d K X} : Framed q (setAt i a : M c X Y _) := fun s => Wp.any (by
  intro a s' h
  unfold Mealpy.setAt at h
  split at h
  · injection h with h
    obtain ⟨-, rfl⟩ := Prod.mk.inj h
    exact ⟨.rfl, .rfl, fun _ => rfl⟩
  · cases h)

theorem Framed.updateAt {i : Nat} {x : Vec d K} {t : Target K} : Framed q (updateAt i x t : M c X Y _) :=
  fun s => Wp.any (by
  intro a s' h
  unfold Mealpy.updateAt at h
  split at h
  · injection h with h
    obtain ⟨-, rfl⟩ := Prod.mk.inj h
    exact ⟨.rfl, .rfl, fun _ => rfl⟩
  · cases h)

theorem Framed.tryBetter {i : Nat} {p : Vec d K × X} : Framed q (tryBetter i p : M c X Y _) :=
  .bind (.liftB .getTarget) fun _ => .bind .popAt fun _ => .setAt

theorem Framed.tryCompare {mkExt : Vec d K → D c X} {i : Nat} {x : Vec d K} :
    Framed q (tryCompare mkExt i x : M c X Y _) :=
  .bind (.liftB .agentOf) fun _ => .bind .popAt fun _ => .ite .setAt .pure

theorem Framed.selectGreedy {new : List (Agent d K X)} : Framed q (selectGreedy new : M c X Y _) :=
  fun s => Wp.any (by
  intro a s' h
  unfold Mealpy.selectGreedy at h
  split at h
  · injection h with h
    obtain ⟨-, rfl⟩ := Prod.mk.inj h
    exact ⟨.rfl, .rfl, fun _ => rfl⟩
  · cases h)

theorem Framed.greedyLoop (hE : c.E.Lawful) {n : Nat} {mk : St c X Y → Nat → D c (Vec d K × X)} :
    Framed q (greedyLoop n mk : M c X Y _) :=
  .ite (.bind .get fun _ => .bind .draw fun _ => .bind (.liftB (.updateTargets hE)) fun _ => .selectGreedy)
    (.iter fun _ _ => .bind .get fun _ => .bind .draw fun _ => .tryBetter)

theorem Framed.replaceLoop (hE : c.E.Lawful) {n : Nat} {mk : St c X Y → Nat → D c (Vec d K × X)} :
    Framed q (replaceLoop n mk : M c X Y _) :=
  .ite (.bind .get fun _ => .bind .draw fun _ => .bind (.liftB (.updateTargets hE)) fun _ =>
      .modify fun _ => ⟨rfl, rfl⟩)
    (.iter fun _ _ => .bind .get fun _ => .bind .draw fun _ => .bind (.liftB .getTarget) fun _ => .updateAt)

theorem Framed.rebindLoop (hE : c.E.Lawful) {n : Nat} {mk : St c X Y → Nat → D c (Vec d K × X)} :
    Framed q (rebindLoop n mk : M c X Y _) :=
  .ite (.bind .get fun _ => .bind .draw fun _ => .bind (.liftB (.updateTargets hE)) fun _ =>
      .modify fun _ => ⟨rfl, rfl⟩)
    (.iter fun _ _ => .bind .get fun _ => .bind .draw fun _ => .bind (.liftB .getTarget) fun _ => .setAt)

theorem Framed.buildEval (hE : c.E.Lawful) {n : Nat} {mk : St c X Y → Nat → D c (Vec d K × X)} :
    Framed q (buildEval n mk : M c X Y _) :=
  .ite (.bind .get fun _ => .bind .draw fun _ => .liftB (.updateTargets hE))
    (.iter fun _ _ => .bind .get fun _ => .bind .draw fun _ => .bind (.liftB .getTarget) fun _ => .pure)

theorem Framed.mergeTrim {n : Nat} {new : List (Agent d K X)} : Framed q (mergeTrim n new : M c X Y _) :=
  .modify fun _ => ⟨rfl, rfl⟩

theorem Framed.setPop {new : List (Agent d K X)} : Framed q (setPop new : M c X Y _) :=
  .modify fun _ => ⟨rfl, rfl⟩

theorem setLast_improve {R : α → α → Prop} {l : List α} {a b : α} (h : l.getLast? = some a) (hR : R a b) :
    ImproveLast R l (setLast l b) := by
  refine Or.inr ⟨l.dropLast, a, b, ?_, rfl, hR⟩
  rw [List.getLast?_eq_some_iff] at h
  obtain ⟨ys, rfl⟩ := h
  simp

/-- `update_global_best_agent(save=False)` in the middle of an epoch -/
theorem Framed.updateGlobalBestNoSave {pop : List (Agent d K X)} :
    Framed false (updateGlobalBestNoSave pop : M c X Y _) := fun s => Wp.any (by
  intro a s' h
  unfold Mealpy.updateGlobalBestNoSave at h
  simp only at h
  split at h
  · rename_i cb cw lb gb lw gw h1 h2 h3 h4 h5 h6
    injection h with h
    obtain ⟨-, rfl⟩ := Prod.mk.inj h
    refine ⟨.rfl, ⟨setLast_improve h4 ?_, setLast_improve h6 ?_, setLast_improve h3 trivial,
      setLast_improve h5 trivial, rfl, rfl, rfl, rfl, rfl⟩, by simp⟩
    · exact (getBetterAgent_cases cb gb c.P.mm).2.2
    · exact (getBetterAgent_reverse_cases cw gw c.P.mm).2.2
  · cases h)

end M

/-- further steps of `framed`, added by later files -/
syntax "fprim" : tactic
macro_rules
  | `(tactic| fprim) => `(tactic| fail)

/-- walk over an algorithm's code; `hE : c.E.Lawful` has to be in the context -/
syntax "framed" : tactic
macro_rules
  | `(tactic| framed) => `(tactic|
    repeat' (first
      | assumption
      | fprim
      | (at_last Bind.bind; first | refine Framed.bind ?_ (fun _ => ?_) | refine FramedB.bind ?_ (fun _ => ?_))
      | (at_last Pure.pure; first | exact Framed.pure | exact FramedB.pure)
      | (at_last draw; exact Framed.draw)
      | (at_last MonadState.get; exact Framed.get)
      | (at_last getThe; exact Framed.get)
      | (at_last mthrow; exact Framed.mthrow)
      | (at_last popAt; exact Framed.popAt)
      | (at_last setAt; exact Framed.setAt)
      | (at_last updateAt; exact Framed.updateAt)
      | (at_last tryBetter; exact Framed.tryBetter)
      | (at_last tryCompare; exact Framed.tryCompare)
      | (at_last selectGreedy; exact Framed.selectGreedy)
      | (at_last greedyLoop; exact Framed.greedyLoop (by assumption))
      | (at_last replaceLoop; exact Framed.replaceLoop (by assumption))
      | (at_last rebindLoop; exact Framed.rebindLoop (by assumption))
      | (at_last buildEval; exact Framed.buildEval (by assumption))
      | (at_last mergeTrim; exact Framed.mergeTrim)
      | (at_last setPop; exact Framed.setPop)
      | (at_last updateGlobalBestNoSave; exact Framed.updateGlobalBestNoSave)
      | (at_last getTarget; exact FramedB.getTarget)
      | (at_last agentOf; exact FramedB.agentOf)
      | (at_last agentsOf; unfold agentsOf)
      | (at_last generateAgent; exact FramedB.generateAgent)
      | (at_last generateSeq; exact FramedB.generateSeq)
      | (at_last generatePopulation; exact FramedB.generatePopulation (by assumption))
      | (at_last updateTargets; exact FramedB.updateTargets (by assumption))
      | (at_last liftD; exact FramedB.liftD)
      | (at_last modify; refine Framed.modify (fun _ => ⟨rfl, rfl⟩))
      | (at_last liftB; refine Framed.liftB ?_)
      | (at_last iter; first | refine Framed.iter (fun _ _ => ?_) | refine FramedB.iter (fun _ _ => ?_))
      | (at_last List.mapM; first | refine Framed.mapM (fun _ => ?_) | refine FramedB.mapM (fun _ => ?_))
      | (at_last ite; first | refine Framed.ite ?_ ?_ | refine FramedB.ite ?_ ?_)
      | split))

end Mealpy
