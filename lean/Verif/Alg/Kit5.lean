import Verif.Alg.Kit4
import Verif.Props.Select

/-!
# More pieces of optimizers

Loops whose body may evaluate agents or change attributes before it hands over a position, the best of several held agents, `g_worst`.
-/

set_option linter.unusedSectionVars false
set_option linter.unusedVariables false

namespace Mealpy
open Spec

variable {d : Nat} {K : Type} [Num K] {c : Cfg d K} {X Y : Type} {α β : Type} {Er : Err → Prop}
variable {F : Agent d K X → Prop} {J : Y → Prop}

/-- `self.g_worst`: assigned after the initialisation (`mealpy/optimizer.py:152`) and never again, so it stays the first entry of
`history.list_global_worst` (never empty during `evolve`) -/
def gWorst (s : St c X Y) : Agent d K X := (s.hist.globalWorst.head?).getD s.gbest

/-! ## Loops with a stateful body -/

/-- `greedyLoop` and, with `rev`, `greedyLoopR`, for a body that changes attributes or evaluates other agents -/
def greedyLoopM (rev : Bool) (n : Nat) (mk : Nat → M c X Y (Vec d K × X)) : M c X Y Unit :=
  if c.swarmLike then do
    let pend ← iter n (fun i acc => do
      let p ← mk i
      pure (acc ++ [p])) []
    let new ← liftB (updateTargets pend)
    selectGreedy new
  else
    iter n (fun i _ => do
      let p ← mk i
      if rev then tryBetterR i p else tryBetter i p) ()

/-- `buildEval` for such a body -/
def buildEvalM (n : Nat) (mk : Nat → M c X Y (Vec d K × X)) : M c X Y (List (Agent d K X)) :=
  if c.swarmLike then do
    let pend ← iter n (fun i acc => do
      let p ← mk i
      pure (acc ++ [p])) []
    liftB (updateTargets pend)
  else
    iter n (fun i acc => do
      let p ← mk i
      let t ← liftB (getTarget p.1)
      pure (acc ++ [⟨p.1, t, p.2⟩])) []

theorem IT.pending {n lo hi : Nat} {mk : Nat → M c X Y (Vec d K × X)} (hmk : ∀ i, i < n → IT F J lo hi (mk i) (MkOk F c)) :
    IT F J (n * lo) (n * hi) (Mealpy.iter n (fun i acc => do
      let p ← mk i
      Pure.pure (acc ++ [p])) [] : M c X Y _) (fun l => l.length = n ∧ ∀ p ∈ l, MkOk F c p) := by
  refine IT.iter (fun i (l : List (Vec d K × X)) => l.length = i ∧ ∀ p ∈ l, MkOk F c p) n ⟨rfl, by simp⟩ fun i l hi hl => ?_
  refine IT.bindL (hmk i hi) fun p hp => IT.pure ⟨by simp [hl.1], fun q hq => ?_⟩
  rcases List.mem_append.1 hq with h | h
  · exact hl.2 q h
  · rw [List.mem_singleton.1 h]; exact hp

theorem WT.pending {I : Inv c X Y} {n lo hi : Nat} {mk : Nat → M c X Y (Vec d K × X)} (hmk : ∀ i, i < n → WT Er I lo hi (mk i) I.Mk) :
    WT Er I (n * lo) (n * hi) (Mealpy.iter n (fun i acc => do
      let p ← mk i
      Pure.pure (acc ++ [p])) [] : M c X Y _) (fun l => l.length = n ∧ ∀ p ∈ l, I.Mk p) := by
  refine WT.iterL lo hi I.Mk (by omega) (by omega) fun i l hi hl hq => ?_
  refine WT.bind (l2 := 0) (h2 := 0) (hmk i hi) fun p hp => WT.pure ⟨by simp [hl], fun q hq' => ?_⟩
  rcases List.mem_append.1 hq' with h | h
  · exact hq q h
  · rw [List.mem_singleton.1 h]; exact hp

theorem IT.greedyLoopM (hE : c.E.Lawful) {rev : Bool} {lo hi : Nat} {mk : Nat → M c X Y (Vec d K × X)}
    (hmk : ∀ i, i < c.popSize → IT F J lo hi (mk i) (MkOk F c)) :
    IT F J (c.popSize * (lo + 1)) (c.popSize * (hi + 1)) (Mealpy.greedyLoopM rev c.popSize mk) (fun _ => True) := by
  unfold Mealpy.greedyLoopM
  have e1 := Nat.mul_add_one c.popSize lo
  have e2 := Nat.mul_add_one c.popSize hi
  refine IT.iteS (fun hm => ?_) (fun hm => ?_)
  · refine IT.bindS (IT.pending hmk) (by omega) fun pend hp => ?_
    intro s hs
    refine Wp.bind (Wp.mono (updateTargets_batch hE hm hp.2 s) ?_)
    rintro new s' ⟨h3, h4⟩
    have hl : new.length = c.popSize := by omega
    refine Wp.mono (selectGreedy_imp hs.toGoodPop h4 hl) fun _ s'' h => ⟨?_, trivial⟩
    exact h.weaken (by omega) (by omega)
  · refine IT.iterS (lo + 1) (hi + 1) (by omega) (by omega) fun i hi => ?_
    refine IT.bind (hmk i hi) fun p hp => ?_
    exact IT.iteS (fun _ => IT.tryBetterR hi hp) (fun _ => IT.tryBetter hi hp)

theorem WT.greedyLoopM {I : Inv c X Y} (hE : c.E.Lawful) {rev : Bool} {n lo hi : Nat} (hn : ∀ m, I.size m → m = n)
    {mk : Nat → M c X Y (Vec d K × X)} (hmk : ∀ i, i < n → WT Er I lo hi (mk i) I.Mk) :
    WT Er I (n * (lo + 1)) (n * (hi + 1)) (Mealpy.greedyLoopM rev n mk) (fun _ => True) := by
  unfold Mealpy.greedyLoopM
  have e1 := Nat.mul_add_one n lo
  have e2 := Nat.mul_add_one n hi
  refine WT.ite (fun hm => ?_) (fun hm => ?_)
  · refine WT.bindS (WT.pending hmk) (by omega) fun pend hp => ?_
    refine WT.bindS (WT.updateTargets hE hm hp.2) (by omega) fun new hnew => ?_
    exact WT.weaken (WT.selectGreedy (fun m h => by rw [hn m h, hnew.1, hp.1]) hnew.2) (by omega) (by omega)
  · refine WT.iterU (lo + 1) (hi + 1) (by omega) (by omega) fun i hi => ?_
    refine WT.bind (hmk i hi) fun p hp => ?_
    exact WT.ite (fun _ => WT.tryBetterR (fun m h => by rw [hn m h]; exact hi) hp)
      (fun _ => WT.tryBetter (fun m h => by rw [hn m h]; exact hi) hp)

theorem Framed.pending {q : Bool} {n : Nat} {mk : Nat → M c X Y (Vec d K × X)} (h : ∀ i, Framed q (mk i)) :
    Framed q (Mealpy.iter n (fun i acc => do
      let p ← mk i
      Pure.pure (acc ++ [p])) [] : M c X Y _) :=
  Framed.iter fun i acc => Framed.bind (h i) fun p => Framed.pure

theorem Framed.greedyLoopM {q rev : Bool} (hE : c.E.Lawful) {n : Nat} {mk : Nat → M c X Y (Vec d K × X)} (h : ∀ i, Framed q (mk i)) :
    Framed q (Mealpy.greedyLoopM rev n mk) := by
  unfold Mealpy.greedyLoopM
  refine Framed.ite (Framed.bind (Framed.pending h) fun pend => Framed.bind (Framed.liftB (.updateTargets hE)) fun new => Framed.selectGreedy)
    (Framed.iter fun i _ => Framed.bind (h i) fun p => Framed.ite Framed.tryBetterR Framed.tryBetter)

theorem HJ.updateTargets (hE : c.E.Lawful) (hm : c.swarmLike = true) {G : List (Agent d K X)} {pend : List (Vec d K × X)}
    (hp : ∀ p ∈ pend, MkOk F c p) :
    HJ F J pend.length pend.length G (liftB (Mealpy.updateTargets pend) : M c X Y _) (fun new => G ++ new)
      (fun new => new.length = pend.length ∧ ∀ a ∈ new, F a) := by
  intro s0 s l k hs0 hs
  refine Wp.mono (updateTargets_batch hE hm hp s) ?_
  rintro new s1 ⟨h1, h2⟩
  have := hs.trans (ImpH.ofBatch hs.good h2)
  rw [h1] at this
  exact ⟨this, h1, fun a ha => (this.held a (List.mem_append_right _ ha)).2⟩

/-- `a.target = self.get_target(x)` -/
theorem HJ.getTarget {G : List (Agent d K X)} {x : Vec d K} {e : X} (hx : MkOk F c (x, e)) :
    HJ F J 1 1 G (liftB (Mealpy.getTarget x) : M c X Y _) (fun t => G ++ [⟨x, t, e⟩]) (fun t => t = c.P.target x) := by
  intro s0 s l k hs0 hs
  refine Wp.liftB (Wp.getTarget ?_)
  have hb : Batch F s [⟨x, c.P.target x, e⟩] { s with base := { s.base with nfe := s.base.nfe + 1, log := s.base.log ++ [x] } } := by
    refine ⟨?_, ⟨[x], rfl, by simp⟩, rfl, rfl, rfl, rfl, rfl⟩
    intro a' ha'
    rw [List.mem_singleton.1 ha']
    exact ⟨hx.1, hx.2, rfl⟩
  exact ⟨hs.trans (ImpH.ofBatch hs.good hb), rfl⟩

theorem HJ.buildEvalM (hE : c.E.Lawful) {n lo hi : Nat} {G : List (Agent d K X)} {mk : Nat → M c X Y (Vec d K × X)}
    (hmk : ∀ i, i < n → IT F J lo hi (mk i) (MkOk F c)) :
    HJ F J (n * (lo + 1)) (n * (hi + 1)) G (Mealpy.buildEvalM n mk : M c X Y _) (fun new => G ++ new)
      (fun new => new.length = n ∧ ∀ a ∈ new, F a) := by
  unfold Mealpy.buildEvalM
  have e1 := Nat.mul_add_one n lo
  have e2 := Nat.mul_add_one n hi
  refine HJ.ite (fun hm => ?_) (fun hm => ?_)
  · refine HJ.bindS (HJ.ofIT (IT.pending hmk)) (by omega) fun pend hp => ?_
    have := HJ.updateTargets (J := J) (G := G) hE hm hp.2
    rw [hp.1] at this
    exact HJ.weaken this (by omega) (by omega)
  · have := HJ.iter (F := F) (J := J) (f := fun i (acc : List (Agent d K X)) => (do
      let p ← mk i
      let t ← liftB (Mealpy.getTarget p.1)
      Pure.pure (acc ++ [(⟨p.1, t, p.2⟩ : Agent d K X)]) : M c X Y _)) (lo := lo + 1) (hi := hi + 1) (fun new => G ++ new)
      (fun i new => new.length = i ∧ ∀ a ∈ new, F a) n (a := []) ⟨rfl, by simp⟩ ?_
    · simpa using this
    · intro i acc hi hacc
      refine HJ.bind (HJ.ofIT (hmk i hi)) fun p hp => ?_
      refine HJ.bind (l2 := 0) (h2 := 0) (HJ.getTarget (e := p.2) hp) fun t ht => ?_
      refine HJ.pure (by simp) ⟨by simp [hacc.1], fun a ha => ?_⟩
      rcases List.mem_append.1 ha with h | h
      · exact hacc.2 a h
      · rw [List.mem_singleton.1 h, ht]; exact hp.2

theorem WT.buildEvalM {I : Inv c X Y} (hE : c.E.Lawful) {n lo hi : Nat} {mk : Nat → M c X Y (Vec d K × X)}
    (hmk : ∀ i, i < n → WT Er I lo hi (mk i) I.Mk) :
    WT Er I (n * (lo + 1)) (n * (hi + 1)) (Mealpy.buildEvalM n mk) (fun l => l.length = n ∧ ∀ a ∈ l, I.Ag a) := by
  unfold Mealpy.buildEvalM
  have e1 := Nat.mul_add_one n lo
  have e2 := Nat.mul_add_one n hi
  refine WT.ite (fun hm => ?_) (fun hm => ?_)
  · refine WT.bindS (WT.pending hmk) (by omega) fun pend hp => ?_
    refine WT.weaken (WT.mono (WT.updateTargets hE hm hp.2) fun l hl => ?_) (by omega) (by omega)
    exact ⟨by rw [hl.1, hp.1], hl.2⟩
  · refine WT.iterL (lo + 1) (hi + 1) I.Ag (by omega) (by omega) fun i l hi hl hq => ?_
    refine WT.bind (hmk i hi) fun p hp => ?_
    refine WT.bindS (WT.getTarget hp.1) (by omega) fun t ht => ?_
    refine WT.pure ⟨by simp [hl], ?_⟩
    intro a ha
    rcases List.mem_append.1 ha with ha | ha
    · exact hq a ha
    · rw [List.mem_singleton.1 ha]
      exact ⟨ht, by rw [ht]; exact hp.2⟩

theorem Framed.buildEvalM {q : Bool} (hE : c.E.Lawful) {n : Nat} {mk : Nat → M c X Y (Vec d K × X)} (h : ∀ i, Framed q (mk i)) :
    Framed q (Mealpy.buildEvalM n mk) := by
  unfold Mealpy.buildEvalM
  exact Framed.ite (Framed.bind (Framed.pending h) fun pend => .liftB (.updateTargets hE))
    (Framed.iter fun i _ => Framed.bind (h i) fun p => .bind (.liftB .getTarget) fun _ => .pure)

/-- The replacing loop with attributes: position, attributes of the agent, attributes of the optimizer. Both modes leave the new agents
in the slots; otherwise as `rebindLoop`. -/
def rebindLoopX (n : Nat) (mk : St c X Y → Nat → D c (Vec d K × X × Y)) : M c X Y Unit :=
  if c.swarmLike then do
    let pend ← iter n (fun i acc => do
      let s ← get
      let p ← draw (mk s i)
      modExt (fun _ => p.2.2)
      pure (acc ++ [(p.1, p.2.1)])) []
    let new ← liftB (updateTargets pend)
    setPop new
  else
    iter n (fun i _ => do
      let s ← get
      let p ← draw (mk s i)
      modExt (fun _ => p.2.2)
      let t ← liftB (getTarget p.1)
      setAt i ⟨p.1, t, p.2.1⟩) ()

theorem PT.rebindLoopX (hE : c.E.Lawful) {mk : St c X Y → Nat → D c (Vec d K × X × Y)}
    (hmk : ∀ (s : St c X Y) (i : Nat), Mid F J s → s.pop.length = c.popSize → i < c.popSize →
      DT noErr (mk s i) (fun p => MkOk F c (p.1, p.2.1) ∧ J p.2.2)) :
    PT F J c.popSize c.popSize (Mealpy.rebindLoopX c.popSize mk) (fun _ => True) := by
  intro s hs
  unfold Mealpy.rebindLoopX
  by_cases hm : c.swarmLike = true
  · rw [if_pos hm]
    have hpend := IT.pending (F := F) (J := J) (lo := 0) (hi := 0) (n := c.popSize) (mk := fun i => (do
      let s ← get
      let p ← draw (mk s i)
      Mealpy.modExt (fun _ => p.2.2)
      Pure.pure (p.1, p.2.1) : M c X Y _)) (fun i hi => by
        refine IT.bind0 IT.get fun s hs => IT.bind0 (IT.draw (hmk s i hs hs.len hi)) fun p hp => ?_
        exact IT.bind0 (IT.modExt fun _ _ => hp.2) fun _ _ => IT.pure hp.1)
    have heq : (Mealpy.iter c.popSize (fun i acc => (do
        let s ← get
        let p ← draw (mk s i)
        Mealpy.modExt (fun _ => p.2.2)
        Pure.pure (acc ++ [(p.1, p.2.1)]) : M c X Y _)) ([] : List (Vec d K × X))) =
        Mealpy.iter c.popSize (fun i acc => (do
        let p ← (do
          let s ← get
          let p ← draw (mk s i)
          Mealpy.modExt (fun _ => p.2.2)
          Pure.pure (p.1, p.2.1) : M c X Y _)
        Pure.pure (acc ++ [p]) : M c X Y _)) [] := by
      congr 1
      funext i acc
      simp only [bind_assoc, pure_bind]
    rw [heq]
    refine PT.bind0 (IT.weaken hpend (by omega) (by omega)) (fun pend g s1 hs1 => ?_) s hs
    refine Wp.bind (Wp.mono (updateTargets_batch hE hm g.2 s1) ?_)
    rintro new s2 ⟨h3, h4⟩
    refine Wp.mono (setPop_step hs1.toGoodPop h4 (by omega)) ?_
    intro _ s3 h
    exact ⟨h.toPost, h.mid hs1, trivial⟩
  · rw [if_neg hm]
    refine Wp.mono (Wp.iter (fun i _ s' => RepMid F J s i s') c.popSize (RepMid.init hs) ?_)
      (fun _ _ h => ⟨h.post, h.mid, trivial⟩)
    rintro i _ s1 hi h
    have hil : i < s1.pop.length := by rw [h.mid.len]; exact hi
    refine Wp.bind (Wp.get ?_)
    refine Wp.bind (Wp.draw (hmk s1 i h.mid h.mid.len hi) ?_)
    intro p r v hp
    refine Wp.bind (Wp.modify ?_)
    refine Wp.bind (Wp.liftB (Wp.getTarget ?_))
    refine Wp.setAt hil ?_
    have h1 : RepMid F J s i { s1 with ext := p.2.2 } :=
      ⟨⟨⟨h.mid.len, h.mid.ev, h.mid.feas, hp.2⟩, h.mid.gev, h.mid.gfeas⟩, h.hist, h.evals⟩
    exact RepMid.succ h1 hi hp.1.1 (a := ⟨p.1, c.P.target p.1, p.2.1⟩) rfl rfl hp.1.2 rfl rfl rfl (.inl rfl) rfl rfl

theorem WT.rebindLoopX {I : Inv c X Y} (hE : c.E.Lawful) {n : Nat} (hn : ∀ m, I.size m ↔ m = n)
    {mk : St c X Y → Nat → D c (Vec d K × X × Y)}
    (hmk : ∀ (s : St c X Y) (i : Nat), WInv I s → s.pop.length = n → i < n → DT Er (mk s i) (fun p => I.Mk (p.1, p.2.1) ∧ I.attr p.2.2)) :
    WT Er I n n (Mealpy.rebindLoopX n mk) (fun _ => True) := by
  unfold Mealpy.rebindLoopX
  refine WT.ite (fun hm => ?_) (fun hm => ?_)
  · refine WT.bind0 (WT.iterL 0 0 I.Mk (by omega) (by omega) fun i l hi hl hq => ?_) fun pend hp => ?_
    · refine WT.bind0 WT.get fun s hs => ?_
      refine WT.bind0 (WT.draw (hmk s i hs ((hn _).1 hs.len) hi)) fun p hp => ?_
      refine WT.bind0 (WT.modExt fun _ _ => hp.2) fun _ _ => WT.pure ⟨by simp [hl], fun q hq' => ?_⟩
      rcases List.mem_append.1 hq' with h | h
      · exact hq q h
      · rw [List.mem_singleton.1 h]; exact hp.1
    · refine WT.bindS (WT.updateTargets hE hm hp.2) (by omega) fun new hnew => ?_
      exact WT.weaken (WT.setPop ((hn _).2 (by rw [hnew.1, hp.1])) hnew.2) (by omega) (by omega)
  · refine WT.iterU 1 1 (by omega) (by omega) fun i hi => ?_
    refine WT.bind0 WT.get fun s hs => ?_
    refine WT.bind0 (WT.draw (hmk s i hs ((hn _).1 hs.len) hi)) fun p hp => ?_
    refine WT.bind0 (WT.modExt fun _ _ => hp.2) fun _ _ => ?_
    refine WT.bindS (WT.getTarget hp.1.1) (by omega) fun t ht => ?_
    exact WT.weaken (WT.setAt (fun m h => by rw [(hn m).1 h]; exact hi) ⟨ht, by rw [ht]; exact hp.1.2⟩) (by omega) (by omega)

theorem Framed.rebindLoopX {q : Bool} (hE : c.E.Lawful) {n : Nat} {mk : St c X Y → Nat → D c (Vec d K × X × Y)} :
    Framed q (Mealpy.rebindLoopX n mk) := by
  unfold Mealpy.rebindLoopX
  exact Framed.ite (.bind (.iter fun i _ => .bind .get fun _ => .bind .draw fun _ => .bind .modExt fun _ => .pure)
    fun _ => .bind (.liftB (.updateTargets hE)) fun _ => .setPop)
    (.iter fun i _ => .bind .get fun _ => .bind .draw fun _ => .bind .modExt fun _ => .bind (.liftB .getTarget) fun _ => .setAt)

/-! ## Slots filled with the best of several -/

/-- put into slot `i` some agent at least as good as `pop[i]` and as the held agents that are let go -/
theorem HJ.slotG {i : Nat} (hi : i < c.popSize) {G : List (Agent d K X)}
    {f : Agent d K X → M c X Y Unit} {G' : List (Agent d K X)}
    (hf : ∀ (s : St c X Y) (h : i < s.pop.length), ∃ a', f (s.pop[i]) s = .ok ((), { s with pop := s.pop.set i a' }) ∧
      (a' ∈ G ∨ a' = s.pop[i]) ∧ (∀ b ∈ G, b ∈ G' ∨ NoWorse c.P.mm a'.fit b.fit) ∧ NoWorse c.P.mm a'.fit (s.pop[i]).fit)
    (hG' : ∀ b ∈ G', b ∈ G) :
    HJ F J 0 0 G (popAt i >>= f : M c X Y Unit) (fun _ => G') (fun _ => True) := by
  intro s0 s l k hs0 hs
  have hil : i < s.pop.length := by rw [hs.good.len]; exact hi
  refine Wp.bind (Wp.popAt hil ?_)
  obtain ⟨a', h1, h2, h3, h4⟩ := hf s hil
  refine Wp.of_ok h1 ⟨?_, trivial⟩
  have hmem : ∀ b ∈ s.pop.set i a', b ∈ s.pop ∨ b ∈ G := by
    intro b hb
    rcases mem_set_iff hb with rfl | hb
    · rcases h2 with h | rfl
      · exact .inr h
      · exact .inl (List.getElem_mem _)
    · exact .inl hb
  have hin : a' ∈ s.pop.set i a' := List.mem_set hil a'
  have hcov : ∀ b ∈ s.pop, ∃ b' ∈ s.pop.set i a', NoWorse c.P.mm b'.fit b.fit := by
    intro b hb
    obtain ⟨j, hj, rfl⟩ := List.mem_iff_getElem.1 hb
    by_cases hij : i = j
    · subst hij
      exact ⟨a', hin, h4⟩
    · refine ⟨s.pop[j], ?_, NoWorse.rfl⟩
      rw [List.mem_iff_getElem]
      exact ⟨j, by simpa using hj, by rw [List.getElem_set_ne hij]⟩
  have hcovG : ∀ b ∈ G, b ∈ G' ∨ ∃ b' ∈ s.pop.set i a', NoWorse c.P.mm b'.fit b.fit := by
    intro b hb
    rcases h3 b hb with h | h
    · exact .inl h
    · exact .inr ⟨a', hin, h⟩
  obtain ⟨n1, a1, a2, a3, a4, a5⟩ := hs.evals
  refine ⟨⟨by rw [List.length_set]; exact hs.good.len, ?_, ?_, hs.good.ext⟩, hs.hist, hs.gbest, ⟨n1, a1, a2, a3, a4, ?_⟩, ?_,
    fun b hb => hs.held b (hG' b hb)⟩
  · intro b hb
    rcases hmem b hb with h | h
    · exact hs.good.ev b h
    · exact (hs.held b h).1
  · intro b hb
    rcases hmem b hb with h | h
    · exact hs.good.feas b h
    · exact (hs.held b h).2
  · intro x hx
    refine ⟨(a5 x hx).1, ?_⟩
    rcases (a5 x hx).2 with (⟨g, hg, hn⟩ | ⟨b, hb, hn⟩) | ⟨b, hb, hn⟩
    · exact .inl (.inl ⟨g, hg, hn⟩)
    · obtain ⟨b', hb', hn'⟩ := hcov b hb
      exact .inl (.inr ⟨b', hb', hn'.trans hn⟩)
    · rcases hcovG b hb with h | ⟨b', hb', hn'⟩
      · exact .inr ⟨b, h, hn⟩
      · exact .inl (.inr ⟨b', hb', hn'.trans hn⟩)
  · intro b hb
    obtain ⟨b', hb' | hb', hn⟩ := hs.keep b hb
    · obtain ⟨b'', hb'', hn'⟩ := hcov b' hb'
      exact ⟨b'', .inl hb'', hn'.trans hn⟩
    · rcases hcovG b' hb' with h | ⟨b'', hb'', hn'⟩
      · exact ⟨b', .inr h, hn⟩
      · exact ⟨b'', .inl hb'', hn'.trans hn⟩

/-- the first agent of `get_best_agent(l)`, `a` if there is none -/
def headBest (c : Cfg d K) (a : Agent d K X) (l : List (Agent d K X)) : Agent d K X := ((getSorted c.E.argsort l c.P.mm).1.head?).getD a

theorem headBest_spec (hE : c.E.Lawful) {a : Agent d K X} {l : List (Agent d K X)} (ha : a ∈ l) :
    headBest c a l ∈ l ∧ ∀ b ∈ l, NoWorse c.P.mm (headBest c a l).fit b.fit := by
  have hl : 0 < l.length := List.length_pos_of_mem ha
  have h := getSorted_length hE.argsortLaw l c.P.mm
  have hbf := getSorted_bestFirst hE.argsortLaw l c.P.mm
  have hmem : ∀ b, b ∈ (getSorted c.E.argsort l c.P.mm).1 ↔ b ∈ l := fun b => getSorted_mem hE.argsortLaw
  unfold headBest
  cases hs : (getSorted c.E.argsort l c.P.mm).1 with
  | nil => rw [hs] at h; simp at h; omega
  | cons x t =>
    rw [hs] at hbf hmem
    refine ⟨(hmem x).1 (by simp), fun b hb => ?_⟩
    rcases List.mem_cons.1 ((hmem b).2 hb) with rfl | h'
    · exact NoWorse.rfl
    · exact (List.pairwise_cons.1 hbf).1 b h'

/-- `self.pop[i] = self.get_best_agent([self.pop[i], *new])` -/
def slotBest (i : Nat) (new : List (Agent d K X)) : M c X Y Unit := do
  let old ← popAt i
  setAt i (headBest c old (old :: new))

theorem HJ.slotBest (hE : c.E.Lawful) {i : Nat} (hi : i < c.popSize) {G : List (Agent d K X)} :
    HJ F J 0 0 G (slotBest i G : M c X Y Unit) (fun _ => []) (fun _ => True) := by
  refine HJ.slotG hi (fun s h => ⟨headBest c s.pop[i] (s.pop[i] :: G), ?_, ?_, ?_, ?_⟩) (by simp)
  · unfold Mealpy.setAt; rw [if_pos h]
  · rcases List.mem_cons.1 (headBest_spec hE (l := s.pop[i] :: G) (a := s.pop[i]) (by simp)).1 with h | h
    · exact .inr h
    · exact .inl h
  · exact fun b hb => .inr ((headBest_spec hE (l := s.pop[i] :: G) (a := s.pop[i]) (by simp)).2 b (by simp [hb]))
  · exact (headBest_spec hE (l := s.pop[i] :: G) (a := s.pop[i]) (by simp)).2 _ (by simp)

theorem WT.slotBest (hE : c.E.Lawful) {I : Inv c X Y} {i : Nat} (hi : ∀ n, I.size n → i < n) {G : List (Agent d K X)}
    (hG : ∀ a ∈ G, I.Ag a) : WT Er I 0 0 (slotBest i G : M c X Y Unit) (fun _ => True) := by
  refine WT.bind0 (WT.popAt hi) fun old ho => WT.setAt hi ?_
  rcases List.mem_cons.1 (headBest_spec hE (l := old :: G) (a := old) (by simp)).1 with h | h
  · rw [h]; exact ho
  · exact hG _ h

theorem Framed.slotBest {q : Bool} {i : Nat} {G : List (Agent d K X)} : Framed q (slotBest i G : M c X Y Unit) :=
  .bind .popAt fun _ => .setAt

/-! ## Held agents that become the population -/

theorem RJ.bind {l1 h1 l2 h2 : Nat} {G : List (Agent d K X)} {m : M c X Y α} {f : α → M c X Y β} {H : α → List (Agent d K X)}
    {H' : β → List (Agent d K X)} {R : α → Prop} {Q : β → Prop} (hm : RJ F J l1 h1 G m H R)
    (h' : ∀ a, R a → RJ F J l2 h2 (H a) (f a) H' Q) : RJ F J (l1 + l2) (h1 + h2) G (m >>= f) H' Q := by
  intro s0 s l k hs0 hs
  refine Wp.bind (Wp.mono (hm s0 s l k hs0 hs) ?_)
  rintro a s1 ⟨g1, g2⟩
  refine Wp.mono (h' a g2 s0 s1 _ _ hs0 g1) ?_
  rintro b s2 ⟨g3, g4⟩
  exact ⟨by rw [← Nat.add_assoc, ← Nat.add_assoc]; exact g3, g4⟩

theorem RJ.weaken {lo hi lo' hi' : Nat} {G : List (Agent d K X)} {m : M c X Y α} {H : α → List (Agent d K X)} {R : α → Prop}
    (h : RJ F J lo hi G m H R) (h1 : lo' ≤ lo) (h2 : hi ≤ hi') : RJ F J lo' hi' G m H R := by
  intro s0 s l k hs0 hs
  refine Wp.mono (h s0 s l k hs0 hs) ?_
  rintro a s1 ⟨g1, g2⟩
  exact ⟨g1.weaken (by omega) (by omega), g2⟩

theorem RJ.mono {lo hi : Nat} {G : List (Agent d K X)} {m : M c X Y α} {H : α → List (Agent d K X)} {R Q : α → Prop}
    (h : RJ F J lo hi G m H R) (hQ : ∀ a, R a → Q a) : RJ F J lo hi G m H Q :=
  fun s0 s l k hs0 hs => Wp.mono (h s0 s l k hs0 hs) fun a _ g => ⟨g.1, hQ a g.2⟩

theorem RJ.pure {G : List (Agent d K X)} {a : α} {H : α → List (Agent d K X)} {R : α → Prop} (hH : H a = G) (h : R a) :
    RJ F J 0 0 G (Pure.pure a : M c X Y α) H R := by
  intro s0 s l k hs0 hs
  refine Wp.pure ⟨?_, h⟩
  rw [hH]; exact hs

theorem RJ.bind0 {l h : Nat} {G : List (Agent d K X)} {m : M c X Y α} {f : α → M c X Y β} {H : α → List (Agent d K X)}
    {H' : β → List (Agent d K X)} {R : α → Prop} {Q : β → Prop} (hm : RJ F J 0 0 G m H R)
    (h' : ∀ a, R a → RJ F J l h (H a) (f a) H' Q) : RJ F J l h G (m >>= f) H' Q := by
  have := RJ.bind hm h'
  rwa [Nat.zero_add, Nat.zero_add] at this

theorem RJ.iter {f : Nat → α → M c X Y α} {lo hi : Nat} (H : α → List (Agent d K X)) (P : Nat → α → Prop) : ∀ (n : Nat) {a : α},
    P 0 a → (∀ (i : Nat) (a : α), i < n → P i a → RJ F J lo hi (H a) (f i a) H (P (i + 1))) →
    RJ F J (n * lo) (n * hi) (H a) (Mealpy.iter n f a) H (P n)
  | 0, a, h0, _ => by
    rw [Nat.zero_mul, Nat.zero_mul]
    exact RJ.pure rfl h0
  | n + 1, a, h0, hf => by
    have := RJ.bind (RJ.iter H P n h0 (fun i a hi => hf i a (by omega))) (fun a ha => hf n a (by omega) ha)
    rw [Nat.succ_mul, Nat.succ_mul]
    exact this

/-- `self.generate_agent()`, held -/
theorem HJ.generateAgent (hP : c.P.Lawful) {G : List (Agent d K X)} {mkExt : Vec d K → D c X}
    (hmk : ∀ x, Feas c x → DT noErr (mkExt x) (fun e => F ⟨x, c.P.target x, e⟩)) :
    HJ F J 1 1 G (liftB (Mealpy.generateAgent mkExt) : M c X Y _) (fun a => G ++ [a]) (fun a => F a) := by
  intro s0 s l k hs0 hs
  refine Wp.liftB (Wp.bind (Wp.liftD (DT.genSolution hP) ?_))
  intro x r v hx
  refine Wp.mono (agentOf_spec (hmk x hx)) ?_
  rintro a b' ⟨h1, h2, h3, h4, h5⟩
  have hb : Batch F s [a] { s with base := b' } := by
    refine ⟨?_, ⟨[x], h4, by simp [h1]⟩, by simpa using h5, rfl, rfl, rfl, rfl⟩
    intro a' ha'
    rw [List.mem_singleton.1 ha']
    exact ⟨by rw [h1]; exact hx, h3, by rw [h2, h1]⟩
  exact ⟨hs.trans (ImpH.ofBatch hs.good hb), h3⟩

/-- `n` times `self.generate_agent()` -/
def genAgents (n : Nat) (mkExt : Vec d K → D c X) : M c X Y (List (Agent d K X)) :=
  iter n (fun _ acc => do
    let a ← liftB (generateAgent mkExt)
    pure (acc ++ [a])) []

theorem HJ.genAgents (hP : c.P.Lawful) {n : Nat} {G : List (Agent d K X)} {mkExt : Vec d K → D c X}
    (hmk : ∀ x, Feas c x → DT noErr (mkExt x) (fun e => F ⟨x, c.P.target x, e⟩)) :
    HJ F J n n G (Mealpy.genAgents n mkExt : M c X Y _) (fun l => G ++ l) (fun l => l.length = n ∧ ∀ a ∈ l, F a) := by
  have h := HJ.iter (F := F) (J := J) (c := c) (X := X) (Y := Y) (lo := 1) (hi := 1) (f := fun _ acc => do
    let a ← liftB (Mealpy.generateAgent mkExt)
    Pure.pure (acc ++ [a])) (fun l : List (Agent d K X) => G ++ l)
    (fun i (l : List (Agent d K X)) => l.length = i ∧ ∀ a ∈ l, F a) n (a := []) ⟨rfl, by simp⟩ (by
      rintro i l hi ⟨h1, h2⟩
      refine HJ.bindS (HJ.generateAgent hP hmk) (by omega) fun a ha => HJ.weaken (HJ.pure (by simp) ⟨by simp [h1], ?_⟩) (by omega) (by omega)
      intro b hb
      rcases List.mem_append.1 hb with hb | hb
      · exact h2 b hb
      · rw [List.mem_singleton.1 hb]; exact ha)
  rw [Nat.mul_one, List.append_nil] at h
  exact h

theorem Framed.genAgents {q : Bool} {n : Nat} {mkExt : Vec d K → D c X} : Framed q (Mealpy.genAgents n mkExt : M c X Y _) :=
  .iter fun _ _ => .bind (.liftB .generateAgent) fun _ => .pure

/-- `best, _ = self.get_best_agent(new, minmax); self.pop[i] = self.get_better_agent(best, self.pop[i], minmax)` -/
def slotTop (i : Nat) (new : List (Agent d K X)) : M c X Y Unit := do
  let b ← draw (bestAgent new)
  let old ← popAt i
  setAt i (getBetterAgent b old c.P.mm)

theorem HJ.slotTop (hE : c.E.Lawful) {i : Nat} (hi : i < c.popSize) {G : List (Agent d K X)} (hG : 0 < G.length) :
    HJ F J 0 0 G (Mealpy.slotTop i G : M c X Y Unit) (fun _ => []) (fun _ => True) :=
  HJ.bind0 (HJ.draw (DT.bestAgent' hE hG)) fun _ hb => HJ.slotBetter hi hb.1 (fun x hx => .inr (hb.2 x hx)) (by simp)

theorem WT.slotTop {I : Inv c X Y} (hE : c.E.Lawful) {i : Nat} (hi : ∀ n, I.size n → i < n) {G : List (Agent d K X)} (h0 : 0 < G.length)
    (hG : ∀ a ∈ G, I.Ag a) : WT Er I 0 0 (Mealpy.slotTop i G : M c X Y Unit) (fun _ => True) :=
  WT.bind0 (WT.draw (DT.bestAgent hE h0)) fun b hb => WT.bind0 (WT.popAt hi) fun old ho => WT.setAt hi
    (by rcases (getBetterAgent_cases b old c.P.mm).1 with h | h <;> rw [h]; exacts [hG _ hb, ho])

theorem Framed.slotTop {q : Bool} {i : Nat} {G : List (Agent d K X)} : Framed q (Mealpy.slotTop i G : M c X Y Unit) :=
  .bind .draw fun _ => .bind .popAt fun _ => .setAt

/-! ## Sorted populations -/

theorem DT.sortedPop' (hE : c.E.Lawful) {pop : List (Agent d K X)} :
    DT Er (Mealpy.sortedPop pop : D c _) (fun l => l.length = pop.length ∧ (∀ a, a ∈ l ↔ a ∈ pop) ∧
      l.Pairwise (fun a b => NoWorse c.P.mm a.fit b.fit)) :=
  DT.pure ⟨getSorted_length hE.argsortLaw pop c.P.mm, fun a => getSorted_mem hE.argsortLaw, getSorted_bestFirst hE.argsortLaw pop c.P.mm⟩

/-- the first agent is a best one, the last a worst one -/
theorem sorted_ends {mm : MinMax} {l : List (Agent d K X)} (hp : l.Pairwise (fun a b => NoWorse mm a.fit b.fit)) (hl : 0 < l.length) :
    ∀ x ∈ l, NoWorse mm (l[0]'hl).fit x.fit ∧ NoWorse mm x.fit (l[l.length - 1]'(by omega)).fit := by
  intro x hx
  obtain ⟨i, hi, rfl⟩ := List.mem_iff_getElem.1 hx
  constructor
  · rcases Nat.eq_zero_or_pos i with rfl | h0
    · exact NoWorse.rfl
    · exact List.pairwise_iff_getElem.1 hp 0 i hl hi h0
  · by_cases h0 : i = l.length - 1
    · subst h0; exact NoWorse.rfl
    · exact List.pairwise_iff_getElem.1 hp i (l.length - 1) hi (by omega) (by omega)

/-! ## Groups -/

/-- each of the `n` groups of `m` agents is sorted and its last agent replaced by one of `new` -/
def regroup (c : Cfg d K) (n m : Nat) (new pop : List (Agent d K X)) : List (Agent d K X) :=
  (List.zipWith (fun g a => (getSorted c.E.argsort g c.P.mm).1.take (m - 1) ++ [a]) (generateGroups pop n m) new).flatten

theorem regroup_spec (hE : c.E.Lawful) {n m : Nat} (hnm : n * m = c.popSize) (hm : 2 ≤ m) {new pop : List (Agent d K X)}
    (hn : new.length = n) (hp : pop.length = c.popSize) :
    (regroup c n m new pop).length = c.popSize ∧ (∀ a ∈ regroup c n m new pop, a ∈ pop ∨ a ∈ new) ∧
      ∀ a, a ∈ pop ∨ a ∈ new → ∃ a' ∈ regroup c n m new pop, NoWorse c.P.mm a'.fit a.fit := by
  obtain ⟨g1, g2, g3, -⟩ := C22_groups pop n m
  have g3 := g3 (by omega)
  rw [List.take_of_length_le (by omega)] at g2
  have hgp : ∀ g ∈ generateGroups pop n m, ∀ a ∈ g, a ∈ pop := fun g hg a ha => by
    rw [← g2]; exact List.mem_flatten.2 ⟨g, hg, ha⟩
  have hs : ∀ g : List (Agent d K X), ∀ a, a ∈ (getSorted c.E.argsort g c.P.mm).1 ↔ a ∈ g := fun g a => getSorted_mem hE.argsortLaw
  refine ⟨?_, ?_, ?_⟩
  · have : ∀ l ∈ List.zipWith (fun g a => (getSorted c.E.argsort g c.P.mm).1.take (m - 1) ++ [a]) (generateGroups pop n m) new,
        l.length = m := by
      intro l hl
      obtain ⟨g, hg, a, ha, rfl⟩ := mem_zipWith' hl
      have := getSorted_length hE.argsortLaw g c.P.mm
      have := g3 g hg
      simp; omega
    unfold regroup
    rw [List.length_flatten, List.map_congr_left this, List.map_const', List.sum_replicate]
    simp [g1, hn, hnm]
  · intro a ha
    obtain ⟨l, hl, hal⟩ := List.mem_flatten.1 ha
    obtain ⟨g, hg, b, hb, rfl⟩ := mem_zipWith' hl
    rcases List.mem_append.1 hal with h | h
    · exact .inl (hgp g hg a ((hs g a).1 (List.mem_of_mem_take h)))
    · rw [List.mem_singleton.1 h]; exact .inr hb
  · rintro a (ha | ha)
    · rw [← g2] at ha
      obtain ⟨g, hg, hag⟩ := List.mem_flatten.1 ha
      obtain ⟨i, hi, rfl⟩ := List.mem_iff_getElem.1 hg
      obtain ⟨a', h1, h2⟩ := sorted_take_cover (c := c) hE (n := m - 1) (by omega) hag
      refine ⟨a', List.mem_flatten.2 ⟨_, List.mem_of_getElem (i := i) (h := by simp; omega) rfl, ?_⟩, h2⟩
      rw [List.getElem_zipWith]
      exact List.mem_append_left _ h1
    · obtain ⟨i, hi, rfl⟩ := List.mem_iff_getElem.1 ha
      refine ⟨new[i], List.mem_flatten.2 ⟨_, List.mem_of_getElem (i := i) (h := by simp; omega) rfl, ?_⟩, NoWorse.rfl⟩
      rw [List.getElem_zipWith]
      exact List.mem_append_right _ (by simp)

/-! ## Algorithms with a `before_main_loop` that sets attributes -/

/-- As `Algo.full`; `before_main_loop` computes the attributes from the state. -/
def Algo.pre (sf : Bool) (mkExt : Vec d K → D c X) (init : D c Y) (before : St c X Y → D c Y) (evolve : Nat → M c X Y Unit) :
    Algo c X Y where
  sortFlag := sf
  mkExt := mkExt
  initVars := init
  initialization := defaultInit mkExt
  beforeMain := do
    let s ← get
    let y ← draw (before s)
    modExt (fun _ => y)
  evolve := evolve

theorem Algo.pre_ok (hE : c.E.Lawful) (hP : c.P.Lawful) {sf : Bool} {mkExt : Vec d K → D c X} {init : D c Y} {before : St c X Y → D c Y}
    {ev : Nat → M c X Y Unit} {lo hi : Nat} (hm : ∀ x, Feas c x → DT noErr (mkExt x) (fun _ => True))
    (hv : DT noErr init JT)
    (hb : ∀ s : St c X Y, s.pop.length = c.popSize → DT noErr (before s) J)
    (h : ∀ ep, 1 ≤ ep → ep ≤ c.epoch → PT (FA c) J lo hi (ev ep) (fun _ => True)) :
    (Algo.pre sf mkExt init before ev).Ok (FA c) JT JT J c.popSize lo hi := by
  have h0 := Algo.full_ok (J := JT) (lo := 0) (hi := 0) (sf := sf) (ev := fun _ => Pure.pure ()) hE hP hm hv (fun _ _ _ => IT.pt (IT.pure trivial))
  refine ⟨h0.mkExt, h0.initVars, h0.init, ?_, fun ep s h1 h2 hs => Wp.mono (h ep h1 h2 s hs.mid) fun _ _ h => h.1⟩
  intro s hs
  refine Wp.bind (Wp.get (Wp.bind (Wp.draw (hb s hs.len) fun y r v hy => Wp.modify ?_)))
  exact ⟨⟨⟨hs.len, hs.ev, hs.feas, hy⟩, rfl, [], by simp, by simp, by simp, by simp, by simp⟩, rfl⟩

theorem Algo.pre_wok (hE : c.E.Lawful) (hP : c.P.Lawful) (hpos : 0 < c.popSize) {sf : Bool} {mkExt : Vec d K → D c X} {init : D c Y}
    {before : St c X Y → D c Y} {ev : Nat → M c X Y Unit} {lo hi : Nat} (hm : ∀ x, Feas c x → DT Er (mkExt x) (fun _ => True))
    (hv : DT Er init JT) (hb : ∀ s : St c X Y, s.pop.length = c.popSize → DT Er (before s) J)
    (h : ∀ ep, 1 ≤ ep → ep ≤ c.epoch → WT Er (Inv.std c X J) lo hi (ev ep) (fun _ => True)) :
    (Algo.pre sf mkExt init before ev).WOk Er (Inv.std c X J) JT JT c.popSize c.popSize 0 0 lo hi := by
  refine Algo.before_wok (I := Inv.std c X J) hE hP hpos rfl (fun n hn => by change n = _ at hn; omega) rfl (Inv.std_box hm) hv ?_ h
  intro s hs
  refine Wp.bind (Wp.get (Wp.bind (Wp.draw (hb s hs.len) fun y r v hy => Wp.modify ?_)))
  exact ⟨⟨hs.len, hs.pop, hy, hs.gbest, hs.record, hs.worst, hs.cbest, hs.cworst⟩, .refl rfl, .rfl⟩

theorem Framed.preBefore {q : Bool} {before : St c X Y → D c Y} : Framed q (do
    let s ← MonadState.get
    let y ← Mealpy.draw (before s)
    Mealpy.modExt (fun _ => y) : M c X Y Unit) := .bind .get fun _ => .bind .draw fun _ => .modExt

/-! ## Numbers -/

/-- `x[i]` -/
def Vec.at (x : Vec d K) (i : Nat) : K := if h : i < d then x ⟨i, h⟩ else 0

/-- `np.argmax(l)` -/
def argmaxL (l : List K) : Nat := l.findIdx (fun x => decide (x = maxL l))

theorem argmaxL_lt {l : List K} (h : 0 < l.length) : argmaxL l < l.length := by
  unfold argmaxL
  rw [List.findIdx_lt_length]
  obtain ⟨m, hm⟩ := listMax_isSome (List.length_pos_iff.1 h)
  exact ⟨m, (listMax_some hm).1, by simp [maxL, hm]⟩

/-- `np.argmin(l)` -/
def argminL (l : List K) : Nat := l.findIdx (fun x => decide (x = minL l))

/-! ## Steps -/

macro_rules
  | `(tactic| istep) => `(tactic| first
    | (at_head greedyLoopM; refine IT.weaken (IT.greedyLoopM (lo := 0) (hi := 0) (by assumption) (fun i hi => ?_)) (by omega) (by omega))
    | (at_bind greedyLoopM; refine IT.bindS (IT.greedyLoopM (lo := 0) (hi := 0) (by assumption) (fun i hi => ?_)) (by omega) (fun _ _ => ?_)))

macro_rules
  | `(tactic| wstep) => `(tactic| first
    | (at_bind slotBest; refine WT.bind0 (WT.slotBest (by assumption) (by wsz) (by wcf)) (fun _ _ => ?_))
    | (at_head slotTop; exact WT.weaken (WT.slotTop (by assumption) (by wsz) (by dside) (by wcf)) (by omega) (by omega))
    | (at_head slotBest; exact WT.weaken (WT.slotBest (by assumption) (by wsz) (by wcf)) (by omega) (by omega)))

macro_rules
  | `(tactic| hstep) => `(tactic| first
    | (at_bind buildEvalM; refine HJ.bindS (HJ.buildEvalM (lo := 0) (hi := 0) (by assumption) (fun i hi => ?_)) (by omega) (fun _ _ => ?_))
    | (at_bind genAgents; refine HJ.bindS (HJ.genAgents (by assumption) (fun x hx => DT.pure hx)) (by omega) (fun _ _ => ?_))
    | (at_head slotTop; exact HJ.weaken (HJ.slotTop (by assumption) (by omega) (by dside)) (by omega) (by omega))
    | (at_head slotBest; exact HJ.weaken (HJ.slotBest (by assumption) (by omega)) (by omega) (by omega)))

macro_rules
  | `(tactic| fprim) => `(tactic| first
    | (at_last greedyLoopM; refine Framed.greedyLoopM (by assumption) (fun i => ?_))
    | (at_last buildEvalM; refine Framed.buildEvalM (by assumption) (fun i => ?_))
    | (at_last rebindLoopX; exact Framed.rebindLoopX (by assumption))
    | (at_last genAgents; exact Framed.genAgents)
    | (at_last slotTop; exact Framed.slotTop)
    | (at_last slotBest; exact Framed.slotBest))

end Mealpy
