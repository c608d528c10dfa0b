import Verif.Alg.Kit8

/-! # Loops whose body rebinds the loop variable, and tables used by several optimizers -/

set_option linter.unusedSectionVars false
set_option linter.unusedVariables false

namespace Mealpy
open Spec

variable {d : Nat} {K : Type} [Num K] {c : Cfg d K} {X Y α β : Type}
variable {F : Agent d K X → Prop} {J : Y → Prop} {Er : Err → Prop}

/-- `greedyLoop` whose body may rebind `idx` (`mealpy/swarm_based/AO.py:84-108`): in `single` mode the new agent competes for the slot the body
ends with, in the other modes for the slot the loop counts. -/
def greedyLoopAt (n : Nat) (mk : St c X Y → Nat → D c (Nat × (Vec d K × X))) : M c X Y Unit :=
  if c.swarmLike then do
    let s ← get
    let pend ← draw (buildPending n (fun i => do
      let q ← mk s i
      pure q.2))
    let new ← liftB (updateTargets pend)
    selectGreedy new
  else
    iter n (fun i _ => do
      let s ← get
      let q ← draw (mk s i)
      tryBetter q.1 q.2) ()

theorem IT.greedyLoopAt (hE : c.E.Lawful) {mk : St c X Y → Nat → D c (Nat × (Vec d K × X))}
    (hmk : ∀ (s : St c X Y) (i : Nat), Mid F J s → s.pop.length = c.popSize → i < c.popSize →
      DT noErr (mk s i) (fun q => q.1 < c.popSize ∧ MkOk F c q.2)) :
    IT F J c.popSize c.popSize (greedyLoopAt c.popSize mk) (fun _ => True) := by
  intro s hs
  unfold Mealpy.greedyLoopAt
  by_cases hm : c.swarmLike = true
  · have := IT.greedyLoop (F := F) (J := J) hE (mk := fun s i => do
      let q ← mk s i
      Pure.pure q.2) (fun s i h1 h2 h3 => DT.bind (hmk s i h1 h2 h3) fun q hq => DT.pure hq.2) s hs
    unfold Mealpy.greedyLoop at this
    rw [if_pos hm] at this ⊢
    exact this
  · rw [if_neg hm]
    refine IT.iterS 1 1 (by omega) (by omega) (fun i hi => ?_) s hs
    refine IT.bind0 IT.get fun s hs => ?_
    exact IT.bind0 (IT.draw (hmk s i hs hs.len hi)) fun p hp => IT.tryBetter hp.1 hp.2

theorem Framed.greedyLoopAt {q : Bool} (hE : c.E.Lawful) {n : Nat} {mk : St c X Y → Nat → D c (Nat × (Vec d K × X))} :
    Framed q (greedyLoopAt n mk : M c X Y _) :=
  .ite (.bind .get fun _ => .bind .draw fun _ => .bind (.liftB (.updateTargets hE)) fun _ => .selectGreedy)
    (.iter fun _ _ => .bind .get fun _ => .bind .draw fun _ => .tryBetter)

macro_rules
  | `(tactic| fprim) => `(tactic| (at_last greedyLoopAt; exact Framed.greedyLoopAt (by assumption)))

/-- the running sums of a list (`np.cumsum`) -/
def cumsum (l : List K) : List K := (List.range l.length).map (fun i => sumL (l.take (i + 1)))

/-- the first index whose entry exceeds `r`, if any (`np.where(r < l)[0][0]`) -/
def firstAbove (l : List K) (r : K) : Option Nat := l.findIdx? (fun x => decide (r < x))

theorem firstAbove_lt {l : List K} {r : K} {i : Nat} (h : firstAbove l r = some i) : i < l.length := by
  unfold firstAbove at h
  exact (List.findIdx?_eq_some_iff_getElem.1 h).1

theorem DT.pickOne (hE : c.E.Lawful) {n i : Nat} (h : 2 ≤ n) : DT Er (Mealpy.pickWithout n [i] : D c Nat) (fun k => k < n) :=
  DT.mono (DT.pickWithout hE (by simp; omega)) fun _ h => h.1

theorem DT.vecMT {n : Nat} {m : Fin n → D c α} (h : ∀ j, DT Er (m j) (fun _ => True)) : DT Er (Mealpy.vecM m) (fun _ => True) :=
  DT.mono (DT.vecM (Q := fun _ _ => True) h) fun _ _ => trivial

/-- as `HJ.getHold`; the agents may also be `g_best` -/
theorem HJ.getHoldG {l h : Nat} {G : List (Agent d K X)} {f : St c X Y → M c X Y β} {H : β → List (Agent d K X)} {Q : β → Prop}
    (sel : St c X Y → List (Agent d K X)) (hsel : ∀ s a, a ∈ sel s → a ∈ s.pop ∨ a = s.gbest)
    (h' : ∀ s, Mid F J s → HJ F J l h (G ++ sel s) (f s) H Q) :
    HJ F J l h G ((MonadState.get : M c X Y _) >>= f) H Q := by
  intro s0 s l k hs0 hs
  have hm := hs.mid hs0
  refine Wp.bind (Wp.get ?_)
  refine h' s hm s0 s l k hs0 ?_
  refine hs.swap (fun a ha => ⟨a, List.mem_append_left _ ha, NoWorse.rfl⟩) fun a ha => ?_
  rcases List.mem_append.1 ha with g | g
  · exact hs.held a g
  · rcases hsel s a g with g | rfl
    · exact ⟨hs.good.ev a g, hs.good.feas a g⟩
    · exact ⟨hm.gev, hm.gfeas⟩

/-- `greedyLoopR` for a body that makes its agent by `generate_agent`, which evaluates it, so that each agent is evaluated twice
(`mealpy/swarm_based/NMRA.py:69-86`) -/
def greedyTwice (n : Nat) (mk : St c X Y → Nat → D c (Vec d K × X)) : M c X Y Unit :=
  if c.swarmLike then do
    let s ← get
    let pend ← iter n (fun i acc => do
      let p ← draw (mk s i)
      let _ ← liftB (getTarget p.1)
      pure (acc ++ [p])) []
    let new ← liftB (updateTargets pend)
    selectGreedy new
  else
    iter n (fun i _ => do
      let s ← get
      let p ← draw (mk s i)
      let _ ← liftB (getTarget p.1)
      tryBetterR i p) ()

theorem WT.greedyTwice {I : Inv c X Y} (hE : c.E.Lawful) {n : Nat} (hn : ∀ m, I.size m → m = n) {mk : St c X Y → Nat → D c (Vec d K × X)}
    (hmk : ∀ (s : St c X Y) (i : Nat), WInv I s → s.pop.length = n → i < n → DT Er (mk s i) I.Mk) :
    WT Er I (n * 2) (n * 2) (greedyTwice n mk) (fun _ => True) := by
  unfold Mealpy.greedyTwice
  refine WT.ite (fun hm => ?_) (fun hm => ?_)
  · refine WT.bind0 WT.get fun s hs => ?_
    refine WT.bindS (l1 := n) (h1 := n) (WT.iterL 1 1 I.Mk (by omega) (by omega) fun i l hi hl hq => ?_) (by omega) fun pend hp => ?_
    · refine WT.bind0 (WT.draw (hmk s i hs (hn _ hs.len) hi)) fun p hp => ?_
      refine WT.bindS (WT.getTarget hp.1) (by omega) fun t _ => WT.weaken (WT.pure ⟨by simp [hl], fun a ha => ?_⟩) (by omega) (by omega)
      rcases List.mem_append.1 ha with h | h
      · exact hq a h
      · rw [List.mem_singleton.1 h]; exact hp
    · refine WT.bindS (WT.updateTargets hE hm hp.2) (by omega) fun new hnew => ?_
      exact WT.weaken (WT.selectGreedy (fun m h => by rw [hn m h, hnew.1, hp.1]) hnew.2) (by omega) (by omega)
  · refine WT.iterU 2 2 (by omega) (by omega) fun i hi => ?_
    refine WT.bind0 WT.get fun s hs => ?_
    refine WT.bind0 (WT.draw (hmk s i hs (hn _ hs.len) hi)) fun p hp => WT.bindS (WT.getTarget hp.1) (by omega) fun t _ => ?_
    exact WT.tryBetterR (fun m h => by rw [hn m h]; exact hi) hp

theorem Framed.greedyTwice {q : Bool} (hE : c.E.Lawful) {n : Nat} {mk : St c X Y → Nat → D c (Vec d K × X)} :
    Framed q (greedyTwice n mk : M c X Y _) :=
  .ite (.bind .get fun _ => .bind (.iter fun _ _ => .bind .draw fun _ => .bind (.liftB .getTarget) fun _ => .pure) fun _ =>
      .bind (.liftB (.updateTargets hE)) fun _ => .selectGreedy)
    (.iter fun _ _ => .bind .get fun _ => .bind .draw fun _ => .bind (.liftB .getTarget) fun _ => .tryBetterR)

macro_rules
  | `(tactic| fprim) => `(tactic| (at_last greedyTwice; exact Framed.greedyTwice (by assumption)))

end Mealpy
