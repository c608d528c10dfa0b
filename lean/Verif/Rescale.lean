import Verif.Alg.Base
import Verif.Tactics
import Verif.Alg.Kit
import Verif.Alg.Kit2
import Verif.Props.Dual

/-!
# Two runs on two fitness scales

`c.rescale g` is the configuration `c` with the objective composed with `g`.  `SimD`, `SimB` and `Sim` say that a computation on the new scale
does what the one on the old scale does, with every fitness it holds sent through `g`.
-/

set_option linter.unusedSectionVars false
set_option linter.unusedVariables false

namespace Mealpy

variable {d : Nat} {K : Type} [Num K]

/-- the target with its objectives and its fitness on the other scale -/
def Target.rescale (g : K → K) (t : Target K) : Target K := ⟨t.objectives.map g, g t.fitness⟩

/-- the same task with the objective on the other scale -/
def Cfg.rescale (g : K → K) (c : Cfg d K) : Cfg d K :=
  { c with P := { c.P with target := fun x => (c.P.target x).rescale g } }

/-- generators, the positions evaluated and the counter are the same; only the type changes -/
def Base.rescale (g : K → K) {c : Cfg d K} (b : Base c) : Base (c.rescale g) where
  rng := b.rng
  vg := b.vg
  log := b.log
  nfe := b.nfe

/-- the history with every fitness on the other scale; diversity and times are the same -/
def Hist.rescale (g : K → K) {X : Type} (h : Hist d K X) : Hist d K X where
  globalBest := h.globalBest.map (·.rescale g)
  currentBest := h.currentBest.map (·.rescale g)
  globalWorst := h.globalWorst.map (·.rescale g)
  currentWorst := h.currentWorst.map (·.rescale g)
  globalBestFit := h.globalBestFit.map g
  currentBestFit := h.currentBestFit.map g
  diversity := h.diversity
  epochTime := h.epochTime
  population := h.population.map (List.map (·.rescale g))

/-- the final history with every fitness on the other scale; exploration, exploitation, diversity and times are the same -/
def FinalHist.rescale (g : K → K) {X : Type} (h : FinalHist d K X) : FinalHist d K X where
  epoch := h.epoch
  exploration := h.exploration
  exploitation := h.exploitation
  globalBest := h.globalBest.map (·.rescale g)
  currentBest := h.currentBest.map (·.rescale g)
  globalWorst := h.globalWorst.map (·.rescale g)
  currentWorst := h.currentWorst.map (·.rescale g)
  globalBestFit := h.globalBestFit.map g
  currentBestFit := h.currentBestFit.map g
  diversity := h.diversity
  epochTime := h.epochTime
  population := h.population.map (List.map (·.rescale g))

/-- the optimizer object with every fitness on the other scale -/
def St.rescale (g : K → K) {c : Cfg d K} {X Y : Type} (s : St c X Y) : St (c.rescale g) X Y where
  base := s.base.rescale g
  pop := s.pop.map (·.rescale g)
  gbest := s.gbest.rescale g
  hist := s.hist.rescale g
  ext := s.ext

variable {c : Cfg d K} {g : K → K} {X Y α β γ δ : Type}

/-- generator code: the same draws, the result sent through `f` -/
def SimD (m : D c α) (m' : D (c.rescale g) β) (f : α → β) : Prop :=
  ∀ r : c.E.σ × c.P.S, m' r = (m r).map (fun p => (f p.1, p.2))

/-- code that evaluates -/
def SimB (m : B c α) (m' : B (c.rescale g) β) (f : α → β) : Prop :=
  ∀ b : Base c, m' (b.rescale g) = (m b).map (fun p => (f p.1, p.2.rescale g))

/-- code of an optimizer -/
def Sim (m : M c X Y α) (m' : M (c.rescale g) X Y β) (f : α → β) : Prop :=
  ∀ s : St c X Y, m' (s.rescale g) = (m s).map (fun p => (f p.1, p.2.rescale g))

theorem SimD.pure {a : α} {b : β} {f : α → β} (h : b = f a) : SimD (c := c) (g := g) (pure a) (pure b) f := by
  intro r; subst h; rfl

theorem SimB.pure {a : α} {b : β} {f : α → β} (h : b = f a) : SimB (c := c) (g := g) (pure a) (pure b) f := by
  intro r; subst h; rfl

theorem Sim.pure {a : α} {b : β} {f : α → β} (h : b = f a) : Sim (c := c) (g := g) (X := X) (Y := Y) (pure a) (pure b) f := by
  intro r; subst h; rfl

theorem SimD.same (m : D c α) : SimD (c := c) (g := g) m m id := by
  intro r
  show m r = (m r).map _
  rcases m r with e | p
  · rfl
  · rfl

theorem SimD.bind {m : D c α} {m' : D (c.rescale g) β} {f : α → β} {k : α → D c γ} {k' : β → D (c.rescale g) δ} {h : γ → δ}
    (hm : SimD m m' f) (hk : ∀ a, SimD (k a) (k' (f a)) h) : SimD (m >>= k) (m' >>= k') h := by
  intro r
  show (m' r).bind (fun p => k' p.1 p.2) = ((m r).bind (fun p => k p.1 p.2)).map _
  rw [hm r]
  rcases m r with e | p
  · rfl
  · exact hk p.1 p.2

theorem SimB.bind {m : B c α} {m' : B (c.rescale g) β} {f : α → β} {k : α → B c γ} {k' : β → B (c.rescale g) δ} {h : γ → δ}
    (hm : SimB m m' f) (hk : ∀ a, SimB (k a) (k' (f a)) h) : SimB (m >>= k) (m' >>= k') h := by
  intro r
  show (m' (r.rescale g)).bind (fun p => k' p.1 p.2) = ((m r).bind (fun p => k p.1 p.2)).map _
  rw [hm r]
  rcases m r with e | p
  · rfl
  · exact hk p.1 p.2

theorem Sim.bind {m : M c X Y α} {m' : M (c.rescale g) X Y β} {f : α → β} {k : α → M c X Y γ} {k' : β → M (c.rescale g) X Y δ} {h : γ → δ}
    (hm : Sim m m' f) (hk : ∀ a, Sim (k a) (k' (f a)) h) : Sim (m >>= k) (m' >>= k') h := by
  intro r
  show (m' (r.rescale g)).bind (fun p => k' p.1 p.2) = ((m r).bind (fun p => k p.1 p.2)).map _
  rw [hm r]
  rcases m r with e | p
  · rfl
  · exact hk p.1 p.2

theorem SimD.lift {m : D c α} {m' : D (c.rescale g) β} {f : α → β} (h : SimD m m' f) : SimB (liftD m) (liftD m') f := by
  intro b
  have := h (b.rng, b.vg)
  unfold liftD
  rw [show m' ((b.rescale g).rng, (b.rescale g).vg) = _ from this]
  rcases m (b.rng, b.vg) with e | p
  · rfl
  · rfl

theorem SimB.lift {m : B c α} {m' : B (c.rescale g) β} {f : α → β} (h : SimB m m' f) : Sim (X := X) (Y := Y) (liftB m) (liftB m') f := by
  intro s
  have := h s.base
  unfold liftB
  rw [show m' (s.rescale g).base = _ from this]
  rcases m s.base with e | p
  · rfl
  · rfl

theorem SimD.draw {m : D c α} {m' : D (c.rescale g) β} {f : α → β} (h : SimD m m' f) : Sim (X := X) (Y := Y) (draw m) (draw m') f :=
  h.lift.lift

theorem SimD.nth {l : List α} {f : α → β} {i : Nat} : SimD (c := c) (g := g) (Mealpy.nth l i) (Mealpy.nth (l.map f) i) f := by
  intro r
  unfold Mealpy.nth
  rw [List.getElem?_map]
  rcases l[i]? with _ | a
  · rfl
  · rfl

theorem SimD.iter {n : Nat} {k : Nat → α → D c α} {k' : Nat → β → D (c.rescale g) β} {f : α → β}
    (hk : ∀ i a, SimD (k i a) (k' i (f a)) f) {a : α} {b : β} (h : b = f a) : SimD (Mealpy.iter n k a) (Mealpy.iter n k' b) f := by
  induction n with
  | zero => exact SimD.pure h
  | succ n ih => exact ih.bind (fun a => hk n a)

theorem SimB.iter {n : Nat} {k : Nat → α → B c α} {k' : Nat → β → B (c.rescale g) β} {f : α → β}
    (hk : ∀ i a, SimB (k i a) (k' i (f a)) f) {a : α} {b : β} (h : b = f a) : SimB (Mealpy.iter n k a) (Mealpy.iter n k' b) f := by
  induction n with
  | zero => exact SimB.pure h
  | succ n ih => exact ih.bind (fun a => hk n a)

theorem Sim.iter {n : Nat} {k : Nat → α → M c X Y α} {k' : Nat → β → M (c.rescale g) X Y β} {f : α → β}
    (hk : ∀ i a, Sim (k i a) (k' i (f a)) f) {a : α} {b : β} (h : b = f a) : Sim (Mealpy.iter n k a) (Mealpy.iter n k' b) f := by
  induction n with
  | zero => exact Sim.pure h
  | succ n ih => exact ih.bind (fun a => hk n a)

theorem Sim.get : Sim (c := c) (g := g) (X := X) (Y := Y) get get (·.rescale g) := fun s => rfl

theorem Sim.modify {u : St c X Y → St c X Y} {u' : St (c.rescale g) X Y → St (c.rescale g) X Y}
    (h : ∀ s, u' (s.rescale g) = (u s).rescale g) : Sim (modify u) (modify u') id := by
  intro s
  show Except.ok (_, u' (s.rescale g)) = _
  rw [h s]; rfl

theorem SimB.modify {u : Base c → Base c} {u' : Base (c.rescale g) → Base (c.rescale g)}
    (h : ∀ s, u' (s.rescale g) = (u s).rescale g) : SimB (modify u) (modify u') id := by
  intro s
  show Except.ok (_, u' (s.rescale g)) = _
  rw [h s]; rfl

theorem SimB.getTarget {x : Vec d K} {ct : Bool} : SimB (c := c) (g := g) (getTarget x ct) (getTarget x ct) (Target.rescale g) :=
  fun b => rfl

theorem SimB.agentOf {mk : Vec d K → D c X} {x : Vec d K} :
    SimB (c := c) (g := g) (Mealpy.agentOf mk x) (Mealpy.agentOf (c := c.rescale g) mk x) (·.rescale g) :=
  (SimD.same (mk x)).lift.bind fun e => SimB.getTarget.bind fun t => SimB.pure rfl

theorem SimB.generateAgent {mk : Vec d K → D c X} :
    SimB (c := c) (g := g) (Mealpy.generateAgent mk) (Mealpy.generateAgent (c := c.rescale g) mk) (·.rescale g) :=
  (SimD.same (genSolution)).lift.bind fun e => SimB.agentOf

theorem SimB.generateSeq {mk : Vec d K → D c X} {n : Nat} :
    SimB (c := c) (g := g) (Mealpy.generateSeq mk n) (Mealpy.generateSeq (c := c.rescale g) mk n) (List.map (·.rescale g)) := by
  refine SimB.iter (fun i a => ?_) rfl
  refine SimB.generateAgent.bind fun e => ?_
  exact SimB.pure (by simp)

theorem filterMap_pos_map {f : α → β} (l : List α) (o : List Nat) :
    o.filterMap (fun i => (l.map f)[i]?) = (o.filterMap (fun i => l[i]?)).map f := by
  rw [List.map_filterMap]
  simp

theorem SimB.generatePopulation {mk : Vec d K → D c X} {n : Nat} :
    SimB (c := c) (g := g) (Mealpy.generatePopulation mk n) (Mealpy.generatePopulation (c := c.rescale g) mk n) (List.map (·.rescale g)) := by
  unfold Mealpy.generatePopulation
  show SimB _ (match c.mode with | .thread => _ | .process => _ | _ => _) _
  cases hm : c.mode
  case thread =>
    refine SimB.generateSeq.bind fun pop => (SimD.same (poolOrder n)).lift.bind fun o => (SimD.same (rngCall (c.E.lost n))).lift.bind fun l =>
      (SimB.modify (fun b => rfl)).bind fun _ => SimB.pure ?_
    exact filterMap_pos_map pop o
  case process =>
    intro b
    have key : ∀ k : Nat, (List.replicate k ()).mapM (fun _ => Mealpy.generateAgent (c := c.rescale g) mk (b.rescale g))
        = ((List.replicate k ()).mapM (fun _ => Mealpy.generateAgent mk b)).map (List.map (fun p => (p.1.rescale g, p.2.rescale g))) := by
      intro k
      induction k with
      | zero => rfl
      | succ k ih =>
        rw [List.replicate_succ, List.mapM_cons, List.mapM_cons, ih, SimB.generateAgent b]
        generalize (List.replicate k ()).mapM (fun _ => Mealpy.generateAgent mk b) = Q
        rcases Mealpy.generateAgent mk b with e | p
        · rfl
        · rcases Q with e | q
          · rfl
          · rfl
    have := key n
    show ((List.replicate n ()).mapM (fun _ => Mealpy.generateAgent (c := c.rescale g) mk (b.rescale g))).bind _ = Except.map _ (((List.replicate n ()).mapM (fun _ => Mealpy.generateAgent mk b)).bind _)
    rw [this]
    rcases (List.replicate n ()).mapM (fun _ => Mealpy.generateAgent mk b) with e | q
    · rfl
    · show Except.ok _ = Except.ok _
      have e1 : (List.map (fun p : Agent d K X × Base c => (p.1.rescale g, p.2.rescale g)) q).map (·.1) = (q.map (·.1)).map (·.rescale g) := by
        simp [List.map_map, Function.comp_def]
      congr 1
      refine Prod.ext ?_ ?_
      · show List.filterMap (fun i => (List.map _ (List.map _ q))[i]?) _ = _
        rw [e1]
        exact filterMap_pos_map _ _
      · show Base.mk _ _ _ _ = Base.mk _ _ _ _
        congr 1
        show b.log ++ List.map Agent.sol (List.map _ (List.map _ q)) = b.log ++ _
        rw [e1]
        simp [List.map_map, Function.comp_def, Agent.rescale]
  all_goals exact SimB.generateSeq

theorem SimB.getTargets {pop : List (Vec d K × X)} : SimB (c := c) (g := g)
    (Mealpy.iter pop.length (fun i acc => do
      match pop[i]? with
      | some p =>
        let t ← Mealpy.getTarget p.1 (counted := false)
        Pure.pure (acc ++ [t])
      | none => Pure.pure acc) [])
    (Mealpy.iter pop.length (fun i acc => do
      match pop[i]? with
      | some p =>
        let t ← Mealpy.getTarget p.1 (counted := false)
        Pure.pure (acc ++ [t])
      | none => Pure.pure acc) []) (List.map (Target.rescale g)) := by
  refine SimB.iter (fun i a => ?_) rfl
  rcases pop[i]? with _ | p
  · exact SimB.pure rfl
  · refine SimB.getTarget.bind fun t => ?_
    exact SimB.pure (by simp)

theorem setTargets_rescale (pop : List (Vec d K × X)) (ts : List (Target K)) :
    setTargets pop (ts.map (Target.rescale g)) = (setTargets pop ts).map (·.rescale g) := by
  unfold setTargets
  rw [List.zipWith_map_right, List.map_zipWith]
  rfl

theorem poolMap_comp (f : α → β) (h : β → γ) (xs : List α) (o : List Nat) :
    (poolMap (fun x => h (f x)) xs o).filterMap id = ((poolMap f xs o).filterMap id).map h := by
  unfold poolMap
  have e : o.filterMap (fun i => xs[i]?.map (fun x => (i, h (f x))))
      = (o.filterMap (fun i => xs[i]?.map (fun x => (i, f x)))).map (fun p => (p.1, h p.2)) := by
    rw [List.map_filterMap]
    congr 1
    funext i
    rcases xs[i]? with _ | a <;> rfl
  simp only [e]
  generalize o.filterMap (fun i => xs[i]?.map (fun x => (i, f x))) = L
  rw [List.filterMap_map, List.filterMap_map, List.map_filterMap]
  congr 1
  funext i
  simp only [Function.comp, id, List.find?_map, Option.map_map]
  rfl

theorem SimB.updateTargets {pop : List (Vec d K × X)} :
    SimB (c := c) (g := g) (Mealpy.updateTargets pop) (Mealpy.updateTargets pop) (List.map (·.rescale g)) := by
  unfold Mealpy.updateTargets
  show SimB _ (match c.mode with | .single => _ | .swarm => _ | _ => _) _
  have pool : SimB (c := c) (g := g) (do
      let ord ← liftD (poolOrder pop.length)
      let ts := poolMap (fun x => c.P.target x) (pop.map (·.1)) ord
      _root_.modify (fun b : Base c => { b with
        log := b.log ++ ord.filterMap (fun i => pop[i]?.map (·.1))
        nfe := b.nfe + pop.length })
      Pure.pure (setTargets pop (ts.filterMap id)))
      (do
      let ord ← liftD (poolOrder pop.length)
      let ts := poolMap (fun x => (c.rescale g).P.target x) (pop.map (·.1)) ord
      _root_.modify (fun b : Base (c.rescale g) => { b with
        log := b.log ++ ord.filterMap (fun i => pop[i]?.map (·.1))
        nfe := b.nfe + pop.length })
      Pure.pure (setTargets pop (ts.filterMap id))) (List.map (·.rescale g)) := by
    refine (SimD.same (poolOrder pop.length)).lift.bind fun o => ?_
    refine (SimB.modify (fun b => rfl)).bind fun _ => SimB.pure ?_
    rw [← setTargets_rescale, ← poolMap_comp]
    rfl
  cases hm : c.mode
  case single => intro b; rfl
  case swarm =>
    refine SimB.getTargets.bind fun ts => ?_
    refine (SimB.modify (fun b => rfl)).bind fun _ => SimB.pure ?_
    exact setTargets_rescale pop ts
  all_goals exact pool

theorem SimB.agentsOf {mk : Vec d K → D c X} {xs : List (Vec d K)} :
    SimB (c := c) (g := g) (Mealpy.agentsOf mk xs) (Mealpy.agentsOf (c := c.rescale g) mk xs) (List.map (·.rescale g)) := by
  unfold Mealpy.agentsOf
  induction xs with
  | nil => exact SimB.pure rfl
  | cons x xs ih =>
    rw [List.mapM_cons, List.mapM_cons]
    exact SimB.agentOf.bind fun a => ih.bind fun l => SimB.pure rfl

theorem SimB.beforeInit {mk : Vec d K → D c X} {st : Starting K} :
    SimB (c := c) (g := g) (Mealpy.beforeInit mk st) (Mealpy.beforeInit (c := c.rescale g) mk st) (Option.map (List.map (·.rescale g))) := by
  unfold Mealpy.beforeInit
  rcases st with _ | _ | n | l
  · exact SimB.pure rfl
  · intro b; rfl
  · intro b; rfl
  · simp only
    show SimB _ (if l.length ≠ c.popSize then _ else _) _
    split
    · intro b; rfl
    · rcases l with _ | ⟨r, l⟩
      · intro b; rfl
      · simp only
        split
        · intro b; rfl
        · rcases List.mapM (rowVec (d := d)) (r :: l) with _ | xs
          · intro b; rfl
          · simp only
            show SimB _ (if c.swarmLike = true then _ else _) _
            split
            · refine (SimD.same (pendingOf mk xs)).lift.bind fun p => ?_
              exact SimB.updateTargets.bind fun pop => SimB.pure rfl
            · exact SimB.agentsOf.bind fun pop => SimB.pure rfl

/-- `g` keeps the order, and `np.argsort`, which only compares, gives the same positions for values sent through it. -/
structure OrderKept (c : Cfg d K) (g : K → K) : Prop where
  mono : StrictMono g
  sorts : ∀ l : List K, c.E.argsort (l.map g) = c.E.argsort l

section
variable (hg : OrderKept c g)
include hg

theorem OrderKept.getSorted (pop : List (Agent d K X)) (mm : MinMax) :
    Mealpy.getSorted c.E.argsort (pop.map (·.rescale g)) mm =
      ((Mealpy.getSorted c.E.argsort pop mm).1.map (·.rescale g), (Mealpy.getSorted c.E.argsort pop mm).2) := by
  have e : (pop.map (·.rescale g)).map Agent.fit = (pop.map Agent.fit).map g := by
    simp only [List.map_map]; rfl
  unfold Mealpy.getSorted
  simp only [e, hg.sorts]
  rw [filterMap_pos_map]

theorem OrderKept.better (a b : Agent d K X) (mm : MinMax) (r : Bool) :
    getBetterAgent (a.rescale g) (b.rescale g) mm r = (getBetterAgent a b mm r).rescale g :=
  (C62_compare_target (judges_mono hg.mono mm) a b (.inr rfl) r).2.2

theorem Sim.selectGreedy {new : List (Agent d K X)} :
    Sim (c := c) (g := g) (Y := Y) (Mealpy.selectGreedy new) (Mealpy.selectGreedy (new.map (·.rescale g))) id := by
  intro s
  unfold Mealpy.selectGreedy
  rw [show greedySelection (s.rescale g).pop (new.map (·.rescale g)) (c.rescale g).P.mm = _ from
    C62_greedy_selection (judges_mono hg.mono c.P.mm) s.pop new]
  rcases greedySelection s.pop new c.P.mm with e | p <;> rfl

theorem Sim.popAt {i : Nat} : Sim (c := c) (g := g) (X := X) (Y := Y) (Mealpy.popAt i) (Mealpy.popAt i) (·.rescale g) := by
  intro s
  unfold Mealpy.popAt
  rw [show (s.rescale g).pop[i]? = (s.pop[i]?).map (·.rescale g) from List.getElem?_map ..]
  rcases s.pop[i]? with _ | a <;> rfl

theorem Sim.setAt {i : Nat} {a : Agent d K X} : Sim (c := c) (g := g) (Y := Y) (Mealpy.setAt i a) (Mealpy.setAt i (a.rescale g)) id := by
  intro s
  unfold Mealpy.setAt
  rw [show (s.rescale g).pop.length = s.pop.length from List.length_map ..]
  split
  · show Except.ok ((), St.mk _ _ _ _ _) = Except.ok ((), St.mk _ _ _ _ _)
    rw [show (s.rescale g).pop.set i (a.rescale g) = (s.pop.set i a).map (·.rescale g) from (List.map_set ..).symm]
    rfl
  · rfl

theorem Sim.tryBetter {i : Nat} {p : Vec d K × X} : Sim (c := c) (g := g) (Y := Y) (Mealpy.tryBetter i p) (Mealpy.tryBetter i p) id := by
  refine SimB.getTarget.lift.bind fun t => ?_
  refine (Sim.popAt hg).bind fun old => ?_
  have := hg.better (⟨p.1, t, p.2⟩ : Agent d K X) old c.P.mm false
  rw [show getBetterAgent (⟨p.1, t.rescale g, p.2⟩ : Agent d K X) (old.rescale g) (c.rescale g).P.mm = _ from this]
  exact Sim.setAt hg

theorem Sim.greedyLoop {n : Nat} {mk : St c X Y → Nat → D c (Vec d K × X)} {mk' : St (c.rescale g) X Y → Nat → D (c.rescale g) (Vec d K × X)}
    (h : ∀ s i, SimD (mk s i) (mk' (s.rescale g) i) id) : Sim (Mealpy.greedyLoop n mk) (Mealpy.greedyLoop n mk') id := by
  unfold Mealpy.greedyLoop
  show Sim _ (if c.swarmLike = true then _ else _) _
  split
  · refine Sim.get.bind fun s => ?_
    refine (SimD.draw (f := id) ?_).bind fun p => ?_
    · exact SimD.iter (fun i a => by refine (h s i).bind fun q => ?_; exact SimD.pure rfl) rfl
    · exact SimB.updateTargets.lift.bind fun new => Sim.selectGreedy hg
  · refine Sim.iter (f := id) (fun i a => ?_) rfl
    refine Sim.get.bind fun s => ?_
    exact (h s i).draw.bind fun p => Sim.tryBetter hg

theorem getLast?_map' {f : α → β} (l : List α) : (l.map f).getLast? = l.getLast?.map f := by simp

theorem Sim.updateGlobalBest {pop : List (Agent d K X)} :
    Sim (c := c) (g := g) (Y := Y) (Mealpy.updateGlobalBest pop) (Mealpy.updateGlobalBest (pop.map (·.rescale g)))
      (fun p => (p.1.map (·.rescale g), p.2.rescale g)) := by
  intro s
  unfold Mealpy.updateGlobalBest
  rw [show Mealpy.getSorted (c.rescale g).E.argsort (pop.map (·.rescale g)) (c.rescale g).P.mm = _ from hg.getSorted pop c.P.mm]
  simp only []
  generalize (Mealpy.getSorted c.E.argsort pop c.P.mm).1 = l
  rw [List.head?_map, List.getLast?_map, show (s.rescale g).hist.globalBest.getLast? = _ from List.getLast?_map ..,
    show (s.rescale g).hist.globalWorst.getLast? = _ from List.getLast?_map ..]
  rcases l.head? with _ | cb
  · rfl
  rcases l.getLast? with _ | cw
  · rfl
  rcases s.hist.globalBest.getLast? with _ | gb
  · rfl
  rcases s.hist.globalWorst.getLast? with _ | gw
  · rfl
  simp only [Option.map_some]
  rw [show getBetterAgent (cb.rescale g) (gb.rescale g) (c.rescale g).P.mm = _ from hg.better cb gb c.P.mm false,
    show getBetterAgent (cw.rescale g) (gw.rescale g) (c.rescale g).P.mm true = _ from hg.better cw gw c.P.mm true]
  simp [Except.map, St.rescale, Hist.rescale]

omit hg in
theorem diversity_rescale (pop : List (Agent d K X)) : diversity (pop.map (·.rescale g)) = diversity pop := by
  unfold diversity
  simp only [List.map_map]
  rfl

omit hg in
theorem Sim.trackStep {sp : Bool} {pop : List (Agent d K X)} {t : K} :
    Sim (c := c) (g := g) (Y := Y) (Mealpy.trackStep sp pop t) (Mealpy.trackStep sp (pop.map (·.rescale g)) t) id := by
  intro s
  unfold Mealpy.trackStep
  rw [show (s.rescale g).hist.globalBest.getLast? = _ from List.getLast?_map .., show (s.rescale g).hist.currentBest.getLast? = _ from List.getLast?_map ..]
  rcases s.hist.globalBest.getLast? with _ | gb
  · rfl
  rcases s.hist.currentBest.getLast? with _ | cb
  · rfl
  simp only [Option.map_some, diversity_rescale]
  cases sp <;> simp [Except.map, St.rescale, Hist.rescale, Agent.rescale, Agent.fit]

omit hg in
/-- the early-stopping test compares differences of fitness values with an epsilon, so it is left out -/
theorem Sim.checkEnd {o : RunOpts K} (ho : ∀ t, o.term = some t → t.maxEarlyStop = none) {ep : Nat} :
    Sim (c := c) (g := g) (X := X) (Y := Y) (Mealpy.checkEnd o ep) (Mealpy.checkEnd o ep) id := by
  unfold Mealpy.checkEnd
  rcases h : o.term with _ | t
  · exact Sim.pure rfl
  · refine Sim.get.bind fun s => ?_
    refine (SimD.same clock).draw.bind fun time => Sim.pure ?_
    show (Option.isSome _) = Option.isSome _
    unfold shouldTerminate
    simp only [ho t h, limitHit]
    rfl

/-- two algorithms whose own methods correspond -/
structure Algo.Sim (A : Algo c X Y) (A' : Algo (c.rescale g) X Y) : Prop where
  sortFlag : A'.sortFlag = A.sortFlag
  mkExt : A'.mkExt = A.mkExt
  initVars : A'.initVars = A.initVars
  initialization : ∀ y p, SimB (A.initialization y p) (A'.initialization y (p.map (List.map (·.rescale g))))
    (fun q => (q.1.map (·.rescale g), q.2))
  beforeMain : Mealpy.Sim A.beforeMain A'.beforeMain id
  evolve : ∀ ep, Mealpy.Sim (A.evolve ep) (A'.evolve ep) id

theorem Algo.Sim.epochStep {A : Algo c X Y} {A' : Algo (c.rescale g) X Y} (h : A.Sim A') {o : RunOpts K}
    (ho : ∀ t, o.term = some t → t.maxEarlyStop = none) (ep : Nat) : Mealpy.Sim (Mealpy.epochStep A o ep) (Mealpy.epochStep A' o ep) id := by
  unfold Mealpy.epochStep
  refine (SimD.same clock).draw.bind fun t0 => (h.evolve ep).bind fun _ => Mealpy.Sim.get.bind fun s => ?_
  refine (Mealpy.Sim.updateGlobalBest hg).bind fun q => ?_
  refine (Mealpy.Sim.modify fun s => ?_).bind fun _ => ?_
  · rw [h.sortFlag]
    cases A.sortFlag <;> rfl
  refine (SimD.same clock).draw.bind fun t1 => Mealpy.Sim.get.bind fun s => ?_
  exact Mealpy.Sim.trackStep.bind fun _ => Mealpy.Sim.checkEnd ho

theorem Algo.Sim.mainLoop {A : Algo c X Y} {A' : Algo (c.rescale g) X Y} (h : A.Sim A') {o : RunOpts K}
    (ho : ∀ t, o.term = some t → t.maxEarlyStop = none) (n ep : Nat) : Mealpy.Sim (Mealpy.mainLoop A o n ep) (Mealpy.mainLoop A' o n ep) id := by
  induction n generalizing ep with
  | zero => exact Mealpy.Sim.pure rfl
  | succ n ih =>
    refine (h.epochStep hg ho ep).bind fun stop => ?_
    cases stop
    · exact ih (ep + 1)
    · exact Mealpy.Sim.pure rfl

omit hg in
theorem SimB.startTermination {o : RunOpts K} : SimB (c := c) (g := g) (Mealpy.startTermination o) (Mealpy.startTermination o) id := by
  unfold Mealpy.startTermination
  rcases o.term with _ | t
  · exact SimB.pure rfl
  · exact (SimB.modify (fun b => rfl)).bind fun _ => (SimD.same clock).lift.bind fun now => SimB.pure rfl

omit hg in
theorem startTermination_early {o o' : RunOpts K} {b b' : Base c} (h : Mealpy.startTermination o b = .ok (o', b'))
    (ho : ∀ t, o.term = some t → t.maxEarlyStop = none) : ∀ t, o'.term = some t → t.maxEarlyStop = none := by
  unfold Mealpy.startTermination at h
  rcases ht : o.term with _ | t
  · simp only [ht] at h
    obtain ⟨rfl, -⟩ := Prod.mk.inj (Except.ok.inj h)
    exact ho
  · simp only [ht] at h
    obtain ⟨rfl, -⟩ := Prod.mk.inj (Except.ok.inj h)
    intro t' e
    obtain rfl := Option.some.inj e
    exact ho t ht

omit hg in
theorem Algo.Sim.initialPop {A : Algo c X Y} {A' : Algo (c.rescale g) X Y} (h : A.Sim A') {o : RunOpts K} :
    SimB (Mealpy.initialPop A o) (Mealpy.initialPop A' o) (fun q => (q.1.map (·.rescale g), q.2)) := by
  unfold Mealpy.initialPop
  rw [h.initVars, h.mkExt]
  exact (SimD.same A.initVars).lift.bind fun y => SimB.beforeInit.bind fun p => h.initialization y p

theorem OrderKept.afterInit (sf : Bool) (pop : List (Agent d K X)) (y : Y) (b : Base c) :
    Mealpy.afterInit sf (pop.map (·.rescale g)) y (b.rescale g) = (Mealpy.afterInit sf pop y b).map (·.rescale g) := by
  unfold Mealpy.afterInit getSpecial
  rw [show Mealpy.getSorted (c.rescale g).E.argsort (pop.map (·.rescale g)) (c.rescale g).P.mm = _ from hg.getSorted pop c.P.mm]
  simp only [Option.map_some, Option.bind_some]
  generalize (Mealpy.getSorted c.E.argsort pop c.P.mm).1 = l
  rw [← List.map_reverse, ← List.map_take, ← List.map_take, List.head?_map, List.head?_map]
  rcases (l.take 1).head? with _ | best
  · rfl
  rcases (l.reverse.take 1).head? with _ | worst
  · rfl
  cases sf <;> rfl

omit hg in
theorem trackProcess_rescale (h : Hist d K X) : trackProcess (h.rescale g) = (trackProcess h).map (·.rescale g) := by
  unfold trackProcess
  show (match listMax h.diversity with | none => _ | some divMax => _) = _
  rcases listMax h.diversity with _ | m
  · rfl
  · simp [Except.map, Hist.rescale, FinalHist.rescale]

/-- the whole call of `solve` -/
theorem Algo.Sim.solve {A : Algo c X Y} {A' : Algo (c.rescale g) X Y} (h : A.Sim A') {o : RunOpts K}
    (ho : ∀ t, o.term = some t → t.maxEarlyStop = none) (b : Base c) :
    Mealpy.solve A' o (b.rescale g) = (Mealpy.solve A o b).map (fun p => (p.1.rescale g, p.2.rescale g)) := by
  unfold Mealpy.solve solveInit
  rw [SimB.startTermination b]
  rcases h1 : Mealpy.startTermination o b with e | ⟨o1, b1⟩
  · rfl
  have ho1 := startTermination_early h1 ho
  simp only [Except.map, id, bind, Except.bind]
  rw [h.initialPop b1]
  rcases Mealpy.initialPop A o1 b1 with e | ⟨⟨pop, y⟩, b2⟩
  · rfl
  simp only [Except.map]
  rw [h.sortFlag, hg.afterInit A.sortFlag pop y b2]
  rcases Mealpy.afterInit A.sortFlag pop y b2 with e | s
  · rfl
  simp only [Except.map]
  rw [h.beforeMain s]
  rcases A.beforeMain s with e | ⟨u, s1⟩
  · rfl
  simp only [Except.map, pure, Except.pure, id]
  rw [show (c.rescale g).epoch = c.epoch from rfl, h.mainLoop hg ho1 c.epoch 1 s1]
  rcases Mealpy.mainLoop A o1 c.epoch 1 s1 with e | ⟨u, s2⟩
  · rfl
  simp only [Except.map]
  rw [show (s2.rescale g).hist = s2.hist.rescale g from rfl, trackProcess_rescale]
  rcases trackProcess s2.hist with e | h
  · rfl
  · rfl

omit hg in
theorem SimB.defaultInit {mk : Vec d K → D c X} {y : Y} {p : Option (List (Agent d K X))} :
    SimB (c := c) (g := g) (Mealpy.defaultInit mk y p) (Mealpy.defaultInit (c := c.rescale g) mk y (p.map (List.map (·.rescale g))))
      (fun q => (q.1.map (·.rescale g), q.2)) := by
  rcases p with _ | pop
  · exact SimB.generatePopulation.bind fun pop => SimB.pure rfl
  · exact SimB.pure rfl

omit hg in
/-- algorithms that override only `evolve` -/
theorem Algo.Sim.plain {sf : Bool} {ev : Nat → M c Unit Unit Unit} {ev' : Nat → M (c.rescale g) Unit Unit Unit}
    (h : ∀ ep, Mealpy.Sim (ev ep) (ev' ep) id) : (Algo.plain sf ev).Sim (Algo.plain sf ev') where
  sortFlag := rfl
  mkExt := rfl
  initVars := rfl
  initialization := fun y p => SimB.defaultInit
  beforeMain := Mealpy.Sim.pure rfl
  evolve := h

theorem SimD.bestAgents {pop : List (Agent d K X)} {n : Nat} :
    SimD (c := c) (g := g) (Mealpy.bestAgents pop n) (Mealpy.bestAgents (pop.map (·.rescale g)) n) (List.map (·.rescale g)) := by
  refine SimD.pure ?_
  unfold getSpecial
  rw [show Mealpy.getSorted (c.rescale g).E.argsort (pop.map (·.rescale g)) (c.rescale g).P.mm = _ from hg.getSorted pop c.P.mm]
  simp

theorem SimD.worstAgents {pop : List (Agent d K X)} {n : Nat} :
    SimD (c := c) (g := g) (Mealpy.worstAgents pop n) (Mealpy.worstAgents (pop.map (·.rescale g)) n) (List.map (·.rescale g)) := by
  refine SimD.pure ?_
  unfold getSpecial
  rw [show Mealpy.getSorted (c.rescale g).E.argsort (pop.map (·.rescale g)) (c.rescale g).P.mm = _ from hg.getSorted pop c.P.mm]
  simp

theorem SimD.sortedPop {pop : List (Agent d K X)} :
    SimD (c := c) (g := g) (Mealpy.sortedPop pop) (Mealpy.sortedPop (pop.map (·.rescale g))) (List.map (·.rescale g)) := by
  refine SimD.pure ?_
  rw [show Mealpy.getSorted (c.rescale g).E.argsort (pop.map (·.rescale g)) (c.rescale g).P.mm = _ from hg.getSorted pop c.P.mm]

theorem SimD.best3 {pop : List (Agent d K X)} :
    SimD (c := c) (g := g) (Mealpy.best3 pop) (Mealpy.best3 (pop.map (·.rescale g)))
      (fun q => (q.1.rescale g, q.2.1.rescale g, q.2.2.rescale g)) :=
  (SimD.bestAgents hg).bind fun l => SimD.nth.bind fun b0 => SimD.nth.bind fun b1 => SimD.nth.bind fun b2 => SimD.pure rfl

theorem SimD.bestAgent {pop : List (Agent d K X)} :
    SimD (c := c) (g := g) (Mealpy.bestAgent pop) (Mealpy.bestAgent (pop.map (·.rescale g))) (·.rescale g) := by
  intro r
  unfold Mealpy.bestAgent getBest
  rw [show Mealpy.getSorted (c.rescale g).E.argsort (pop.map (·.rescale g)) (c.rescale g).P.mm = _ from hg.getSorted pop c.P.mm]
  simp only [List.getElem?_map]
  rcases (Mealpy.getSorted c.E.argsort pop c.P.mm).1[0]? with _ | a
  · rfl
  rcases (Mealpy.getSorted c.E.argsort pop c.P.mm).2[0]? with _ | i
  · rfl
  · rfl

omit hg in
theorem Sim.updateAt {i : Nat} {x : Vec d K} {t : Target K} :
    Sim (c := c) (g := g) (X := X) (Y := Y) (Mealpy.updateAt i x t) (Mealpy.updateAt i x (t.rescale g)) id := by
  intro s
  unfold Mealpy.updateAt
  rw [show (s.rescale g).pop[i]? = (s.pop[i]?).map (·.rescale g) from List.getElem?_map ..]
  rcases s.pop[i]? with _ | a
  · rfl
  · refine congrArg Except.ok (Prod.ext rfl ?_)
    show St.mk _ _ _ _ _ = St.mk _ _ _ _ _
    congr 1
    exact (List.map_set (f := (·.rescale g)) (l := s.pop) (i := i) (a := { a with sol := x, tgt := t })).symm

omit hg in
theorem Sim.replaceLoop {n : Nat} {mk : St c X Y → Nat → D c (Vec d K × X)} {mk' : St (c.rescale g) X Y → Nat → D (c.rescale g) (Vec d K × X)}
    (h : ∀ s i, SimD (mk s i) (mk' (s.rescale g) i) id) : Sim (Mealpy.replaceLoop n mk) (Mealpy.replaceLoop n mk') id := by
  unfold Mealpy.replaceLoop
  show Sim _ (if c.swarmLike = true then _ else _) _
  split
  · refine Sim.get.bind fun s => ?_
    refine (SimD.draw (f := id) ?_).bind fun p => ?_
    · exact SimD.iter (fun i a => by refine (h s i).bind fun q => ?_; exact SimD.pure rfl) rfl
    · exact SimB.updateTargets.lift.bind fun new => Sim.modify fun s => rfl
  · refine Sim.iter (f := id) (fun i a => ?_) rfl
    refine Sim.get.bind fun s => ?_
    exact (h s i).draw.bind fun p => SimB.getTarget.lift.bind fun t => Sim.updateAt

theorem Sim.rebindLoop {n : Nat} {mk : St c X Y → Nat → D c (Vec d K × X)} {mk' : St (c.rescale g) X Y → Nat → D (c.rescale g) (Vec d K × X)}
    (h : ∀ s i, SimD (mk s i) (mk' (s.rescale g) i) id) : Sim (Mealpy.rebindLoop n mk) (Mealpy.rebindLoop n mk') id := by
  unfold Mealpy.rebindLoop
  show Sim _ (if c.swarmLike = true then _ else _) _
  split
  · refine Sim.get.bind fun s => ?_
    refine (SimD.draw (f := id) ?_).bind fun p => ?_
    · exact SimD.iter (fun i a => by refine (h s i).bind fun q => ?_; exact SimD.pure rfl) rfl
    · exact SimB.updateTargets.lift.bind fun new => Sim.modify fun s => rfl
  · refine Sim.iter (f := id) (fun i a => ?_) rfl
    refine Sim.get.bind fun s => ?_
    exact (h s i).draw.bind fun p => SimB.getTarget.lift.bind fun t => Sim.setAt hg

omit hg in
theorem Sim.buildEval {n : Nat} {mk : St c X Y → Nat → D c (Vec d K × X)} {mk' : St (c.rescale g) X Y → Nat → D (c.rescale g) (Vec d K × X)}
    (h : ∀ s i, SimD (mk s i) (mk' (s.rescale g) i) id) : Sim (Mealpy.buildEval n mk) (Mealpy.buildEval n mk') (List.map (·.rescale g)) := by
  unfold Mealpy.buildEval
  show Sim _ (if c.swarmLike = true then _ else _) _
  split
  · refine Sim.get.bind fun s => ?_
    refine (SimD.draw (f := id) ?_).bind fun p => ?_
    · exact SimD.iter (fun i a => by refine (h s i).bind fun q => ?_; exact SimD.pure rfl) rfl
    · exact SimB.updateTargets.lift
  · refine Sim.iter (fun i a => ?_) rfl
    refine Sim.get.bind fun s => ?_
    refine (h s i).draw.bind fun p => ?_
    refine SimB.getTarget.lift.bind fun t => ?_
    exact Sim.pure (by simp [Agent.rescale, Target.rescale])

theorem Sim.mergeTrim {n : Nat} {new : List (Agent d K X)} :
    Sim (c := c) (g := g) (Y := Y) (Mealpy.mergeTrim n new) (Mealpy.mergeTrim n (new.map (·.rescale g))) id := by
  refine Sim.modify fun s => ?_
  unfold getSortedTrimmed
  rw [show (s.rescale g).pop ++ new.map (·.rescale g) = (s.pop ++ new).map (·.rescale g) from (List.map_append ..).symm]
  rw [show Mealpy.getSorted (c.rescale g).E.argsort ((s.pop ++ new).map (·.rescale g)) (c.rescale g).P.mm = _ from hg.getSorted _ c.P.mm]
  show St.mk _ _ _ _ _ = St.mk _ _ _ _ _
  congr 1
  exact (List.map_take ..).symm

omit hg in
theorem Sim.setPop {l : List (Agent d K X)} :
    Sim (c := c) (g := g) (Y := Y) (Mealpy.setPop l) (Mealpy.setPop (l.map (·.rescale g))) id :=
  Sim.modify fun s => rfl

theorem SimD.worstAgent {pop : List (Agent d K X)} :
    SimD (c := c) (g := g) (Mealpy.worstAgent pop) (Mealpy.worstAgent (pop.map (·.rescale g))) (·.rescale g) := by
  intro r
  unfold Mealpy.worstAgent getWorst
  rw [show Mealpy.getSorted (c.rescale g).E.argsort (pop.map (·.rescale g)) (c.rescale g).P.mm = _ from hg.getSorted pop c.P.mm]
  simp only [List.getLast?_map]
  rcases (Mealpy.getSorted c.E.argsort pop c.P.mm).1.getLast? with _ | a
  · rfl
  rcases (Mealpy.getSorted c.E.argsort pop c.P.mm).2.getLast? with _ | i
  · rfl
  · rfl

theorem Sim.tryCompare {mk : Vec d K → D c X} {i : Nat} {x : Vec d K} :
    Sim (c := c) (g := g) (Y := Y) (Mealpy.tryCompare mk i x) (Mealpy.tryCompare (c := c.rescale g) mk i x) id := by
  refine SimB.agentOf.lift.bind fun a => (Sim.popAt hg).bind fun old => ?_
  rw [show compareTarget (a.rescale g).tgt (old.rescale g).tgt (c.rescale g).P.mm = _ from
    (C62_compare_target (judges_mono hg.mono c.P.mm) a old (.inr rfl) false).1]
  split
  · exact Sim.setAt hg
  · exact Sim.pure rfl

omit hg in
theorem SimD.ite {p : Prop} [Decidable p] {a b : D c α} {a' b' : D (c.rescale g) β} {f : α → β} (h1 : p → SimD a a' f) (h2 : ¬ p → SimD b b' f) :
    SimD (if p then a else b) (if p then a' else b') f := by
  split
  · exact h1 ‹_›
  · exact h2 ‹_›

omit hg in
theorem Sim.ite {p : Prop} [Decidable p] {a b : M c X Y α} {a' b' : M (c.rescale g) X Y β} {f : α → β} (h1 : p → Sim a a' f)
    (h2 : ¬ p → Sim b b' f) : Sim (if p then a else b) (if p then a' else b') f := by
  split
  · exact h1 ‹_›
  · exact h2 ‹_›

omit hg in
theorem SimD.pick {l : List α} {f : α → β} : SimD (c := c) (g := g) (Mealpy.pick l) (Mealpy.pick (l.map f)) f := by
  refine SimD.bind (f := id) ?_ (fun i => SimD.nth)
  rw [List.length_map]
  exact SimD.same _

end

theorem OrderKept.same (_ : OrderKept c g) (m : D c α) : SimD (c := c) (g := g) m m id := SimD.same m

theorem OrderKept.nth (_ : OrderKept c g) {l : List (Agent d K X)} {i : Nat} :
    SimD (c := c) (g := g) (Mealpy.nth l i) (Mealpy.nth (l.map (·.rescale g)) i) (·.rescale g) := SimD.nth

theorem OrderKept.pick (_ : OrderKept c g) {l : List (Agent d K X)} :
    SimD (c := c) (g := g) (Mealpy.pick l) (Mealpy.pick (l.map (·.rescale g))) (·.rescale g) := SimD.pick

theorem SimD.vecM (hg : OrderKept c g) {n : Nat} {m : Fin n → D c α} {m' : Fin n → D (c.rescale g) α} (h : ∀ i, SimD (m i) (m' i) id) :
    SimD (Mealpy.vecM m) (Mealpy.vecM m') id := by
  induction n with
  | zero => exact SimD.pure rfl
  | succ n ih =>
    refine (h 0).bind fun a => ?_
    exact (ih (fun i => h i.succ)).bind fun t => SimD.pure rfl

theorem SimD.randomVec (hg : OrderKept c g) : SimD (c := c) (g := g) Mealpy.randomVec Mealpy.randomVec id :=
  SimD.vecM hg fun _ => SimD.same _

theorem SimD.uniformVec (hg : OrderKept c g) {lo hi : Vec d K} :
    SimD (c := c) (g := g) (Mealpy.uniformVec lo hi) (Mealpy.uniformVec lo hi) id :=
  SimD.vecM hg fun _ => SimD.same _

theorem SimD.normalVec (hg : OrderKept c g) {lo hi : K} :
    SimD (c := c) (g := g) (Mealpy.normalVec lo hi) (Mealpy.normalVec lo hi) id :=
  SimD.vecM hg fun _ => SimD.same _

theorem SimD.amendRandom (hg : OrderKept c g) {x : Vec d K} : SimD (c := c) (g := g) (Mealpy.amendRandom x) (Mealpy.amendRandom x) id :=
  (SimD.uniformVec hg).bind fun r => SimD.pure rfl

theorem SimD.correctRandom (hg : OrderKept c g) {x : Vec d K} :
    SimD (c := c) (g := g) (correctWith Mealpy.amendRandom x) (correctWith Mealpy.amendRandom x) id :=
  (SimD.amendRandom hg).bind fun r => SimD.same _

theorem Sim.greedyLoopR (hg : OrderKept c g) {n : Nat} {mk : St c X Y → Nat → D c (Vec d K × X)}
    {mk' : St (c.rescale g) X Y → Nat → D (c.rescale g) (Vec d K × X)} (h : ∀ s i, SimD (mk s i) (mk' (s.rescale g) i) id) :
    Sim (Mealpy.greedyLoopR n mk) (Mealpy.greedyLoopR n mk') id := by
  unfold Mealpy.greedyLoopR
  show Sim _ (if c.swarmLike = true then _ else _) _
  split
  · refine Sim.get.bind fun s => ?_
    refine (SimD.draw (f := id) ?_).bind fun p => ?_
    · exact SimD.iter (fun i a => by refine (h s i).bind fun q => ?_; exact SimD.pure rfl) rfl
    · exact SimB.updateTargets.lift.bind fun new => Sim.selectGreedy hg
  · refine Sim.iter (f := id) (fun i a => ?_) rfl
    refine Sim.get.bind fun s => ?_
    refine (h s i).draw.bind fun p => ?_
    refine SimB.getTarget.lift.bind fun t => ?_
    refine (Sim.popAt hg).bind fun old => ?_
    have := hg.better old (⟨p.1, t, p.2⟩ : Agent d K X) c.P.mm false
    show Sim _ (Mealpy.setAt i (getBetterAgent (old.rescale g) ((⟨p.1, t, p.2⟩ : Agent d K X).rescale g) c.P.mm)) _
    rw [this]
    exact Sim.setAt hg

theorem SimD.unpack2 (hg : OrderKept c g) {l : List α} : SimD (c := c) (g := g) (Mealpy.unpack2 l) (Mealpy.unpack2 l) id := by
  rcases l with _ | ⟨a, _ | ⟨b, _ | ⟨e, l⟩⟩⟩ <;> intro r <;> rfl

theorem SimD.unpack3 (hg : OrderKept c g) {l : List α} : SimD (c := c) (g := g) (Mealpy.unpack3 l) (Mealpy.unpack3 l) id := by
  rcases l with _ | ⟨a, _ | ⟨b, _ | ⟨e, _ | ⟨e', l⟩⟩⟩⟩ <;> intro r <;> rfl

theorem SimD.choose2 (hg : OrderKept c g) {n : Nat} : SimD (c := c) (g := g) (Mealpy.choose2 n) (Mealpy.choose2 n) id :=
  (SimD.same (choice n 2 false)).bind fun l => SimD.unpack2 hg

theorem SimD.choose3 (hg : OrderKept c g) {n : Nat} : SimD (c := c) (g := g) (Mealpy.choose3 n) (Mealpy.choose3 n) id :=
  (SimD.same (choice n 3 false)).bind fun l => SimD.unpack3 hg

theorem SimD.sampleOne (hg : OrderKept c g) {n ex k : Nat} {r : Bool} :
    SimD (c := c) (g := g) (Mealpy.sampleOne n ex k r) (Mealpy.sampleOne n ex k r) id := by
  intro s
  unfold Mealpy.sampleOne
  rw [show sampleExcludeOne (c.rescale g).E n ex k r s.1 = sampleExcludeOne c.E n ex k r s.1 from rfl]
  rcases sampleExcludeOne c.E n ex k r s.1 with e | p
  · rfl
  · rfl

theorem SimD.sampleList (hg : OrderKept c g) {n k : Nat} {ex : List Nat} {r : Bool} :
    SimD (c := c) (g := g) (Mealpy.sampleList n ex k r) (Mealpy.sampleList n ex k r) id := by
  intro s
  unfold Mealpy.sampleList
  rw [show sampleExcludeList (c.rescale g).E n ex k r s.1 = sampleExcludeList c.E n ex k r s.1 from rfl]
  rcases sampleExcludeList c.E n ex k r s.1 with e | p
  · rfl
  · rfl

theorem SimD.sample2 (hg : OrderKept c g) {n ex : Nat} {r : Bool} : SimD (c := c) (g := g) (Mealpy.sample2 n ex r) (Mealpy.sample2 n ex r) id := by
  unfold Mealpy.sample2
  refine (SimD.sampleOne hg).bind fun l => ?_
  exact SimD.unpack2 hg

theorem SimD.sample3 (hg : OrderKept c g) {n ex : Nat} : SimD (c := c) (g := g) (Mealpy.sample3 n ex) (Mealpy.sample3 n ex) id := by
  unfold Mealpy.sample3
  refine (SimD.sampleOne hg).bind fun l => ?_
  exact SimD.unpack3 hg

theorem SimD.choose2Without (hg : OrderKept c g) {n : Nat} {ex : List Nat} :
    SimD (c := c) (g := g) (Mealpy.choose2Without n ex) (Mealpy.choose2Without n ex) id :=
  (SimD.same (choiceWithout n ex 2 false)).bind fun l => SimD.unpack2 hg

theorem SimD.choose3Without (hg : OrderKept c g) {n : Nat} {ex : List Nat} :
    SimD (c := c) (g := g) (Mealpy.choose3Without n ex) (Mealpy.choose3Without n ex) id :=
  (SimD.same (choiceWithout n ex 3 false)).bind fun l => SimD.unpack3 hg

theorem SimD.levyVec (hg : OrderKept c g) {b m : K} {k : Int} : SimD (c := c) (g := g) (Mealpy.levyVec b m k) (Mealpy.levyVec b m k) id :=
  (SimD.normalVec hg).bind fun u => (SimD.normalVec hg).bind fun v => (SimD.same (levyFactor k)).bind fun f => SimD.pure rfl

theorem SimD.othersOf (hg : OrderKept c g) {pop : List (Agent d K X)} {ex : List Nat} {k : Nat} :
    SimD (c := c) (g := g) (Mealpy.othersOf pop ex k) (Mealpy.othersOf (pop.map (·.rescale g)) ex k) (List.map (·.rescale g)) := by
  unfold Mealpy.othersOf
  rw [List.length_map]
  refine (SimD.same (choiceWithout pop.length ex k false)).bind fun l => ?_
  show SimD (l.mapM (Mealpy.nth pop)) (l.mapM (Mealpy.nth (pop.map (·.rescale g)))) _
  induction l with
  | nil => exact SimD.pure rfl
  | cons i l ih =>
    rw [List.mapM_cons, List.mapM_cons]
    exact SimD.nth.bind fun a => ih.bind fun l => SimD.pure rfl

theorem OrderKept.cmp (hg : OrderKept c g) (a b : Agent d K X) :
    compareTarget (a.rescale g).tgt (b.rescale g).tgt (c.rescale g).P.mm = compareTarget a.tgt b.tgt c.P.mm :=
  (C62_compare_target (judges_mono hg.mono c.P.mm) a b (.inr rfl) false).1

theorem OrderKept.pop (_ : OrderKept c g) (s : St c X Y) : (s.rescale g).pop = s.pop.map (·.rescale g) := rfl

theorem OrderKept.sol (_ : OrderKept c g) (a : Agent d K X) : (a.rescale g).sol = a.sol := rfl

theorem SimD.best2 (hg : OrderKept c g) {pop : List (Agent d K X)} :
    SimD (c := c) (g := g) (Mealpy.best2 pop) (Mealpy.best2 (pop.map (·.rescale g))) (fun q => (q.1.rescale g, q.2.rescale g)) := by
  refine (SimD.bestAgents hg).bind fun l => ?_
  rcases l with _ | ⟨a, _ | ⟨b, _ | ⟨e, l⟩⟩⟩ <;> intro r <;> rfl

theorem SimD.repM (hg : OrderKept c g) {n : Nat} {m : Nat → D c α} {m' : Nat → D (c.rescale g) α} (h : ∀ i, SimD (m i) (m' i) id) :
    SimD (Mealpy.repM n m) (Mealpy.repM n m') id :=
  SimD.iter (fun i a => by refine (h i).bind fun q => ?_; exact SimD.pure rfl) rfl

theorem SimD.sample1 (hg : OrderKept c g) {n ex : Nat} : SimD (c := c) (g := g) (Mealpy.sample1 n ex) (Mealpy.sample1 n ex) id := by
  unfold Mealpy.sample1
  refine (SimD.sampleOne hg).bind fun l => ?_
  rcases l with _ | ⟨a, l⟩ <;> intro r <;> rfl

theorem Sim.sortPop (hg : OrderKept c g) : Sim (c := c) (g := g) (X := X) (Y := Y) Mealpy.sortPop Mealpy.sortPop id := by
  refine Sim.modify fun s => ?_
  dsimp only
  rw [show Mealpy.getSorted (c.rescale g).E.argsort (s.rescale g).pop (c.rescale g).P.mm = _ from hg.getSorted s.pop c.P.mm]
  rfl

/-- name the result of a call, taking pairs and triples apart -/
macro "simintro" : tactic => `(tactic| first
  | (intro (q : _ × _ × _); obtain ⟨_, _, _⟩ := q; try dsimp only [id])
  | (intro (q : _ × _); obtain ⟨_, _⟩ := q; try dsimp only [id])
  | intro _)

/-- generator code, call by call -/
syntax "simd" term : tactic
macro_rules
  | `(tactic| simd $hg) => `(tactic| repeat' first
    | (at_head Pure.pure; exact SimD.pure rfl)
    | (at_head nth; exact OrderKept.nth $hg)
    | (at_head pick; exact OrderKept.pick $hg)
    | (at_head bestAgents; exact SimD.bestAgents $hg)
    | (at_head worstAgents; exact SimD.worstAgents $hg)
    | (at_head sortedPop; exact SimD.sortedPop $hg)
    | (at_head best3; exact SimD.best3 $hg)
    | (at_head bestAgent; exact SimD.bestAgent $hg)
    | (at_head worstAgent; exact SimD.worstAgent $hg)
    | (at_head randomVec; exact SimD.randomVec $hg)
    | (at_head uniformVec; exact SimD.uniformVec $hg)
    | (at_head normalVec; exact SimD.normalVec $hg)
    | (at_head amendRandom; exact SimD.amendRandom $hg)
    | (at_head correctWith; exact SimD.correctRandom $hg)
    | (at_head vecM; refine SimD.vecM $hg ?_; simintro)
    | (at_head sampleOne; exact SimD.sampleOne $hg)
    | (at_bind sampleOne; refine SimD.bind (SimD.sampleOne $hg) ?_; simintro)
    | (at_head sampleList; exact SimD.sampleList $hg)
    | (at_bind sampleList; refine SimD.bind (SimD.sampleList $hg) ?_; simintro)
    | (at_head best2; exact SimD.best2 $hg)
    | (at_bind best2; refine SimD.bind (SimD.best2 $hg) ?_; simintro)
    | (at_head sample1; exact SimD.sample1 $hg)
    | (at_head repM; refine SimD.repM $hg ?_; intro _)
    | (at_head unpack2; exact SimD.unpack2 $hg)
    | (at_head unpack3; exact SimD.unpack3 $hg)
    | (at_head choose2; exact SimD.choose2 $hg)
    | (at_head choose3; exact SimD.choose3 $hg)
    | (at_head sample2; exact SimD.sample2 $hg)
    | (at_head sample3; exact SimD.sample3 $hg)
    | (at_head choose2Without; exact SimD.choose2Without $hg)
    | (at_head choose3Without; exact SimD.choose3Without $hg)
    | (at_head levyVec; exact SimD.levyVec $hg)
    | (at_head othersOf; exact SimD.othersOf $hg)
    | (at_bind unpack2; refine SimD.bind (SimD.unpack2 $hg) ?_; simintro)
    | (at_bind unpack3; refine SimD.bind (SimD.unpack3 $hg) ?_; simintro)
    | (at_bind choose2; refine SimD.bind (SimD.choose2 $hg) ?_; simintro)
    | (at_bind choose3; refine SimD.bind (SimD.choose3 $hg) ?_; simintro)
    | (at_bind sample2; refine SimD.bind (SimD.sample2 $hg) ?_; simintro)
    | (at_bind sample3; refine SimD.bind (SimD.sample3 $hg) ?_; simintro)
    | (at_bind choose2Without; refine SimD.bind (SimD.choose2Without $hg) ?_; simintro)
    | (at_bind choose3Without; refine SimD.bind (SimD.choose3Without $hg) ?_; simintro)
    | (at_bind levyVec; refine SimD.bind (SimD.levyVec $hg) ?_; simintro)
    | (at_bind othersOf; refine SimD.bind (SimD.othersOf $hg) ?_; simintro)
    | (at_bind randomVec; refine SimD.bind (SimD.randomVec $hg) ?_; simintro)
    | (at_bind uniformVec; refine SimD.bind (SimD.uniformVec $hg) ?_; simintro)
    | (at_bind normalVec; refine SimD.bind (SimD.normalVec $hg) ?_; simintro)
    | (at_bind nth; refine SimD.bind (OrderKept.nth $hg) ?_; simintro)
    | (at_bind pick; refine SimD.bind (OrderKept.pick $hg) ?_; simintro)
    | (at_bind bestAgents; refine SimD.bind (SimD.bestAgents $hg) ?_; simintro)
    | (at_bind worstAgents; refine SimD.bind (SimD.worstAgents $hg) ?_; simintro)
    | (at_bind sortedPop; refine SimD.bind (SimD.sortedPop $hg) ?_; simintro)
    | (at_bind best3; refine SimD.bind (SimD.best3 $hg) ?_; simintro)
    | (at_bind bestAgent; refine SimD.bind (SimD.bestAgent $hg) ?_; simintro)
    | (at_bind worstAgent; refine SimD.bind (SimD.worstAgent $hg) ?_; simintro)
    | (at_bind Bind.bind; refine SimD.bind (f := id) ?_ ?_; rotate_left; simintro)
    | (at_bind ite; refine SimD.bind (f := id) ?_ ?_; rotate_left; simintro)
    | (at_head Bind.bind; refine SimD.bind (OrderKept.same $hg _) ?_; simintro)
    | (at_head Bind.bind; refine SimD.bind (f := id) ?_ ?_; rotate_left; simintro)
    | (at_head ite; refine SimD.ite ?_ ?_ <;> intro _)
    | exact OrderKept.same $hg _
    | simp only [OrderKept.cmp $hg, OrderKept.pop $hg, List.map_map, List.length_map, ← List.map_take, filterMap_pos_map, Function.comp_def, OrderKept.sol $hg, id])

/-- an `evolve`, statement by statement -/
syntax "simm" term : tactic
macro_rules
  | `(tactic| simm $hg) => `(tactic| repeat' first
    | (at_head draw; refine SimD.draw ?_; simd $hg)
    | (at_head Pure.pure; exact Sim.pure rfl)
    | (at_head mergeTrim; exact Sim.mergeTrim $hg)
    | (at_head setPop; exact Sim.setPop)
    | (at_head setAt; exact Sim.setAt $hg)
    | (at_head tryBetter; exact Sim.tryBetter $hg)
    | (at_head tryCompare; exact Sim.tryCompare $hg)
    | (at_head selectGreedy; exact Sim.selectGreedy $hg)
    | (at_head greedyLoop; refine Sim.greedyLoop $hg ?_; intro _ _; simd $hg)
    | (at_head replaceLoop; refine Sim.replaceLoop ?_; intro _ _; simd $hg)
    | (at_head rebindLoop; refine Sim.rebindLoop $hg ?_; intro _ _; simd $hg)
    | (at_head sortPop; exact Sim.sortPop $hg)
    | (at_head greedyLoopR; refine Sim.greedyLoopR $hg ?_; intro _ _; simd $hg)
    | (at_bind liftB; refine Sim.bind (SimB.lift SimB.updateTargets) ?_; simintro)
    | (at_bind liftB; refine Sim.bind (SimB.lift SimB.getTarget) ?_; simintro)
    | (at_bind liftB; refine Sim.bind (SimB.lift SimB.agentOf) ?_; simintro)
    | (at_bind get; refine Sim.bind Sim.get ?_; simintro)
    | (at_bind popAt; refine Sim.bind (Sim.popAt $hg) ?_; simintro)
    | (at_bind buildEval; refine Sim.bind (Sim.buildEval ?_) ?_; · (intro _ _; simd $hg)
       simintro)
    | (at_bind draw; apply Sim.bind; · (apply SimD.draw; simd $hg)
       simintro)
    | (at_head Bind.bind; refine Sim.bind (f := id) ?_ ?_; rotate_left; simintro)
    | (at_head iter; refine Sim.iter (f := id) ?_ rfl; intro _ _)
    | (at_head ite; refine Sim.ite ?_ ?_ <;> intro _))

end Mealpy
