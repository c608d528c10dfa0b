import Verif.Alg.Simple19
import Verif.Alg.Kit16

/-!
The sea lions in the modes `thread`, `process` and `swarm`. An agent made from `starting_solutions` by `generate_empty_agent`
(`mealpy/swarm_based/SLO.py:146-151`) has a `local_solution` but no `local_target`, so the first such agent that improves makes
`self.pop[idx].local_target` raise AttributeError. Agents made by `generate_agent` have both.
-/

namespace Mealpy
open Num

variable {d : Nat} {K : Type} [Num K] {c : Cfg d K} {Er : Err → Prop}

/-- Without starting solutions a run does not depend on what `generate_empty_agent` gives an agent that `generate_agent` does not evaluate. -/
theorem solve_unstarted {X Y : Type} (sf : Bool) (m1 m2 : Vec d K → D c X) (v : D c Y) (i : Y → Option (List (Agent d K X)) → B c (List (Agent d K X) × Y))
    (ev : Nat → M c X Y Unit) (t : Option (Term K)) (sp : Bool) (b : Base c) :
    solve (Algo.custom sf m1 v i ev) ⟨t, .none, sp⟩ b = solve (Algo.custom sf m2 v i ev) ⟨t, .none, sp⟩ b := by
  have hm : ∀ (o : RunOpts K) (n ep : Nat), mainLoop (Algo.custom sf m1 v i ev) o n ep = mainLoop (Algo.custom sf m2 v i ev) o n ep := by
    intro o n
    induction n with
    | zero => intro ep; rfl
    | succ n ih =>
      intro ep
      unfold mainLoop
      rw [ih]; rfl
  have hi : ∀ (o : RunOpts K), o.starting = .none → initialPop (Algo.custom sf m1 v i ev) o = initialPop (Algo.custom sf m2 v i ev) o := by
    intro o ho
    unfold initialPop
    rw [ho]; rfl
  obtain ⟨o', bb, ho, hos, -⟩ := startTermination_ok (⟨t, .none, sp⟩ : RunOpts K) b
  have hs : solveInit (Algo.custom sf m1 v i ev) ⟨t, .none, sp⟩ b = solveInit (Algo.custom sf m2 v i ev) ⟨t, .none, sp⟩ b := by
    unfold solveInit
    rw [ho]
    show (initialPop _ o' bb >>= _ : Except Err _) = (initialPop _ o' bb >>= _)
    rw [hi o' hos]; rfl
  unfold solve
  rw [hs]
  simp only [hm]

theorem solve_unstarted_ok {X Y : Type} {sf : Bool} {m1 m2 : Vec d K → D c X} {v : D c Y} {i : Y → Option (List (Agent d K X)) → B c (List (Agent d K X) × Y)}
    {ev : Nat → M c X Y Unit} {I : Inv c X Y} {J0 J1 : Y → Prop} {i1 i2 b1 b2 lo hi : Nat}
    (hA : (Algo.custom sf m2 v i ev).WOk noErr I J0 J1 i1 i2 b1 b2 lo hi) (hE : c.E.Lawful) (hc : Accepted c 5) (t : Option (Term K)) (sp : Bool) (b : Base c) (hb : b.log = []) :
    ∃ s h, solve (Algo.custom sf m1 v i ev) ⟨t, .none, sp⟩ b = .ok (s, h) ∧ 1 ≤ h.epoch ∧ h.epoch ≤ c.epoch := by
  rw [solve_unstarted sf m1 m2]
  have h1 := hc.pop
  have h2 := hc.epoch
  have := hA.solve hE (by omega) (by omega) ⟨t, .none, sp⟩ trivial b hb
  cases hr : solve (Algo.custom sf m2 v i ev) ⟨t, .none, sp⟩ b with
  | error e => rw [hr] at this; exact this.elim
  | ok r => rw [hr] at this; exact ⟨r.1, r.2, rfl, this.epochs⟩

namespace ModifiedSLOPool

/-- `local_solution` and, if the agent has one, `local_target` -/
abbrev Own (d : Nat) (K : Type) : Type := Vec d K × Option (Target K)

/-- `generate_agent()` (`mealpy/swarm_based/SLO.py:146-165`) -/
def spawn : B c (Agent d K (Own d K)) := do
  let x ← liftD genSolution
  let y ← liftD (correct (fun j => c.P.lb j + c.P.ub j - x j))
  let t ← getTarget x
  let u ← getTarget y
  pure (if compareTarget t u c.P.mm then ⟨y, u, (x, some t)⟩ else ⟨x, t, (y, some u)⟩)

def spawnSeq (n : Nat) : B c (List (Agent d K (Own d K))) :=
  iter n (fun _ acc => do
    let a ← spawn
    pure (acc ++ [a])) []

/-- `generate_population` with that `generate_agent` (`mealpy/optimizer.py:338-363`); see `generatePopulation` for the pool modes.
Every task evaluates twice. -/
def spawnPop (n : Nat) : B c (List (Agent d K (Own d K))) :=
  match c.mode with
  | .thread => do
    let pop ← spawnSeq n
    let ord ← liftD (poolOrder n)
    let l ← liftD (rngCall (c.E.lost (n * 2)))
    modify (fun b => { b with nfe := b.nfe - l })
    pure (ord.filterMap (fun i => pop[i]?))
  | .process => fun b => do
    let ord := (c.E.order n b.rng).1
    let rng' := (c.E.order n b.rng).2
    let tasks ← (List.replicate n ()).mapM (fun _ => spawn b)
    let agents := tasks.map (·.1)
    pure (ord.filterMap (fun i => agents[i]?), { b with rng := rng', log := b.log ++ tasks.flatMap (fun p => p.2.log.drop b.log.length) })
  | _ => spawnSeq n

/-- `initialization` (`mealpy/optimizer.py:145-147`) -/
def initialization (y : Unit) (q : Option (List (Agent d K (Own d K)))) : B c (List (Agent d K (Own d K)) × Unit) :=
  match q with
  | some pop => pure (pop, y)
  | none => do
    let pop ← spawnPop c.popSize
    pure (pop, y)

/-- `generate_empty_agent(solution)` (`mealpy/swarm_based/SLO.py:146-151`): no `local_target` -/
def mkExt (x : Vec d K) : D c (Own d K) := do
  let y ← correct (fun j => c.P.lb j + c.P.ub j - x j)
  pure (y, none)

/-- selection and the personal bests (`mealpy/swarm_based/SLO.py:201-206`) -/
def select (new : List (Agent d K (Own d K))) : M c (Own d K) Unit Unit :=
  iter c.popSize (fun i _ => do
    let o ← popAt i
    let n ← draw (nth new i)
    if compareTarget n.tgt o.tgt c.P.mm then
      match n.ext.2 with
      | none => mthrow .attribute
      | some t => setAt i (if compareTarget n.tgt t c.P.mm then { n with ext := (n.sol, some n.tgt) } else n)
    else pure ()) ()

/-- `ModifiedSLO.evolve` (`mealpy/swarm_based/SLO.py:167-206`) -/
def evolve (ep : Nat) : M c (Own d K) Unit Unit := do
  let lead ← draw (uniform 0 1)
  let new ← buildEval c.popSize (ModifiedSLO.move ep lead)
  select new

/-- `ModifiedSLO` (`mealpy/swarm_based/SLO.py:100-206`) in a pool mode -/
def algo : Algo c (Own d K) Unit := Algo.custom false mkExt (pure ()) initialization evolve

/-- what is kept: everything in the box, and `Q` of the extra attributes -/
structure Fits (I : Inv c (Own d K) Unit) (Q : Own d K → Prop) : Prop where
  pos : ∀ x, I.pos x ↔ Feas c x
  size : ∀ n, I.size n ↔ n = c.popSize
  agent : ∀ a : Agent d K (Own d K), I.agent a ↔ Feas c a.sol ∧ Q a.ext
  up : ∀ x t, Q (x, some t)

theorem Fits.std : Fits (Inv.std c (Own d K) JT) (fun _ => True) where
  pos := fun _ => Iff.rfl
  size := fun _ => Iff.rfl
  agent := fun a => ⟨fun h => ⟨h, trivial⟩, fun h => h.1⟩
  up := fun _ _ => trivial

/-- every agent has its `local_target` -/
def Full (c : Cfg d K) : Inv c (Own d K) Unit := ⟨Feas c, fun n => n = c.popSize, fun a => Feas c a.sol ∧ a.ext.2.isSome = true, JT⟩

theorem Fits.full : Fits (Full c) (fun e => e.2.isSome = true) where
  pos := fun _ => Iff.rfl
  size := fun _ => Iff.rfl
  agent := fun _ => Iff.rfl
  up := fun _ _ => rfl

theorem bt_spawn (hP : c.P.Lawful) : BT Er 2 2 (spawn : B c (Agent d K (Own d K))) (fun a => CF c a ∧ a.ext.2.isSome = true) := by
  unfold spawn
  refine BT.bind0 (BT.liftD (DT.genSolution hP)) fun x hx => BT.bind0 (BT.liftD (DT.correct hP)) fun y hy =>
    BT.bindS (BT.getTarget hx) (by omega) fun t ht => BT.bindS (BT.getTarget hy) (by omega) fun u hu => BT.pure ?_
  split
  · exact ⟨⟨hu, hy⟩, rfl⟩
  · exact ⟨⟨ht, hx⟩, rfl⟩

/-- a list growing by such agents -/
def Part (c : Cfg d K) (i : Nat) (l : List (Agent d K (Own d K))) : Prop := l.length = i ∧ ∀ a ∈ l, CF c a ∧ a.ext.2.isSome = true

theorem bt_spawnSeq (hP : c.P.Lawful) (n : Nat) : BT Er (n * 2) (n * 2) (spawnSeq n : B c (List (Agent d K (Own d K)))) (Part c n) := by
  unfold spawnSeq
  refine BT.iter (Part c) (lo := 2) (hi := 2) n ⟨rfl, by simp⟩ fun i l hi hl => ?_
  refine BT.bindS (bt_spawn hP) le_rfl fun a ha => BT.weaken (BT.pure ⟨by simp [hl.1], fun b hb => ?_⟩) (by omega) (by omega)
  rcases List.mem_append.1 hb with hb | hb
  · exact hl.2 b hb
  · rw [List.mem_singleton.1 hb]; exact ha

theorem tasks_log {b : Base c} {ps : List (Agent d K (Own d K) × Base c)}
    (h : ∀ p ∈ ps, ∃ new : List (Vec d K), p.2.log = b.log ++ new ∧ 2 ≤ new.length ∧ new.length ≤ 2 ∧ ∀ x ∈ new, Feas c x) :
    (ps.flatMap (fun p => p.2.log.drop b.log.length)).length = ps.length * 2 ∧
      ∀ x ∈ ps.flatMap (fun p => p.2.log.drop b.log.length), Feas c x := by
  induction ps with
  | nil => exact ⟨rfl, by simp⟩
  | cons p ps ih =>
    obtain ⟨h1, h2⟩ := ih fun q hq => h q (.tail _ hq)
    obtain ⟨new, e, g1, g2, g3⟩ := h p (.head _)
    have hd : p.2.log.drop b.log.length = new := by rw [e]; simp
    rw [List.flatMap_cons, hd]
    refine ⟨by rw [List.length_append, h1, List.length_cons]; omega, fun x hx => ?_⟩
    rcases List.mem_append.1 hx with hx | hx
    · exact g3 x hx
    · exact h2 x hx

theorem bt_spawnPop (hE : c.E.Lawful) (hP : c.P.Lawful) (n : Nat) :
    BT Er (n * 2) (n * 2) (spawnPop n : B c (List (Agent d K (Own d K)))) (Part c n) := by
  intro b
  unfold spawnPop
  cases hmode : c.mode with
  | single => exact bt_spawnSeq hP n b
  | swarm => exact bt_spawnSeq hP n b
  | thread =>
    refine Wp.bind (Wp.mono (bt_spawnSeq hP n b) ?_)
    rintro pop b' ⟨h1, h2⟩
    refine Wp.bind (Wp.liftD (R := fun l => l.Perm (List.range n)) (DT.rngCall fun s => hE.order_perm _ s) ?_)
    intro ord r v hord
    refine Wp.bind (Wp.liftD (R := fun l => l ≤ n * 2 - 1) (DT.rngCall fun s => hE.lost_lt _ s) ?_)
    intro l r v hl
    refine Wp.bind (Wp.modify ?_)
    have hp : (ord.filterMap (fun i => pop[i]?)).Perm pop := filterMap_perm_get pop (by rw [h2.1]; exact hord)
    exact Wp.pure ⟨h1, by rw [hp.length_eq, h2.1], fun a ha => h2.2 a (hp.mem_iff.1 ha)⟩
  | process =>
    have key : ∀ k, (∃ ps : List (Agent d K (Own d K) × Base c), (List.replicate k ()).mapM (fun _ => spawn b) = .ok ps
        ∧ ps.length = k ∧ ∀ p ∈ ps, (∃ new, p.2.log = b.log ++ new ∧ 2 ≤ new.length ∧ new.length ≤ 2 ∧ ∀ x ∈ new, Feas c x) ∧ CF c p.1 ∧ p.1.ext.2.isSome = true) ∨
        ∃ e, Er e ∧ (List.replicate k ()).mapM (fun _ => (spawn b : Except Err (Agent d K (Own d K) × Base c))) = .error e := by
      intro k
      have hg := bt_spawn (Er := Er) hP b
      unfold Wp at hg
      induction k with
      | zero => exact Or.inl ⟨[], rfl, rfl, by simp⟩
      | succ k ih =>
        rw [List.replicate_succ, List.mapM_cons]
        cases hga : (spawn b : Except Err (Agent d K (Own d K) × Base c)) with
        | error e => rw [hga] at hg; exact Or.inr ⟨e, hg, rfl⟩
        | ok p =>
          rw [hga] at hg
          rcases ih with ⟨ps, hps, hl, hall⟩ | ⟨e, he, hps⟩
          · refine Or.inl ⟨p :: ps, ?_, by simp [hl], ?_⟩
            · rw [hga] at hps; rw [hps]; rfl
            · intro q hq
              rcases List.mem_cons.1 hq with rfl | hq
              · exact hg
              · exact hall q hq
          · refine Or.inr ⟨e, he, ?_⟩
            rw [hga] at hps; rw [hps]; rfl
    rcases key n with ⟨ps, hps, hl, hall⟩ | ⟨e, he, hps⟩
    · refine Wp.of_ok (a := (c.E.order n b.rng).1.filterMap (fun i => (ps.map (·.1))[i]?))
        (s' := { b with rng := (c.E.order n b.rng).2, log := b.log ++ ps.flatMap (fun p => p.2.log.drop b.log.length) }) ?_ ?_
      · show ((List.replicate n ()).mapM (fun _ => spawn b) >>= fun tasks => _) = _
        rw [hps]; rfl
      · have hp : ((c.E.order n b.rng).1.filterMap (fun i => (ps.map (·.1))[i]?)).Perm (ps.map (·.1)) :=
          filterMap_perm_get _ (by simpa [hl] using hE.order_perm n b.rng)
        obtain ⟨l1, l2⟩ := tasks_log (b := b) fun p hp => (hall p hp).1
        refine ⟨⟨_, rfl, by rw [l1, hl], by rw [l1, hl], l2⟩, by rw [hp.length_eq]; simpa using hl, fun a ha => ?_⟩
        obtain ⟨p, hp, rfl⟩ := List.mem_map.1 (hp.mem_iff.1 ha)
        exact (hall p hp).2
    · refine Wp.of_err (e := e) ?_ he
      show ((List.replicate n ()).mapM (fun _ => spawn b) >>= fun tasks => _) = _
      rw [hps]; rfl

theorem dt_move (hE : c.E.Lawful) (hP : c.P.Lawful) {I : Inv c (Own d K) Unit} {Q : Own d K → Prop} (hI : Fits I Q) {ep : Nat} {lead : K}
    {s : St c (Own d K) Unit} {i : Nat} (hs : WInv I s) (hi : i < c.popSize) : DT Er (ModifiedSLO.move ep lead s i : D c _) I.Mk := by
  have hl := (hI.size _).1 hs.len
  unfold ModifiedSLO.move
  refine DT.bind (DT.nth_mem (by omega)) fun a ha => ?_
  dsimp only
  refine DT.bind (show DT Er _ (fun _ => True) from DT.ite (fun _ => DT.bind DT.normal fun n _ => DT.pure trivial) fun _ => DT.bind DT.uniform' fun u _ => DT.ite (fun _ => ?_) fun _ => ?_) fun pos _ =>
    DT.bind (DT.correct hP) fun pos hp => DT.pure ⟨(hI.pos _).2 hp, (hI.agent _).2 ⟨hp, ((hI.agent _).1 (hs.pop a ha).2).2⟩⟩
  · exact DT.bind DT.uniform' fun v _ => DT.bind DT.levyVec fun l _ => DT.bind DT.random' fun w _ => DT.bind DT.uniformVec' fun z _ => DT.pure trivial
  · exact DT.bind (DT.index hE (by omega)) fun k hk => DT.bind (DT.nth_mem (by omega)) fun b _ => DT.bind DT.uniform' fun v _ => DT.pure trivial

theorem wt_select {I : Inv c (Own d K) Unit} {Q : Own d K → Prop} (hI : Fits I Q) (he : Er .attribute ∨ ∀ e, Q e → e.2.isSome = true)
    {new : List (Agent d K (Own d K))} (hl : new.length = c.popSize) (hn : ∀ a ∈ new, I.Ag a) :
    WT Er I 0 0 (select new : M c (Own d K) Unit Unit) (fun _ => True) := by
  have hsz : ∀ i, i < c.popSize → ∀ n, I.size n → i < n := fun i hi n hn => by rw [(hI.size n).1 hn]; exact hi
  unfold select
  refine WT.iterU 0 0 (by omega) (by omega) fun i hi => WT.bind0 (WT.popAt (hsz i hi)) fun o ho =>
    WT.bind0 (WT.draw (DT.nth_mem (by omega))) fun n hm => WT.ite (fun _ => ?_) fun _ => WT.pure trivial
  obtain ⟨g1, g2⟩ := hn n hm
  have g3 := (hI.agent n).1 g2
  cases hx : n.ext.2 with
  | none =>
    refine WT.throw ?_
    rcases he with he | he
    · exact he
    · have := he _ g3.2
      rw [hx] at this; simp at this
  | some t =>
    refine WT.setAt (hsz i hi) ?_
    split
    · exact ⟨g1, (hI.agent _).2 ⟨g3.1, hI.up _ _⟩⟩
    · exact ⟨g1, g2⟩

theorem wt_evolve (hE : c.E.Lawful) (hP : c.P.Lawful) {I : Inv c (Own d K) Unit} {Q : Own d K → Prop} (hI : Fits I Q)
    (he : Er .attribute ∨ ∀ e, Q e → e.2.isSome = true) (ep : Nat) : WT Er I c.popSize c.popSize (evolve ep : M c (Own d K) Unit Unit) (fun _ => True) := by
  unfold evolve
  refine WT.bind0 (WT.draw DT.uniform') fun lead _ => WT.bindS (WT.buildEval hE fun s i hs hi => dt_move hE hP hI hs hi) le_rfl fun new hnew => ?_
  exact WT.weaken (wt_select hI he hnew.1 hnew.2) (by omega) (by omega)

/-- the contract of a run, given what the loop does -/
theorem start_wok (hE : c.E.Lawful) (hP : c.P.Lawful) (hc : Accepted c 5) {ev : Nat → M c (Own d K) Unit Unit} {lo hi : Nat}
    (h : ∀ ep, WT (only [.attribute]) (Inv.std c (Own d K) JT) lo hi (ev ep) (fun _ => True)) :
    (Algo.custom false mkExt (pure ()) initialization ev).WOk (only [.attribute]) (Inv.std c (Own d K) JT) JT JT c.popSize (c.popSize * 2) 0 0 lo hi := by
  have hpop := hc.pop
  refine Algo.custom_wok (J := JT) (J0 := JT) (by omega) (fun x hx => DT.bind (DT.correct hP) fun _ _ => DT.pure trivial) (by dgo) (by omega) (fun y hy => ?_)
    (fun y pop hy hl hp => BT.weaken (BT.pure ⟨hl, hp, trivial⟩) (by omega) (by omega)) (fun ep _ _ => h ep)
  exact BT.bindS (bt_spawnPop hE hP c.popSize) (by omega) fun pop hpop => BT.weaken (BT.pure ⟨hpop.1, fun a ha => (hpop.2 a ha).1, trivial⟩) (by omega) (by omega)

theorem wok (hE : c.E.Lawful) (hP : c.P.Lawful) (hc : Accepted c 5) (_hm : c.swarmLike = true) :
    (algo : Algo c (Own d K) Unit).WOk (only [.attribute]) (Inv.std c (Own d K) JT) JT JT c.popSize (c.popSize * 2) 0 0 c.popSize c.popSize :=
  start_wok hE hP hc fun ep => wt_evolve hE hP Fits.std (.inl (.head _)) ep

theorem framed_select {new : List (Agent d K (Own d K))} : Framed true (select new : M c (Own d K) Unit Unit) := by
  unfold select; framed

macro_rules
  | `(tactic| fprim) => `(tactic| (at_last ModifiedSLOPool.select; exact ModifiedSLOPool.framed_select))

theorem framed (hE : c.E.Lawful) (ep : Nat) : Framed true (evolve ep : M c (Own d K) Unit Unit) := by
  unfold evolve; framed

/-- the same class, as it runs without starting solutions: `generate_empty_agent` is then only called by `generate_agent` -/
def fullExt (x : Vec d K) : D c (Own d K) := pure (x, some ⟨[], 0⟩)

theorem start_full (hE : c.E.Lawful) (hP : c.P.Lawful) (hc : Accepted c 5) {ev : Nat → M c (Own d K) Unit Unit} {lo hi : Nat}
    (h : ∀ ep, WT noErr (Full c) lo hi (ev ep) (fun _ => True)) :
    (Algo.custom false fullExt (pure ()) initialization ev).WOk noErr (Full c) JT JT c.popSize (c.popSize * 2) 0 0 lo hi where
  box := fun x hx => hx
  nonempty := fun n hn => by
    have := hc.pop
    change n = _ at hn; omega
  mkExt := fun x hx => DT.pure ⟨hx, rfl⟩
  initVars := DT.pure trivial
  init := by
    intro y p b hy hp
    cases p with
    | none =>
      refine Wp.bind (Wp.mono (bt_spawnPop hE hP c.popSize b) ?_)
      rintro pop b' ⟨⟨new, g1, g2, g3, g4⟩, g5, g6⟩
      exact Wp.pure ⟨g5, fun a ha => ⟨(g6 a ha).1.1, (g6 a ha).1.2, (g6 a ha).2⟩, trivial, new, g1, g4, by simp; omega, by simp; omega⟩
    | some pop =>
      obtain ⟨k1, k2⟩ := hp pop rfl
      exact Wp.pure ⟨k1, k2, trivial, [], by simp, by simp, by simp; omega, by simp; omega⟩
  before := fun s hs => Wp.pure (WStep.base hs (.refl rfl))
  evolve := fun ep _ _ => h ep

theorem full (hE : c.E.Lawful) (hP : c.P.Lawful) (hc : Accepted c 5) :
    (Algo.custom false fullExt (pure ()) initialization evolve : Algo c (Own d K) Unit).WOk noErr (Full c) JT JT c.popSize (c.popSize * 2) 0 0 c.popSize c.popSize :=
  start_full hE hP hc fun ep => wt_evolve hE hP Fits.full (.inr fun _ h => h) ep

end ModifiedSLOPool

namespace ImprovedSLOPool

open ModifiedSLOPool (Own Fits select initialization mkExt)

/-- `ImprovedSLO.evolve` (`mealpy/swarm_based/SLO.py:268-315`) -/
def evolve (p : ImprovedSLO.Params K) (ep : Nat) : M c (Own d K) Unit Unit := do
  let t0 ← draw random
  let v1 : K := Num.sin (2 * Num.pi * t0)
  let v2 : K := Num.sin (2 * Num.pi * (1 - t0))
  let new ← buildEvalM c.popSize (ImprovedSLO.move p ep (Num.abs (v1 * (1 + v2) / v2)))
  select new

/-- `ImprovedSLO` (`mealpy/swarm_based/SLO.py:209-315`) in a pool mode -/
def algo (p : ImprovedSLO.Params K) : Algo c (Own d K) Unit := Algo.custom false mkExt (pure ()) initialization (evolve p)

theorem wt_move (hP : c.P.Lawful) {I : Inv c (Own d K) Unit} {Q : Own d K → Prop} (hI : Fits I Q) {p : ImprovedSLO.Params K} {ep : Nat} {lead : K} {i : Nat}
    (hi : i < c.popSize) : WT Er I 0 2 (ImprovedSLO.move p ep lead i : M c (Own d K) Unit _) I.Mk := by
  unfold ImprovedSLO.move
  refine WT.bind0 WT.get fun s hs => WT.bind0 (WT.popAt fun n hn => by rw [(hI.size n).1 hn]; exact hi) fun a ha => ?_
  dsimp only
  refine WT.bindS (l1 := 0) (h1 := 2) (R := fun _ => True) (WT.ite (fun _ => WT.ite (fun _ => ?_) fun _ => ?_) fun _ => ?_) (by omega) fun pos _ =>
    WT.weaken (WT.bind0 (WT.draw (DT.correct hP)) fun pos hp => WT.pure ⟨(hI.pos _).2 hp, (hI.agent _).2 ⟨hp, ((hI.agent _).1 ha.2).2⟩⟩) (by omega) (by omega)
  · exact WT.weaken (WT.draw (DT.bind DT.random' fun _ _ => DT.bind DT.random' fun _ _ => DT.bind DT.random' fun _ _ => DT.bind DT.random' fun _ _ => DT.pure trivial)) (by omega) (by omega)
  · refine WT.bind0 (WT.draw DT.normalVec) fun n _ => WT.bind0 (WT.draw (DT.correct hP)) fun x hx => ?_
    refine WT.bindS (WT.getTarget ((hI.pos _).2 hx)) (by omega) fun t _ => WT.bind0 (WT.draw DT.random') fun r _ => WT.bind0 (WT.draw (DT.correct hP)) fun y hy => ?_
    exact WT.bindS (WT.getTarget ((hI.pos _).2 hy)) (by omega) fun u _ => WT.weaken (WT.pure trivial) (by omega) (by omega)
  · exact WT.weaken (WT.draw (DT.bind DT.uniform' fun _ _ => DT.pure trivial)) (by omega) (by omega)

theorem wt_evolve (hE : c.E.Lawful) (hP : c.P.Lawful) {I : Inv c (Own d K) Unit} {Q : Own d K → Prop} (hI : Fits I Q)
    (he : Er .attribute ∨ ∀ e, Q e → e.2.isSome = true) (p : ImprovedSLO.Params K) (ep : Nat) :
    WT Er I c.popSize (c.popSize * 3) (evolve p ep : M c (Own d K) Unit Unit) (fun _ => True) := by
  unfold evolve
  refine WT.bind0 (WT.draw DT.random') fun t0 _ => ?_
  refine WT.bindS (WT.buildEvalM (lo := 0) (hi := 2) hE fun i hi => wt_move hP hI hi) (by omega) fun new hnew => ?_
  exact WT.weaken (ModifiedSLOPool.wt_select hI he hnew.1 hnew.2) (by omega) (by omega)

theorem wok (hE : c.E.Lawful) (hP : c.P.Lawful) (hc : Accepted c 5) (p : ImprovedSLO.Params K) (_hm : c.swarmLike = true) :
    (algo p : Algo c (Own d K) Unit).WOk (only [.attribute]) (Inv.std c (Own d K) JT) JT JT c.popSize (c.popSize * 2) 0 0 c.popSize (c.popSize * 3) :=
  ModifiedSLOPool.start_wok hE hP hc fun ep => wt_evolve hE hP Fits.std (.inl (.head _)) p ep

theorem framed (hE : c.E.Lawful) (p : ImprovedSLO.Params K) (ep : Nat) : Framed true (evolve p ep : M c (Own d K) Unit Unit) := by
  unfold evolve; framed

theorem full (hE : c.E.Lawful) (hP : c.P.Lawful) (hc : Accepted c 5) (p : ImprovedSLO.Params K) :
    (Algo.custom false ModifiedSLOPool.fullExt (pure ()) initialization (evolve p) : Algo c (Own d K) Unit).WOk noErr (ModifiedSLOPool.Full c) JT JT c.popSize (c.popSize * 2) 0 0 c.popSize (c.popSize * 3) :=
  ModifiedSLOPool.start_full hE hP hc fun ep => wt_evolve hE hP Fits.full (.inr fun _ h => h) p ep

end ImprovedSLOPool

end Mealpy
