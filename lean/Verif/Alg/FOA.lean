import Verif.Alg.Light
import Verif.Alg.Kit19
import Verif.Alg.Kit20
import Verif.Alg.Enhanced

/-!
# Fruit-fly optimization: `FOA.py`

The three classes override `generate_empty_agent` (`mealpy/swarm_based/FOA.py:62-66`): whatever solution an agent is made of, the agent stores
the norms of its consecutive coordinates instead.  The initial agents are therefore evaluated at such norms, which may lie outside the box.
Starting solutions go through the same override (`mealpy/optimizer.py:131-143`), so the starting rows of the model stand for the rows given
by the user after `smell` was applied to them.
-/

set_option linter.unusedSectionVars false
set_option linter.unusedVariables false

namespace Mealpy
open Spec

variable {d : Nat} {K : Type} [Num K] {c : Cfg d K} {X Y : Type} {Er : Err → Prop}

theorem DT.normalArr_err {loc scale : Vec d K} (h : Er .value) : DT Er (Mealpy.normalArr loc scale : D c (Vec d K)) (fun _ => True) :=
  DT.ite (fun _ => DT.throw h) fun _ => DT.vecM_true fun _ => DT.normal

namespace OriginalFOA

/-- `norm_consecutive_adjacent__` (`mealpy/swarm_based/FOA.py:58-60`): the norm of each coordinate with the next one, the last with the first -/
def smell (x : Vec d K) : Vec d K := fun j => normL [x j, x ⟨(j.val + 1) % d, Nat.mod_lt _ (by have := j.isLt; omega)⟩]

/-- `generate_agent()`: a generated solution is replaced by its norms and then evaluated
(`mealpy/swarm_based/FOA.py:62-66`, `mealpy/optimizer.py:325-336`) -/
def spawn : B c (Agent d K Unit) := do
  let x ← liftD genSolution
  agentOf (fun _ => pure ()) (smell x)

def spawnSeq (n : Nat) : B c (List (Agent d K Unit)) :=
  iter n (fun _ acc => do
    let a ← spawn
    pure (acc ++ [a])) []

/-- `generate_population` with that `generate_agent` (`mealpy/optimizer.py:338-363`); see `generatePopulation` for the pool modes -/
def spawnPop (n : Nat) : B c (List (Agent d K Unit)) :=
  match c.mode with
  | .thread => do
    let pop ← spawnSeq n
    let ord ← liftD (poolOrder n)
    let l ← liftD (rngCall (c.E.lost n))
    modify (fun b => { b with nfe := b.nfe - l })
    pure (ord.filterMap (fun i => pop[i]?))
  | .process => fun b => do
    let ord := (c.E.order n b.rng).1
    let rng' := (c.E.order n b.rng).2
    let tasks ← (List.replicate n ()).mapM (fun _ => spawn b)
    let agents := tasks.map (·.1)
    pure (ord.filterMap (fun i => agents[i]?), { b with rng := rng', log := b.log ++ agents.map Agent.sol })
  | _ => spawnSeq n

/-- `initialization` (`mealpy/optimizer.py:145-147`) -/
def initialization (y : Unit) (p : Option (List (Agent d K Unit))) : B c (List (Agent d K Unit) × Unit) :=
  match p with
  | some pop => pure (pop, y)
  | none => do
    let pop ← spawnPop c.popSize
    pure (pop, y)

/-- The loop shared by the three classes (`mealpy/swarm_based/FOA.py:75-87`): `mk` is the corrected position.  The agent stores its norms; in
`single` mode its target is that of the corrected position, in pool modes that of the norms.  In pool modes the old population is passed to
`greedy_selection_population` as the new one; both have `pop_size` members, so it does not raise. -/
def fly (mk : St c Unit Unit → Nat → D c (Vec d K)) : M c Unit Unit Unit :=
  if c.swarmLike then do
    let s ← get
    let pend ← draw (repM c.popSize (fun i => do
      let x ← mk s i
      pure (smell x, ())))
    let new ← liftB (updateTargets pend)
    setPop (zipGreedy c.P.mm new s.pop)
  else
    iter c.popSize (fun i _ => do
      let s ← get
      let x ← draw (mk s i)
      let t ← liftB (getTarget x)
      let me ← popAt i
      setAt i (getBetterAgent ⟨smell x, t, ()⟩ me c.P.mm)) ()

/-- the corrected position (`mealpy/swarm_based/FOA.py:77-79`); the upper bounds serve as standard deviations -/
def mk (s : St c Unit Unit) (i : Nat) : D c (Vec d K) := do
  let me ← nth s.pop i
  let u ← random
  let z ← normalArr c.P.lb c.P.ub
  correct (smell (fun j => me.sol j + u * z j))

/-- `OriginalFOA.evolve` (`mealpy/swarm_based/FOA.py:68-87`) -/
def evolve (_ : Nat) : M c Unit Unit Unit := fly mk

/-- `OriginalFOA` (`mealpy/swarm_based/FOA.py:13-87`) -/
def algo : Algo c Unit Unit := Algo.custom false (fun _ => pure ()) (pure ()) initialization evolve

/-- anything may be evaluated, `pop_size` agents -/
abbrev LI (c : Cfg d K) : LInv d K Unit := ⟨fun _ => True, fun n => n = c.popSize, JT⟩

/-- likewise, every agent with its own target -/
abbrev WI (c : Cfg d K) : Inv c Unit Unit := ⟨fun _ => True, fun n => n = c.popSize, fun _ => True, JT⟩

theorem spawn_spec (hP : c.P.Lawful) {b : Base c} :
    Wp Er (spawn : B c _) b (fun a b' => a.tgt = c.P.target a.sol ∧ b'.log = b.log ++ [a.sol]) := by
  refine Wp.bind (Wp.liftD (DT.genSolution hP) ?_)
  intro x r v hx
  refine Wp.mono (agentOf_spec (F := fun _ => True) (DT.pure trivial)) ?_
  rintro a b' ⟨h1, h2, h3, h4, h5⟩
  exact ⟨by rw [h1]; exact h2, by rw [h1]; exact h4⟩

theorem spawnSeq_spec (hP : c.P.Lawful) {b : Base c} (n : Nat) :
    Wp Er (spawnSeq n : B c _) b (fun pop b' => pop.length = n ∧ (∀ a ∈ pop, a.tgt = c.P.target a.sol) ∧
      b'.log = b.log ++ pop.map Agent.sol) := by
  refine Wp.mono (Wp.iter (fun i (pop : List (Agent d K Unit)) (b' : Base c) => pop.length = i ∧
      (∀ a ∈ pop, a.tgt = c.P.target a.sol) ∧ b'.log = b.log ++ pop.map Agent.sol) n ?_ ?_) ?_
  · simp
  · rintro i pop b' hi ⟨h1, h2, h3⟩
    refine Wp.bind (Wp.mono (spawn_spec hP) ?_)
    rintro a b'' ⟨g1, g2⟩
    refine Wp.pure ⟨by simp [h1], ?_, ?_⟩
    · intro x hx
      rcases List.mem_append.1 hx with hx | hx
      · exact h2 x hx
      · rw [List.mem_singleton.1 hx]; exact g1
    · rw [g2, h3]; simp
  · intro pop b' h; exact h

theorem spawnPop_spec (hE : c.E.Lawful) (hP : c.P.Lawful) {b : Base c} (n : Nat) :
    Wp Er (spawnPop n : B c _) b (fun pop b' => pop.length = n ∧ (∀ a ∈ pop, a.tgt = c.P.target a.sol) ∧
      ∃ new, b'.log = b.log ++ new ∧ new.Perm (pop.map Agent.sol)) := by
  unfold spawnPop
  have hseq : Wp Er (spawnSeq n : B c _) b (fun pop b' => pop.length = n ∧ (∀ a ∈ pop, a.tgt = c.P.target a.sol) ∧
      ∃ new, b'.log = b.log ++ new ∧ new.Perm (pop.map Agent.sol)) := by
    refine Wp.mono (spawnSeq_spec hP n) ?_
    rintro pop b' ⟨h1, h2, h3⟩
    exact ⟨h1, h2, _, h3, List.Perm.refl _⟩
  cases hmode : c.mode with
  | single => exact hseq
  | swarm => exact hseq
  | thread =>
    refine Wp.bind (Wp.mono (spawnSeq_spec hP n) ?_)
    rintro pop b' ⟨h1, h2, h3⟩
    refine Wp.bind (Wp.liftD (R := fun l => l.Perm (List.range n)) (DT.rngCall fun s => hE.order_perm _ s) ?_)
    intro ord r v hord
    refine Wp.bind (Wp.liftD (R := fun l => l ≤ n - 1) (DT.rngCall fun s => hE.lost_lt _ s) ?_)
    intro l r v hl
    refine Wp.bind (Wp.modify ?_)
    have hp : (ord.filterMap (fun i => pop[i]?)).Perm pop := filterMap_perm_get pop (by rw [h1]; exact hord)
    exact Wp.pure ⟨by rw [hp.length_eq, h1], fun a ha => h2 a (hp.mem_iff.1 ha), pop.map Agent.sol, h3, (hp.map _).symm⟩
  | process =>
    have key : ∀ k, (∃ ps : List (Agent d K Unit × Base c), (List.replicate k ()).mapM (fun _ => spawn b) = .ok ps
        ∧ ps.length = k ∧ ∀ p ∈ ps, p.1.tgt = c.P.target p.1.sol) ∨
        ∃ e, Er e ∧ (List.replicate k ()).mapM (fun _ => (spawn b : Except Err (Agent d K Unit × Base c))) = .error e := by
      intro k
      have hg := spawn_spec (Er := Er) (b := b) hP
      unfold Wp at hg
      induction k with
      | zero => exact Or.inl ⟨[], rfl, rfl, by simp⟩
      | succ k ih =>
        rw [List.replicate_succ, List.mapM_cons]
        cases hga : (spawn b : Except Err (Agent d K Unit × Base c)) with
        | error e => rw [hga] at hg; exact Or.inr ⟨e, hg, rfl⟩
        | ok p =>
          rw [hga] at hg
          rcases ih with ⟨ps, hps, hl, hall⟩ | ⟨e, he, hps⟩
          · refine Or.inl ⟨p :: ps, ?_, by simp [hl], ?_⟩
            · rw [hga] at hps; rw [hps]; rfl
            · intro q hq
              rcases List.mem_cons.1 hq with rfl | hq
              · exact hg.1
              · exact hall q hq
          · refine Or.inr ⟨e, he, ?_⟩
            rw [hga] at hps; rw [hps]; rfl
    rcases key n with ⟨ps, hps, hl, hall⟩ | ⟨e, he, hps⟩
    · refine Wp.of_ok (a := (c.E.order n b.rng).1.filterMap (fun i => (ps.map (·.1))[i]?))
        (s' := { b with rng := (c.E.order n b.rng).2, log := b.log ++ (ps.map (·.1)).map Agent.sol }) ?_ ?_
      · show ((List.replicate n ()).mapM (fun _ => spawn b) >>= fun tasks => _) = _
        rw [hps]; rfl
      · have hp : ((c.E.order n b.rng).1.filterMap (fun i => (ps.map (·.1))[i]?)).Perm (ps.map (·.1)) :=
          filterMap_perm_get _ (by simpa [hl] using hE.order_perm n b.rng)
        refine ⟨by rw [hp.length_eq]; simpa using hl, ?_, ⟨_, rfl, (hp.map _).symm⟩⟩
        intro a ha
        have := hp.mem_iff.1 ha
        obtain ⟨p, hp, rfl⟩ := List.mem_map.1 this
        exact hall p hp
    · refine Wp.of_err (e := e) ?_ he
      show ((List.replicate n ()).mapM (fun _ => spawn b) >>= fun tasks => _) = _
      rw [hps]; rfl

/-- the run's contract, given what the loop does -/
theorem start_lok (hE : c.E.Lawful) (hP : c.P.Lawful) (hpos : 0 < c.popSize) {ev : Nat → M c Unit Unit Unit} {lo hi : Nat}
    (h : ∀ ep, LT Er (LI c) lo hi (ev ep) (fun _ => True)) :
    (Algo.custom false (fun _ => pure ()) (pure ()) initialization ev).LOk Er (LI c) JT JT c.popSize c.popSize 0 0 lo hi where
  box := fun _ _ => trivial
  nonempty := fun n hn => by have : n = c.popSize := hn; omega
  mkExt := fun _ _ => DT.pure trivial
  initVars := DT.pure trivial
  init := by
    intro y p b hy hp
    cases p with
    | some pop =>
      have h1 := hp pop rfl
      exact Wp.pure ⟨h1, trivial, [], by simp, by simp, by simp [h1], by simp [h1]⟩
    | none =>
      refine Wp.bind (Wp.mono (spawnPop_spec hE hP c.popSize) ?_)
      rintro pop b' ⟨h1, h2, new, h3, h3'⟩
      have hl : new.length = c.popSize := by rw [h3'.length_eq]; simp [h1]
      exact Wp.pure ⟨h1, trivial, new, h3, fun _ _ => trivial, by simp [hl], by simp [hl]⟩
  before := fun s hs => Wp.pure (.refl hs)
  evolve := fun ep _ _ => h ep

theorem start_wok (hE : c.E.Lawful) (hP : c.P.Lawful) (hpos : 0 < c.popSize) {ev : Nat → M c Unit Unit Unit} {lo hi : Nat}
    (h : ∀ ep, WT Er (WI c) lo hi (ev ep) (fun _ => True)) :
    (Algo.custom false (fun _ => pure ()) (pure ()) initialization ev).WOk Er (WI c) JT JT c.popSize c.popSize 0 0 lo hi where
  box := fun _ _ => trivial
  nonempty := fun n hn => by have : n = c.popSize := hn; omega
  mkExt := fun _ _ => DT.pure trivial
  initVars := DT.pure trivial
  init := by
    intro y p b hy hp
    cases p with
    | some pop =>
      obtain ⟨h1, h2⟩ := hp pop rfl
      exact Wp.pure ⟨h1, h2, trivial, [], by simp, by simp, by simp [h1], by simp [h1]⟩
    | none =>
      refine Wp.bind (Wp.mono (spawnPop_spec hE hP c.popSize) ?_)
      rintro pop b' ⟨h1, h2, new, h3, h3'⟩
      have hl : new.length = c.popSize := by rw [h3'.length_eq]; simp [h1]
      exact Wp.pure ⟨h1, fun a ha => ⟨h2 a ha, trivial⟩, trivial, new, h3, fun _ _ => trivial, by simp [hl], by simp [hl]⟩
  before := fun s hs => Wp.pure ⟨hs, .refl rfl, .rfl⟩
  evolve := fun ep _ _ => h ep

theorem fly_lt (hE : c.E.Lawful) {f : St c Unit Unit → Nat → D c (Vec d K)}
    (hf : ∀ (s : St c Unit Unit) (i : Nat), s.pop.length = c.popSize → i < c.popSize → DT Er (f s i) (fun _ => True)) :
    LT Er (LI c) c.popSize c.popSize (fly f) (fun _ => True) := by
  unfold fly
  refine LT.ite (fun hm => ?_) fun _ => ?_
  · refine LT.bind0 LT.get fun s hs => LT.bind0 (LT.draw (DT.repM (Q := fun _ => True) fun i hi =>
      DT.bind (hf s i hs.len hi) fun x _ => DT.pure trivial)) fun pend hp => ?_
    refine LT.bindL (R := fun l => l.length = c.popSize) ?_ fun new hn => LT.setPop ?_
    · have := LT.updateTargets (Er := Er) (I := LI c) (c := c) (Y := Unit) hE hm (pend := pend) fun _ _ => trivial
      rw [hp.1] at this
      exact this
    · show (zipGreedy _ _ _).length = _
      have : s.pop.length = c.popSize := hs.len
      rw [zipGreedy_length, hn, this, Nat.min_self]
  · refine LT.iterU 1 1 (by omega) (by omega) fun i hi => ?_
    have hsz : ∀ n, (LI c).size n → i < n := fun n hn => by have : n = c.popSize := hn; omega
    refine LT.bind0 LT.get fun s hs => LT.bind0 (LT.draw (hf s i hs.len hi)) fun x _ => LT.bindL (LT.getTarget trivial) fun t _ => ?_
    exact LT.bind0 (LT.popAt hsz) fun me _ => LT.setAt hsz

theorem fly_wt (hE : c.E.Lawful) (hm : c.swarmLike = true) {f : St c Unit Unit → Nat → D c (Vec d K)}
    (hf : ∀ (s : St c Unit Unit) (i : Nat), s.pop.length = c.popSize → i < c.popSize → DT Er (f s i) (fun _ => True)) :
    WT Er (WI c) c.popSize c.popSize (fly f) (fun _ => True) := by
  unfold fly
  rw [if_pos hm]
  refine WT.bind0 WT.get fun s hs => WT.bind0 (WT.draw (DT.repM (Q := fun _ => True) fun i hi =>
      DT.bind (hf s i hs.len hi) fun x _ => DT.pure trivial)) fun pend hp => ?_
  have hu := WT.updateTargets (Er := Er) (I := WI c) (c := c) hE hm (pend := pend) fun _ _ => ⟨trivial, trivial⟩
  rw [hp.1] at hu
  refine WT.bindS hu (Nat.le_refl _) fun new hn => WT.weaken (lo := 0) (hi := 0) (WT.setPop ?_ ?_) (by omega) (by omega)
  · show (zipGreedy _ _ _).length = _
    have : s.pop.length = c.popSize := hs.len
    rw [zipGreedy_length, this, hn.1, Nat.min_self]
  · intro a ha
    obtain ⟨x, hx, y, hy, rfl⟩ := mem_zipWith' ha
    unfold greedyPick
    split <;> split <;> first | exact hs.pop _ hy | exact hn.2 _ hx

theorem mk_dt (hP : c.P.Lawful) (hE : c.E.Lawful) (h : Er .value ∨ ∀ j, 0 ≤ c.P.ub j) {s : St c Unit Unit} {i : Nat} (hs : s.pop.length = c.popSize)
    (hi : i < c.popSize) : DT Er (mk s i : D c (Vec d K)) (fun _ => True) := by
  unfold mk
  refine DT.bind (R := fun _ => True) (DT.nth (by omega) trivial) fun me _ => DT.bind (R := fun _ => True) (by dprim) fun u _ =>
    DT.bind (R := fun _ => True) ?_ fun z _ => DT.mono (DT.correct hP) fun _ _ => trivial
  rcases h with h | h
  · exact DT.normalArr_err h
  · exact DT.normalArr h

theorem lok (hE : c.E.Lawful) (hP : c.P.Lawful) (h : Accepted c 5) :
    (algo : Algo c Unit Unit).LOk (only [.value]) (LI c) JT JT c.popSize c.popSize 0 0 c.popSize c.popSize :=
  start_lok hE hP (by have := h.pop; omega) fun ep => fly_lt hE fun s i hs hi => mk_dt hP hE (.inl (List.Mem.head _)) hs hi

theorem wok (hE : c.E.Lawful) (hP : c.P.Lawful) (h : Accepted c 5) (hm : c.swarmLike = true) (hu : ∀ j, 0 ≤ c.P.ub j) :
    (algo : Algo c Unit Unit).WOk noErr (WI c) JT JT c.popSize c.popSize 0 0 c.popSize c.popSize :=
  start_wok hE hP (by have := h.pop; omega) fun ep => fly_wt hE hm fun s i hs hi => mk_dt hP hE (.inr hu) hs hi

theorem framed_fly (hE : c.E.Lawful) {q : Bool} {f : St c Unit Unit → Nat → D c (Vec d K)} : Framed q (fly f : M c Unit Unit Unit) := by
  unfold fly
  exact .ite (.bind .get fun _ => .bind .draw fun _ => .bind (.liftB (.updateTargets hE)) fun _ => .setPop)
    (.iter fun _ _ => .bind .get fun _ => .bind .draw fun _ => .bind (.liftB .getTarget) fun _ => .bind .popAt fun _ => .setAt)

theorem framed (hE : c.E.Lawful) (ep : Nat) : Framed true ((algo : Algo c Unit Unit).evolve ep) := framed_fly hE

end OriginalFOA

namespace DevFOA

/-- the corrected position (`mealpy/swarm_based/FOA.py:139-144`) -/
def mk (ep : Nat) (s : St c Unit Unit) (i : Nat) : D c (Vec d K) := do
  let me ← nth s.pop i
  let z ← normalArr c.P.lb c.P.ub
  let u ← random
  let k : K := 1.0 - ♯ep / ♯c.epoch
  correct (fun j => k * u * OriginalFOA.smell (fun j => me.sol j + z j) j)

/-- `DevFOA.evolve` (`mealpy/swarm_based/FOA.py:132-152`) -/
def evolve (ep : Nat) : M c Unit Unit Unit := OriginalFOA.fly (mk ep)

/-- `DevFOA` (`mealpy/swarm_based/FOA.py:90-152`) -/
def algo : Algo c Unit Unit := Algo.custom false (fun _ => pure ()) (pure ()) OriginalFOA.initialization evolve

theorem mk_dt (hP : c.P.Lawful) (hE : c.E.Lawful) (h : Er .value ∨ ∀ j, 0 ≤ c.P.ub j) {ep : Nat} {s : St c Unit Unit} {i : Nat}
    (hs : s.pop.length = c.popSize) (hi : i < c.popSize) : DT Er (mk ep s i : D c (Vec d K)) (fun _ => True) := by
  unfold mk
  refine DT.bind (R := fun _ => True) (DT.nth (by omega) trivial) fun me _ => DT.bind (R := fun _ => True) ?_ fun z _ =>
    DT.bind (R := fun _ => True) (by dprim) fun u _ => DT.mono (DT.correct hP) fun _ _ => trivial
  rcases h with h | h
  · exact DT.normalArr_err h
  · exact DT.normalArr h

theorem lok (hE : c.E.Lawful) (hP : c.P.Lawful) (h : Accepted c 5) :
    (algo : Algo c Unit Unit).LOk (only [.value]) (OriginalFOA.LI c) JT JT c.popSize c.popSize 0 0 c.popSize c.popSize :=
  OriginalFOA.start_lok hE hP (by have := h.pop; omega) fun ep => OriginalFOA.fly_lt hE fun s i hs hi => mk_dt hP hE (.inl (List.Mem.head _)) hs hi

theorem wok (hE : c.E.Lawful) (hP : c.P.Lawful) (h : Accepted c 5) (hm : c.swarmLike = true) (hu : ∀ j, 0 ≤ c.P.ub j) :
    (algo : Algo c Unit Unit).WOk noErr (OriginalFOA.WI c) JT JT c.popSize c.popSize 0 0 c.popSize c.popSize :=
  OriginalFOA.start_wok hE hP (by have := h.pop; omega) fun ep => OriginalFOA.fly_wt hE hm fun s i hs hi => mk_dt hP hE (.inr hu) hs hi

theorem framed (hE : c.E.Lawful) (ep : Nat) : Framed true ((algo : Algo c Unit Unit).evolve ep) := OriginalFOA.framed_fly hE

end DevFOA

namespace WhaleFOA

/-- the corrected position (`mealpy/swarm_based/FOA.py:209-231`) -/
def mk (ep : Nat) (s : St c Unit Unit) (i : Nat) : D c (Vec d K) := do
  let a : K := 2.0 - 2.0 * ♯ep / ♯c.epoch
  let me ← nth s.pop i
  let r ← random
  let A := 2.0 * a * r - a
  let C := 2.0 * r
  let l ← uniform (-1.0) 1.0
  let u ← random
  let x ← (if u < 0.5 then
      if Num.abs A < 1.0 then pure (fun j => s.gbest.sol j - A * Num.abs (C * s.gbest.sol j - me.sol j))
      else do
        let k ← index c.popSize
        let o ← nth s.pop k
        pure (fun j => o.sol j - A * Num.abs (C * o.sol j - me.sol j))
    else pure (fun j => Num.abs (s.gbest.sol j - me.sol j) * Num.exp (1.0 * l) * Num.cos (2.0 * Num.pi * l) + s.gbest.sol j) : D c (Vec d K))
  correct (OriginalFOA.smell x)

/-- `WhaleFOA.evolve` (`mealpy/swarm_based/FOA.py:202-239`) -/
def evolve (ep : Nat) : M c Unit Unit Unit := OriginalFOA.fly (mk ep)

/-- `WhaleFOA` (`mealpy/swarm_based/FOA.py:155-239`) -/
def algo : Algo c Unit Unit := Algo.custom false (fun _ => pure ()) (pure ()) OriginalFOA.initialization evolve

theorem mk_dt (hP : c.P.Lawful) (hE : c.E.Lawful) {ep : Nat} {s : St c Unit Unit} {i : Nat}
    (hs : s.pop.length = c.popSize) (hi : i < c.popSize) : DT Er (mk ep s i : D c (Vec d K)) (fun _ => True) := by
  unfold mk
  refine DT.bind (R := fun _ => True) (DT.nth (by omega) trivial) fun me _ => DT.bind (R := fun _ => True) (by dprim) fun r _ =>
    DT.bind (R := fun _ => True) (by dprim) fun l _ => DT.bind (R := fun _ => True) (by dprim) fun u _ =>
    DT.bind (R := fun _ => True) ?_ fun x _ => DT.mono (DT.correct hP) fun _ _ => trivial
  refine DT.ite (fun _ => DT.ite (fun _ => DT.pure trivial) fun _ => ?_) fun _ => DT.pure trivial
  exact DT.bind (DT.index hE (by omega)) fun k hk => DT.bind (R := fun _ => True) (DT.nth (by omega) trivial) fun o _ => DT.pure trivial

theorem lok (hE : c.E.Lawful) (hP : c.P.Lawful) (h : Accepted c 5) :
    (algo : Algo c Unit Unit).LOk (only []) (OriginalFOA.LI c) JT JT c.popSize c.popSize 0 0 c.popSize c.popSize :=
  OriginalFOA.start_lok hE hP (by have := h.pop; omega) fun ep => OriginalFOA.fly_lt hE fun s i hs hi => mk_dt hP hE hs hi

theorem wok (hE : c.E.Lawful) (hP : c.P.Lawful) (h : Accepted c 5) (hm : c.swarmLike = true) :
    (algo : Algo c Unit Unit).WOk noErr (OriginalFOA.WI c) JT JT c.popSize c.popSize 0 0 c.popSize c.popSize :=
  OriginalFOA.start_wok hE hP (by have := h.pop; omega) fun ep => OriginalFOA.fly_wt hE hm fun s i hs hi => mk_dt hP hE hs hi

theorem framed (hE : c.E.Lawful) (ep : Nat) : Framed true ((algo : Algo c Unit Unit).evolve ep) := OriginalFOA.framed_fly hE

end WhaleFOA

end Mealpy
