import Verif.Alg.Light
import Verif.Alg.Simple14

/-!
# `EnhancedTWO`

`initialization` copies the list of agents, not the agents, so every agent object occurs twice in the list that is sorted and cut, and pairs of
slots of the population are one object.  Agents carry the identity of their object; an assignment to an attribute goes to every slot that holds
the object.
-/

set_option linter.unusedSectionVars false
set_option linter.unusedVariables false

namespace Mealpy
open Spec

variable {d : Nat} {K : Type} [Num K] {c : Cfg d K} {X Y : Type} {α β : Type} {Er : Err → Prop}

theorem Algo.custom_lok {I : LInv d K Y} (hne : ∀ n, I.size n → 0 < n) (hbox : ∀ x, Feas c x → I.pos x) {sf : Bool} {mkExt : Vec d K → D c X} {init : D c Y}
    {ini : Y → Option (List (Agent d K X)) → B c (List (Agent d K X) × Y)} {ev : Nat → M c X Y Unit} {i1 i2 lo hi : Nat} {J0 : Y → Prop}
    (hm : ∀ x, Feas c x → DT Er (mkExt x) (fun _ => True)) (hv : DT Er init J0) (h2 : c.popSize ≤ i2)
    (hnone : ∀ y, J0 y → BT Er i1 i2 (ini y none) (fun r => I.size r.1.length ∧ I.attr r.2))
    (hsome : ∀ y pop, J0 y → pop.length = c.popSize →
      BT Er (i1 - c.popSize) (i2 - c.popSize) (ini y (some pop)) (fun r => I.size r.1.length ∧ I.attr r.2))
    (h : ∀ ep, 1 ≤ ep → ep ≤ c.epoch → LT Er I lo hi (ev ep) (fun _ => True)) :
    (Algo.custom sf mkExt init ini ev).LOk Er I J0 I.attr i1 i2 0 0 lo hi where
  box := hbox
  nonempty := hne
  mkExt := hm
  initVars := hv
  init := by
    intro y p b hy hp
    cases p with
    | none =>
      refine Wp.mono (hnone y hy b) ?_
      rintro r b' ⟨⟨new, g1, g2, g3, g4⟩, g5, g6⟩
      exact ⟨g5, g6, new, g1, fun x hx => hbox x (g4 x hx), by simp; omega, by simp; omega⟩
    | some pop =>
      have k1 := hp pop rfl
      refine Wp.mono (hsome y pop hy k1 b) ?_
      rintro r b' ⟨⟨new, g1, g2, g3, g4⟩, g5, g6⟩
      exact ⟨g5, g6, new, g1, fun x hx => hbox x (g4 x hx), by simp; omega, by simp; omega⟩
  before := fun s hs => Wp.pure (.refl hs)
  evolve := h

namespace EnhancedTWO

/-- the identity of an agent object and its `weight` -/
structure Tag (K : Type) where
  id : Nat
  weight : K

/-- `agent.solution = x` -/
def setSol (id : Nat) (x : Vec d K) (l : List (Agent d K (Tag K))) : List (Agent d K (Tag K)) :=
  l.map (fun a => if a.ext.id = id then { a with sol := x } else a)

/-- `agent.target = t` -/
def setTgt (id : Nat) (t : Target K) (l : List (Agent d K (Tag K))) : List (Agent d K (Tag K)) :=
  l.map (fun a => if a.ext.id = id then { a with tgt := t } else a)

/-- `agent.weight = w` -/
def setWeight (id : Nat) (w : K) (l : List (Agent d K (Tag K))) : List (Agent d K (Tag K)) :=
  l.map (fun a => if a.ext.id = id then { a with ext := ⟨id, w⟩ } else a)

/-- `teams[idx].weight = list_weights[idx]` for every `idx` (`mealpy/physics_based/TWO.py:87-88`) -/
def putWeights (ws : List K) (l : List (Agent d K (Tag K))) : List (Agent d K (Tag K)) :=
  (l.zip ws).foldl (fun l p => setWeight p.1.ext.id p.2 l) l

/-- `update_weight__` (`mealpy/physics_based/TWO.py:80-89`) of `pop_size` agents -/
def weigh (l : List (Agent d K (Tag K))) : D c (List (Agent d K (Tag K))) := do
  let mx := maxL (l.map (·.fit))
  let mn := minL (l.map (·.fit))
  let fs ← (if mx = mn then repM c.popSize (fun _ => uniform 0 1) else pure (l.map (·.fit)) : D c (List K))
  let ws := fs.map (fun f => Num.exp (-(f - mx) / (mx - mn)))
  pure (putWeights (ws.map (fun w => w / sumL ws + 0.1)) l)

/-- `initialization` (`mealpy/physics_based/TWO.py:374-386`): the agents themselves become their opposites, and each is listed twice -/
def initialization (_ : Nat) (pop : Option (List (Agent d K (Tag K)))) : B c (List (Agent d K (Tag K)) × Nat) := do
  let pop ← startPop (fun _ => pure ⟨0, 0⟩) pop
  let oppo ← buildB c.popSize (fun i => do
    let a ← nth pop i
    let pos ← correct (fun j => c.P.ub j + c.P.lb j - a.sol j)
    pure (pos, (⟨i, 0⟩ : Tag K)))
  let l ← liftD (weigh (getSortedTrimmed c.E.argsort (oppo ++ oppo) c.popSize c.P.mm))
  pure (l, c.popSize)

/-- the pull of the heavier teams (`mealpy/physics_based/TWO.py:396-407`) -/
def pull (ep : Nat) (l : List (Agent d K (Tag K))) : D c (List (Agent d K (Tag K))) :=
  iter c.popSize (fun i l => do
    let a ← nth l i
    let y ← iter c.popSize (fun k (y : Vec d K) => do
      let b ← nth l k
      if a.ext.weight < b.ext.weight then do
        let f : K := max (a.ext.weight * 1) (b.ext.weight * 1) - a.ext.weight * 1
        let n ← normalVec 0 1
        pure (fun j => y j + (1 / 2 * (f * (b.sol j - a.sol j) / (a.ext.weight * 1)) + Num.pow 0.99 (♯ep) * 0.1 * (c.P.ub j - c.P.lb j) * n j))
      else pure y) a.sol
    pure (setSol a.ext.id y l)) l

/-- one agent is mended (`mealpy/physics_based/TWO.py:409-424`).  In `single` mode the target is that of the position before it is corrected.
`self.pop[idx]` and `pop_new[idx]` are one object, so the comparison of line 424 copies it into a list that is thrown away. -/
def mend (ep i : Nat) (l : List (Agent d K (Tag K))) : M c (Tag K) Nat (List (Agent d K (Tag K))) := do
  let s ← get
  let a ← draw (nth l i)
  let y ← draw (OriginalTWO.repair ep s.gbest.sol a.sol)
  let x ← draw (correct y)
  let l := setSol a.ext.id x l
  if c.swarmLike then pure l
  else do
    let t ← liftB (getTarget y)
    pure (setTgt a.ext.id t l)

/-- a new agent object -/
def make (x : Vec d K) : M c (Tag K) Nat (Agent d K (Tag K)) := do
  let id ← fresh
  liftB (agentOf (fun _ => pure ⟨id, 0⟩) x)

/-- opposition or a Levy flight (`mealpy/physics_based/TWO.py:430-441`) -/
def leap (ep i : Nat) (l : List (Agent d K (Tag K))) : M c (Tag K) Nat (List (Agent d K (Tag K))) := do
  let s ← get
  let a ← draw (nth l i)
  let y ← draw (oppositionSol a.sol s.gbest.sol)
  let x ← draw (correct y)
  let new ← make x
  if compareTarget new.tgt a.tgt c.P.mm then pure (l.set i new)
  else do
    let st ← draw (levyVec 1.0 1.0 (-1))
    let x ← draw (correct (fun j => a.sol j + 1.0 / Num.sqrt (♯ep) * st j))
    let new ← make x
    pure (if compareTarget new.tgt a.tgt c.P.mm then l.set i new else l)

/-- `EnhancedTWO.evolve` (`mealpy/physics_based/TWO.py:388-442`) -/
def evolve (ep : Nat) : M c (Tag K) Nat Unit := do
  let s ← get
  let l ← draw (pull ep s.pop)
  let l ← iter c.popSize (fun i l => mend ep i l) l
  let l ← (if c.swarmLike then evalAll (l.map (fun a => (a.sol, a.ext))) else pure l : M c (Tag K) Nat _)
  let l ← iter c.popSize (fun i l => leap ep i l) l
  let l ← draw (weigh l)
  setPop l

/-- `EnhancedTWO` (`mealpy/physics_based/TWO.py:327-442`) -/
def algo : Algo c (Tag K) Nat := Algo.custom false (fun _ => pure ⟨0, 0⟩) (pure 0) initialization evolve

theorem putWeights_length {ws : List K} {l : List (Agent d K (Tag K))} : (putWeights ws l).length = l.length := by
  unfold putWeights
  generalize l.zip ws = ps
  induction ps generalizing l with
  | nil => rfl
  | cons p ps ih => rw [List.foldl_cons, ih]; simp [setWeight]

theorem putWeights_mem {ws : List K} {l : List (Agent d K (Tag K))} {a : Agent d K (Tag K)} (h : a ∈ putWeights ws l) :
    ∃ b ∈ l, a.sol = b.sol ∧ a.tgt = b.tgt := by
  unfold putWeights at h
  revert h
  generalize l.zip ws = ps
  intro h
  induction ps generalizing l with
  | nil => exact ⟨a, h, rfl, rfl⟩
  | cons p ps ih =>
    rw [List.foldl_cons] at h
    obtain ⟨b, hb, h1, h2⟩ := ih h
    obtain ⟨e, he, rfl⟩ := List.mem_map.1 hb
    refine ⟨e, he, ?_, ?_⟩
    · rw [h1]; split <;> rfl
    · rw [h2]; split <;> rfl

theorem dt_weigh {l : List (Agent d K (Tag K))} : DT Er (weigh l : D c _) (fun r => r.length = l.length ∧ ∀ a ∈ r, ∃ b ∈ l, a.sol = b.sol ∧ a.tgt = b.tgt) := by
  unfold weigh
  refine DT.bind (R := fun _ => True) (DT.ite (fun _ => DT.mono (DT.repMT fun i _ => DT.uniform') fun _ _ => trivial) fun _ => DT.pure trivial) fun fs _ => ?_
  exact DT.pure ⟨putWeights_length, fun a ha => putWeights_mem ha⟩

theorem dt_pull {ep : Nat} {l : List (Agent d K (Tag K))} (hl : l.length = c.popSize) : DT Er (pull ep l : D c _) (fun r => r.length = c.popSize) := by
  unfold pull
  refine DT.iter (fun _ (l : List (Agent d K (Tag K))) => l.length = c.popSize) c.popSize hl fun i l hi hl => ?_
  refine DT.bind (DT.nth_mem (by omega)) fun a _ => DT.bind (R := fun _ => True) (DT.iterT fun k y hk => ?_) fun y _ => DT.pure (by simp [setSol]; exact hl)
  exact DT.bind (DT.nth_mem (by omega)) fun b _ => DT.ite (fun _ => DT.bind DT.normalVec fun n _ => DT.pure trivial) fun _ => DT.pure trivial

theorem dt_repair (hE : c.E.Lawful) {ep : Nat} {g x : Vec d K} : DT Er (OriginalTWO.repair ep g x : D c _) (fun _ => True) := by
  unfold OriginalTWO.repair
  refine DT.vecMT fun j => DT.ite (fun _ => DT.bind (DT.random hE) fun r _ => DT.ite (fun _ => DT.bind DT.normal fun n _ => DT.pure trivial) fun _ => DT.pure trivial) fun _ => DT.pure trivial

theorem bt_rest (hE : c.E.Lawful) (hP : c.P.Lawful) {y : Nat} {pop : List (Agent d K (Tag K))} (hl : pop.length = c.popSize) :
    BT Er c.popSize c.popSize (initialization y (some pop) : B c (List (Agent d K (Tag K)) × Nat)) (fun r => r.1.length = c.popSize ∧ (∀ a ∈ r.1, CF c a) ∧ JT r.2) := by
  unfold initialization startPop
  rw [pure_bind]
  refine BT.bindS (BT.buildB hE fun i hi => DT.bind (DT.nth_mem (by omega)) fun a _ => DT.bind (DT.correct hP) fun pos hp => DT.pure hp) le_rfl fun oppo hoppo => ?_
  refine BT.bind0 (BT.liftD dt_weigh) fun l hl' => BT.weaken (BT.pure ⟨?_, fun a ha => ?_, trivial⟩) (by omega) (by omega)
  · rw [hl'.1, trimmed_length hE, List.length_append, hoppo.1]; omega
  · obtain ⟨b, hb, h1, h2⟩ := hl'.2 a ha
    have hb' := trimmed_mem hE hb
    have : CF c b := by
      rcases List.mem_append.1 hb' with g | g <;> exact hoppo.2 b g
    exact ⟨by rw [h1, h2]; exact this.1, by rw [h1]; exact this.2⟩

theorem bt_none (hE : c.E.Lawful) (hP : c.P.Lawful) {y : Nat} :
    BT Er (c.popSize + c.popSize) (c.popSize + c.popSize) (initialization y none : B c (List (Agent d K (Tag K)) × Nat)) (fun r => r.1.length = c.popSize ∧ (∀ a ∈ r.1, CF c a) ∧ JT r.2) := by
  have hb : (initialization y none : B c (List (Agent d K (Tag K)) × Nat)) = (do
      let pop ← generatePopulation (fun _ => pure ⟨0, 0⟩) c.popSize
      initialization y (some pop)) := by
    unfold initialization startPop
    simp only [pure_bind]
  rw [hb]
  exact BT.bind (BT.generatePopulation hE hP fun x _ => DT.pure trivial) fun pop hpop => bt_rest hE hP hpop.1

/-- anything may be evaluated -/
abbrev LI (c : Cfg d K) : LInv d K Nat := ⟨fun _ => True, fun n => n = c.popSize, JT⟩

theorem lt_make {x : Vec d K} : LT Er (LI c) 1 1 (make x : M c (Tag K) Nat _) (fun _ => True) := by
  unfold make
  refine LT.bind0 (LT.fresh fun _ _ => trivial) fun id _ s hs => ?_
  refine Wp.liftB ?_
  unfold Mealpy.agentOf
  refine Wp.bind (Wp.liftD (DT.pure (Er := Er) (Q := fun _ => True) trivial) fun a r v _ => Wp.bind (Wp.getTarget (Wp.pure ⟨?_, trivial⟩)))
  exact LStep.base hs ⟨[x], rfl, by simp, by simp, fun y hy => trivial⟩

/-- what holds in every mode -/
theorem lok (hE : c.E.Lawful) (hP : c.P.Lawful) (hc : Accepted c 5) :
    (algo : Algo c (Tag K) Nat).LOk (only []) (LI c) JT JT (c.popSize + c.popSize) (c.popSize + c.popSize) 0 0
      (c.popSize + c.popSize) (c.popSize + c.popSize * 2) := by
  have hpop := hc.pop
  refine Algo.custom_lok (I := LI c) (fun n hn => by have : n = c.popSize := hn; omega) (fun _ _ => trivial) (fun _ _ => DT.pure trivial) (DT.pure trivial)
    (by omega) (fun y _ => BT.mono (bt_none hE hP) fun r h => ⟨h.1, trivial⟩)
    (fun y pop _ hl => BT.weaken (BT.mono (bt_rest hE hP hl) fun r h => ⟨h.1, trivial⟩) (by omega) (by omega)) fun ep _ _ => ?_
  unfold evolve
  refine LT.bind0 LT.get fun s hs => LT.bind0 (LT.draw (dt_pull hs.len)) fun l hl => ?_
  have hev : LT (only []) (LI c) c.popSize c.popSize (do
      let l ← iter c.popSize (fun i l => mend ep i l) l
      (if c.swarmLike then evalAll (l.map (fun a => (a.sol, a.ext))) else pure l : M c (Tag K) Nat _)) (fun l => l.length = c.popSize) := by
    by_cases hm : c.swarmLike = true
    · refine LT.bindS (l1 := 0) (h1 := 0) (R := fun l => l.length = c.popSize) ?_ (by omega) fun l hl => ?_
      · refine LT.iterS 0 0 (fun _ (l : List (Agent d K (Tag K))) => l.length = c.popSize) (by omega) (by omega) hl fun i l hi hl => ?_
        unfold mend
        refine LT.bind0 LT.get fun s _ => LT.bind0 (LT.draw (DT.nth_mem (by omega))) fun a _ => LT.bind0 (LT.draw (dt_repair hE)) fun y _ =>
          LT.bind0 (LT.draw (DT.correct hP)) fun x _ => ?_
        dsimp only
        rw [if_pos hm]
        exact LT.pure (by simp [setSol]; exact hl)
      · rw [if_pos hm]
        have := LT.evalAll (Er := only []) (I := LI c) hE (pend := l.map (fun a => (a.sol, a.ext))) (fun _ _ => trivial)
        rw [List.length_map, hl] at this
        exact LT.weaken this (by omega) (by omega)
    · refine LT.bindL (R := fun l => l.length = c.popSize) ?_ fun l hl => by rw [if_neg hm]; exact LT.pure hl
      refine LT.iterS 1 1 (fun _ (l : List (Agent d K (Tag K))) => l.length = c.popSize) (by omega) (by omega) hl fun i l hi hl => ?_
      unfold mend
      refine LT.bind0 LT.get fun s _ => LT.bind0 (LT.draw (DT.nth_mem (by omega))) fun a _ => LT.bind0 (LT.draw (dt_repair hE)) fun y _ =>
        LT.bind0 (LT.draw (DT.correct hP)) fun x _ => ?_
      dsimp only
      rw [if_neg hm]
      exact LT.bindL (LT.getTarget trivial) fun t _ => LT.pure (by simp [setSol, setTgt]; exact hl)
  have hrest : ∀ l : List (Agent d K (Tag K)), l.length = c.popSize → LT (only []) (LI c) c.popSize (c.popSize * 2) (do
      let l ← iter c.popSize (fun i l => leap ep i l) l
      let l ← draw (weigh l)
      setPop l : M c (Tag K) Nat Unit) (fun _ => True) := by
    intro l hl
    refine LT.bindL (R := fun l => l.length = c.popSize) ?_ fun l hl => LT.bind0 (LT.draw dt_weigh) fun l' hl' => LT.setPop (hl'.1.trans hl)
    refine LT.iterS 1 2 (fun _ (l : List (Agent d K (Tag K))) => l.length = c.popSize) (by omega) (by omega) hl fun i l hi hl => ?_
    unfold leap
    refine LT.bind0 LT.get fun s _ => LT.bind0 (LT.draw (DT.nth_mem (by omega))) fun a _ => LT.bind0 (LT.draw (DT.oppositionSol hP)) fun y _ =>
      LT.bind0 (LT.draw (DT.correct hP)) fun x _ => LT.bindS lt_make (by omega) fun new _ => LT.ite (fun _ => LT.weaken (LT.pure ?_) (by omega) (by omega)) fun _ => ?_
    · simp; exact hl
    · refine LT.bind0 (LT.draw DT.levyVec) fun st _ => LT.bind0 (LT.draw (DT.correct hP)) fun x _ => LT.weaken (LT.bindL lt_make fun new _ => LT.pure ?_) (by omega) (by omega)
      split
      · simp; exact hl
      · exact hl
  have := LT.bind hev hrest
  simpa only [bind_assoc] using this

theorem dt_nth {l : List α} {i : Nat} (h : i < l.length) : DT Er (nth l i : D c α) (fun a => l[i]? = some a) := by
  unfold nth
  rw [List.getElem?_eq_getElem h]
  exact DT.pure rfl

theorem wt_bindL {I : Inv c X Y} {lo hi : Nat} {m : M c X Y α} {f : α → M c X Y β} {R : α → Prop} {Q : β → Prop}
    (h : WT Er I lo hi m R) (h' : ∀ a, R a → WT Er I 0 0 (f a) Q) : WT Er I lo hi (m >>= f) Q := WT.bind h h'

theorem wt_make {x : Vec d K} (hx : Feas c x) : WT Er (Inv.std c (Tag K) JT) 1 1 (make x : M c (Tag K) Nat _) (fun a => CF c a) := by
  unfold make fresh
  refine WT.bind0 (WT.bind0 WT.get fun s hs => WT.bind0 (WT.modExt fun _ _ => trivial) fun _ _ => WT.pure trivial) fun id (_ : True) => ?_
  exact WT.mono (WT.agentOf (I := Inv.std c (Tag K) JT) hx (DT.pure hx)) fun a h => ⟨h.1.1, h.1.2⟩

/-- in the pool modes every target belongs to its solution, and every evaluated position is feasible -/
theorem wok (hE : c.E.Lawful) (hP : c.P.Lawful) (hc : Accepted c 5) (hm : c.swarmLike = true) :
    (algo : Algo c (Tag K) Nat).WOk noErr (Inv.std c (Tag K) JT) JT JT (c.popSize + c.popSize) (c.popSize + c.popSize) 0 0
      (c.popSize + c.popSize) (c.popSize + c.popSize * 2) := by
  have hpop := hc.pop
  unfold algo
  refine Algo.custom_wok (J := JT) (J0 := JT) (by omega) (fun x hx => DT.pure trivial) (DT.pure trivial) (by omega) (fun y hy => bt_none hE hP)
    (fun y pop hy hl hp => BT.weaken (bt_rest hE hP hl) (by omega) (by omega)) (fun ep hep1 hep2 => ?_)
  unfold evolve
  refine WT.bind0 WT.get fun s hs => WT.bind0 (WT.draw (dt_pull hs.len)) fun l hl => ?_
  refine WT.bind0 (R := fun l => l.length = c.popSize ∧ ∀ k, k < c.popSize → ∀ a, l[k]? = some a → Feas c a.sol) ?_ fun l hl => ?_
  · refine WT.weaken (lo := c.popSize * 0) (hi := c.popSize * 0) (WT.iter (lo := 0) (hi := 0) (fun i (l : List (Agent d K (Tag K))) =>
      l.length = c.popSize ∧ ∀ k, k < i → ∀ a, l[k]? = some a → Feas c a.sol) c.popSize ⟨hl, fun k hk => by omega⟩ fun i l hi hl => ?_) (by omega) (by omega)
    unfold mend
    refine WT.bind0 WT.get fun s _ => WT.bind0 (WT.draw (dt_nth (by omega))) fun a ha => WT.bind0 (WT.draw (dt_repair hE)) fun y _ =>
      WT.bind0 (WT.draw (DT.correct hP)) fun x hx => ?_
    dsimp only
    rw [if_pos hm]
    refine WT.pure ⟨by simp [setSol]; exact hl.1, fun k hk b hb => ?_⟩
    unfold setSol at hb
    rw [List.getElem?_map] at hb
    obtain ⟨e, he, rfl⟩ := Option.map_eq_some_iff.1 hb
    by_cases h : e.ext.id = a.ext.id
    · rw [if_pos h]; exact hx
    · rw [if_neg h]
      refine hl.2 k ?_ e he
      rcases Nat.lt_or_ge k i with g | g
      · exact g
      · have : k = i := by omega
        subst this
        rw [ha] at he
        cases he
        exact absurd rfl h
  rw [if_pos hm]
  have hev := WT.evalAll (Er := noErr) (I := Inv.std c (Tag K) (JT : Nat → Prop)) hE (pend := l.map (fun a => (a.sol, a.ext))) (fun q hq => by
    obtain ⟨a, ha, rfl⟩ := List.mem_map.1 hq
    obtain ⟨k, hk, hk'⟩ := List.mem_iff_getElem.1 ha
    exact Inv.std_mk (hl.2 k (by omega) a (by rw [List.getElem?_eq_getElem hk, hk'])))
  rw [List.length_map, hl.1] at hev
  refine WT.bind hev fun l hl => ?_
  refine wt_bindL (R := fun l => l.length = c.popSize ∧ ∀ a ∈ l, CF c a) ?_ fun l hl => WT.bind0 (WT.draw dt_weigh) fun l' hl' =>
    WT.setPop (hl'.1.trans hl.1) fun a ha => Inv.std_ag ?_
  · refine WT.weaken (lo := c.popSize * 1) (hi := c.popSize * 2) (WT.iter (fun _ (l : List (Agent d K (Tag K))) => l.length = c.popSize ∧ ∀ a ∈ l, CF c a) c.popSize
      ⟨hl.1, fun a ha => ⟨(hl.2 a ha).1, (hl.2 a ha).2⟩⟩ fun i l hi hl => ?_) (by omega) (by omega)
    have hset : ∀ new : Agent d K (Tag K), CF c new → (l.set i new).length = c.popSize ∧ ∀ a ∈ l.set i new, CF c a := by
      refine fun new hnew => ⟨by simp; exact hl.1, fun a ha => ?_⟩
      rcases List.mem_or_eq_of_mem_set ha with g | g
      · exact hl.2 a g
      · rw [g]; exact hnew
    unfold leap
    refine WT.bind0 WT.get fun s _ => WT.bind0 (WT.draw (DT.nth_mem (by omega))) fun a _ => WT.bind0 (WT.draw (DT.oppositionSol hP)) fun y _ =>
      WT.bind0 (WT.draw (DT.correct hP)) fun x hx => WT.bindS (wt_make hx) (by omega) fun new hnew => WT.ite (fun _ => WT.weaken (WT.pure (hset _ hnew)) (by omega) (by omega)) fun _ => ?_
    refine WT.bind0 (WT.draw DT.levyVec) fun st _ => WT.bind0 (WT.draw (DT.correct hP)) fun x hx => WT.weaken (wt_bindL (wt_make hx) fun new hnew => WT.pure ?_) (by omega) (by omega)
    split
    · exact hset _ hnew
    · exact hl
  · obtain ⟨b, hb, h1, h2⟩ := hl'.2 a ha
    have := hl.2 b hb
    exact ⟨by rw [h1, h2]; exact this.1, by rw [h1]; exact this.2⟩

theorem framed (hE : c.E.Lawful) (ep : Nat) : Framed true (evolve ep : M c (Tag K) Nat Unit) := by
  refine Framed.bind .get fun _ => .bind .draw fun _ => .bind (.iter fun _ _ => ?_) fun _ => .bind (.ite (.evalAll hE) .pure) fun _ =>
    .bind (.iter fun _ _ => ?_) fun _ => .bind .draw fun _ => .setPop
  · unfold mend; framed
  · exact .bind .get fun _ => .bind .draw fun _ => .bind .draw fun _ => .bind .draw fun _ => .bind (.bind .fresh fun _ => .liftB .agentOf) fun _ =>
      .ite .pure (.bind .draw fun _ => .bind .draw fun _ => .bind (.bind .fresh fun _ => .liftB .agentOf) fun _ => .pure)

end EnhancedTWO

end Mealpy
