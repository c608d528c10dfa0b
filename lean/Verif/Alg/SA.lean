import Verif.Alg.Kit
import Verif.Alg.Cover
import Verif.Alg.Hold

/-! # Simulated annealing (`mealpy/physics_based/SA.py`) and hill climbing (`mealpy/math_based/HC.py`) -/

set_option linter.unusedSectionVars false
set_option linter.unusedVariables false

namespace Mealpy
open Spec

variable {d : Nat} {K : Type} [Num K] {c : Cfg d K}

/-- the invariant of annealing: nothing about positions; once the loop has run the population is the pair of the
best and the current agent; the current agent exists and carries its own target -/
def saInv (c : Cfg d K) {Y : Type} (cur : Y → Option (Agent d K Unit)) : Inv c Unit Y :=
  ⟨fun _ => True, fun n => n = c.popSize ∨ n = 2, fun _ => True,
    fun y => ∃ a, cur y = some a ∧ a.tgt = c.P.target a.sol⟩

/-- the neighbour is evaluated and becomes the current agent, or not, with probability `exp(-delta / t)`
(`mealpy/physics_based/SA.py:85-95`, `:179-188`) -/
def annealStep {Y : Type} (cur : Agent d K Unit) (x : Vec d K) (t : K) : M c Unit Y (Agent d K Unit) := do
  let a ← liftB (agentOf (fun _ => pure ()) x)
  if compareTarget a.tgt cur.tgt c.P.mm then pure a
  else do
    let delta := Num.abs (cur.tgt.fitness - a.tgt.fitness)
    let r ← draw random
    pure (if r < Num.exp (-delta / t) then a else cur)

theorem annealStep_wt {Y : Type} {I : Inv c Unit Y} {Er : Err → Prop} {cur : Agent d K Unit} {x : Vec d K} {t : K} (hx : I.pos x)
    (ha : ∀ a, I.agent a) (hc : cur.tgt = c.P.target cur.sol) :
    WT Er I 1 1 (annealStep cur x t : M c Unit Y _) (fun a => a.tgt = c.P.target a.sol) := by
  unfold annealStep
  refine WT.bindS (WT.agentOf hx (DT.pure (ha _))) (by omega) fun a h => ?_
  refine WT.ite (fun _ => WT.weaken (WT.pure h.1.1) (by omega) (by omega)) (fun _ => ?_)
  refine WT.bind0 (WT.draw DT.random') fun r _ => ?_
  refine WT.weaken (WT.pure ?_) (by omega) (by omega)
  split
  · exact h.1.1
  · exact hc

/-- the evaluated point is covered by whichever agent is current afterwards -/
theorem annealStep_covers {Y : Type} {cur : Agent d K Unit} {x : Vec d K} {t : K} (s : St c Unit Y) :
    Wp (fun _ => True) (annealStep cur x t : M c Unit Y _) s (fun a s' => s'.hist = s.hist ∧ s'.gbest = s.gbest ∧
      s'.base.log = s.base.log ++ [x] ∧ NoWorse c.P.mm a.fit (c.P.target x).fitness) := by
  unfold annealStep
  refine Wp.bind (Wp.liftB (Wp.mono (agentOf_spec (F := fun _ => True) (DT.pure trivial)) ?_))
  rintro a b' ⟨h1, h2, h3, h4, h5⟩
  have ha : a.fit = (c.P.target x).fitness := by unfold Agent.fit; rw [h2]
  refine Wp.ite (fun hc => Wp.pure ⟨rfl, rfl, h4, by rw [ha]; exact NoWorse.rfl⟩) (fun hc => ?_)
  have hcf := compareTarget_false (by simpa using hc)
  refine Wp.bind (Wp.draw DT.any fun r g v _ => ?_)
  refine Wp.pure ⟨rfl, rfl, h4, ?_⟩
  split
  · rw [ha]; exact NoWorse.rfl
  · rw [← ha]; exact hcf

theorem Framed.annealStep {Y : Type} {q : Bool} (hE : c.E.Lawful) {cur : Agent d K Unit} {x : Vec d K} {t : K} :
    Framed q (Mealpy.annealStep cur x t : M c Unit Y _) := by
  unfold Mealpy.annealStep; framed

macro_rules
  | `(tactic| fprim) => `(tactic| (at_last annealStep; exact Framed.annealStep (by assumption)))

namespace OriginalSA

/-- `temp_init in [1, 10000]`, `step_size in (-100, 100)` (`mealpy/physics_based/SA.py:68-69`) -/
structure Params (K : Type) [Num K] where
  tempInit : K
  stepSize : K
  temp_ok : (1 : K) ≤ tempInit ∧ tempInit ≤ 10000
  step_ok : (-100 : K) < stepSize ∧ stepSize < 100

/-- `OriginalSA.evolve` (`mealpy/physics_based/SA.py:75-96`).  The attribute is `agent_current`. -/
def evolve (p : Params K) (ep : Nat) : M c Unit (Option (Agent d K Unit)) Unit := do
  let s ← get
  match s.ext with
  | none => mthrow .attribute
  | some cur => do
    let z ← draw (normalVec 0 1)
    let a ← annealStep cur (fun j => cur.sol j + z j * p.stepSize) (p.tempInit / Num.ofNat ep)
    modExt (fun _ => some a)
    setPop [s.gbest, a]

/-- `before_main_loop` (`mealpy/physics_based/SA.py:72-73`) -/
def beforeMain : M c Unit (Option (Agent d K Unit)) Unit := do
  let s ← get
  modExt (fun _ => some s.gbest)

/-- `OriginalSA` (`mealpy/physics_based/SA.py:12-96`); `sort_flag` keeps its default `False` -/
def algo (p : Params K) : Algo c Unit (Option (Agent d K Unit)) where
  sortFlag := false
  mkExt := fun _ => pure ()
  initVars := pure none
  initialization := defaultInit (fun _ => pure ())
  beforeMain := beforeMain
  evolve := evolve p

theorem evolve_wt (p : Params K) (ep : Nat) :
    WT noErr (saInv c id) 1 1 (evolve p ep : M c Unit (Option (Agent d K Unit)) Unit) (fun _ => True) := by
  unfold evolve
  refine WT.bind0 WT.get fun s hs => ?_
  obtain ⟨cur, h1, h2⟩ := hs.ext
  change s.ext = some cur at h1
  rw [h1]
  dsimp only
  refine WT.bind0 (WT.draw DT.normalVec) fun z _ => ?_
  refine WT.bindS (annealStep_wt trivial (fun _ => trivial) h2) (by omega) fun a ha => ?_
  refine WT.bind0 (WT.modExt fun _ _ => ⟨a, rfl, ha⟩) fun _ _ => ?_
  refine WT.weaken (WT.setPop (.inr rfl) ?_) (by omega) (by omega)
  intro b hb
  rcases List.mem_cons.1 hb with rfl | hb
  · exact hs.gbest
  · rw [List.mem_singleton.1 hb]; exact ⟨ha, trivial⟩

theorem wok (hE : c.E.Lawful) (hP : c.P.Lawful) (hc : Accepted c 2) (p : Params K) :
    (algo p : Algo c Unit (Option (Agent d K Unit))).WOk noErr (saInv c id) JT JT c.popSize c.popSize 0 0 1 1 := by
  have hpop := hc.pop
  refine Algo.before_wok (I := saInv c id) hE hP (by omega) (.inl rfl) ?_ rfl (fun x hx => ⟨trivial, DT.pure trivial⟩) (DT.pure trivial) ?_
    (fun ep _ _ => evolve_wt p ep)
  · rintro n (h | h) <;> omega
  · intro s hs
    exact Wp.bind (Wp.get (Wp.modify (WStep.setExt hs ⟨s.gbest, rfl, hs.gbest.1⟩)))

theorem covers (p : Params K) (ep : Nat) (s : St c Unit (Option (Agent d K Unit))) :
    Wp (fun _ => True) (evolve p ep) s (fun _ s' => Covers s s') := by
  unfold evolve
  refine Wp.bind (Wp.get ?_)
  split
  · exact Wp.any (fun a s' h => by cases h)
  · refine Wp.bind (Wp.draw DT.any fun z g v _ => ?_)
    refine Wp.bind (Wp.mono (annealStep_covers _) ?_)
    rintro a s1 ⟨h1, h2, h3, h4⟩
    refine Wp.bind (Wp.modify ?_)
    refine Wp.modify ⟨h1, [_], h3, ?_⟩
    intro x hx
    rw [List.mem_singleton.1 hx]
    exact ⟨a, by simp, h4⟩

theorem before_covers (p : Params K) (s : St c Unit (Option (Agent d K Unit))) :
    Wp (fun _ => True) (beforeMain) s (fun _ s' => s'.hist = s.hist ∧ s'.base.log = s.base.log) :=
  Wp.bind (Wp.get (Wp.modify ⟨rfl, rfl⟩))

theorem framed_before (hE : c.E.Lawful) (p : Params K) : Framed true (beforeMain : M c Unit (Option (Agent d K Unit)) Unit) := by
  unfold beforeMain; framed

theorem framed (hE : c.E.Lawful) (p : Params K) (ep : Nat) : Framed true (evolve p ep : M c Unit (Option (Agent d K Unit)) Unit) := by
  unfold evolve; framed

end OriginalSA

namespace GaussianSA

/-- `temp_init in [1, 10000]`, `cooling_rate in (0, 1)`, `scale in (0, 100)` (`mealpy/physics_based/SA.py:160-162`) -/
structure Params (K : Type) [Num K] where
  tempInit : K
  cooling : K
  scale : K
  temp_ok : (1 : K) ≤ tempInit ∧ tempInit ≤ 10000
  cooling_ok : (0 : K) < cooling ∧ cooling < 1
  scale_ok : (0 : K) < scale ∧ scale < 100

/-- `agent_current` and `temp_current` -/
abbrev Attr (d : Nat) (K : Type) := Option (Agent d K Unit) × K

/-- `GaussianSA.evolve` (`mealpy/physics_based/SA.py:170-191`) -/
def evolve (p : Params K) (ep : Nat) : M c Unit (Attr d K) Unit := do
  let s ← get
  match s.ext.1 with
  | none => mthrow .attribute
  | some cur => do
    let z ← draw (normalVec 0 p.scale)
    let a ← annealStep cur (fun j => cur.sol j + z j) s.ext.2
    modExt (fun y => (some a, y.2 * p.cooling))
    setPop [s.gbest, a]

/-- `before_main_loop` (`mealpy/physics_based/SA.py:165-168`) -/
def beforeMain (p : Params K) : M c Unit (Attr d K) Unit := do
  let s ← get
  modExt (fun _ => (some s.gbest, p.tempInit))

/-- `GaussianSA` (`mealpy/physics_based/SA.py:99-191`) -/
def algo (p : Params K) : Algo c Unit (Attr d K) where
  sortFlag := false
  mkExt := fun _ => pure ()
  initVars := pure (none, 0)
  initialization := defaultInit (fun _ => pure ())
  beforeMain := beforeMain p
  evolve := evolve p

theorem evolve_wt (p : Params K) (ep : Nat) :
    WT noErr (saInv c Prod.fst) 1 1 (evolve p ep : M c Unit (Attr d K) Unit) (fun _ => True) := by
  unfold evolve
  refine WT.bind0 WT.get fun s hs => ?_
  obtain ⟨cur, h1, h2⟩ := hs.ext
  rw [h1]
  dsimp only
  refine WT.bind0 (WT.draw DT.normalVec) fun z _ => ?_
  refine WT.bindS (annealStep_wt trivial (fun _ => trivial) h2) (by omega) fun a ha => ?_
  refine WT.bind0 (WT.modExt fun _ _ => ⟨a, rfl, ha⟩) fun _ _ => ?_
  refine WT.weaken (WT.setPop (.inr rfl) ?_) (by omega) (by omega)
  intro b hb
  rcases List.mem_cons.1 hb with rfl | hb
  · exact hs.gbest
  · rw [List.mem_singleton.1 hb]; exact ⟨ha, trivial⟩

theorem wok (hE : c.E.Lawful) (hP : c.P.Lawful) (hc : Accepted c 2) (p : Params K) :
    (algo p : Algo c Unit (Attr d K)).WOk noErr (saInv c Prod.fst) JT JT c.popSize c.popSize 0 0 1 1 := by
  have hpop := hc.pop
  refine Algo.before_wok (I := saInv c Prod.fst) hE hP (by omega) (.inl rfl) ?_ rfl (fun x hx => ⟨trivial, DT.pure trivial⟩) (DT.pure trivial) ?_
    (fun ep _ _ => evolve_wt p ep)
  · rintro n (h | h) <;> omega
  · intro s hs
    exact Wp.bind (Wp.get (Wp.modify (WStep.setExt hs ⟨s.gbest, rfl, hs.gbest.1⟩)))

theorem covers (p : Params K) (ep : Nat) (s : St c Unit (Attr d K)) :
    Wp (fun _ => True) (evolve p ep) s (fun _ s' => Covers s s') := by
  unfold evolve
  refine Wp.bind (Wp.get ?_)
  split
  · exact Wp.any (fun a s' h => by cases h)
  · refine Wp.bind (Wp.draw DT.any fun z g v _ => ?_)
    refine Wp.bind (Wp.mono (annealStep_covers _) ?_)
    rintro a s1 ⟨h1, h2, h3, h4⟩
    refine Wp.bind (Wp.modify ?_)
    refine Wp.modify ⟨h1, [_], h3, ?_⟩
    intro x hx
    rw [List.mem_singleton.1 hx]
    exact ⟨a, by simp, h4⟩

theorem before_covers (p : Params K) (s : St c Unit (Attr d K)) :
    Wp (fun _ => True) (beforeMain p) s (fun _ s' => s'.hist = s.hist ∧ s'.base.log = s.base.log) :=
  Wp.bind (Wp.get (Wp.modify ⟨rfl, rfl⟩))

theorem framed_before (hE : c.E.Lawful) (p : Params K) : Framed true (beforeMain p : M c Unit (Attr d K) Unit) := by
  unfold beforeMain; framed

theorem framed (hE : c.E.Lawful) (p : Params K) (ep : Nat) : Framed true (evolve p ep : M c Unit (Attr d K) Unit) := by
  unfold evolve; framed

end GaussianSA

namespace SwarmSA

/-- the constructor's checks (`mealpy/physics_based/SA.py:265-271`) -/
structure Params (K : Type) [Num K] (popSize : Nat) where
  maxSubIter : Nat
  t0 : Nat
  t1 : Nat
  moveCount : Nat
  mutationRate : K
  stepSize : K
  damp : K
  sub_ok : 1 ≤ maxSubIter ∧ maxSubIter ≤ 100000
  t0_ok : 500 ≤ t0 ∧ t0 ≤ 2000
  t1_ok : 1 ≤ t1 ∧ t1 ≤ 100
  move_ok : 2 ≤ moveCount ∧ moveCount ≤ popSize / 2
  rate_ok : (0 : K) < mutationRate ∧ mutationRate < 1
  step_ok : (0 : K) < stepSize ∧ stepSize < 1
  damp_ok : (0 : K) < damp ∧ damp < 1

/-- `dyn_t`, `t_damp`, `dyn_sigma` -/
structure Attr (K : Type) where
  t : K
  damp : K
  sigma : K

/-- `mutate__` (`mealpy/physics_based/SA.py:277-283`) -/
def mutate {n : Nat} (p : Params K n) (x : Vec d K) (sigma : K) : D c (Vec d K) := do
  let u ← uniformVec c.P.lb c.P.ub
  let r ← randomVec
  let new : Vec d K := fun j => if r j < p.mutationRate then x j else x j + sigma * u j
  if ∀ j, new j = x j then do
    let v ← uniform 0 1
    let k ← index d
    correct (fun j => if j.val = k then v else new j)
  else correct new

/-- the new agent replaces the old one if it is better, else with probability `exp(-delta / dyn_t)`
(`mealpy/physics_based/SA.py:317-326`) -/
def accept (new : List (Agent d K Unit)) (idx : Nat) : M c Unit (Attr K) Unit := do
  let s ← get
  let a ← draw (nth new idx)
  let old ← popAt idx
  if compareTarget a.tgt old.tgt c.P.mm then setAt idx a
  else do
    let u ← draw (uniform 0 1)
    if u ≤ Num.exp (-(Num.abs (a.tgt.fitness - old.tgt.fitness)) / s.ext.t) then setAt idx a else pure ()

/-- one sub-iteration (`mealpy/physics_based/SA.py:302-326`) -/
def sub (p : Params K c.popSize) : M c Unit (Attr K) Unit := do
  let new ← buildEval (c.popSize * p.moveCount) (fun s k => do
    let x ← nth s.pop (k / p.moveCount)
    let pos ← mutate p x.sol s.ext.sigma
    let pos ← correct pos
    pure (pos, ()))
  iter c.popSize (fun idx _ => accept (getSortedTrimmed c.E.argsort new c.popSize c.P.mm) idx) ()

/-- `SwarmSA.evolve` (`mealpy/physics_based/SA.py:293-329`) -/
def evolve (p : Params K c.popSize) (ep : Nat) : M c Unit (Attr K) Unit := do
  iter p.maxSubIter (fun _ _ => sub p) ()
  modExt (fun y => { y with t := y.damp * y.t, sigma := p.damp * y.sigma })

/-- `SwarmSA` (`mealpy/physics_based/SA.py:194-329`); `initialization` (`:285-291`) sets the attributes, then is the
default one -/
def algo (p : Params K c.popSize) : Algo c Unit (Attr K) :=
  Algo.withState true (pure ⟨Num.ofNat p.t0, Num.pow (Num.ofNat p.t1 / Num.ofNat p.t0) (1 / Num.ofNat c.epoch), p.stepSize⟩)
    (evolve p)

theorem DT.mutate (hE : c.E.Lawful) (hP : c.P.Lawful) (hd : 0 < d) {Er : Err → Prop} {n : Nat} {p : Params K n} {x : Vec d K} {t : K} :
    DT Er (mutate p x t : D c _) (Feas c) := by
  unfold SwarmSA.mutate; dgo

macro_rules
  | `(tactic| dprim) => `(tactic| (at_head mutate; exact DT.mutate (by assumption) (by assumption) (by assumption)))

theorem accept_wt {new : List (Agent d K Unit)} (hl : new.length = c.popSize) (hn : ∀ a ∈ new, CF c a) {idx : Nat}
    (hi : idx < c.popSize) : WT noErr (Inv.std c Unit JT) 0 0 (accept new idx : M c Unit (Attr K) Unit) (fun _ => True) := by
  unfold accept
  refine WT.bind0 WT.get fun s hs => ?_
  refine WT.bind0 (WT.draw (DT.nth_mem (by omega))) fun a ha => ?_
  refine WT.bind0 (WT.popAt (by wsz)) fun old _ => ?_
  have hset : WT noErr (Inv.std c Unit JT) 0 0 (setAt idx a : M c Unit (Attr K) Unit) (fun _ => True) :=
    WT.setAt (by wsz) (Inv.std_ag (hn a ha))
  refine WT.ite (fun _ => hset) fun _ => ?_
  refine WT.bindD DT.uniform' fun u => ?_
  exact WT.ite (fun _ => hset) fun _ => WT.pure trivial

theorem sub_wt (hE : c.E.Lawful) (hP : c.P.Lawful) (hd : 0 < d) (p : Params K c.popSize) :
    WT noErr (Inv.std c Unit JT) (c.popSize * p.moveCount) (c.popSize * p.moveCount) (sub p : M c Unit (Attr K) Unit) (fun _ => True) := by
  have hm := p.move_ok
  unfold sub
  refine WT.bind (l2 := 0) (h2 := 0) (WT.buildEval hE fun s i hs hi => ?_) fun new hnew => ?_
  · have hl := hs.len_std
    have : i / p.moveCount < c.popSize := (Nat.div_lt_iff_lt_mul (by omega)).2 hi
    dgo
  · refine WT.iterU 0 0 (by omega) (by omega) fun i hi => accept_wt ?_ (fun a ha => hnew.2 a (trimmed_mem hE ha)) hi
    rw [trimmed_length hE, hnew.1]
    exact Nat.min_eq_left (Nat.le_mul_of_pos_right _ (by omega))

theorem wok (hE : c.E.Lawful) (hP : c.P.Lawful) (hd : 0 < d) (hc : Accepted c 5) (p : Params K c.popSize) :
    (algo p : Algo c Unit (Attr K)).WOk noErr (Inv.std c Unit JT) JT JT c.popSize c.popSize 0 0
      (p.maxSubIter * (c.popSize * p.moveCount)) (p.maxSubIter * (c.popSize * p.moveCount)) := by
  have hpop := hc.pop
  refine Algo.std_wok (I := Inv.std c Unit JT) hE hP (by omega) rfl (fun n hn => by change n = _ at hn; omega) rfl rfl
    Inv.std_box_unit (DT.pure trivial) fun ep _ _ => ?_
  show WT _ _ _ _ (evolve p ep) _
  unfold evolve
  refine WT.bind (l2 := 0) (h2 := 0) (WT.iter (fun _ _ => True) _ trivial fun i _ _ _ => sub_wt hE hP hd p) fun _ _ => ?_
  exact WT.modExt fun _ _ => trivial

theorem framed (hE : c.E.Lawful) (p : Params K c.popSize) (ep : Nat) : Framed true (evolve p ep : M c Unit (Attr K) Unit) := by
  unfold evolve sub accept; framed

end SwarmSA

namespace OriginalHC

/-- `neighbour_size in [2, 1000]` (`mealpy/math_based/HC.py:69`) -/
structure Params where
  neighbours : Nat
  ok : 2 ≤ neighbours ∧ neighbours ≤ 1000

/-- `OriginalHC.evolve` (`mealpy/math_based/HC.py:73-89`) -/
def evolve (p : Params) (ep : Nat) : M c Unit Unit Unit := do
  let step : K := Num.exp (-2 * Num.ofNat ep / Num.ofNat c.epoch)
  let new ← buildEval p.neighbours (fun s _ => do
    let u ← uniformVec c.P.lb c.P.ub
    let pos ← correct (fun j => s.gbest.sol j + u j * step)
    pure (pos, ()))
  setPop new

/-- `OriginalHC` (`mealpy/math_based/HC.py:12-89`) -/
def algo (p : Params) : Algo c Unit Unit := Algo.plain false (evolve p)

/-- feasible points; first `pop_size` agents, then `neighbour_size` -/
def inv (c : Cfg d K) (p : Params) : Inv c Unit Unit :=
  ⟨Feas c, fun n => n = c.popSize ∨ n = p.neighbours, FA c, JT⟩

theorem wok (hE : c.E.Lawful) (hP : c.P.Lawful) (hc : Accepted c 2) (p : Params) :
    (algo p : Algo c Unit Unit).WOk noErr (inv c p) JT JT c.popSize c.popSize 0 0 p.neighbours p.neighbours := by
  have hpop := hc.pop
  have hp := p.ok
  refine Algo.std_wok (I := inv c p) hE hP (by omega) (.inl rfl) ?_ rfl rfl (fun x hx => ⟨hx, DT.pure hx⟩) (DT.pure trivial)
    fun ep _ _ => ?_
  · rintro n (h | h) <;> omega
  · show WT _ _ _ _ (evolve p ep) _
    unfold evolve
    refine WT.bindS (WT.buildEval hE fun s i hs hi => ?_) (by omega) fun new hnew => ?_
    · refine DT.bind DT.uniformVec' fun u _ => ?_
      refine DT.bind (DT.correct hP) fun x hx => ?_
      exact DT.pure ⟨hx, hx⟩
    · exact WT.weaken (WT.setPop (.inr hnew.1) hnew.2) (by omega) (by omega)

theorem framed (hE : c.E.Lawful) (p : Params) (ep : Nat) : Framed true (evolve p ep : M c Unit Unit Unit) := by
  unfold evolve; framed

/-- the population of the next epoch is the neighbourhood just evaluated -/
theorem covers (hE : c.E.Lawful) (p : Params) (ep : Nat) (s : St c Unit Unit) :
    Wp (fun _ => True) (evolve p ep : M c Unit Unit Unit) s (fun _ s' => Covers s s') := by
  unfold evolve
  refine Wp.bind (Wp.mono (buildEval_cov hE s) ?_)
  rintro new s1 ⟨h1, -, xs, h3, h4⟩
  unfold setPop
  refine Wp.modify ?_
  refine ⟨h1, xs, h3, fun x hx => ?_⟩
  obtain ⟨a, ha, e⟩ := h4 x hx
  exact ⟨a, ha, by rw [e]; exact NoWorse.rfl⟩

end OriginalHC

namespace SwarmHC

/-- `neighbour_size in [2, int(pop_size / 2)]` (`mealpy/math_based/HC.py:146`) -/
structure Params (popSize : Nat) where
  neighbours : Nat
  ok : 2 ≤ neighbours ∧ neighbours ≤ popSize / 2

/-- `ss[idx]` (`mealpy/math_based/HC.py:155-158`) -/
def step (c : Cfg d K) (ep idx : Nat) : K :=
  meanL (Vec.toList (fun j => c.P.ub j - c.P.lb j)) * Num.exp (-2 * Num.ofNat ep / Num.ofNat c.epoch) *
    (Num.ofNat (idx + 1) / sumL ((List.range c.popSize).map (fun i => Num.ofNat (i + 1))))

/-- the best of `neighbour_size` evaluated neighbours of `pop[idx]` (`mealpy/math_based/HC.py:161-170`) -/
def bestLocal (p : Params c.popSize) (ep idx : Nat) : M c Unit Unit (Agent d K Unit) := do
  let new ← buildEval p.neighbours (fun s _ => do
    let x ← nth s.pop idx
    let z ← normalVec 0 1
    let pos ← correct (fun j => x.sol j + z j * step c ep idx)
    pure (pos, ()))
  draw (bestAgent new)

/-- `SwarmHC.evolve` (`mealpy/math_based/HC.py:150-175`) -/
def evolve (p : Params c.popSize) (ep : Nat) : M c Unit Unit Unit := do
  if c.swarmLike then do
    let l ← iter c.popSize (fun idx acc => do
      let b ← bestLocal p ep idx
      pure (acc ++ [b])) []
    selectGreedy l
  else
    iter c.popSize (fun idx _ => do
      let b ← bestLocal p ep idx
      let old ← popAt idx
      setAt idx (getBetterAgent b old c.P.mm)) ()

/-- `SwarmHC` (`mealpy/math_based/HC.py:92-175`) -/
def algo (p : Params c.popSize) : Algo c Unit Unit := Algo.plain false (evolve p)

theorem bestLocal_hj (hE : c.E.Lawful) (hP : c.P.Lawful) (p : Params c.popSize) (ep : Nat) {idx : Nat} (hi : idx < c.popSize)
    {G : List (Agent d K Unit)} :
    HJ (FA c) JT p.neighbours p.neighbours G (bestLocal p ep idx : M c Unit Unit _) (fun b => G ++ [b]) (fun _ => True) := by
  have hp := p.ok
  unfold bestLocal
  refine HJ.bindS (HJ.buildEval hE fun s i hs hl _ => ?_) (Nat.le_refl _) fun new hnew => ?_
  · refine DT.bind (DT.nth_mem (by omega)) fun x hx => ?_
    dgo
  · rw [Nat.sub_self]
    intro s0 s l k hs0 hs
    refine Wp.mono (HJ.draw (DT.bestAgent' hE (by omega)) s0 s l k hs0 hs) ?_
    rintro b s' ⟨h1, h2, h3⟩
    refine ⟨h1.swap ?_ ?_, trivial⟩
    · intro a ha
      rcases List.mem_append.1 ha with ha | ha
      · exact ⟨a, List.mem_append_left _ ha, NoWorse.rfl⟩
      · exact ⟨b, List.mem_append_right _ (List.mem_singleton.2 rfl), h3 a ha⟩
    · intro a ha
      rcases List.mem_append.1 ha with ha | ha
      · exact h1.held a (List.mem_append_left _ ha)
      · rw [List.mem_singleton.1 ha]; exact h1.held b (List.mem_append_right _ h2)

theorem ok (hE : c.E.Lawful) (hP : c.P.Lawful) (hc : Accepted c 5) (p : Params c.popSize) :
    (algo p : Algo c Unit Unit).Ok (FA c) JT JT JT c.popSize (c.popSize * p.neighbours) (c.popSize * p.neighbours) := by
  have hpop := hc.pop
  refine Algo.plain_ok' hE hP fun ep _ _ => IT.pt (HJ.it ?_)
  unfold evolve
  refine HJ.ite (fun _ => ?_) fun _ => ?_
  · refine HJ.bind (l2 := 0) (h2 := 0) (H := fun l => l) (R := fun l => l.length = c.popSize)
      (HJ.iter (fun l => l) (fun i l => l.length = i) c.popSize rfl fun i acc hi ha => ?_) fun l hl => HJ.selectGreedy hl
    intro s0 s lo hi' hs0 hs
    refine Wp.bind (Wp.mono (bestLocal_hj hE hP p ep hi s0 s lo hi' hs0 hs) ?_)
    rintro b s1 ⟨h1, -⟩
    exact Wp.pure ⟨h1, by simp [ha]⟩
  · refine HJ.iter (fun _ => []) (fun _ _ => True) c.popSize trivial fun i _ hi _ => ?_
    refine HJ.bindS (bestLocal_hj hE hP p ep hi) (Nat.le_refl _) fun b _ => ?_
    rw [Nat.sub_self]
    exact HJ.slotBetter hi (by simp) (fun b' hb' => .inr (by simp at hb'; rw [hb']; exact NoWorse.rfl)) (by simp)

theorem framed (hE : c.E.Lawful) (p : Params c.popSize) (ep : Nat) : Framed true (evolve p ep : M c Unit Unit Unit) := by
  unfold evolve bestLocal; framed

end SwarmHC

end Mealpy
