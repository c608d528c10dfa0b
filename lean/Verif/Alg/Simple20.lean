import Verif.Alg.Kit19
import Verif.Alg.Simple1
import Verif.Alg.Simple17

/-!
# Life choices, penguin colonies, Q-learning sines and learners

`ImprovedLCO`, `DevEPC`, `QleSCA` and `OriginalILA`.
-/

set_option linter.unusedSectionVars false
set_option linter.unusedVariables false

namespace Mealpy
open Spec

variable {d : Nat} {K : Type} [Num K] {c : Cfg d K}

namespace ImprovedLCO

/-- the first phase (`mealpy/human_based/LCO.py:244-260`) -/
def choose (ep : Nat) (s : St c Unit Unit) (idx : Nat) : D c (Vec d K × Unit) := do
  let prob ← random
  if 0.875 < prob then do
    let m ← meanOfBest s.pop
    let pos ← correct m
    pure (pos, ())
  else do
    let x ← nth s.pop idx
    if prob < 0.7 then do
      let f : K := ♯ep / ♯c.epoch
      let prev ← (if idx ≠ 0 then do
          let a ← nth s.pop (idx - 1)
          pure a.sol
        else pure s.gbest.sol : D c (Vec d K))
      let first ← nth s.pop 0
      let u ← random
      let v ← random
      let pos ← correct (fun j => x.sol j + f * u * (prev j - x.sol j) + (1 - f) * v * (first.sol j - x.sol j))
      pure (pos, ())
    else do
      let u ← random
      let pos ← correct (fun j => c.P.ub j - (x.sol j - c.P.lb j) * u)
      pure (pos, ())

/-- the second phase, on the better half (`mealpy/human_based/LCO.py:278-279`) -/
def vary (s : St c Unit Unit) (idx : Nat) : D c (Vec d K × Unit) := do
  let x ← nth s.pop idx
  let z ← normalVec 0 1
  let pos ← correct (fun j => x.sol j + z j * x.sol j)
  pure (pos, ())

/-- the third phase, for the worse half: a point near the best agent (`mealpy/human_based/LCO.py:294-295`) -/
def near (ep : Nat) (best mean : Vec d K) : D c (Vec d K × Unit) := do
  let u ← uniform 0 1
  let pos ← correct (fun j => best j + u * mean j * (♯ep / ♯c.epoch))
  pure (pos, ())

/-- `self.pop = self.greedy_selection_population(...)` on the agents from the `k`-th on, in the pool modes. Line 302 evaluates the old
agents once more and not the new positions, which are forgotten (`mealpy/human_based/LCO.py:301-305`). -/
def again (k : Nat) : M c Unit Unit Unit := do
  let s ← get
  let new ← evalAll ((s.pop.drop k).map (fun a => (a.sol, a.ext)))
  reshape (betterSuffix true c.P.mm k new)

/-- `ImprovedLCO.evolve` (`mealpy/human_based/LCO.py:235-305`). The sorted halves are lists of their own there, joined at the end. -/
def evolve (ep : Nat) : M c Unit Unit Unit := do
  greedyLoop c.popSize (choose ep)
  sortPop
  let s ← get
  let best ← draw (nth s.pop 0)
  greedyFirst (c.popSize / 2) vary
  let s ← get
  let mean := meanPos ((s.pop.take (c.popSize / 2)).map (·.sol))
  if c.swarmLike then do
    let _ ← draw (repM (c.popSize / 2) (fun _ => near ep best.sol mean))
    again (c.popSize / 2)
  else
    iter (c.popSize / 2) (fun i _ => do
      let q ← draw (near ep best.sol mean)
      tryBetterR (c.popSize / 2 + i) q) ()

section

variable {ep k : Nat}

theorem dt_near (hE : c.E.Lawful) (hP : c.P.Lawful) {best mean : Vec d K} : DT noErr (near ep best mean : D c _) (MkOk (FA c) c) := by
  unfold near; dgo

theorem it_again (hE : c.E.Lawful) : IT (FA c) JT (c.popSize - k) (c.popSize - k) (again k : M c Unit Unit Unit) (fun _ => True) := by
  unfold again
  refine HJ.it (HJ.bind0 (HJ.ofIT IT.get) fun s hs => ?_)
  have hl : ((s.pop.drop k).map (fun a => (a.sol, a.ext))).length = c.popSize - k := by
    rw [List.length_map, List.length_drop, hs.len]
  have h := HJ.evalAll (F := FA c) (J := JT) (Y := Unit) hE (G := []) (pend := (s.pop.drop k).map (fun a => (a.sol, a.ext))) (fun q hq => by
    obtain ⟨a, ha, rfl⟩ := List.mem_map.1 hq
    exact FA.mkOk (hs.feas a (List.mem_of_mem_drop ha)))
  rw [hl] at h
  refine HJ.bindS h (by omega) fun new hnew => HJ.weaken (HJ.reshape fun pop hpl => ?_) (by omega) (by omega)
  have := betterSuffix_ok (sw := true) (mm := c.P.mm) (k := k) (new := new) (pop := pop) (by rw [hpl]; exact hnew.1)
  simpa only [List.nil_append, hpl] using this

theorem framed_again (hE : c.E.Lawful) : Framed true (again k : M c Unit Unit Unit) := by
  unfold again; framed

end

macro_rules
  | `(tactic| fprim) => `(tactic| (at_last ImprovedLCO.again; exact ImprovedLCO.framed_again (by assumption)))

/-- `ImprovedLCO` (`mealpy/human_based/LCO.py:183-305`) -/
def algo : Algo c Unit Unit := Algo.plain true evolve

theorem ok (hE : c.E.Lawful) (hP : c.P.Lawful) (hc : Accepted c 5) :
    (algo : Algo c Unit Unit).Ok (FA c) JT JT JT c.popSize (c.popSize + c.popSize / 2 + c.popSize / 2) (c.popSize + c.popSize) := by
  plainalg hE hP hc evolve
  refine IT.pt ?_
  refine IT.bindS (IT.greedyLoop hE fun s i hs hl hi => by unfold choose; dgo) (by omega) fun _ _ => IT.bind0 (IT.sortPop hE) fun _ _ => ?_
  refine IT.bind0 IT.get fun s hs => IT.bind0 (IT.draw (DT.nth_mem (by rw [hs.len]; omega))) fun best _ => ?_
  refine IT.bindS (IT.greedyFirst hE (by omega) fun s i hs hl hi => by unfold vary; dgo) (by omega) fun _ _ => IT.bind0 IT.get fun s _ => ?_
  refine HJ.it (HJ.ite (fun hsw => ?_) (fun hsw => ?_))
  · exact HJ.ofIT (IT.bind0 (IT.draw (DT.repM fun i _ => dt_near hE hP)) fun _ _ => IT.weaken (it_again hE) (by omega) (by omega))
  · exact HJ.ofIT (IT.iterS 1 1 (by omega) (by omega) fun i hi => IT.bind0 (IT.draw (dt_near hE hP)) fun q hq => IT.tryBetterR (by omega) hq)

theorem framed (hE : c.E.Lawful) (ep : Nat) : Framed true (evolve ep : M c Unit Unit Unit) := by
  unfold evolve; framed

end ImprovedLCO

namespace DevEPC

/-- the hyper-parameters (`mealpy/swarm_based/EPC.py:95-98`) -/
structure Params (K : Type) where
  damping : K
  mutation : K
  spiralA : K
  spiralB : K

/-- `calculate_attractiveness` (`mealpy/swarm_based/EPC.py:113-133`), bounded as in lines 201-202; `mu` is 0.01 -/
def attraction (heat dist : K) : K :=
  let a := if dist = 0 then heat else heat * Num.exp (-0.01 * dist) / dist
  if 1 < a then 1 / (1 + a) else a

/-- `spiral_movement` (`mealpy/swarm_based/EPC.py:135-176`) -/
def spiral (p : Params K) (ep : Nat) (x y : Vec d K) (attr : K) : D c (Vec d K) :=
  let dist := normV (fun j => y j - x j)
  if dist = 0 ∨ allclose 1.0e-8 x y = true then pure x
  else do
    let dir : Vec d K := fun j => (y j - x j) / dist
    let theta := p.spiralB * Num.pi
    let rot : Vec d K := fun j =>
      if h : 2 ≤ d then
        if j.val = 0 then Num.cos theta * dir ⟨0, by omega⟩ - Num.sin theta * dir ⟨1, by omega⟩
        else if j.val = 1 then Num.sin theta * dir ⟨0, by omega⟩ + Num.cos theta * dir ⟨1, by omega⟩
        else dir j
      else dir j
    let u ← uniformVec (fun _ => -1) (fun _ => 1)
    pure (fun j => x j + attr * dist * p.spiralA * rot j + p.mutation * (1 - ♯ep / ♯c.epoch) * u j)

/-- agent `i` goes towards agent `j` (`mealpy/swarm_based/EPC.py:195-208`) -/
def step (p : Params K) (ep i j : Nat) : M c Unit K Unit := do
  let s ← get
  let b ← draw (nth s.pop j)
  let a ← draw (nth s.pop i)
  if compareTarget b.tgt a.tgt c.P.mm then do
    let dist := normV (fun k => b.sol k - a.sol k)
    let x ← draw (spiral p ep a.sol b.sol (attraction s.ext dist))
    let pos ← draw (correct x)
    tryCompare (fun _ => pure ()) i pos
  else pure ()

/-- `DevEPC.evolve` (`mealpy/swarm_based/EPC.py:178-208`); the attribute kept between epochs is `heat_radiation` -/
def evolve (p : Params K) (ep : Nat) : M c Unit K Unit := do
  modExt (fun h => h * p.damping)
  iter c.popSize (fun i _ => iter c.popSize (fun j _ => step p ep i j) ()) ()

section

variable {p : Params K} {ep i j : Nat}

theorem it_step (hE : c.E.Lawful) (hP : c.P.Lawful) (hi : i < c.popSize) (hj : j < c.popSize) :
    IT (FA c) JT 0 1 (step p ep i j : M c Unit K Unit) (fun _ => True) := by
  unfold step
  refine IT.bind0 IT.get fun s hs => IT.bind0 (IT.draw (DT.nth_mem (by rw [hs.len]; exact hj))) fun b _ =>
    IT.bind0 (IT.draw (DT.nth_mem (by rw [hs.len]; exact hi))) fun a _ => HJ.it (HJ.ite (fun _ => HJ.ofIT ?_) fun _ => HJ.ofIT (IT.weaken (IT.pure trivial) (by omega) (by omega)))
  refine IT.bind0 (R := fun _ => True) (IT.draw ?_) fun x _ => IT.bind0 (IT.draw (DT.correct hP)) fun pos hp => IT.weaken (IT.tryCompare hi hp (DT.pure hp)) (by omega) (by omega)
  unfold spiral
  dsimp only
  exact DT.ite (fun _ => DT.pure trivial) fun _ => DT.bind DT.uniformVec' fun u _ => DT.pure trivial

theorem framed_step : Framed true (step p ep i j : M c Unit K Unit) := by
  unfold step; framed

end

macro_rules
  | `(tactic| fprim) => `(tactic| (at_last DevEPC.step; exact DevEPC.framed_step))

/-- `DevEPC` (`mealpy/swarm_based/EPC.py:12-208`) -/
def algo (p : Params K) : Algo c Unit K := Algo.full false (fun _ => pure ()) (pure (0.56 * 0.98 * 5.6703e-8 * Num.pow 308.15 4)) (evolve p)

theorem ok (hE : c.E.Lawful) (hP : c.P.Lawful) (hc : Accepted c 5) (p : Params K) :
    (algo p : Algo c Unit K).Ok (FA c) JT JT JT c.popSize 0 (c.popSize * c.popSize) := by
  fullalg hE hP hc evolve
  refine IT.pt (IT.bind0 (IT.modExt fun _ _ => trivial) fun _ _ => ?_)
  refine IT.iterS 0 c.popSize (by omega) le_rfl fun i hi => IT.iterS 0 1 (by omega) (by omega) fun j hj => it_step hE hP hi hj

theorem framed (hE : c.E.Lawful) (p : Params K) (ep : Nat) : Framed true (evolve p ep : M c Unit K Unit) := by
  unfold evolve; framed

end DevEPC

namespace QleSCA

/-- `alpha` and `gama` (`mealpy/math_based/SCA.py:266-267`) -/
structure Params (K : Type) where
  alpha : K
  gama : K

/-- the attribute `q_table`: nine states, nine actions (`mealpy/math_based/SCA.py:185-192`). A copy of an agent keeps the same table object;
each slot of the population has its own, and nothing reads the table of `g_best`. -/
abbrev Table (K : Type) := Fin 9 → Fin 9 → K

/-- `next(i for i, r in enumerate(ranges) if x <= r[1])` (`mealpy/math_based/SCA.py:201-202`) -/
def bucket (x : K) : D c (Fin 3) :=
  if x ≤ 0.333 then pure 0 else if x ≤ 0.666 then pure 1 else if x ≤ 1 then pure 2 else dthrow .stopIteration

/-- `density__` (`mealpy/math_based/SCA.py:282-290`). When all agents are at one point, `L` is zero and numpy answers nan or infinity, which is
in none of the ranges. -/
def density (pop : List (Vec d K)) : D c K :=
  let mean := meanPos pop
  let l := maxL (pop.flatMap (fun x => pop.map (fun y => normV (fun j => x j - y j))))
  if (♯pop.length : K) * l = 0 then dthrow .stopIteration
  else pure (1 / (♯pop.length * l) * sumL (pop.map (fun x => normV (fun j => x j - mean j))))

/-- `distance__` (`mealpy/math_based/SCA.py:292-299`) -/
def distance (best : Vec d K) (pop : List (Vec d K)) : D c K :=
  let den := sumL (pop.map (fun _ => normV (fun j : Fin d => c.P.ub j - c.P.lb j)))
  if den = 0 then dthrow .stopIteration
  else pure (sumL (pop.map (fun x => normV (fun j => best j - x j))) / den)

/-- `get_state` (`mealpy/math_based/SCA.py:200-203`) -/
def state (s : St c (Table K) Unit) : D c (Fin 9) := do
  let den ← density (s.pop.map (·.sol))
  let dis ← distance s.gbest.sol (s.pop.map (·.sol))
  let a ← bucket den
  let b ← bucket dis
  pure ⟨a.val * 3 + b.val, by omega⟩

/-- `get_action` (`mealpy/math_based/SCA.py:205-212`) -/
def action (t : Table K) (st : Fin 9) : D c (Fin 9) :=
  pick ((List.finRange 9).filter (fun a => decide (t st a = maxL (List.ofFn (t st)))))

/-- `r1_ranges` and `r3_ranges` (`mealpy/math_based/SCA.py:194-195`) -/
def range (i : Nat) : K × K := if i = 0 then (0, 0.666) else if i = 1 then (0.667, 1.332) else (1.333, 2)

/-- `update` (`mealpy/math_based/SCA.py:219-220`) -/
def learn (p : Params K) (t : Table K) (st a : Fin 9) (reward : K) : Table K :=
  Function.update t st (Function.update (t st) a (t st a + p.alpha * (reward + p.gama * maxL (List.ofFn (t st)) - t st a)))

/-- what is drawn for agent `i`: the state, the action and the new position (`mealpy/math_based/SCA.py:309-327`) -/
def plan (s : St c (Table K) Unit) (x : Agent d K (Table K)) : D c (Fin 9 × Fin 9 × Vec d K) := do
  let st ← state s
  let a ← action x.ext st
  let r1 ← uniform (range (a.val / 3)).1 (range (a.val / 3)).2
  let r3 ← uniform (range (a.val % 3)).1 (range (a.val % 3)).2
  let u ← random
  let r2 := 2 * Num.pi * u
  let r4 ← random
  let pos ← correctWith amendRandom (fun j =>
    if r4 < 0.5 then x.sol j + r1 * Num.sin r2 * (r3 * s.gbest.sol j - x.sol j)
    else x.sol j + r1 * Num.cos r2 * (r3 * s.gbest.sol j - x.sol j))
  pure (st, a, pos)

/-- one agent (`mealpy/math_based/SCA.py:308-335`) -/
def step (p : Params K) (i : Nat) : M c (Table K) Unit Unit := do
  let s ← get
  let x ← popAt i
  let q ← draw (plan s x)
  let t ← liftB (getTarget q.2.2)
  if compareTarget t x.tgt c.P.mm then setAt i ⟨q.2.2, t, learn p x.ext q.1 q.2.1 1⟩
  else setAt i { x with ext := learn p x.ext q.1 q.2.1 (-1) }

/-- `QleSCA.evolve` (`mealpy/math_based/SCA.py:310-342`) -/
def evolve (p : Params K) (_ep : Nat) : M c (Table K) Unit Unit := iter c.popSize (fun i _ => step p i) ()

section

variable {p : Params K} {i : Nat}

theorem dt_bucket {x : K} : DT (only [.stopIteration]) (bucket x : D c _) (fun _ => True) := by
  unfold bucket
  exact DT.ite (fun _ => DT.pure trivial) fun _ => DT.ite (fun _ => DT.pure trivial) fun _ => DT.ite (fun _ => DT.pure trivial) fun _ => DT.throw (List.Mem.head _)

theorem dt_plan (hE : c.E.Lawful) (hP : c.P.Lawful) {s : St c (Table K) Unit} {x : Agent d K (Table K)} :
    DT (only [.stopIteration]) (plan s x : D c _) (fun q => Feas c q.2.2) := by
  unfold plan
  have hst : DT (only [.stopIteration]) (state s : D c _) (fun _ => True) := by
    unfold state density distance
    dsimp only
    refine DT.bind (R := fun _ => True) (DT.ite (fun _ => DT.throw (List.Mem.head _)) fun _ => DT.pure trivial) fun _ _ =>
      DT.bind (R := fun _ => True) (DT.ite (fun _ => DT.throw (List.Mem.head _)) fun _ => DT.pure trivial) fun _ _ =>
      DT.bind dt_bucket fun _ _ => DT.bind dt_bucket fun _ _ => DT.pure trivial
  refine DT.bind hst fun st _ => DT.bind (R := fun _ => True) ?_ fun a _ => ?_
  · unfold action
    refine DT.mono (DT.pick hE ?_) fun _ _ => trivial
    have h := (maxL_spec (l := List.ofFn (x.ext st)) (by simp)).1
    obtain ⟨a, ha⟩ := List.mem_ofFn.1 h
    exact List.length_pos_of_mem (a := a) (List.mem_filter.2 ⟨List.mem_finRange a, by simpa using ha⟩)
  · refine DT.bind DT.uniform' fun _ _ => DT.bind DT.uniform' fun _ _ => DT.bind DT.random' fun _ _ => DT.bind DT.random' fun _ _ => ?_
    exact DT.bind (DT.correctWith hP (DT.amendRandom)) fun pos hp => DT.pure hp

theorem wt_step (hE : c.E.Lawful) (hP : c.P.Lawful) (hi : i < c.popSize) :
    WT (only [.stopIteration]) (Inv.std c (Table K) JT) 1 1 (step p i : M c (Table K) Unit Unit) (fun _ => True) := by
  unfold step
  have hsz : ∀ n, (Inv.std c (Table K) (Y := Unit) JT).size n → i < n := fun n hn => by
    have : n = c.popSize := hn
    omega
  refine WT.bind0 WT.get fun s _ => WT.bind0 (WT.popAt hsz) fun x hx => WT.bind0 (WT.draw (dt_plan hE hP)) fun q hq => ?_
  refine WT.bindS (WT.getTarget hq) (by omega) fun t ht => WT.weaken (WT.ite (fun _ => WT.setAt hsz (Inv.std_ag ⟨ht, hq⟩)) fun _ => WT.setAt hsz (Inv.std_ag ?_)) (by omega) (by omega)
  exact ⟨hx.1, hx.2⟩

theorem framed_step : Framed true (step p i : M c (Table K) Unit Unit) := by
  unfold step; framed

end

macro_rules
  | `(tactic| fprim) => `(tactic| (at_last QleSCA.step; exact QleSCA.framed_step))

/-- `QleSCA` (`mealpy/math_based/SCA.py:223-342`) -/
def algo (p : Params K) : Algo c (Table K) Unit := Algo.full false (fun _ => pure (fun _ _ => 0)) (pure ()) (evolve p)

theorem wok (hE : c.E.Lawful) (hP : c.P.Lawful) (hc : Accepted c 5) (p : Params K) :
    (algo p : Algo c (Table K) Unit).WOk (only [.stopIteration]) (Inv.std c (Table K) JT) JT JT c.popSize c.popSize 0 0 c.popSize c.popSize := by
  wfullalg hE hP hc evolve
  exact WT.iterU 1 1 (by omega) (by omega) fun i hi => wt_step hE hP hi

theorem framed (hE : c.E.Lawful) (p : Params K) (ep : Nat) : Framed true (evolve p ep : M c (Table K) Unit Unit) := by
  unfold evolve; framed

end QleSCA

namespace OriginalILA

/-- the hyper-parameters (`mealpy/human_based/ILA.py:80-84`) -/
structure Params (K : Type) where
  nModels : Nat
  ps1 : K
  ps2 : K
  bMin : K
  bMax : K

/-- `n_t1` and `n_t2` (`mealpy/human_based/ILA.py:90-91`) -/
def steps (c : Cfg d K) (share : K) : Int := Num.trunc (share * ♯c.epoch)

/-- `t_m` (`mealpy/human_based/ILA.py:94`) -/
def period (c : Cfg d K) (p : Params K) : Nat := max 1 ((steps c p.ps1).toNat / p.nModels)

/-- The attributes kept between epochs (`mealpy/human_based/ILA.py:103-108`): the groups, the positions of `pop_prev` and of `current_best`.
`experts` and `fitness` are those of the population at the end of the last epoch, hence of the population at the start of this one. -/
structure Vars (d : Nat) (K : Type) where
  clusters : List Nat
  groups : Nat
  prev : List (Vec d K)
  best : Vec d K

/-- `before_main_loop` (`mealpy/human_based/ILA.py:103-108`). There are no `current_clusters` yet; the first epoch of stage one makes them. -/
def before (s : St c Unit (Vars d K)) : D c (Vars d K) :=
  pure ⟨List.replicate c.popSize 0, 1, s.pop.map (·.sol), s.gbest.sol⟩

/-- a row of a matrix; the default is not used -/
def row (l : List (Vec d K)) (i : Nat) : Vec d K := l.getD i (fun _ => 0)

/-- the state of `kmeans_simple` (`mealpy/human_based/ILA.py:117-130`) -/
structure Means (d : Nat) (K : Type) where
  cents : List (Vec d K)
  labels : List Nat
  stop : Bool

/-- the nearest centroid (`mealpy/human_based/ILA.py:122-123`) -/
def nearest (cents : List (Vec d K)) (x : Vec d K) : Nat := argminL (cents.map (fun m => normV (fun j => x j - m j)))

/-- one round of `kmeans_simple` (`mealpy/human_based/ILA.py:122-129`) -/
def refine (data : List (Vec d K)) (k : Nat) (m : Means d K) : D c (Means d K) :=
  if m.stop then pure m
  else do
    let labels := data.map (nearest m.cents)
    let cents ← repM k (fun i =>
      let members := (data.zip labels).filterMap (fun q => if q.2 = i then some q.1 else none)
      if members.isEmpty then pick data else pure (meanPos members))
    if (List.zipWith (fun x y => allclose 1.0e-8 x y) m.cents cents).all id then pure ⟨m.cents, labels, true⟩
    else pure ⟨cents, labels, false⟩

/-- `max_iters` (`mealpy/human_based/ILA.py:117`) -/
def rounds : Nat := 100

/-- `kmeans_simple` (`mealpy/human_based/ILA.py:117-130`) -/
def kmeans (data : List (Vec d K)) (k : Nat) : D c (List Nat) := do
  let idx ← choice data.length k false
  let m ← iter rounds (fun _ m => refine data k m) ⟨idx.map (row data), List.replicate data.length 0, false⟩
  pure m.labels

/-- new groups at the start of each period (`mealpy/human_based/ILA.py:134-136`) -/
def regroup (p : Params K) (ep : Nat) : M c Unit (Vars d K) Unit := do
  let s ← get
  if (ep - 1) % period c p = 0 then do
    let g ← draw (integers 1 (max 1 (c.popSize / 2) + 1 : Nat))
    let labels ← draw (kmeans (s.pop.map (·.sol)) g.toNat)
    modExt (fun y => { y with clusters := labels, groups := g.toNat })
  else pure ()

/-- `np.where(self.current_clusters == g)[0]` (`mealpy/human_based/ILA.py:139`) -/
def group (clusters : List Nat) (g : Nat) : List Nat := (List.range clusters.length).filter (fun i => clusters[i]? = some g)

/-- entry `i` of `normalize` applied to the values of a group (`mealpy/human_based/ILA.py:110-115`) -/
def normal1 (f : Nat → K) (g : List Nat) (i : Nat) : K :=
  let vs := g.map f
  if maxL vs = minL vs then 0 else (f i - minL vs) / (maxL vs - minL vs)

/-- the two new positions of one agent (`mealpy/human_based/ILA.py:185-194`, 240-247 and 269-276) -/
def twins (w : K) (x k lead : Vec d K) : D c (Vec d K × Vec d K) := do
  let u ← uniformVec (fun _ => -w) (fun _ => w)
  let a : Vec d K := fun j => x j + u j * k j
  let v ← uniform (-w) w
  let r ← random
  let x1 ← correct a
  let x2 ← correct (fun j => v * a j + r * lead j)
  pure (x1, x2)

/-- agent `i` learns from the agents of `g`, of which `lead` is the best (`mealpy/human_based/ILA.py:149-194`; 208-247 with the whole population
and `g_best`). The ratings of a group are computed before its first agent changes. -/
def lesson (p : Params K) (w : K) (experts : List (Vec d K)) (y : Vars d K) (g : List Nat) (lead : Vec d K) (i : Nat) : D c (Vec d K × Vec d K) := do
  let avg := meanPos (g.map (row experts))
  let rc := normal1 (fun k => normV (fun j => row experts k j - y.best j)) g i
  let rd := normal1 (fun k => normV (fun j => row experts k j - row y.prev k j)) g i
  let rp := normal1 (fun k => normV (fun j => row experts k j - lead j)) g i
  let bc ← uniform p.bMin p.bMax
  let bp ← uniform p.bMin p.bMax
  let bd ← uniform p.bMin p.bMax
  let x := row experts i
  let r ← pick g
  let e := row experts r
  let u ← uniformVec c.P.lb c.P.ub
  let k0 : Vec d K := fun j =>
    if rc ≤ bc ∧ rp ≤ bp then rp * (x j + e j) / 2
    else if rc ≤ bc ∧ bp < rp then rp * (x j + avg j) / 2
    else if bc < rc ∧ rp ≤ bp then rp * (lead j + e j) / 2
    else rp * (lead j + avg j) / 2
  let c1 ← random
  twins w x (fun j => Num.abs (k0 j + c1 * (if rd ≤ bd then avg j else u j)) / 2) lead

/-- the third stage (`mealpy/human_based/ILA.py:259-276`) -/
def practice (experts : List (Vec d K)) (best : Vec d K) (i : Nat) : D c (Vec d K × Vec d K) := do
  let avg := meanPos experts
  let r ← index c.popSize
  let f ← index 2
  twins 0.25 (row experts i) (fun j => Num.abs (avg j - (if f = 0 then row experts r j else best j))) best

/-- the better of the two new agents takes the slot if it improves on it (`mealpy/human_based/ILA.py:195-204`). `self.fitness[i]` is still the
fitness of agent `i`: each agent is visited once. `compare_fitness` is `compare_target` on the fitness. -/
def offer (i : Nat) (q : Vec d K × Vec d K) : M c Unit (Vars d K) Unit := do
  let s ← get
  let old ← draw (nth s.pop i)
  let a ← liftB (agentOf (fun _ => pure ()) q.1)
  let b ← liftB (agentOf (fun _ => pure ()) q.2)
  let won ← slotTest i (if compareTarget a.tgt b.tgt c.P.mm then a else b)
  modExt (fun y => if won then { y with prev := y.prev.set i old.sol } else y)

/-- `stage_1_step` (`mealpy/human_based/ILA.py:132-204`) -/
def stage1 (p : Params K) (ep : Nat) : M c Unit (Vars d K) Unit := do
  regroup p ep
  let s ← get
  let experts := s.pop.map (·.sol)
  let order := (List.range s.ext.groups).flatMap (fun g => group s.ext.clusters g)
  iter order.length (fun k _ => do
    let i ← draw (nth order k)
    let g := group s.ext.clusters (s.ext.clusters.getD i 0)
    let fits := g.map (fun k => (s.pop.map (·.fit)).getD k 0)
    let l ← draw (nth g (match c.P.mm with | .min => argminL fits | .max => argmaxL fits))
    let q ← draw (lesson p 1.5 experts s.ext g (row experts l) i)
    offer i q) ()

/-- `OriginalILA.evolve` (`mealpy/human_based/ILA.py:285-301`) -/
def evolve (p : Params K) (ep : Nat) : M c Unit (Vars d K) Unit := do
  let s ← get
  let experts := s.pop.map (·.sol)
  let _ ← (if (ep : Int) < steps c p.ps1 then stage1 p ep
    else if (ep : Int) < steps c p.ps1 + steps c p.ps2 then
      iter c.popSize (fun i _ => do
        let q ← draw (lesson p 0.75 experts s.ext (List.range c.popSize) s.gbest.sol i)
        offer i q) ()
    else
      iter c.popSize (fun i _ => do
        let q ← draw (practice experts s.gbest.sol i)
        offer i q) () : M c Unit (Vars d K) Unit)
  let s ← get
  let b ← draw (bestAgent s.pop)
  modExt (fun y => { y with best := b.sol })

/-- every agent is in one of the groups -/
structure Held (c : Cfg d K) (y : Vars d K) : Prop where
  len : y.clusters.length = c.popSize
  lt : ∀ g ∈ y.clusters, g < y.groups

section

variable {p : Params K} {ep i : Nat}

theorem nearest_lt {cents : List (Vec d K)} {x : Vec d K} (h : 0 < cents.length) : nearest cents x < cents.length := by
  unfold nearest
  have := argminL_lt (l := cents.map (fun m => normV (fun j => x j - m j))) (by rw [List.length_map]; exact h)
  rwa [List.length_map] at this

/-- as many labels as data, all below the number of centroids -/
structure Fit (n k : Nat) (m : Means d K) : Prop where
  cents : m.cents.length = k
  len : m.labels.length = n
  lt : ∀ l ∈ m.labels, l < k

theorem dt_refine (hE : c.E.Lawful) {data : List (Vec d K)} {k : Nat} {m : Means d K} (hk : 0 < k) (hd : 0 < data.length) (h : Fit data.length k m) :
    DT noErr (OriginalILA.refine data k m : D c _) (Fit data.length k) := by
  unfold OriginalILA.refine
  have hlt : ∀ l ∈ data.map (nearest m.cents), l < k := fun l hl => by
    obtain ⟨x, _, rfl⟩ := List.mem_map.1 hl
    have := nearest_lt (cents := m.cents) (x := x) (by rw [h.cents]; exact hk)
    rwa [h.cents] at this
  refine DT.ite (fun _ => DT.pure h) fun _ => ?_
  dsimp only
  refine DT.bind (DT.repM (Q := fun _ => True) fun i _ => by split; exacts [DT.mono (DT.pick hE hd) fun _ _ => trivial, DT.pure trivial]) fun cents hc => ?_
  exact DT.ite (fun _ => DT.pure ⟨h.cents, by rw [List.length_map], hlt⟩) fun _ => DT.pure ⟨hc.1, by rw [List.length_map], hlt⟩

theorem dt_rounds (hE : c.E.Lawful) {data : List (Vec d K)} {k n : Nat} {m : Means d K} (hk : 0 < k) (hd : 0 < data.length) (h : Fit data.length k m) :
    DT noErr (iter n (fun _ m => OriginalILA.refine data k m) m : D c _) (Fit data.length k) :=
  DT.iter (I := fun _ (m : Means d K) => Fit data.length k m) n h fun _ m _ hm => dt_refine hE hk hd hm

theorem dt_kmeans (hE : c.E.Lawful) {data : List (Vec d K)} {k : Nat} (hk : 0 < k) (hd : k ≤ data.length) :
    DT noErr (kmeans data k : D c _) (fun l => l.length = data.length ∧ ∀ g ∈ l, g < k) := by
  unfold kmeans
  refine DT.bind (DT.choice hE (OriginalCRO.choice_ok hd)) fun idx hidx => ?_
  have h0 : Fit data.length k (⟨idx.map (row data), List.replicate data.length 0, false⟩ : Means d K) :=
    ⟨by rw [List.length_map]; exact hidx.1, List.length_replicate, fun l hl => by rw [(List.mem_replicate.1 hl).2]; exact hk⟩
  have key : DT noErr (iter rounds (fun _ m => OriginalILA.refine data k m) ⟨idx.map (row data), List.replicate data.length 0, false⟩ : D c (Means d K)) (Fit data.length k) :=
    @dt_rounds d K _ c hE data k rounds _ hk (Nat.lt_of_lt_of_le hk hd) h0
  generalize (iter rounds (fun _ m => OriginalILA.refine data k m) ⟨idx.map (row data), List.replicate data.length 0, false⟩ : D c (Means d K)) = x at key ⊢
  exact DT.bind key fun m hm => DT.pure ⟨hm.len, hm.lt⟩

theorem it_regroup (hE : c.E.Lawful) (hn : 2 ≤ c.popSize) : IT (FA c) (Held c) 0 0 (regroup p ep : M c Unit (Vars d K) Unit) (fun _ => True) := by
  unfold regroup
  refine IT.bind0 IT.get fun s hs => HJ.it (HJ.ite (fun _ => HJ.ofIT ?_) fun _ => HJ.ofIT (IT.pure trivial))
  refine IT.bind0 (IT.draw (DT.integers hE (by omega))) fun g hg => ?_
  have hl : (s.pop.map (·.sol)).length = c.popSize := by rw [List.length_map]; exact hs.len
  refine IT.bind0 (IT.draw (dt_kmeans hE (by omega) (by rw [hl]; omega))) fun labels hlab => IT.modExt fun y _ => ⟨hlab.1.trans hl, hlab.2⟩

theorem group_mem {clusters : List Nat} {g k : Nat} (h : k ∈ group clusters g) : k < clusters.length ∧ clusters[k]? = some g := by
  unfold group at h
  have := List.mem_filter.1 h
  exact ⟨List.mem_range.1 this.1, by simpa using this.2⟩

theorem order_length {clusters : List Nat} : ∀ (n : Nat), ((List.range n).flatMap (fun g => group clusters g)).length =
    ((List.range clusters.length).filter (fun i => decide (clusters.getD i n < n))).length
  | 0 => by simp
  | n + 1 => by
    rw [List.range_succ, List.flatMap_append, List.length_append, order_length n]
    simp only [List.flatMap_cons, List.flatMap_nil, List.append_nil]
    unfold group
    have : ∀ l : List Nat, (∀ i ∈ l, i < clusters.length) →
        (l.filter (fun i => decide (clusters.getD i n < n))).length + (l.filter (fun i => decide (clusters[i]? = some n))).length =
          (l.filter (fun i => decide (clusters.getD i (n + 1) < n + 1))).length := by
      intro l hl
      induction l with
      | nil => rfl
      | cons i l ih =>
        have hi := hl i (by simp)
        have := ih fun k hk => hl k (by simp [hk])
        simp only [List.getD_eq_getElem?_getD, List.filter_cons, List.getElem?_eq_getElem hi, Option.getD_some, Option.some.injEq] at this ⊢
        rcases Nat.lt_trichotomy clusters[i] n with h | h | h
        · simp only [h, show ¬ clusters[i] = n by omega, show clusters[i] < n + 1 by omega, decide_true, decide_false, if_true, if_false, List.length_cons, Bool.false_eq_true]
          omega
        · simp only [h, show ¬ n < n by omega, show n < n + 1 by omega, decide_true, decide_false, if_true, if_false, List.length_cons, Bool.false_eq_true]
          omega
        · simp only [show ¬ clusters[i] < n by omega, show ¬ clusters[i] = n by omega, show ¬ clusters[i] < n + 1 by omega, decide_false, if_false, Bool.false_eq_true]
          omega
    exact this _ fun i hi => List.mem_range.1 hi

theorem order_full {y : Vars d K} (h : Held c y) : ((List.range y.groups).flatMap (fun g => group y.clusters g)).length = c.popSize := by
  rw [order_length, List.filter_eq_self.2, List.length_range, h.len]
  intro i hi
  have hi := List.mem_range.1 hi
  rw [List.getD_eq_getElem?_getD, List.getElem?_eq_getElem hi]
  simpa using h.lt _ (List.getElem_mem hi)

theorem dt_twins (hP : c.P.Lawful) {w : K} {x k lead : Vec d K} : DT noErr (twins w x k lead : D c _) (fun q => Feas c q.1 ∧ Feas c q.2) := by
  unfold twins
  exact DT.bind DT.uniformVec' fun _ _ => DT.bind DT.uniform' fun _ _ => DT.bind DT.random' fun _ _ => DT.bind (DT.correct hP) fun a ha =>
    DT.bind (DT.correct hP) fun b hb => DT.pure ⟨ha, hb⟩

theorem dt_lesson (hE : c.E.Lawful) (hP : c.P.Lawful) {w : K} {experts : List (Vec d K)} {y : Vars d K} {g : List Nat} {lead : Vec d K} (hg : 0 < g.length) :
    DT noErr (lesson p w experts y g lead i : D c _) (fun q => Feas c q.1 ∧ Feas c q.2) := by
  unfold lesson
  dsimp only
  exact DT.bind DT.uniform' fun _ _ => DT.bind DT.uniform' fun _ _ => DT.bind DT.uniform' fun _ _ => DT.bind (DT.pick hE hg) fun _ _ =>
    DT.bind DT.uniformVec' fun _ _ => DT.bind DT.random' fun _ _ => dt_twins hP

theorem dt_practice (hE : c.E.Lawful) (hP : c.P.Lawful) {experts : List (Vec d K)} {best : Vec d K} (hn : 0 < c.popSize) :
    DT noErr (practice experts best i : D c _) (fun q => Feas c q.1 ∧ Feas c q.2) := by
  unfold practice
  dsimp only
  exact DT.bind (DT.index hE hn) fun _ _ => DT.bind (DT.index hE (by omega)) fun _ _ => dt_twins hP

theorem it_offer {q : Vec d K × Vec d K} (hi : i < c.popSize) (hq : Feas c q.1 ∧ Feas c q.2) :
    IT (FA c) (Held c) 2 2 (offer i q : M c Unit (Vars d K) Unit) (fun _ => True) := by
  unfold offer
  refine IT.bind0 IT.get fun s hs => IT.bind0 (IT.draw (DT.nth_mem (by rw [hs.len]; exact hi))) fun old _ => HJ.it ?_
  refine HJ.bindS (HJ.agentOf hq.1 (DT.pure hq.1)) (by omega) fun a _ => HJ.bindS (HJ.agentOf hq.2 (DT.pure hq.2)) (by omega) fun b _ => ?_
  simp only [List.nil_append, List.cons_append]
  refine HJ.weaken (HJ.bind0 (HJ.slotTest (G' := []) hi (a := if compareTarget a.tgt b.tgt c.P.mm then a else b) ?_ ?_ (by simp)) fun won _ =>
    HJ.ofIT (IT.modExt fun y hy => ?_)) (by omega) (by omega)
  · split <;> simp
  · intro z hz
    refine .inr ?_
    by_cases hc : compareTarget a.tgt b.tgt c.P.mm = true
    · rw [if_pos hc]
      rcases List.mem_cons.1 hz with rfl | hz
      · exact NoWorse.rfl
      · rw [List.mem_singleton.1 hz]
        exact compareTarget_true hc
    · rw [if_neg hc]
      rcases List.mem_cons.1 hz with rfl | hz
      · exact compareTarget_false (by simpa using hc)
      · rw [List.mem_singleton.1 hz]
        exact NoWorse.rfl
  · split
    · exact ⟨hy.len, hy.lt⟩
    · exact hy

theorem it_stage1 (hE : c.E.Lawful) (hP : c.P.Lawful) (hn : 2 ≤ c.popSize) :
    IT (FA c) (Held c) (c.popSize * 2) (c.popSize * 2) (stage1 p ep : M c Unit (Vars d K) Unit) (fun _ => True) := by
  unfold stage1
  refine IT.bind0 (it_regroup hE hn) fun _ _ => IT.bind0 IT.get fun s hs => ?_
  dsimp only
  have ho := order_full hs.ext
  refine IT.iterS 2 2 (by rw [ho]) (by rw [ho]) fun k hk => ?_
  refine IT.bind0 (IT.draw (DT.nth_mem hk)) fun i hi => ?_
  obtain ⟨g, -, hg⟩ := List.mem_flatMap.1 hi
  have hgi := group_mem hg
  have hgd : s.ext.clusters.getD i 0 = g := by rw [List.getD_eq_getElem?_getD, hgi.2]; rfl
  have hpos : 0 < (group s.ext.clusters (s.ext.clusters.getD i 0)).length := by rw [hgd]; exact List.length_pos_of_mem hg
  have hlt : i < c.popSize := by have := hs.ext.len; omega
  refine IT.bind0 (R := fun _ => True) (IT.draw (DT.mono (DT.nth_mem ?_) fun _ _ => trivial)) fun l _ => IT.bind0 (IT.draw (dt_lesson hE hP hpos)) fun q hq => it_offer hlt hq
  cases c.P.mm
  · have := argminL_lt (l := (group s.ext.clusters (s.ext.clusters.getD i 0)).map (fun k => (s.pop.map (·.fit)).getD k 0)) (by rw [List.length_map]; exact hpos)
    rwa [List.length_map] at this
  · have := argmaxL_lt (l := (group s.ext.clusters (s.ext.clusters.getD i 0)).map (fun k => (s.pop.map (·.fit)).getD k 0)) (by rw [List.length_map]; exact hpos)
    rwa [List.length_map] at this

theorem framed_offer {q : Vec d K × Vec d K} : Framed true (offer i q : M c Unit (Vars d K) Unit) := by
  unfold offer; framed

theorem framed_regroup : Framed true (regroup p ep : M c Unit (Vars d K) Unit) := by
  unfold regroup; framed

end

macro_rules
  | `(tactic| fprim) => `(tactic| (at_last OriginalILA.offer; exact OriginalILA.framed_offer))
macro_rules
  | `(tactic| fprim) => `(tactic| (at_last OriginalILA.regroup; exact OriginalILA.framed_regroup))

theorem framed_stage1 {p : Params K} {ep : Nat} : Framed true (stage1 p ep : M c Unit (Vars d K) Unit) := by
  unfold stage1; framed

macro_rules
  | `(tactic| fprim) => `(tactic| (at_last OriginalILA.stage1; exact OriginalILA.framed_stage1))

theorem dt_before {s : St c Unit (Vars d K)} : DT noErr (before s : D c _) (Held c) :=
  DT.pure ⟨List.length_replicate, fun g hg => by rw [(List.mem_replicate.1 hg).2]; exact Nat.one_pos⟩

/-- `OriginalILA` (`mealpy/human_based/ILA.py:12-301`) -/
def algo (p : Params K) : Algo c Unit (Vars d K) := Algo.pre false (fun _ => pure ()) (pure ⟨[], 0, [], fun _ => 0⟩) before (evolve p)

theorem ok (hE : c.E.Lawful) (hP : c.P.Lawful) (hc : Accepted c 5) (p : Params K) :
    (algo p : Algo c Unit (Vars d K)).Ok (FA c) JT JT (Held c) c.popSize (c.popSize * 2) (c.popSize * 2) := by
  have hpop := hc.pop
  unfold algo
  refine Algo.pre_ok (J := (Held c)) hE hP (fun x hx => by dgo) (by dgo) (by intro s hs; exact dt_before) (fun ep hep1 hep2 => ?_)
  unfold evolve
  refine IT.pt (IT.bind0 IT.get fun s hs => ?_)
  dsimp only
  refine IT.bindS (l1 := c.popSize * 2) (h1 := c.popSize * 2) (R := fun _ => True) (HJ.it (HJ.ite (fun _ => HJ.ofIT (it_stage1 hE hP (by omega))) fun _ => HJ.ite (fun _ => HJ.ofIT ?_) fun _ => HJ.ofIT ?_)) le_rfl fun _ _ => ?_
  · exact IT.iterS 2 2 le_rfl le_rfl fun i hi => IT.bind0 (IT.draw (dt_lesson hE hP (by rw [List.length_range]; omega))) fun q hq => it_offer hi hq
  · exact IT.iterS 2 2 le_rfl le_rfl fun i hi => IT.bind0 (IT.draw (dt_practice hE hP (by omega))) fun q hq => it_offer hi hq
  · refine IT.weaken (IT.bind0 IT.get fun s hs => IT.bind0 (IT.draw (DT.bestAgent' hE (by rw [hs.len]; omega))) fun b _ => IT.modExt fun y hy => ⟨hy.len, hy.lt⟩) (by omega) (by omega)

theorem framed (hE : c.E.Lawful) (p : Params K) (ep : Nat) : Framed true (evolve p ep : M c Unit (Vars d K) Unit) := by
  unfold evolve; framed

end OriginalILA

end Mealpy
