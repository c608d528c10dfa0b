import Verif.Alg.Risky
import Verif.Alg.Kit14
import Verif.Alg.Kit20

/-! # Algorithms with a loop that need not end: `HCO.py` and `SMO.py`

A `while` loop of these classes ends only when the generator delivers what it waits for.  The models take the number of rounds they
may last as a further parameter (`fuel`) and stop with `Err.hang` when it is used up; the theorems hold for every number. -/

set_option linter.unusedSectionVars false
set_option linter.unusedVariables false

namespace Mealpy
open Spec

variable {d : Nat} {K : Type} [Num K] {c : Cfg d K} {X Y : Type} {Er : Err → Prop}

namespace OriginalHCO

/-- the hyper-parameters (`mealpy/human_based/HCO.py:87-90`) and the number of rounds the loop may last -/
structure Params (K : Type) where
  wfp : K
  wfv : K
  c1 : K
  c2 : K
  fuel : Nat

/-- `vec` and `pop_p` -/
structure Vars (d : Nat) (K : Type) where
  vec : List (Vec d K)
  popP : List (Agent d K Unit)

/-- `generate_agent()` until the result is better than `pfit` (`mealpy/human_based/HCO.py:113-117`) -/
def hunt (fuel : Nat) (pfit : K) : B c (Agent d K Unit) := do
  let r ← iter fuel (fun _ r => match r with
    | some a => pure (some a)
    | none => do
      let x ← liftD genSolution
      let t ← getTarget x
      pure (if compareFitness t.fitness pfit c.P.mm then some ⟨x, t, ()⟩ else none)) (none : Option (Agent d K Unit))
  match r with
  | some a => pure a
  | none => liftD (dthrow .hang)

/-- the opposite of each agent (`mealpy/human_based/HCO.py:97-108`) -/
def opposite (pop : List (Agent d K Unit)) : B c (List (Agent d K Unit)) := do
  let new ← buildB pop.length (fun i => do
    let a ← nth pop i
    let x ← correct (fun j => c.P.ub j + c.P.lb j - a.sol j)
    pure (x, ()))
  pure (if c.swarmLike then zipGreedy c.P.mm pop new else zipBetter c.P.mm new pop)

/-- replacing the agents worse than `pfit` (`mealpy/human_based/HCO.py:111-117`) -/
def replaceBad (fuel : Nat) (pfit : K) (pop : List (Agent d K Unit)) : B c (List (Agent d K Unit)) :=
  iter pop.length (fun i l => do
    let a ← liftD (nth l i)
    if compareFitness pfit a.fit c.P.mm then do
      let b ← hunt fuel pfit
      pure (l.set i b)
    else pure l) pop

/-- `initialization` (`mealpy/human_based/HCO.py:94-119`) -/
def initialization (p : Params K) (q : Option (List (Agent d K Unit))) : B c (List (Agent d K Unit) × Vars d K) := do
  let pop ← startPop (fun _ => pure ()) q
  let pop ← opposite pop
  let best ← liftD (bestAgent pop)
  let worst ← liftD (worstAgent pop)
  let pop ← replaceBad p.fuel ((worst.fit - best.fit) * p.wfp + best.fit) pop
  let vec ← liftD (repM c.popSize (fun _ => uniformVec c.P.lb c.P.ub))
  pure (pop, ⟨vec, pop⟩)

/-- the new velocities (`mealpy/human_based/HCO.py:128-141`) -/
def velocity (p : Params K) (ep : Nat) (lam : K) (g : Agent d K Unit) (pop : List (Agent d K Unit)) (y : Vars d K) : List (Vec d K) :=
  let fits := pop.map (·.fit)
  let mean := meanL fits
  let w : K := Num.sin (2 * Num.pi * (♯ep) / (♯c.epoch))
  (List.range c.popSize).map (fun i j =>
    let f := fits.getD i 0
    let ll := (g.fit - f) * (g.fit - f) - (mean - f) * (mean - f)
    let vv := lam * (ll / (4 * 2 * (g.fit - mean)))
    let x := (pop.map (·.sol)).getD i (fun _ => 0)
    let x1 := (y.popP.map (·.sol)).getD i (fun _ => 0)
    p.wfv * (vv + y.vec.getD i (fun _ => 0) j) + p.c1 * (x1 j - x j) * w + p.c2 * (g.sol j - x j) * w)

/-- the agent kept in slot `idx` (`mealpy/human_based/HCO.py:152-153`) -/
def keep (mm : MinMax) (new old : Agent d K Unit) : Agent d K Unit := if compareTarget new.tgt old.tgt mm then new else old

/-- the personal best of slot `idx` (`mealpy/human_based/HCO.py:152-155`) -/
def keepP (mm : MinMax) (q : Agent d K Unit × Agent d K Unit) (pb : Agent d K Unit) : Agent d K Unit :=
  if compareTarget q.1.tgt q.2.tgt mm && compareTarget q.1.tgt pb.tgt mm then q.1 else pb

/-- `OriginalHCO.evolve` (`mealpy/human_based/HCO.py:121-155`) -/
def evolve (p : Params K) (ep : Nat) : M c Unit (Vars d K) Unit := do
  let s ← get
  let lam ← draw random
  let vec := velocity (c := c) p ep lam s.gbest s.pop s.ext
  let pend ← draw (repM c.popSize (fun i => do
    let a ← nth s.pop i
    let v ← nth vec i
    let x ← correct (fun j => a.sol j + v j)
    pure (x, ())))
  let new ← evalAll pend
  setPop (List.zipWith (keep c.P.mm) new s.pop)
  modExt (fun y => ⟨vec, List.zipWith (keepP c.P.mm) (List.zip new s.pop) y.popP⟩)

/-- `OriginalHCO` (`mealpy/human_based/HCO.py:12-155`) -/
def algo (p : Params K) : Algo c Unit (Vars d K) :=
  Algo.custom false (fun _ => pure ()) (pure ⟨[], []⟩) (fun _ q => initialization p q) (evolve p)

theorem bt_hunt (hP : c.P.Lawful) {fuel : Nat} {pfit : K} (h : Er .hang) : BT Er 0 fuel (hunt fuel pfit : B c _) (CF c) := by
  unfold hunt
  refine BT.weaken (lo := fuel * 0 + 0) (hi := fuel * 1 + 0) (BT.bind (R := fun r => ∀ a, r = some a → CF c a) (BT.iter (lo := 0) (hi := 1) (fun _ r => ∀ a, r = some a → CF c a) fuel (by simp) fun i r hi hr => ?_) fun r hr => ?_) (by omega) (by omega)
  · cases r with
    | some a => exact BT.weaken (BT.pure hr) le_rfl (by omega)
    | none =>
      refine BT.bind0 (BT.liftD (DT.genSolution hP)) fun x hx => BT.weaken (lo := 1) (hi := 1) (BT.bindS (BT.getTarget hx) le_rfl fun t ht => BT.weaken (BT.pure ?_) (by omega) (by omega)) (by omega) le_rfl
      intro a ha
      split at ha
      · cases ha
        exact ⟨ht, hx⟩
      · cases ha
  · cases r with
    | some a => exact BT.pure (hr a rfl)
    | none => exact BT.liftD (DT.throw h)

theorem bt_opposite (hE : c.E.Lawful) (hP : c.P.Lawful) {pop : List (Agent d K Unit)} (h : ∀ a ∈ pop, CF c a) :
    BT Er pop.length pop.length (opposite pop : B c _) (fun l => l.length = pop.length ∧ ∀ a ∈ l, CF c a) := by
  unfold opposite
  refine BT.bindS (BT.buildB hE fun i hi => ?_) le_rfl fun new hn => BT.weaken (BT.pure ?_) (by omega) (by omega)
  · exact DT.bind (DT.nth_mem hi) fun a _ => DT.bind (DT.correct hP) fun x hx => DT.pure hx
  · split
    · exact ⟨by rw [zipGreedy_length, hn.1, Nat.min_self], zipGreedy_all h hn.2⟩
    · exact ⟨by rw [zipBetter_length, hn.1, Nat.min_self], zipBetter_all hn.2 h⟩

theorem bt_replaceBad (hP : c.P.Lawful) {fuel : Nat} {pfit : K} (h : Er .hang) {pop : List (Agent d K Unit)} (hp : ∀ a ∈ pop, CF c a) :
    BT Er 0 (pop.length * fuel) (replaceBad fuel pfit pop : B c _) (fun l => l.length = pop.length ∧ ∀ a ∈ l, CF c a) := by
  unfold replaceBad
  refine BT.weaken (BT.iter (lo := 0) (hi := fuel) (fun _ (l : List (Agent d K Unit)) => l.length = pop.length ∧ ∀ a ∈ l, CF c a) _ ⟨rfl, hp⟩ fun i l hi hl => ?_) (by omega) le_rfl
  refine BT.bind0 (BT.liftD (DT.nth_mem (by rw [hl.1]; exact hi))) fun a ha => BT.ite (fun _ => ?_) fun _ => BT.weaken (BT.pure hl) le_rfl (by omega)
  refine BT.bindS (bt_hunt hP h) le_rfl fun b hb => BT.weaken (BT.pure ⟨by rw [List.length_set]; exact hl.1, fun x hx => ?_⟩) (by omega) (by omega)
  rcases mem_set_iff hx with rfl | hx
  · exact hb
  · exact hl.2 x hx

/-- one velocity and one personal best for each slot -/
def Ok (c : Cfg d K) (y : Vars d K) : Prop := y.popP.length = c.popSize

theorem bt_rest (hE : c.E.Lawful) (hP : c.P.Lawful) (hpos : 0 < c.popSize) {p : Params K} {pop : List (Agent d K Unit)} (hl : pop.length = c.popSize) (hp : ∀ a ∈ pop, CF c a) :
    BT (only [.hang]) c.popSize (c.popSize + c.popSize * p.fuel) (do
      let pop ← opposite pop
      let best ← liftD (bestAgent pop)
      let worst ← liftD (worstAgent pop)
      let pop ← replaceBad p.fuel ((worst.fit - best.fit) * p.wfp + best.fit) pop
      let vec ← liftD (repM c.popSize (fun _ => uniformVec c.P.lb c.P.ub))
      pure (pop, (⟨vec, pop⟩ : Vars d K)) : B c _) (fun r => r.1.length = c.popSize ∧ (∀ a ∈ r.1, CF c a) ∧ Ok c r.2) := by
  have ho := bt_opposite (Er := only [Err.hang]) hE hP hp
  rw [hl] at ho
  refine BT.bindS ho (by omega) fun pop1 h1 => ?_
  refine BT.bind0 (BT.liftD (DT.bestAgent' hE (by rw [h1.1]; exact hpos))) fun best _ => BT.bind0 (BT.liftD (DT.worstAgent hE (by rw [h1.1]; exact hpos))) fun worst _ => ?_
  have hr := bt_replaceBad (Er := only [Err.hang]) (fuel := p.fuel) (pfit := (worst.fit - best.fit) * p.wfp + best.fit) hP (List.Mem.head _) h1.2
  rw [h1.1] at hr
  refine BT.bindS hr (by omega) fun pop2 h2 => BT.bind0 (BT.liftD (DT.repMT fun i _ => DT.uniformVec')) fun vec _ => BT.weaken (BT.pure ⟨h2.1, h2.2, h2.1⟩) (by omega) (by omega)

theorem wok (hE : c.E.Lawful) (hP : c.P.Lawful) (hc : Accepted c 5) (p : Params K) :
    (algo p : Algo c Unit (Vars d K)).WOk (only [.hang]) (Inv.std c Unit (Ok c)) JT (Ok c) (c.popSize + c.popSize) (c.popSize + c.popSize + c.popSize * p.fuel) 0 0 c.popSize c.popSize := by
  have hpop := hc.pop
  unfold algo
  refine Algo.custom_wok (by omega) (fun x hx => DT.pure trivial) (DT.pure trivial) (by omega) (fun y _ => ?_) (fun y pop _ hl hp => ?_) (fun ep _ _ => ?_)
  · unfold initialization
    refine BT.weaken (BT.bind (BT.generatePopulation hE hP fun x hx => DT.pure trivial) fun pop hp => bt_rest hE hP (by omega) hp.1 hp.2) le_rfl (by omega)
  · unfold initialization
    exact BT.bind0 (BT.pure (R := fun l => l = pop) rfl) fun pop' h => BT.weaken (bt_rest hE hP (by omega) (by rw [h]; exact hl) (by rw [h]; exact hp)) (by omega) (by omega)
  show WT _ _ _ _ (evolve p ep) (fun _ => True)
  unfold evolve
  refine WT.bind0 WT.get fun s hs => WT.bind0 (WT.draw DT.random') fun lam _ => ?_
  have hl := hs.len_std
  have hv : (velocity (c := c) p ep lam s.gbest s.pop s.ext).length = c.popSize := by unfold velocity; simp
  dsimp only
  generalize velocity (c := c) p ep lam s.gbest s.pop s.ext = vec at hv
  refine WT.bind0 (WT.draw (DT.repM (Q := fun q : Vec d K × Unit => Feas c q.1) fun i hi => ?_)) fun pend hpend => ?_
  · exact DT.bind (DT.nth_mem (by omega)) fun a _ => DT.bind (DT.nth_mem (by omega)) fun v _ => DT.bind (DT.correct hP) fun x hx => DT.pure hx
  have hev := WT.evalAll (I := Inv.std c Unit (Ok c)) (Er := only [Err.hang]) hE (pend := pend) (fun q hq => Inv.std_mk (hpend.2 q hq))
  rw [hpend.1] at hev
  refine WT.bindS hev le_rfl fun new hn => WT.bind0 (WT.setPop ?_ fun a ha => ?_) fun _ _ => WT.weaken (WT.modExt fun y hy => ?_) (by omega) (by omega)
  · show _ = _
    rw [List.length_zipWith, hn.1, hl, Nat.min_self]
  · obtain ⟨x, hx, z, hz, rfl⟩ := mem_zipWith' ha
    unfold keep
    split
    · exact hn.2 x hx
    · exact hs.pop z hz
  · show _ = _
    have : y.popP.length = c.popSize := hy
    simp [hn.1, hl, this]

theorem framed (hE : c.E.Lawful) (p : Params K) (ep : Nat) : Framed true (evolve p ep : M c Unit (Vars d K) Unit) := by
  unfold evolve; framed

end OriginalHCO

namespace DevSMO

/-- the hyper-parameters (`mealpy/swarm_based/SMO.py:82-83`) and the number of rounds the loop may last -/
structure Params (K : Type) where
  maxGroups : Nat
  rate : K
  fuel : Nat

/-- `num_groups` (`mealpy/swarm_based/SMO.py:103-104`) -/
def nGroups (c : Cfg d K) (p : Params K) : Nat := min p.maxGroups (c.popSize / 3)

/-- `group_size`: `-(-n // k)` (`mealpy/swarm_based/SMO.py:94,105`) -/
def gSize (c : Cfg d K) (p : Params K) : Nat := (c.popSize + nGroups c p - 1) / nGroups c p

/-- the attributes (`mealpy/swarm_based/SMO.py:109-119`) -/
structure Vars (d : Nat) (K : Type) where
  groups : List (List (Agent d K Unit))
  leaders : List (Agent d K Unit)
  counts : List Nat
  stale : Nat

/-- `split_fill_by_group` (`mealpy/swarm_based/SMO.py:88-96`) with `gsize` groups of `k` -/
def split {α : Type} (l : List α) (gs k : Nat) : List (List α) :=
  ((List.range k).filter (fun i => i * gs < l.length)).map (fun i => (l.drop (i * gs)).take gs)

/-- the first of each sorted group (`mealpy/swarm_based/SMO.py:119,174,214`) -/
def leadersOf (groups : List (List (Agent d K Unit))) : D c (List (Agent d K Unit)) :=
  repM groups.length (fun i => do
    let g ← nth groups i
    bestAgent g)

/-- `initialization` (`mealpy/swarm_based/SMO.py:101-119`) -/
def initialization (p : Params K) (q : Option (List (Agent d K Unit))) : B c (List (Agent d K Unit) × Vars d K) := do
  let pop ← startPop (fun _ => pure ()) q
  let leaders ← liftD (leadersOf (split pop (gSize c p) (nGroups c p)))
  pure (pop, ⟨split pop (gSize c p) (nGroups c p), leaders, List.replicate (nGroups c p) 0, 0⟩)

/-- a loop over the groups, each of which is changed on its own -/
def each (f : Nat → List (Agent d K Unit) → M c Unit (Vars d K) (List (Agent d K Unit))) :
    Nat → List (List (Agent d K Unit)) → M c Unit (Vars d K) (List (List (Agent d K Unit)))
  | _, [] => pure []
  | i, g :: gs => do
    let g' ← f i g
    let gs' ← each f (i + 1) gs
    pure (g' :: gs')

/-- a position for the local leader phase (`mealpy/swarm_based/SMO.py:126-132`) -/
def localPos (p : Params K) (leader : Vec d K) (group : List (Agent d K Unit)) (idx : Nat) : D c (Vec d K) := do
  let v ← vecM (fun j => do
    let r ← pickWithout group.length [idx]
    let b ← nth group r
    pure (b.sol j))
  let a ← nth group idx
  let u ← uniformVec (fun _ => 0) (fun _ => 1)
  let w ← uniformVec (fun _ => -1) (fun _ => 1)
  let z ← uniformVec (fun _ => 0) (fun _ => 1)
  correct (fun j => if p.rate ≤ z j then a.sol j + u j * (leader j - a.sol j) + w j * (v j - a.sol j) else a.sol j)

/-- `local_leader_phase` in one group (`mealpy/swarm_based/SMO.py:123-135`) -/
def localGroup (p : Params K) (leaders : List (Agent d K Unit)) (gi : Nat) (group : List (Agent d K Unit)) :
    M c Unit (Vars d K) (List (Agent d K Unit)) :=
  iter group.length (fun idx g => do
    let l ← draw (nth leaders gi)
    let x ← draw (localPos p l.sol g idx)
    let t ← liftB (getTarget x)
    let a ← draw (nth g idx)
    pure (if compareTarget t a.tgt c.P.mm then g.set idx ⟨x, t, ()⟩ else g)) group

/-- the selection probabilities (`mealpy/swarm_based/SMO.py:141-146`) -/
def probs (fits : List K) : List K :=
  let f := fits.map (fun x => if 0 ≤ x then 1 / (1 + x) else 1 + Num.abs x)
  f.map (fun x => 0.9 * (x / maxL f) + 0.1)

/-- a position for the global leader phase (`mealpy/swarm_based/SMO.py:158-166`) -/
def globalPos (gs : Nat) (best : Vec d K) (group : List (Agent d K Unit)) (idx : Nat) : D c (Vec d K) := do
  let k ← index d
  let r ← pickWithout gs [idx]
  let a ← nth group idx
  let u ← uniform 0 1
  let w ← uniform (-1) 1
  let b ← nth group r
  correct (fun j => if j.val = k then a.sol j + u * (best j - a.sol j) + w * (b.sol j - a.sol j) else a.sol j)

/-- one member of the group in a pass of the loop (`mealpy/swarm_based/SMO.py:151-170`); `q` is `attempts` and the group -/
def globalTry (gs : Nat) (prob : List K) (g : Agent d K Unit) (gi idx : Nat) (q : Nat × List (Agent d K Unit)) :
    M c Unit (Vars d K) (Nat × List (Agent d K Unit)) :=
  if gs ≤ q.1 then pure q
  else do
    let u ← draw (uniform 0 1)
    let pr ← draw (nth prob (idx + gi * gs))
    if u < pr then do
      let x ← draw (globalPos gs g.sol q.2 idx)
      let t ← liftB (getTarget x)
      pure (q.1 + 1, if compareTarget t g.tgt c.P.mm then q.2.set idx ⟨x, t, ()⟩ else q.2)
    else pure q

/-- `global_leader_phase` in one group (`mealpy/swarm_based/SMO.py:149-170`) -/
def globalGroup (p : Params K) (prob : List K) (g : Agent d K Unit) (gi : Nat) (group : List (Agent d K Unit)) :
    M c Unit (Vars d K) (List (Agent d K Unit)) := do
  let q ← iter p.fuel (fun _ q => iter group.length (fun idx q => globalTry (gSize c p) prob g gi idx q) q) (0, group)
  if q.1 < gSize c p then mthrow .hang else pure q.2

/-- a position for a stagnating group (`mealpy/swarm_based/SMO.py:189-195`) -/
def scatterPos (p : Params K) (best leader : Vec d K) (a : Agent d K Unit) : D c (Vec d K) := do
  let x1 ← uniformVec c.P.lb c.P.ub
  let u ← uniformVec (fun _ => 0) (fun _ => 1)
  let w ← uniformVec (fun _ => 0) (fun _ => 1)
  let z ← uniformVec (fun _ => 0) (fun _ => 1)
  correct (fun j => if p.rate ≤ z j then x1 j else a.sol j + u j * (best j - a.sol j) + w j * (a.sol j - leader j))

/-- a stagnating group (`mealpy/swarm_based/SMO.py:184-198`) -/
def scatter (p : Params K) (best : Vec d K) (leaders : List (Agent d K Unit)) (stuck : Nat → Bool) (gi : Nat) (group : List (Agent d K Unit)) :
    M c Unit (Vars d K) (List (Agent d K Unit)) :=
  if stuck gi then iter group.length (fun idx g => do
    let l ← draw (nth leaders gi)
    let a ← draw (nth g idx)
    let x ← draw (scatterPos p best l.sol a)
    let t ← liftB (getTarget x)
    pure (g.set idx ⟨x, t, ()⟩)) group
  else pure group

/-- the counters of the local leaders (`mealpy/swarm_based/SMO.py:177-180`) -/
def count (mm : MinMax) (leaders new : List (Agent d K Unit)) (counts : List Nat) : List Nat :=
  counts.mapIdx (fun i n => match leaders[i]?, new[i]? with
    | some l, some l' => if compareTarget l.tgt l'.tgt mm then n + 1 else 0
    | _, _ => n)

/-- the local leaders (`mealpy/swarm_based/SMO.py:177-181`) -/
def follow (mm : MinMax) (leaders new : List (Agent d K Unit)) : List (Agent d K Unit) :=
  List.zipWith (fun l l' => if compareTarget l.tgt l'.tgt mm then l else l') leaders new

/-- `global_leader_decision_phase` (`mealpy/swarm_based/SMO.py:200-214`): the population and the attributes -/
def decide_ (p : Params K) (pop : List (Agent d K Unit)) (y : Vars d K) : D c (List (Agent d K Unit) × Vars d K) :=
  if c.epoch / 20 < y.stale then do
    let u ← random
    let q ← (if u < 0.5 then do
        let ord ← permutation y.groups.flatten.length
        let l := ord.filterMap (fun i => y.groups.flatten[i]?)
        pure (l, split l (gSize c p) (nGroups c p))
      else pure (y.groups.flatten, y.groups) : D c (List (Agent d K Unit) × List (List (Agent d K Unit))))
    let leaders ← leadersOf q.2
    pure (q.1, ⟨q.2, leaders, List.replicate (nGroups c p) 0, 0⟩)
  else pure (pop, y)

/-- `DevSMO.evolve` (`mealpy/swarm_based/SMO.py:121-238`).  `update_leaders` rebinds `g_best`, which `solve` computes again after `evolve`
(`mealpy/optimizer.py:262`), so here it is a local variable.  `self.pop` is the population as it was before the local leader decision phase. -/
def evolve (p : Params K) (ep : Nat) : M c Unit (Vars d K) Unit := do
  let s ← get
  let groups ← each (localGroup p s.ext.leaders) 0 s.ext.groups
  let groups ← each (globalGroup p (probs (groups.flatten.map (·.fit))) s.gbest) 0 groups
  let best ← draw (bestAgent groups.flatten)
  let won := compareTarget best.tgt s.gbest.tgt c.P.mm
  let g := if won then best else s.gbest
  let stale := if won then 0 else s.ext.stale + 1
  let new ← draw (leadersOf groups)
  let counts := count c.P.mm s.ext.leaders new s.ext.counts
  let leaders := follow c.P.mm s.ext.leaders new
  let stuck : Nat → Bool := fun i => decide (c.epoch / 10 < counts.getD i 0)
  let groups' ← each (scatter p g.sol leaders stuck) 0 groups
  let r ← draw (decide_ p groups.flatten ⟨groups', leaders, counts.map (fun n => if c.epoch / 10 < n then 0 else n), stale⟩)
  setPop r.1
  modExt (fun _ => r.2)

/-- `DevSMO` (`mealpy/swarm_based/SMO.py:12-238`). The class is not parallelizable, so `solve` runs it in `single` mode
(`mealpy/optimizer.py:181-184`); the theorems hold for every mode. -/
def algo (p : Params K) : Algo c Unit (Vars d K) :=
  Algo.custom false (fun _ => pure ()) (pure ⟨[], [], [], 0⟩) (fun _ q => initialization p q) (evolve p)

/-- the number of groups -/
def G (c : Cfg d K) (p : Params K) : Nat := ((List.range (nGroups c p)).filter (fun i => i * gSize c p < c.popSize)).length

/-- the groups share the population equally -/
def Even (c : Cfg d K) (p : Params K) : Prop := nGroups c p * gSize c p = c.popSize

/-- the shape of the groups -/
structure Shape (c : Cfg d K) (p : Params K) (gs : List (List (Agent d K Unit))) : Prop where
  len : gs.length = G c p
  all : gs.flatten.length = c.popSize
  cf : ∀ g ∈ gs, ∀ a ∈ g, CF c a
  pos : ∀ g ∈ gs, 0 < g.length
  even : Even c p → ∀ g ∈ gs, g.length = gSize c p

/-- what is known of the attributes -/
structure Ok (c : Cfg d K) (p : Params K) (y : Vars d K) : Prop where
  shape : Shape c p y.groups
  leaders : y.leaders.length = G c p

/-- the exceptions when the groups differ in size -/
abbrev es : List Err := [.index, .value, .hang]

/-- `IndexError` and `ValueError` are possible unless the groups have the same size -/
def Tolerant (Er : Err → Prop) (c : Cfg d K) (p : Params K) : Prop := Er .hang ∧ (Even c p ∨ Er .index ∧ Er .value)

section

variable {p : Params K}

theorem split_flatten {α : Type} (l : List α) (gs : Nat) : ∀ k, (split l gs k).flatten = l.take (k * gs)
  | 0 => by simp [split]
  | k + 1 => by
    have hs : split l gs (k + 1) = split l gs k ++ (if k * gs < l.length then [(l.drop (k * gs)).take gs] else []) := by
      unfold split
      rw [List.range_succ, List.filter_append, List.map_append]
      congr 1
      by_cases h : k * gs < l.length <;> simp [h]
    rw [hs, List.flatten_append, split_flatten l gs k, Nat.succ_mul, List.take_add]
    congr 1
    split
    · simp
    · rename_i h
      rw [List.drop_eq_nil_of_le (by omega)]
      simp

theorem split_mem {α : Type} {l : List α} {gs k : Nat} {g : List α} (h : g ∈ split l gs k) :
    ∃ i, i < k ∧ i * gs < l.length ∧ g = (l.drop (i * gs)).take gs := by
  obtain ⟨i, hi, rfl⟩ := List.mem_map.1 h
  obtain ⟨h1, h2⟩ := List.mem_filter.1 hi
  exact ⟨i, List.mem_range.1 h1, of_decide_eq_true h2, rfl⟩

theorem groups_pos (hc : Accepted c 5) (hm : 2 ≤ p.maxGroups) : 0 < nGroups c p := by
  have := hc.pop
  unfold nGroups
  omega

theorem gSize_ge (hc : Accepted c 5) (hm : 2 ≤ p.maxGroups) : c.popSize ≤ nGroups c p * gSize c p := by
  have h := groups_pos (p := p) hc hm
  unfold gSize
  have := Nat.div_add_mod (c.popSize + nGroups c p - 1) (nGroups c p)
  have := Nat.mod_lt (c.popSize + nGroups c p - 1) h
  omega

theorem gSize_three (hc : Accepted c 5) (hm : 2 ≤ p.maxGroups) : 3 ≤ gSize c p := by
  have h := groups_pos (p := p) hc hm
  have hn : nGroups c p * 3 ≤ c.popSize := by
    have := Nat.div_mul_le_self c.popSize 3
    have : nGroups c p ≤ c.popSize / 3 := Nat.min_le_right _ _
    omega
  unfold gSize
  rw [Nat.le_div_iff_mul_le h]
  omega

theorem shape_split (hc : Accepted c 5) (hm : 2 ≤ p.maxGroups) {l : List (Agent d K Unit)} (hl : l.length = c.popSize) (hf : ∀ a ∈ l, CF c a) :
    Shape c p (split l (gSize c p) (nGroups c p)) := by
  have h3 := gSize_three hc hm
  refine ⟨by simp [split, G, hl], ?_, fun g hg a ha => ?_, fun g hg => ?_, fun he g hg => ?_⟩
  · rw [split_flatten, List.length_take, hl]
    have := gSize_ge hc hm
    omega
  · obtain ⟨i, _, _, rfl⟩ := split_mem hg
    exact hf a (List.mem_of_mem_drop (List.mem_of_mem_take ha))
  · obtain ⟨i, _, h2, rfl⟩ := split_mem hg
    rw [List.length_take, List.length_drop]
    omega
  · obtain ⟨i, h1, h2, rfl⟩ := split_mem hg
    rw [List.length_take, List.length_drop, hl, ← he]
    have : (i + 1) * gSize c p ≤ nGroups c p * gSize c p := Nat.mul_le_mul_right _ h1
    rw [Nat.succ_mul] at this
    omega

theorem G_even (hc : Accepted c 5) (hm : 2 ≤ p.maxGroups) (he : Even c p) : G c p = nGroups c p := by
  have h3 := gSize_three hc hm
  unfold G
  rw [List.filter_eq_self.2 fun i hi => ?_, List.length_range]
  have := List.mem_range.1 hi
  rw [decide_eq_true_iff, ← he]
  exact Nat.mul_lt_mul_of_pos_right this (by omega)

theorem dt_leadersOf (hE : c.E.Lawful) {groups : List (List (Agent d K Unit))} (h : ∀ g ∈ groups, 0 < g.length) :
    DT Er (leadersOf groups : D c _) (fun l => l.length = groups.length) := by
  unfold leadersOf
  exact DT.mono (DT.repM (Q := fun _ => True) fun i hi => DT.bind (DT.nth_mem hi) fun g hg => DT.mono (DT.bestAgent' hE (h g hg)) fun _ _ => trivial) fun l hl => hl.1

/-- same groups, other members -/
def Same (c : Cfg d K) (gs gs' : List (List (Agent d K Unit))) : Prop :=
  gs'.map List.length = gs.map List.length ∧ ∀ g ∈ gs', ∀ a ∈ g, CF c a

theorem Same.shape {gs gs' : List (List (Agent d K Unit))} (h : Shape c p gs) (h' : Same c gs gs') : Shape c p gs' := by
  have hg : ∀ g ∈ gs', ∃ g0 ∈ gs, g.length = g0.length := fun g hg => by
    have : g.length ∈ gs'.map List.length := List.mem_map_of_mem hg
    rw [h'.1] at this
    obtain ⟨g0, h0, e⟩ := List.mem_map.1 this
    exact ⟨g0, h0, e.symm⟩
  refine ⟨?_, ?_, h'.2, fun g hm => ?_, fun he g hm => ?_⟩
  · rw [← h.len, ← List.length_map (f := List.length) (as := gs), ← h'.1, List.length_map]
  · rw [List.length_flatten, h'.1, ← List.length_flatten]; exact h.all
  · obtain ⟨g0, h0, e⟩ := hg g hm
    rw [e]; exact h.pos g0 h0
  · obtain ⟨g0, h0, e⟩ := hg g hm
    rw [e]; exact h.even he g0 h0

/-- the invariant -/
abbrev I (c : Cfg d K) (p : Params K) : Inv c Unit (Vars d K) := Inv.std c Unit (Ok c p)

theorem wt_each {f : Nat → List (Agent d K Unit) → M c Unit (Vars d K) (List (Agent d K Unit))} (lo hi : List (Agent d K Unit) → Nat) :
    ∀ (gs : List (List (Agent d K Unit))) (i : Nat),
    (∀ k (hk : k < gs.length), WT Er (I c p) (lo gs[k]) (hi gs[k]) (f (i + k) gs[k]) (fun g' => g'.length = gs[k].length ∧ ∀ a ∈ g', CF c a)) →
    WT Er (I c p) (gs.map lo).sum (gs.map hi).sum (each f i gs) (fun gs' => Same c gs gs')
  | [], i, _ => WT.pure ⟨rfl, by simp⟩
  | g :: gs, i, h => by
    have h0 := h 0 (by simp)
    have ht := wt_each lo hi gs (i + 1) fun k hk => by
      have := h (k + 1) (by simp; omega)
      rw [show i + 1 + k = i + (k + 1) by omega]
      exact this
    simp only [List.getElem_cons_zero, Nat.add_zero] at h0
    have := WT.bind h0 fun g' hg' => WT.bind ht fun gs' hgs' => WT.pure (R := fun r => Same c (g :: gs) r) (a := g' :: gs')
      ⟨by rw [List.map_cons, List.map_cons, hgs'.1, hg'.1], fun x hx => by
        rcases List.mem_cons.1 hx with rfl | hx
        · exact hg'.2
        · exact hgs'.2 x hx⟩
    rw [show each f i (g :: gs) = (do let g' ← f i g; let gs' ← each f (i + 1) gs; pure (g' :: gs')) from rfl]
    simpa only [List.map_cons, List.sum_cons, Nat.add_zero] using this

theorem sum_const {α : Type} (l : List α) (n : Nat) : (l.map (fun _ => n)).sum = l.length * n := by
  induction l with
  | nil => simp
  | cons a l ih => rw [List.map_cons, List.sum_cons, ih, List.length_cons, Nat.succ_mul]; omega

theorem sum_zero {α : Type} (l : List α) : (l.map (fun _ => 0)).sum = 0 := by rw [sum_const]; simp

theorem dt_localPos (hE : c.E.Lawful) (hP : c.P.Lawful) {leader : Vec d K} {group : List (Agent d K Unit)} {idx : Nat} (h : 2 ≤ group.length ∨ Er .value)
    (hi : idx < group.length) : DT Er (localPos p leader group idx : D c _) (Feas c) := by
  unfold localPos
  refine DT.bind (R := fun _ => True) (DT.vecMT fun j => ?_) fun v _ => DT.bind (DT.nth_mem hi) fun a _ => DT.bind DT.uniformVec' fun u _ => DT.bind DT.uniformVec' fun w _ => DT.bind DT.uniformVec' fun z _ => DT.correct hP
  have hp : DT Er (pickWithout group.length [idx] : D c _) (fun r => r < group.length) := by
    rcases h with h | h
    · exact DT.mono (DT.pickWithout hE (by simp; omega)) fun r hr => hr.1
    · exact DT.mono (DT.pick_err hE h) fun r hr => (rangeWithout_mem.1 hr).1
  exact DT.bind hp fun r hr => DT.bind (DT.nth_mem hr) fun b _ => DT.pure trivial

theorem wt_localGroup (hE : c.E.Lawful) (hP : c.P.Lawful) {leaders : List (Agent d K Unit)} {gi : Nat} {group : List (Agent d K Unit)} (hg : gi < leaders.length)
    (h : 2 ≤ group.length ∨ Er .value) (hcf : ∀ a ∈ group, CF c a) :
    WT Er (I c p) group.length group.length (localGroup p leaders gi group : M c Unit (Vars d K) _) (fun g' => g'.length = group.length ∧ ∀ a ∈ g', CF c a) := by
  unfold localGroup
  refine WT.weaken (WT.iter (lo := 1) (hi := 1) (fun _ (g : List (Agent d K Unit)) => g.length = group.length ∧ ∀ a ∈ g, CF c a) group.length ⟨rfl, hcf⟩ fun idx g hi hgr => ?_) (by omega) (by omega)
  refine WT.bind0 (WT.draw (DT.nth_mem hg)) fun l _ => WT.bind0 (WT.draw (dt_localPos hE hP (by rw [hgr.1]; exact h) (by omega))) fun x hx => ?_
  refine WT.bindS (WT.getTarget hx) le_rfl fun t ht => WT.bind0 (WT.draw (DT.nth_mem (by omega))) fun a _ => WT.weaken (WT.pure ?_) (by omega) (by omega)
  split
  · refine ⟨by rw [List.length_set]; exact hgr.1, fun b hb => ?_⟩
    rcases mem_set_iff hb with rfl | hb
    · exact ⟨ht, hx⟩
    · exact hgr.2 b hb
  · exact hgr

theorem dt_nth_err {α : Type} {l : List α} {i : Nat} (h : i < l.length ∨ Er .index) : DT Er (nth l i : D c α) (fun a => a ∈ l) := by
  by_cases hi : i < l.length
  · exact DT.nth_mem hi
  · unfold nth
    rw [List.getElem?_eq_none (by omega)]
    exact DT.throw (h.resolve_left hi)

theorem dt_globalPos (hE : c.E.Lawful) (hP : c.P.Lawful) (hd : 0 < d) {gs : Nat} (h2 : 2 ≤ gs) {best : Vec d K} {group : List (Agent d K Unit)} {idx : Nat} (hi : idx < group.length)
    (h : gs = group.length ∨ Er .index) : DT Er (globalPos gs best group idx : D c _) (Feas c) := by
  unfold globalPos
  refine DT.bind (DT.index hE hd) fun k _ => DT.bind (DT.pickWithout hE (by simp; omega)) fun r hr => DT.bind (DT.nth_mem hi) fun a _ => DT.bind DT.uniform' fun u _ => DT.bind DT.uniform' fun w _ => ?_
  exact DT.bind (dt_nth_err (h.imp (fun h : gs = group.length => by rw [← h]; exact hr.1) id)) fun b _ => DT.correct hP

theorem wc_globalTry (hE : c.E.Lawful) (hP : c.P.Lawful) (hd : 0 < d) {gs : Nat} (h2 : 2 ≤ gs) {prob : List K} {g : Agent d K Unit} {gi idx : Nat}
    {q : Nat × List (Agent d K Unit)} (hi : idx < q.2.length) (h : gs = q.2.length ∨ Er .index) (hp : idx + gi * gs < prob.length ∨ Er .index)
    (hle : q.1 ≤ gs) (hcf : ∀ a ∈ q.2, CF c a) :
    WC Er (I c p) (globalTry gs prob g gi idx q : M c Unit (Vars d K) _) (fun r n => r.1 = q.1 + n ∧ r.1 ≤ gs ∧ r.2.length = q.2.length ∧ ∀ a ∈ r.2, CF c a) := by
  unfold globalTry
  refine WC.ite (fun _ => WC.pure ⟨rfl, hle, rfl, hcf⟩) fun hlt => WC.bind0 (WT.draw DT.uniform') fun u _ => WC.bind0 (WT.draw (dt_nth_err hp)) fun pr _ => ?_
  refine WC.ite (fun _ => WC.bind0 (WT.draw (dt_globalPos hE hP hd h2 hi h)) fun x hx => ?_) fun _ => WC.pure ⟨rfl, hle, rfl, hcf⟩
  refine WC.bind (WC.of (WT.getTarget hx)) fun t n ht => WC.pure ⟨by rw [ht.1], by show q.1 + 1 ≤ gs; omega, ?_, ?_⟩
  · dsimp only
    split
    · rw [List.length_set]
    · rfl
  · dsimp only
    split
    · intro b hb
      rcases mem_set_iff hb with rfl | hb
      · exact ⟨ht.2, hx⟩
      · exact hcf b hb
    · exact hcf

theorem wt_globalGroup (hE : c.E.Lawful) (hP : c.P.Lawful) (hd : 0 < d) (h3 : 3 ≤ gSize c p) (hh : Er .hang) {prob : List K} {g : Agent d K Unit} {gi : Nat} {group : List (Agent d K Unit)}
    (h : gSize c p = group.length ∧ gi * gSize c p + gSize c p ≤ prob.length ∨ Er .index) (hcf : ∀ a ∈ group, CF c a) :
    WT Er (I c p) (gSize c p) (gSize c p) (globalGroup p prob g gi group : M c Unit (Vars d K) _) (fun g' => g'.length = group.length ∧ ∀ a ∈ g', CF c a) := by
  unfold globalGroup
  refine WC.wt (WC.bind (WC.iter (fun _ (q : Nat × List (Agent d K Unit)) n => q.1 = n ∧ q.1 ≤ gSize c p ∧ q.2.length = group.length ∧ ∀ a ∈ q.2, CF c a) p.fuel
    ⟨rfl, Nat.zero_le _, rfl, hcf⟩ fun i q n hi hq => ?_) fun q n hq => ?_)
  · refine WC.iter (fun _ (q : Nat × List (Agent d K Unit)) m => q.1 = n + m ∧ q.1 ≤ gSize c p ∧ q.2.length = group.length ∧ ∀ a ∈ q.2, CF c a) group.length hq fun idx r m hidx hr => ?_
    refine WC.mono (wc_globalTry hE hP hd (by omega) (by omega) (h.imp (fun h => by rw [h.1, hr.2.2.1]) id) (h.imp (fun h => by omega) id) hr.2.1 hr.2.2.2) fun r' k hr' => ⟨?_, hr'.2.1, ?_, hr'.2.2.2⟩
    · have := hr.1
      have := hr'.1
      omega
    · rw [hr'.2.2.1]; exact hr.2.2.1
  · refine WC.ite (fun _ => ?_) fun hlt => WC.pure ⟨by omega, by omega, hq.2.2⟩
    exact fun s hs => hh

theorem dt_scatterPos (hP : c.P.Lawful) {best leader : Vec d K} {a : Agent d K Unit} : DT Er (scatterPos p best leader a : D c _) (Feas c) := by
  unfold scatterPos
  exact DT.bind DT.uniformVec' fun _ _ => DT.bind DT.uniformVec' fun _ _ => DT.bind DT.uniformVec' fun _ _ => DT.bind DT.uniformVec' fun _ _ => DT.correct hP

theorem wt_scatter (hE : c.E.Lawful) (hP : c.P.Lawful) {best : Vec d K} {leaders : List (Agent d K Unit)} {stuck : Nat → Bool} {gi : Nat} {group : List (Agent d K Unit)} (hg : gi < leaders.length)
    (hcf : ∀ a ∈ group, CF c a) :
    WT Er (I c p) 0 group.length (scatter p best leaders stuck gi group : M c Unit (Vars d K) _) (fun g' => g'.length = group.length ∧ ∀ a ∈ g', CF c a) := by
  unfold scatter
  refine WT.ite (fun _ => ?_) fun _ => WT.weaken (WT.pure ⟨rfl, hcf⟩) le_rfl (by omega)
  refine WT.weaken (WT.iter (lo := 1) (hi := 1) (fun _ (g : List (Agent d K Unit)) => g.length = group.length ∧ ∀ a ∈ g, CF c a) group.length ⟨rfl, hcf⟩ fun idx g hi hgr => ?_) (by omega) (by omega)
  refine WT.bind0 (WT.draw (DT.nth_mem hg)) fun l _ => WT.bind0 (WT.draw (DT.nth_mem (by omega))) fun a _ => WT.bind0 (WT.draw (dt_scatterPos hP)) fun x hx => ?_
  refine WT.bindS (WT.getTarget hx) le_rfl fun t ht => WT.weaken (WT.pure ⟨by rw [List.length_set]; exact hgr.1, fun b hb => ?_⟩) (by omega) (by omega)
  rcases mem_set_iff hb with rfl | hb
  · exact ⟨ht, hx⟩
  · exact hgr.2 b hb

theorem flatten_cf {gs : List (List (Agent d K Unit))} (h : Shape c p gs) : ∀ a ∈ gs.flatten, CF c a := fun a ha => by
  obtain ⟨g, hg, hm⟩ := List.mem_flatten.1 ha
  exact h.cf g hg a hm

theorem dt_decide (hE : c.E.Lawful) (hc : Accepted c 5) (hm : 2 ≤ p.maxGroups) {pop : List (Agent d K Unit)} {y : Vars d K} (hl : pop.length = c.popSize) (hf : ∀ a ∈ pop, CF c a)
    (hy : Ok c p y) : DT Er (decide_ p pop y : D c _) (fun r => r.1.length = c.popSize ∧ (∀ a ∈ r.1, CF c a) ∧ Ok c p r.2) := by
  unfold decide_
  refine DT.ite (fun _ => DT.bind DT.random' fun u _ => ?_) fun _ => DT.pure ⟨hl, hf, hy⟩
  refine DT.bind (R := fun q => q.1.length = c.popSize ∧ (∀ a ∈ q.1, CF c a) ∧ Shape c p q.2) (DT.ite (fun _ => ?_) fun _ => DT.pure ⟨hy.shape.all, flatten_cf hy.shape, hy.shape⟩) fun q hq =>
    DT.bind (dt_leadersOf hE hq.2.2.pos) fun leaders hle => DT.pure ⟨hq.1, hq.2.1, hq.2.2, by rw [hle]; exact hq.2.2.len⟩
  refine DT.bind (DT.permutation hE) fun ord ho => ?_
  have h1 : (ord.filterMap (fun i => y.groups.flatten[i]?)).length = c.popSize := by
    rw [lookup_all fun i hi => List.mem_range.1 ((ho.mem_iff).1 hi), ho.length_eq, List.length_range, hy.shape.all]
  have h2 : ∀ a ∈ ord.filterMap (fun i => y.groups.flatten[i]?), CF c a := fun a ha => by
    obtain ⟨i, _, h⟩ := List.mem_filterMap.1 ha
    exact flatten_cf hy.shape a (List.mem_of_getElem? h)
  exact DT.pure ⟨h1, h2, shape_split hc hm h1 h2⟩

theorem bt_rest (hE : c.E.Lawful) (hc : Accepted c 5) (hm : 2 ≤ p.maxGroups) {pop : List (Agent d K Unit)} (hl : pop.length = c.popSize) (hf : ∀ a ∈ pop, CF c a) :
    BT Er 0 0 (do
      let leaders ← liftD (leadersOf (split pop (gSize c p) (nGroups c p)))
      pure (pop, (⟨split pop (gSize c p) (nGroups c p), leaders, List.replicate (nGroups c p) 0, 0⟩ : Vars d K)) : B c _)
      (fun r => r.1.length = c.popSize ∧ (∀ a ∈ r.1, CF c a) ∧ Ok c p r.2) := by
  have h := shape_split hc hm hl hf
  exact BT.bind0 (BT.liftD (dt_leadersOf hE h.pos)) fun leaders hle => BT.pure ⟨hl, hf, h, by rw [hle]; exact h.len⟩

theorem wok' (hE : c.E.Lawful) (hP : c.P.Lawful) (hc : Accepted c 5) (p : Params K) (hd : 0 < d) (hm : 2 ≤ p.maxGroups) (ht : Tolerant Er c p) :
    (algo p : Algo c Unit (Vars d K)).WOk Er (I c p) JT (Ok c p) c.popSize c.popSize 0 0 (c.popSize + G c p * gSize c p) (c.popSize + G c p * gSize c p + c.popSize) := by
  have hpop := hc.pop
  have h3 := gSize_three hc hm
  unfold algo
  refine Algo.custom_wok (by omega) (fun x hx => DT.pure trivial) (DT.pure trivial) (by omega) (fun y _ => ?_) (fun y pop _ hl hp => ?_) (fun ep _ _ => ?_)
  · unfold initialization
    exact BT.bindS (BT.generatePopulation hE hP fun x hx => DT.pure trivial) le_rfl fun pop hp => BT.weaken (bt_rest hE hc hm hp.1 hp.2) (by omega) (by omega)
  · unfold initialization
    exact BT.bind0 (BT.pure (R := fun l => l = pop) rfl) fun pop' h => BT.weaken (bt_rest hE hc hm (by rw [h]; exact hl) (by rw [h]; exact hp)) (by omega) (by omega)
  show WT _ _ _ _ (evolve p ep) (fun _ => True)
  unfold evolve
  refine WT.bind0 WT.get fun s hs => ?_
  have hok : Ok c p s.ext := hs.ext
  have hsh := hok.shape
  have hall := hsh.all
  rw [List.length_flatten] at hall
  have h1 : WT Er (I c p) c.popSize c.popSize (each (localGroup p s.ext.leaders) 0 s.ext.groups) (fun gs' => Same c s.ext.groups gs') := by
    have := wt_each (Er := Er) (p := p) (f := localGroup p s.ext.leaders) List.length List.length s.ext.groups 0 fun k hk => by
      rw [Nat.zero_add]
      refine wt_localGroup hE hP (by rw [hok.leaders, ← hsh.len]; exact hk) ?_ (hsh.cf _ (List.getElem_mem hk))
      rcases ht.2 with he | he
      · rw [hsh.even he _ (List.getElem_mem hk)]; exact .inl (by omega)
      · exact .inr he.2
    rwa [hall] at this
  refine WT.bindS h1 (by omega) fun gs1 hs1 => ?_
  have hsh1 := hs1.shape hsh
  have h2 : WT Er (I c p) (G c p * gSize c p) (G c p * gSize c p) (each (globalGroup p (probs (gs1.flatten.map (·.fit))) s.gbest) 0 gs1) (fun gs' => Same c gs1 gs') := by
    have := wt_each (Er := Er) (p := p) (f := globalGroup p (probs (gs1.flatten.map (·.fit))) s.gbest) (fun _ => gSize c p) (fun _ => gSize c p) gs1 0 fun k hk => by
      rw [Nat.zero_add]
      refine wt_globalGroup hE hP hd h3 ht.1 ?_ (hsh1.cf _ (List.getElem_mem hk))
      rcases ht.2 with he | he
      · refine .inl ⟨(hsh1.even he _ (List.getElem_mem hk)).symm, ?_⟩
        rw [hsh1.len, G_even hc hm he] at hk
        have h4 : (k + 1) * gSize c p ≤ nGroups c p * gSize c p := Nat.mul_le_mul_right _ hk
        rw [Nat.succ_mul, he] at h4
        unfold probs
        simp only [List.length_map]
        rw [hsh1.all]
        exact h4
      · exact .inr he.1
    rwa [sum_const, hsh1.len] at this
  refine WT.bindS h2 (by omega) fun gs2 hs2 => ?_
  have hsh2 := hs2.shape hsh1
  refine WT.bind0 (WT.draw (DT.bestAgent' hE (by rw [hsh2.all]; omega))) fun best hb => ?_
  dsimp only
  refine WT.bind0 (WT.draw (dt_leadersOf hE hsh2.pos)) fun new hnew => ?_
  have hfl : (follow c.P.mm s.ext.leaders new).length = G c p := by
    unfold follow
    rw [List.length_zipWith, hok.leaders, hnew, hsh2.len, Nat.min_self]
  generalize (follow c.P.mm s.ext.leaders new) = leaders at hfl
  generalize count c.P.mm s.ext.leaders new s.ext.counts = counts
  have h3 : ∀ (b : Vec d K) (stuck : Nat → Bool), WT Er (I c p) 0 c.popSize (each (scatter p b leaders stuck) 0 gs2) (fun gs' => Same c gs2 gs') := fun b stuck => by
    have := wt_each (Er := Er) (p := p) (f := scatter p b leaders stuck) (fun _ => 0) List.length gs2 0 fun k hk => by
      rw [Nat.zero_add]
      exact wt_scatter hE hP (by rw [hfl, ← hsh2.len]; exact hk) (hsh2.cf _ (List.getElem_mem hk))
    rwa [sum_zero, ← List.length_flatten, hsh2.all] at this
  refine WT.bindS (h3 _ _) (by omega) fun gs3 hs3 => ?_
  have hsh3 := hs3.shape hsh2
  refine WT.bind0 (WT.draw (dt_decide hE hc hm hsh2.all (flatten_cf hsh2) ⟨hsh3, hfl⟩)) fun r hr => ?_
  exact WT.bind0 (WT.setPop hr.1 hr.2.1) fun _ _ => WT.weaken (WT.modExt fun y _ => hr.2.2) (by omega) (by omega)

theorem framed_each {f : Nat → List (Agent d K Unit) → M c Unit (Vars d K) (List (Agent d K Unit))} (h : ∀ i g, Framed true (f i g)) :
    ∀ (gs : List (List (Agent d K Unit))) (i : Nat), Framed true (each f i gs)
  | [], i => Framed.pure
  | g :: gs, i => Framed.bind (h i g) fun _ => Framed.bind (framed_each h gs (i + 1)) fun _ => Framed.pure

theorem framed_localGroup {leaders : List (Agent d K Unit)} {gi : Nat} {group : List (Agent d K Unit)} : Framed true (localGroup p leaders gi group : M c Unit (Vars d K) _) := by
  unfold localGroup; framed

theorem framed_globalTry {gs : Nat} {prob : List K} {g : Agent d K Unit} {gi idx : Nat} {q : Nat × List (Agent d K Unit)} :
    Framed true (globalTry gs prob g gi idx q : M c Unit (Vars d K) _) := by
  unfold globalTry; framed

macro_rules
  | `(tactic| fprim) => `(tactic| (at_last DevSMO.globalTry; exact DevSMO.framed_globalTry))

theorem framed_globalGroup {prob : List K} {g : Agent d K Unit} {gi : Nat} {group : List (Agent d K Unit)} : Framed true (globalGroup p prob g gi group : M c Unit (Vars d K) _) := by
  unfold globalGroup; framed

theorem framed_scatter {best : Vec d K} {leaders : List (Agent d K Unit)} {stuck : Nat → Bool} {gi : Nat} {group : List (Agent d K Unit)} :
    Framed true (scatter p best leaders stuck gi group : M c Unit (Vars d K) _) := by
  unfold scatter; framed

end

/-- the two variants: groups of the same size, or any groups -/
theorem wok (hE : c.E.Lawful) (hP : c.P.Lawful) (hc : Accepted c 5) (p : Params K) (hd : 0 < d) (hm : 2 ≤ p.maxGroups) (he : Even c p) :
    (algo p : Algo c Unit (Vars d K)).WOk (only [.hang]) (I c p) JT (Ok c p) c.popSize c.popSize 0 0 (c.popSize + G c p * gSize c p) (c.popSize + G c p * gSize c p + c.popSize) :=
  wok' hE hP hc p hd hm ⟨.head _, .inl he⟩

theorem wokAny (hE : c.E.Lawful) (hP : c.P.Lawful) (hc : Accepted c 5) (p : Params K) (hd : 0 < d) (hm : 2 ≤ p.maxGroups) :
    (algo p : Algo c Unit (Vars d K)).WOk (only es) (I c p) JT (Ok c p) c.popSize c.popSize 0 0 (c.popSize + G c p * gSize c p) (c.popSize + G c p * gSize c p + c.popSize) :=
  wok' hE hP hc p hd hm ⟨.tail _ (.tail _ (.head _)), .inr ⟨.head _, .tail _ (.head _)⟩⟩

theorem framed (hE : c.E.Lawful) (p : Params K) (ep : Nat) : Framed true (evolve p ep : M c Unit (Vars d K) Unit) := by
  unfold evolve
  refine .bind .get fun s => .bind (framed_each (fun _ _ => framed_localGroup) _ _) fun _ => .bind (framed_each (fun _ _ => framed_globalGroup) _ _) fun _ => .bind .draw fun _ => ?_
  refine .bind .draw fun _ => .bind (framed_each (fun _ _ => framed_scatter) _ _) fun _ => ?_
  framed

end DevSMO

end Mealpy
