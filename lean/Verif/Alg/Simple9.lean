import Mathlib.Data.List.Sort
import Verif.Alg.Kit10

/-! # Simple optimizers, part 9

`CEO.py`, `SFOA.py`, `EEFO.py`, `GCO.py`, `RUN.py`, `GRSA.py`, `GBO.py`, `EP.py`, `AHO.py` -/

set_option linter.unusedSectionVars false
set_option linter.unusedVariables false

namespace Mealpy
open Spec

variable {d : Nat} {K : Type} [Num K] {c : Cfg d K}
namespace OriginalCEO

/-- the parameters (`mealpy/physics_based/CEO.py:69-71`) -/
structure Params (K : Type) where
  w1 : K
  pBase : K
  alpha : K

/-- the radius around a centre: mean distance of the nearest agents (`mealpy/physics_based/CEO.py:99-108`); `int(round(n / 3))` never sees a tie -/
def radius (pop : List (Agent d K Unit)) (o : Agent d K Unit) : K :=
  meanL ((sortL (pop.map (fun a => normV (fun j => a.sol j - o.sol j)))).take (max 2 ((2 * c.popSize + 3) / 6)))

/-- the weighted pull of the three centres (`mealpy/physics_based/CEO.py:128-148`) -/
def pull (g : Agent d K Unit) (x : Agent d K Unit) (centers : List (Agent d K Unit × K)) : Vec d K :=
  let dist : Agent d K Unit → K := fun o => normV (fun j => o.sol j - x.sol j)
  let w : List K := centers.map (fun o =>
    let diff : K := match c.P.mm with
      | .min => x.fit - o.1.fit
      | .max => o.1.fit - x.fit
    Num.exp (-diff / (Num.abs g.fit + Num.EPSILON)))
  fun j => sumL (List.zipWith (fun o v => v * ((o.1.sol j - x.sol j) / (dist o.1 + Num.EPSILON) *
    Num.exp (-dist o.1 / (o.2 + Num.EPSILON)))) centers w) / w.foldl (fun a b => a + b) Num.EPSILON

/-- one candidate (`mealpy/physics_based/CEO.py:115-159`); the population does not change before all candidates are evaluated -/
def move (p : Params K) (ep : Nat) (s : St c Unit Unit) (idx : Nat) : D c (Vec d K × Unit) := do
  let centers := (s.pop.take 3).map (fun o => (o, radius (c := c) s.pop o))
  let x ← nth s.pop idx
  let t : K := ♯ep / ♯c.epoch
  let u ← random
  if u < p.pBase * (1 - 0.0005 * t) * (1 - t) then do
    let z ← normalVec 0 1
    let pos ← correct (fun j => x.sol j + z j * meanL (centers.map (·.2)))
    pure (pos, ())
  else do
    let z1 ← normalVec 0 1
    let z2 ← normalVec 0 1
    let vep : K := p.w1 * (1 - 0.001 * t) * Num.exp (-4 * ♯ep / ♯c.epoch)
    let pos ← correct (fun j => x.sol j + vep * z1 j * (c.P.ub j - c.P.lb j) + pull (c := c) s.gbest x centers j +
      p.alpha * (1 + 0.0005 * t) * (s.gbest.sol j - x.sol j) * z2 j)
    pure (pos, ())

/-- the resonance of a refused candidate (`mealpy/physics_based/CEO.py:172-178`) -/
def resonance (ep : Nat) (i : Nat) (a : Agent d K Unit) : M c Unit Unit Unit := do
  let u ← draw random
  if u < 0.1 * Num.exp (-3 * ♯ep / ♯c.epoch) then do
    let z ← draw (normalVec 0 1)
    let pos ← draw (correct (fun j => a.sol j + 0.01 * z j * (c.P.ub j - c.P.lb j)))
    tryCompare (fun _ => pure ()) i pos
  else pure ()

/-- `OriginalCEO.evolve` (`mealpy/physics_based/CEO.py:78-178`) -/
def evolve (p : Params K) (ep : Nat) : M c Unit Unit Unit := do
  let new ← buildEval c.popSize (move p ep)
  offerLoop new (resonance ep)

theorem it_resonance (hP : c.P.Lawful) {ep i : Nat} {a : Agent d K Unit} (hi : i < c.popSize) :
    IT (FA c) JT 0 1 (resonance ep i a : M c Unit Unit Unit) (fun _ => True) := by
  unfold resonance
  refine IT.bind0 (IT.draw DT.random') fun u _ => IT.iteS (fun _ => ?_) fun _ => IT.weaken (IT.pure trivial) (by omega) (by omega)
  refine IT.bind0 (IT.draw DT.normalVec) fun z _ => IT.bind0 (IT.draw (DT.correct hP)) fun pos hp => ?_
  exact IT.weaken (IT.tryCompare hi hp (DT.pure hp)) (by omega) (by omega)

theorem framed_resonance {ep i : Nat} {a : Agent d K Unit} : Framed true (resonance ep i a : M c Unit Unit Unit) := by
  unfold resonance; framed

macro_rules
  | `(tactic| fprim) => `(tactic| (at_last offerLoop; exact Framed.offerLoop fun _ _ => OriginalCEO.framed_resonance))

/-- `OriginalCEO` (`mealpy/physics_based/CEO.py:11-178`) -/
def algo (p : Params K) : Algo c Unit Unit := Algo.plain true (evolve p)

theorem ok (hE : c.E.Lawful) (hP : c.P.Lawful) (hc : Accepted c 5) (p : Params K) :
    (algo p : Algo c Unit Unit).Ok (FA c) JT JT JT c.popSize c.popSize (c.popSize + c.popSize) := by
  plainalg hE hP hc evolve
  refine IT.pt (HJ.it (HJ.bindS (HJ.buildEval hE (fun s i hs hl hi => ?_)) (by omega) fun new hnew => ?_))
  · unfold move; dgo
  · have hlen : ([] ++ new).length = c.popSize := hnew.1
    refine HJ.weaken (HJ.offerLoop (lo := 0) (hi := 1) (by omega) (fun i a hi _ => it_resonance hP (by omega)) rfl) (by omega) (by omega)

theorem framed (hE : c.E.Lawful) (p : Params K) (ep : Nat) : Framed true (evolve p ep : M c Unit Unit Unit) := by
  unfold evolve; framed

end OriginalCEO

namespace OriginalSFOA

/-- the exploration of one starfish (`mealpy/bio_based/SFOA.py:101-125`) -/
def explore (gp : K) (ep : Nat) (s : St c Unit Unit) (idx : Nat) : D c (Vec d K × Unit) := do
  let x ← nth s.pop idx
  let g := s.gbest.sol
  let theta : K := Num.pi / 2 * ♯ep / ♯c.epoch
  if 5 < d then do
    let jp ← choice d 5 false
    let r ← randomVec
    let q ← randomVec
    let pos ← correct (fun j =>
      let pm : K := (2 * r j - 1) * Num.pi
      let y : K := if q j < gp then x.sol j + pm * (g j - x.sol j) * Num.cos theta else x.sol j - pm * (g j - x.sol j) * Num.sin theta
      if j.val ∈ jp then (if y < c.P.lb j ∨ y > c.P.ub j then x.sol j else y) else x.sol j)
    pure (pos, ())
  else do
    let jp ← index d
    let (i1, i2) ← choose2 c.popSize
    let a ← nth s.pop i1
    let b ← nth s.pop i2
    let r1 ← random
    let r2 ← random
    let teo : K := (♯c.epoch - ♯ep) / ♯c.epoch * Num.cos theta
    let pos ← correct (fun j =>
      let y : K := teo * x.sol j + (2 * r1 - 1) * (a.sol j - x.sol j) + (2 * r2 - 1) * (b.sol j - x.sol j)
      if j.val = jp then (if y > c.P.ub j ∨ y < c.P.lb j then x.sol j else y) else x.sol j)
    pure (pos, ())

/-- the exploitation of one starfish (`mealpy/bio_based/SFOA.py:142-147`) -/
def exploit (ep : Nat) (dm : List (Vec d K)) (s : St c Unit Unit) (idx : Nat) : D c (Vec d K × Unit) := do
  let x ← nth s.pop idx
  let r1 ← random
  let r2 ← random
  let (k1, k2) ← choose2 5
  let d1 ← nth dm k1
  let d2 ← nth dm k2
  let pos ← correct (fun j => if idx = c.popSize - 1 then Num.exp (-♯ep * ♯c.popSize / ♯c.epoch) * x.sol j
    else x.sol j + r1 * d1 j + r2 * d2 j)
  pure (pos, ())

/-- `OriginalSFOA.evolve` (`mealpy/bio_based/SFOA.py:88-155`) -/
def evolve (gp : K) (ep : Nat) : M c Unit Unit Unit := do
  let u ← draw random
  if u < gp then do
    let new ← buildEval c.popSize (explore gp ep)
    selectGreedy new
  else do
    let s ← get
    let df ← draw (choice c.popSize 5 false)
    let dm := df.map (fun k => fun j : Fin d => s.gbest.sol j - ((s.pop.map Agent.sol).getD k 0) j)
    let new ← buildEval c.popSize (exploit ep dm)
    selectGreedy new

/-- `OriginalSFOA` (`mealpy/bio_based/SFOA.py:12-155`) -/
def algo (p : K) : Algo c Unit Unit := Algo.plain false (evolve p)

theorem ok (hE : c.E.Lawful) (hP : c.P.Lawful) (hc : Accepted c 5) (p : K) (hd : 0 < d) :
    (algo p : Algo c Unit Unit).Ok (FA c) JT JT JT c.popSize c.popSize c.popSize := by
  plainalg hE hP hc evolve
  refine IT.pt (IT.bind0 (IT.draw DT.random') fun u _ => IT.iteS (fun _ => IT.evalGreedy hE fun s i hs hl hi => ?_) fun _ => ?_)
  · unfold explore
    refine DT.bind (DT.nth_mem (by omega)) fun x _ => DT.ite (fun h5 => ?_) fun _ => ?_
    · refine DT.bind (DT.choice hE (choiceErr_false hd (by omega))) fun jp _ => ?_
      dgo
    · dgo
  · refine IT.bind0 IT.get fun s hs => IT.bind0 (IT.draw (DT.choice hE (choiceErr_false (by omega) (by omega)))) fun df hdf => ?_
    refine IT.evalGreedy hE fun s i hs hl hi => ?_
    have h5 : (df.map (fun k => fun j : Fin d => s.gbest.sol j - ((s.pop.map Agent.sol).getD k 0) j)).length = 5 := by
      rw [List.length_map]; exact hdf.1
    unfold exploit
    refine DT.bind (DT.nth_mem (by omega)) fun x _ => DT.bind DT.random' fun r1 _ => DT.bind DT.random' fun r2 _ => ?_
    refine DT.bind (DT.choose2 hE (by omega)) fun k hk => ?_
    obtain ⟨k1, k2⟩ := k
    refine DT.bind (DT.nth_mem (by rw [List.length_map, hdf.1]; exact hk.1)) fun d1 _ => ?_
    refine DT.bind (DT.nth_mem (by rw [List.length_map, hdf.1]; exact hk.2.1)) fun d2 _ => ?_
    dgo

theorem framed (hE : c.E.Lawful) (p : K) (ep : Nat) : Framed true (evolve p ep : M c Unit Unit Unit) := by
  unfold evolve; framed

end OriginalSFOA

namespace OriginalEEFO

/-- the direction of an eel (`mealpy/swarm_based/EEFO.py:106-112`): for two and more dimensions `rand_num` is between 2 and `n_dims` -/
def direction (ep : Nat) : D c (Vec d K) :=
  if d = 1 then pure (fun _ => 1)
  else do
    let r ← random
    let l ← subset d (Num.ceil (((♯c.epoch - ♯ep) / ♯c.epoch) * r * (♯d - 2) + 2 : K)).toNat
    pure (fun j => if j.val ∈ l then 1 else 0)

/-- `2 * (e - exp(it / max_it)) * sin(2 pi r)` (`mealpy/swarm_based/EEFO.py:143,168,172,185`) -/
def wave (ep : Nat) : D c K := do
  let r ← random
  pure (2 * (Num.exp 1 - Num.exp (♯ep / ♯c.epoch)) * Num.sin (2 * Num.pi * r))

/-- the resting area (`mealpy/swarm_based/EEFO.py:145-151,161-166`) -/
def rest (s : St c Unit Unit) : D c (Vec d K) := do
  let rn ← index c.popSize
  let rd ← index d
  let a ← nth s.pop rn
  let z : K := (Vec.at a.sol rd - Vec.at c.P.lb rd) / (Vec.at c.P.ub rd - Vec.at c.P.lb rd)
  pure (fun j => c.P.lb j + z * (c.P.ub j - c.P.lb j))

/-- interaction with another eel (`mealpy/swarm_based/EEFO.py:118-133`); the targets are compared as for a minimisation problem -/
def interact (mean dir : Vec d K) (s : St c Unit Unit) (idx : Nat) (x : Agent d K Unit) : D c (Vec d K) := do
  let k ← sample1 c.popSize idx
  let y ← nth s.pop k
  let better := compareTarget y.tgt x.tgt .min
  let base : Vec d K := if better then y.sol else x.sol
  let other : Vec d K := if better then x.sol else y.sol
  let u ← random
  if u > 0.5 then do
    let z ← normal 0 1
    pure (fun j => base j + z * dir j * (mean j - other j))
  else do
    let xr ← uniformVec c.P.lb c.P.ub
    let z ← normal 0 1
    pure (fun j => base j + z * dir j * (xr j - other j))

/-- resting, migrating or hunting (`mealpy/swarm_based/EEFO.py:138-195`) -/
def forage (ep : Nat) (mean : Vec d K) (s : St c Unit Unit) (x : Agent d K Unit) : D c (Vec d K) := do
  let g := s.gbest.sol
  let v ← random
  if v < 1 / 3 then do
    let alpha ← wave ep
    let z ← rest s
    let n ← normal 0 1
    let r ← random
    pure (fun j =>
      let ri : K := z j + alpha * Num.abs (z j - g j)
      ri + n * (ri - Num.ufunc "round" r * x.sol j))
  else if v > 2 / 3 then do
    let z ← rest s
    let alpha ← wave ep
    let beta ← wave ep
    let lf ← levyVec 1.5 0.01 (-1)
    let r1 ← random
    let r2 ← random
    pure (fun j =>
      let ri : K := z j + alpha * Num.abs (z j - g j)
      let hr : K := g j + beta * Num.abs (mean j - g j)
      r2 * hr - r1 * ri - lf j * (hr - x.sol j))
  else do
    let beta ← wave ep
    let r4 ← random
    let eta : K := Num.exp (r4 * (1 - ♯ep) / ♯c.epoch) * Num.cos (2 * Num.pi * r4)
    let r ← random
    pure (fun j =>
      let hp : K := g j + beta * Num.abs (mean j - g j)
      hp + eta * (hp - Num.ufunc "round" r * x.sol j))

/-- one eel (`mealpy/swarm_based/EEFO.py:97-199`), with `amend_solution` of the class (lines 62-78) -/
def move (ep : Nat) (s : St c Unit Unit) (idx : Nat) : D c (Vec d K × Unit) := do
  let mean : Vec d K := meanPos (s.pop.map Agent.sol)
  let x ← nth s.pop idx
  let u ← random
  let dir ← direction ep
  let y ← (if 4 * Num.sin (1 - ♯ep / ♯c.epoch) * Num.log (1 / u) > 1 then interact mean dir s idx x else forage ep mean s x : D c (Vec d K))
  let pos ← correctWith amendRandom y
  pure (pos, ())

/-- `OriginalEEFO.evolve` (`mealpy/swarm_based/EEFO.py:80-208`) -/
def evolve (ep : Nat) : M c Unit Unit Unit := do
  let new ← buildEval c.popSize (move ep)
  selectGreedy new

theorem dt_direction {Er : Err → Prop} (hE : c.E.Lawful) (hd : 0 < d) {ep : Nat} : DT Er (direction ep : D c (Vec d K)) (fun _ => True) := by
  unfold direction
  refine DT.ite (fun _ => DT.pure trivial) fun _ => ?_
  exact DT.bind DT.random' fun _ _ => DT.bind (DT.subset hE hd) fun _ _ => DT.pure trivial

theorem dt_wave {Er : Err → Prop} {ep : Nat} : DT Er (wave ep : D c K) (fun _ => True) := by
  unfold wave; exact DT.bind DT.random' fun _ _ => DT.pure trivial

theorem dt_rest {Er : Err → Prop} (hE : c.E.Lawful) (hd : 0 < d) {s : St c Unit Unit} (h0 : 0 < c.popSize) (hl : s.pop.length = c.popSize) :
    DT Er (rest s : D c (Vec d K)) (fun _ => True) := by
  unfold rest
  refine DT.bind (DT.index hE h0) fun rn hrn => DT.bind (DT.index hE hd) fun rd _ => DT.bind (DT.nth_mem (by omega)) fun a _ => ?_
  exact DT.pure trivial

theorem dt_interact {Er : Err → Prop} (hE : c.E.Lawful) {mean dir : Vec d K} {s : St c Unit Unit} {idx : Nat} {x : Agent d K Unit}
    (h2 : 2 ≤ c.popSize) (hl : s.pop.length = c.popSize) (hi : idx < c.popSize) :
    DT Er (interact mean dir s idx x : D c (Vec d K)) (fun _ => True) := by
  unfold interact
  refine DT.bind (DT.sample1 hE h2 hi) fun k hk => DT.bind (DT.nth_mem (by omega)) fun y _ => DT.bind DT.random' fun u _ => ?_
  refine DT.ite (fun _ => DT.bind DT.normal fun _ _ => DT.pure trivial) fun _ => ?_
  exact DT.bind DT.uniformVec' fun _ _ => DT.bind DT.normal fun _ _ => DT.pure trivial

theorem dt_forage {Er : Err → Prop} (hE : c.E.Lawful) (hd : 0 < d) {ep : Nat} {mean : Vec d K} {s : St c Unit Unit} {x : Agent d K Unit}
    (h0 : 0 < c.popSize) (hl : s.pop.length = c.popSize) : DT Er (forage ep mean s x : D c (Vec d K)) (fun _ => True) := by
  unfold forage
  refine DT.bind DT.random' fun v _ => DT.ite (fun _ => ?_) fun _ => DT.ite (fun _ => ?_) fun _ => ?_
  · exact DT.bind dt_wave fun _ _ => DT.bind (dt_rest hE hd h0 hl) fun _ _ => DT.bind DT.normal fun _ _ => DT.bind DT.random' fun _ _ =>
      DT.pure trivial
  · exact DT.bind (dt_rest hE hd h0 hl) fun _ _ => DT.bind dt_wave fun _ _ => DT.bind dt_wave fun _ _ => DT.bind DT.levyVec fun _ _ =>
      DT.bind DT.random' fun _ _ => DT.bind DT.random' fun _ _ => DT.pure trivial
  · exact DT.bind dt_wave fun _ _ => DT.bind DT.random' fun _ _ => DT.bind DT.random' fun _ _ => DT.pure trivial

/-- `OriginalEEFO` (`mealpy/swarm_based/EEFO.py:11-208`) -/
def algo : Algo c Unit Unit := Algo.plain false evolve

theorem ok (hE : c.E.Lawful) (hP : c.P.Lawful) (hc : Accepted c 5) (hd : 0 < d) :
    (algo : Algo c Unit Unit).Ok (FA c) JT JT JT c.popSize c.popSize c.popSize := by
  plainalg hE hP hc evolve
  refine IT.pt (IT.evalGreedy hE fun s i hs hl hi => ?_)
  unfold move
  refine DT.bind (DT.nth_mem (by omega)) fun x _ => DT.bind DT.random' fun u _ => DT.bind (dt_direction hE hd) fun dir _ => ?_
  refine DT.bind (R := fun _ => True) (DT.ite (fun _ => dt_interact hE (by omega) hl hi) fun _ => dt_forage hE hd (by omega) hl) fun y _ => ?_
  exact DT.bind (DT.correctWith hP DT.amendRandom) fun pos hp => DT.pure (FA.mkOk hp)

theorem framed (hE : c.E.Lawful) (ep : Nat) : Framed true (evolve ep : M c Unit Unit Unit) := by
  unfold evolve; framed

end OriginalEEFO

namespace DevGCO

/-- the parameters (`mealpy/system_based/GCO.py:64-65`) -/
structure Params (K : Type) where
  cr : K
  wf : K

/-- `DevGCO.evolve` (`mealpy/system_based/GCO.py:73-108`). The cell counters are written and never read by anything else, the life signals keep
their first value 70: only the draw they cause is kept. -/
def evolve (p : Params K) (ep : Nat) : M c Unit Unit Unit := do
  let new ← buildEval c.popSize (fun s idx => do
    let _ ← uniform 0 100
    let (r1, r2) ← choose2Without c.popSize [idx]
    let a ← nth s.pop r1
    let b ← nth s.pop r2
    let x ← nth s.pop idx
    let r ← randomVec
    let pos ← correct (fun j => if r j < p.cr then s.gbest.sol j + p.wf * (b.sol j - a.sol j) else x.sol j)
    pure (pos, ()))
  compareLoop c.popSize new

/-- `DevGCO` (`mealpy/system_based/GCO.py:12-108`) -/
def algo (p : Params K) : Algo c Unit Unit := Algo.plain false (evolve p)

theorem ok (hE : c.E.Lawful) (hP : c.P.Lawful) (hc : Accepted c 5) (p : Params K) :
    (algo p : Algo c Unit Unit).Ok (FA c) JT JT JT c.popSize c.popSize c.popSize := by
  plainalg hE hP hc evolve
  refine IT.pt (IT.evalCompare hE (fun s i hs hl hi => ?_) (fun _ _ _ _ h => h) fun _ _ _ _ h => h)
  dgo

theorem framed (hE : c.E.Lawful) (p : Params K) (ep : Nat) : Framed true (evolve p ep : M c Unit Unit Unit) := by
  unfold evolve; framed

end DevGCO

namespace OriginalGCO

/-- the cell counters and the life signals (`mealpy/system_based/GCO.py:70-71`) -/
structure Ext (K : Type) where
  cells : List K
  life : List K

/-- `initialize_variables` (`mealpy/system_based/GCO.py:69-71`) -/
def init : D c (Ext K) := pure ⟨List.replicate c.popSize 1, List.replicate c.popSize 70⟩

/-- one cell (`mealpy/system_based/GCO.py:173-189`). A counter never falls below 1, so the weights are valid. -/
def step (p : DevGCO.Params K) (i : Nat) : M c Unit (Ext K) Unit := do
  let u ← draw (uniform 0 100)
  modExt (fun y =>
    let v : K := y.cells.getD i 0
    if u < y.life.getD i 0 then { y with cells := y.cells.set i (v + 1) }
    else if v > 1 then { y with cells := y.cells.set i (v - 1) } else y)
  let s ← get
  let q ← draw (choice3P (s.ext.cells.map (fun v => v / sumL s.ext.cells)))
  let a ← draw (nth s.pop q.1)
  let b ← draw (nth s.pop q.2.1)
  let e ← draw (nth s.pop q.2.2)
  let x ← draw (nth s.pop i)
  let r ← draw randomVec
  let pos ← draw (correct (fun j => if r j < p.cr then a.sol j + p.wf * (b.sol j - e.sol j) else x.sol j))
  let ok ← tryComp (fun _ => pure ()) i pos
  if ok then modExt (fun y => { y with life := y.life.set i (y.life.getD i 0 + 10) }) else pure ()

/-- the light zone (`mealpy/system_based/GCO.py:191-198`) -/
def light (fits : List K) (y : Ext K) : Ext K :=
  let f := fits.map (fun x => (x - maxL fits) / (minL fits - maxL fits + Num.EPSILON))
  let g := match c.P.mm with
    | .min => f
    | .max => f.map (fun x => 1 - x)
  { y with life := List.zipWith (fun a b => a - 10 + 10 * b) y.life g }

/-- `OriginalGCO.evolve` (`mealpy/system_based/GCO.py:165-198`), one agent after the other in every mode -/
def evolve (p : DevGCO.Params K) (ep : Nat) : M c Unit (Ext K) Unit := do
  iter c.popSize (fun i _ => step p i) ()
  let s ← get
  modExt (light (c := c) (s.pop.map Agent.fit))

/-- there is one counter per agent -/
def J (y : Ext K) : Prop := y.cells.length = c.popSize

theorem it_step (hE : c.E.Lawful) (hP : c.P.Lawful) {p : DevGCO.Params K} {i : Nat} (h0 : 0 < c.popSize) (hi : i < c.popSize) :
    IT (FA c) (J (c := c)) 1 1 (step p i : M c Unit (Ext K) Unit) (fun _ => True) := by
  unfold step
  refine IT.bind0 (IT.draw DT.uniform') fun u _ => IT.bind0 (IT.modExt fun y hy => ?_) fun _ _ => IT.bind0 IT.get fun s hs => ?_
  · unfold J at hy ⊢
    dsimp only
    split
    · rw [List.length_set]; exact hy
    · split
      · rw [List.length_set]; exact hy
      · exact hy
  · have hl := hs.len
    have hx : s.ext.cells.length = c.popSize := hs.ext
    refine IT.bind0 (IT.draw (DT.choice3P hE (by rw [List.length_map]; omega))) fun q hq => ?_
    rw [List.length_map] at hq
    refine IT.bind0 (IT.draw (DT.nth_mem (by omega))) fun a _ => IT.bind0 (IT.draw (DT.nth_mem (by omega))) fun b _ => ?_
    refine IT.bind0 (IT.draw (DT.nth_mem (by omega))) fun e _ => IT.bind0 (IT.draw (DT.nth_mem (by omega))) fun x _ => ?_
    refine IT.bind0 (IT.draw DT.randomVec) fun r _ => IT.bind0 (IT.draw (DT.correct hP)) fun pos hp => ?_
    refine IT.bindS (IT.tryComp hi hp (DT.pure hp)) (by omega) fun ok _ => IT.iteS (fun _ => ?_) fun _ => ?_
    · exact IT.weaken (IT.modExt fun y hy => hy) (by omega) (by omega)
    · exact IT.weaken (IT.pure trivial) (by omega) (by omega)

theorem framed_step {p : DevGCO.Params K} {i : Nat} : Framed true (step p i : M c Unit (Ext K) Unit) := by
  unfold step; framed

macro_rules
  | `(tactic| fprim) => `(tactic| (at_last OriginalGCO.step; exact OriginalGCO.framed_step))

/-- `OriginalGCO` (`mealpy/system_based/GCO.py:111-198`) -/
def algo (p : DevGCO.Params K) : Algo c Unit (Ext K) := Algo.full false (fun _ => pure ()) init (evolve p)

theorem ok (hE : c.E.Lawful) (hP : c.P.Lawful) (hc : Accepted c 5) (p : DevGCO.Params K) :
    (algo p : Algo c Unit (Ext K)).Ok (FA c) (J (c := c)) (J (c := c)) (J (c := c)) c.popSize c.popSize c.popSize := by
  have hpop := hc.pop
  unfold algo
  refine Algo.full_ok hE hP (fun x hx => by dgo) (J := (J (c := c))) (by unfold init; exact DT.pure (by unfold J; simp)) (fun ep hep1 hep2 => ?_)
  unfold evolve
  refine IT.pt (IT.bindS (IT.iterS 1 1 (lo := c.popSize) (hi := c.popSize) (by omega) (by omega) fun i hi => it_step hE hP (by omega) hi) (by omega) fun _ _ => ?_)
  exact IT.weaken (IT.bind0 IT.get fun s _ => IT.modExt fun y hy => hy) (by omega) (by omega)

theorem framed (hE : c.E.Lawful) (p : DevGCO.Params K) (ep : Nat) : Framed true (evolve p ep : M c Unit (Ext K) Unit) := by
  unfold evolve; framed

end OriginalGCO

namespace OriginalRUN

/-- `runge_kutta__` (`mealpy/math_based/RUN.py:67-76`) -/
def rungeKutta (xb xw dx : Vec d K) : D c (Vec d K) := do
  let i ← integers 1 3
  let r ← random
  let cc : K := Num.ofInt i * (1 - r)
  let r1 ← randomVec
  let r2 ← randomVec
  let u1 ← random
  let u2 ← random
  let u3 ← random
  let u4 ← random
  pure (fun j =>
    let k1 : K := 0.5 * (u1 * xw j - cc * xb j)
    let k2 : K := 0.5 * (u2 * (xw j + r2 j * k1 * dx j / 2) - (cc * xb j + r1 j * k1 * dx j / 2))
    let k3 : K := 0.5 * (u3 * (xw j + r2 j * k2 * dx j / 2) - (cc * xb j + r1 j * k2 * dx j / 2))
    let k4 : K := 0.5 * (u4 * (xw j + r2 j * k3 * dx j) - (cc * xb j + r1 j * k3 * dx j))
    (k1 + 2 * k2 + 2 * k3 + k4) / 6)

/-- the first candidate and `delta_x` (`mealpy/math_based/RUN.py:104-130`). `id_min_x` is an index into the list of the three chosen agents but is
used as an index into the population (lines 110-115). -/
def first (ep : Nat) (mean : Vec d K) (sf : K) (s : St c Unit Unit) (i : Nat) : D c (Vec d K × Vec d K) := do
  let x ← nth s.pop i
  let g := s.gbest.sol
  let t1 ← random
  let u1 ← uniformVec (fun _ => 0) (fun _ => 1)
  let u2 ← uniformVec (fun _ => 0) (fun _ => 1)
  let t2 ← random
  let u3 ← uniformVec (fun _ => 0) (fun _ => 1)
  let dx : Vec d K := fun j =>
    let gama : K := t1 * (x.sol j - u1 j * (c.P.ub j - c.P.lb j)) * Num.exp (-4 * ♯ep / ♯c.epoch)
    2 * u3 j * Num.abs (u2 j * ((g j - t2 * mean j) + gama))
  let (ia, ib, ic) ← choose3Without c.popSize [i]
  let a ← nth s.pop ia
  let b ← nth s.pop ib
  let e ← nth s.pop ic
  let fits : List K := [a.fit, b.fit, e.fit]
  let k := match c.P.mm with
    | .min => argminL fits
    | .max => argmaxL fits
  let y ← nth s.pop k
  let better := compareTarget x.tgt y.tgt c.P.mm
  let sm ← rungeKutta (if better then x.sol else y.sol) (if better then y.sol else x.sol) dx
  let lbest ← bestAgent s.pop
  let l ← vecM (fun _ => choice1 2)
  let r ← vecM (fun _ => choice1 2)
  let t3 ← random
  let u4 ← uniformVec (fun _ => 0) (fun _ => 1)
  let t4 ← random
  let xc : Vec d K := fun j => ♯(l j) * x.sol j + (1 - ♯(l j)) * a.sol j
  let xm : Vec d K := fun j => ♯(l j) * g j + (1 - ♯(l j)) * lbest.sol j
  let sg : Vec d K := fun j => if r j = 0 then 1 else -1
  let pos ← correct (fun j =>
    let mu : K := 0.5 + 1 * u4 j
    if t4 < 0.5 then xc j + sg j * sf * (2 * t3) * xc j + sf * sm j + mu * (xm j - xc j)
    else xm j + sg j * sf * (2 * t3) * xm j + sf * sm j + mu * (a.sol j - b.sol j))
  pure (pos, dx)

/-- `uniform_random__` (`mealpy/math_based/RUN.py:78-82`) -/
def unif (a b u : K) : K := (a / 2 + b / 2) + (b / 2 - a / 2) * (2 * u - 1)

/-- the second candidate and the weights `w` (`mealpy/math_based/RUN.py:136-146`) -/
def second (ep : Nat) (s : St c Unit Unit) (i : Nat) : D c (Vec d K × Vec d K) := do
  let u1 ← uniformVec (fun _ => 0) (fun _ => 1)
  let t1 ← random
  let w : Vec d K := fun j => unif 0 2 (u1 j) * Num.exp (-5 * t1 * ♯ep / ♯c.epoch)
  let t2 ← uniform 0 1
  let r : K := Num.ofInt (Num.floor (unif (-1) 2 t2))
  let u2 ← randomVec
  let (ia, ib, ic) ← choose3Without c.popSize [i]
  let a ← nth s.pop ia
  let b ← nth s.pop ib
  let e ← nth s.pop ic
  let beta ← randomVec
  let z1 ← normalVec 0 1
  let z2 ← normalVec 0 1
  let pos ← correct (fun j =>
    let av : K := (a.sol j + b.sol j + e.sol j) / 3
    let x1 : K := beta j * s.gbest.sol j + (1 - beta j) * av
    if w j < 1 then x1 + r * w j * Num.abs (z1 j + (x1 - av))
    else x1 - av + r * w j * Num.abs (z2 j + 2 * u2 j * x1 - av))
  pure (pos, w)

/-- one agent (`mealpy/math_based/RUN.py:102-158`) -/
def step (ep : Nat) (mean : Vec d K) (sfs : List K) (i : Nat) : M c Unit Unit Unit := do
  let s ← get
  let sf : K := sfs.getD i 0
  let q ← draw (first ep mean sf s i)
  let _ ← tryUpd i q.1
  let t ← draw random
  if t < 0.5 then do
    let s1 ← get
    let q2 ← draw (second ep s1 i)
    let ok ← tryUpd i q2.1
    if ok then pure () else do
      let k ← draw (index d)
      let t1 ← draw random
      if Vec.at q2.2 k > t1 then do
        let s2 ← get
        let x ← draw (nth s2.pop i)
        let sm ← draw (rungeKutta x.sol q2.1 q.2)
        let t2 ← draw random
        let u ← draw randomVec
        let pos ← draw (correct (fun j => q2.1 j - t2 * q2.1 j + sf * (sm j + (2 * u j * s2.gbest.sol j - q2.1 j))))
        let _ ← tryUpd i pos
        pure ()
      else pure ()
  else pure ()

/-- `OriginalRUN.evolve` (`mealpy/math_based/RUN.py:91-158`), one agent after the other in every mode -/
def evolve (ep : Nat) : M c Unit Unit Unit := do
  let us ← draw (repM c.popSize (fun _ => random))
  let f : K := 20 * Num.exp (-(12 * ♯ep / ♯c.epoch))
  let s ← get
  iter c.popSize (fun i _ => step ep (meanPos (s.pop.map Agent.sol)) (us.map (fun u => 2 * (0.5 - u) * f)) i) ()

theorem dt_rk {Er : Err → Prop} (hE : c.E.Lawful) {xb xw dx : Vec d K} : DT Er (rungeKutta xb xw dx : D c (Vec d K)) (fun _ => True) := by
  unfold rungeKutta
  refine DT.bind (DT.integers hE (by omega)) fun _ _ => DT.bind DT.random' fun _ _ => ?_
  exact DT.bind DT.randomVec fun _ _ => DT.bind DT.randomVec fun _ _ => DT.bind DT.random' fun _ _ => DT.bind DT.random' fun _ _ =>
    DT.bind DT.random' fun _ _ => DT.bind DT.random' fun _ _ => DT.pure trivial

theorem index3 {a b e : K} : argminL [a, b, e] < 3 ∧ argmaxL [a, b, e] < 3 := by
  constructor
  · exact argminL_lt (by simp)
  · exact argmaxL_lt (by simp)

theorem dt_first {Er : Err → Prop} (hE : c.E.Lawful) (hP : c.P.Lawful) {ep : Nat} {mean : Vec d K} {sf : K} {s : St c Unit Unit} {i : Nat}
    (h5 : 5 ≤ c.popSize) (hl : s.pop.length = c.popSize) (hi : i < c.popSize) :
    DT Er (first ep mean sf s i : D c _) (fun q => Feas c q.1) := by
  unfold first
  refine DT.bind (DT.nth_mem (by omega)) fun x _ => DT.bind DT.random' fun _ _ => DT.bind DT.uniformVec' fun _ _ => ?_
  refine DT.bind DT.uniformVec' fun _ _ => DT.bind DT.random' fun _ _ => DT.bind DT.uniformVec' fun _ _ => ?_
  refine DT.bind (DT.choose3Without hE (by simp; omega)) fun q hq => ?_
  obtain ⟨ia, ib, ic⟩ := q
  refine DT.bind (DT.nth_mem (by have := hq.1; omega)) fun a _ => DT.bind (DT.nth_mem (hl ▸ hq.2.1)) fun b _ => ?_
  refine DT.bind (DT.nth_mem (hl ▸ hq.2.2)) fun e _ => ?_
  have hk : (match c.P.mm with | .min => argminL [a.fit, b.fit, e.fit] | .max => argmaxL [a.fit, b.fit, e.fit]) < s.pop.length := by
    have := index3 (a := a.fit) (b := b.fit) (e := e.fit)
    cases c.P.mm <;> dsimp only <;> omega
  refine DT.bind (DT.nth_mem hk) fun y _ => DT.bind (dt_rk hE) fun sm _ => DT.bind (DT.bestAgent' hE (by omega)) fun lbest _ => ?_
  refine DT.bind (DT.vecMT fun _ => DT.mono (DT.choice1 hE (by omega)) fun _ _ => trivial) fun l _ => ?_
  refine DT.bind (DT.vecMT fun _ => DT.mono (DT.choice1 hE (by omega)) fun _ _ => trivial) fun r _ => ?_
  exact DT.bind DT.random' fun _ _ => DT.bind DT.uniformVec' fun _ _ => DT.bind DT.random' fun _ _ =>
    DT.bind (DT.correct hP) fun pos hp => DT.pure hp

theorem dt_second {Er : Err → Prop} (hE : c.E.Lawful) (hP : c.P.Lawful) {ep : Nat} {s : St c Unit Unit} {i : Nat}
    (h5 : 5 ≤ c.popSize) (hl : s.pop.length = c.popSize) (hi : i < c.popSize) :
    DT Er (second ep s i : D c _) (fun q => Feas c q.1) := by
  unfold second
  refine DT.bind DT.uniformVec' fun _ _ => DT.bind DT.random' fun _ _ => DT.bind DT.uniform' fun _ _ => DT.bind DT.randomVec fun _ _ => ?_
  refine DT.bind (DT.choose3Without hE (by simp; omega)) fun q hq => ?_
  obtain ⟨ia, ib, ic⟩ := q
  refine DT.bind (DT.nth_mem (by have := hq.1; omega)) fun a _ => DT.bind (DT.nth_mem (hl ▸ hq.2.1)) fun b _ => ?_
  refine DT.bind (DT.nth_mem (hl ▸ hq.2.2)) fun e _ => ?_
  exact DT.bind DT.randomVec fun _ _ => DT.bind DT.normalVec fun _ _ => DT.bind DT.normalVec fun _ _ =>
    DT.bind (DT.correct hP) fun pos hp => DT.pure hp

theorem it_step (hE : c.E.Lawful) (hP : c.P.Lawful) (hd : 0 < d) {ep : Nat} {mean : Vec d K} {sfs : List K} {i : Nat} (h5 : 5 ≤ c.popSize)
    (hi : i < c.popSize) : IT (FA c) JT 1 3 (step ep mean sfs i : M c Unit Unit Unit) (fun _ => True) := by
  unfold step
  refine IT.bind0 IT.get fun s hs => IT.bind0 (IT.draw (dt_first hE hP h5 hs.len hi)) fun q hq => ?_
  refine IT.bindS (IT.tryUpd hi hq fun a _ => hq) (by omega) fun _ _ => IT.bind0 (IT.draw DT.random') fun t _ => IT.iteS (fun _ => ?_) fun _ => ?_
  · refine IT.bind0 IT.get fun s1 hs1 => IT.bind0 (IT.draw (dt_second hE hP h5 hs1.len hi)) fun q2 hq2 => ?_
    refine IT.bindS (IT.tryUpd hi hq2 fun a _ => hq2) (by omega) fun ok _ => IT.iteS (fun _ => ?_) fun _ => ?_
    · exact IT.weaken (IT.pure trivial) (by omega) (by omega)
    · refine IT.bind0 (IT.draw (DT.index hE hd)) fun k _ => IT.bind0 (IT.draw DT.random') fun t1 _ => IT.iteS (fun _ => ?_) fun _ => ?_
      · refine IT.bind0 IT.get fun s2 hs2 => IT.bind0 (IT.draw (DT.nth_mem (by have := hs2.len; omega))) fun x _ => ?_
        refine IT.bind0 (IT.draw (dt_rk hE)) fun sm _ => IT.bind0 (IT.draw DT.random') fun t2 _ => ?_
        refine IT.bind0 (IT.draw DT.randomVec) fun u _ => IT.bind0 (IT.draw (DT.correct hP)) fun pos hp => ?_
        exact IT.bindS (IT.tryUpd hi hp fun a _ => hp) (by omega) fun _ _ => IT.weaken (IT.pure trivial) (by omega) (by omega)
      · exact IT.weaken (IT.pure trivial) (by omega) (by omega)
  · exact IT.weaken (IT.pure trivial) (by omega) (by omega)

theorem framed_step {ep : Nat} {mean : Vec d K} {sfs : List K} {i : Nat} : Framed true (step ep mean sfs i : M c Unit Unit Unit) := by
  unfold step; framed

macro_rules
  | `(tactic| fprim) => `(tactic| (at_last OriginalRUN.step; exact OriginalRUN.framed_step))

/-- `OriginalRUN` (`mealpy/math_based/RUN.py:12-158`) -/
def algo : Algo c Unit Unit := Algo.plain false evolve

theorem ok (hE : c.E.Lawful) (hP : c.P.Lawful) (hc : Accepted c 5) (hd : 0 < d) :
    (algo : Algo c Unit Unit).Ok (FA c) JT JT JT c.popSize c.popSize (c.popSize * 3) := by
  plainalg hE hP hc evolve
  refine IT.pt (IT.bind0 (IT.draw (DT.repMT fun _ _ => DT.random')) fun us _ => IT.bind0 IT.get fun s _ => ?_)
  exact IT.iterS 1 3 (by omega) (by omega) fun i hi => it_step hE hP hd (by omega) hi

theorem framed (hE : c.E.Lawful) (ep : Nat) : Framed true (evolve ep : M c Unit Unit Unit) := by
  unfold evolve; framed

end OriginalRUN

namespace OriginalGBO

/-- the parameters (`mealpy/math_based/GBO.py:69-71`) -/
structure Params (K : Type) where
  pr : K
  betaMin : K
  betaMax : K

/-- one candidate (`mealpy/math_based/GBO.py:87-133`). The attribute is the position of `g_worst` as assigned by line 143; before that it is the worst
agent of the first population. -/
def move (p : Params K) (alpha : K) (s : St c Unit (Option (Vec d K))) (idx : Nat) : D c (Vec d K × Unit) := do
  let g := s.gbest.sol
  let gw : Vec d K := s.ext.getD (gWorst s).sol
  let x ← nth s.pop idx
  let u1 ← random
  let u2 ← random
  let p1 : K := 2 * u1 * alpha - alpha
  let p2 : K := 2 * u2 * alpha - alpha
  let l ← othersOf s.pop [idx] 4
  let a1 ← nth l 0
  let a2 ← nth l 1
  let a3 ← nth l 2
  let a4 ← nth l 3
  let e ← random
  let eps : K := 0.005 * e
  let u3 ← random
  let k ← choice1 c.popSize
  let dx : Vec d K := fun j =>
    let r0 : K := (a1.sol j + a2.sol j + a3.sol j + a4.sol j) / 4
    let delta : K := 2 * u3 * Num.abs (r0 - x.sol j)
    ♯k * Num.abs ((g j - a1.sol j + delta) / 2)
  let z1 ← normal 0 1
  let u4 ← random
  let x1 : Vec d K := fun j => x.sol j - z1 * p1 * 2 * dx j * x.sol j / (gw j - g j + eps) + u4 * p2 * (g j - x.sol j)
  let z2 ← normal 0 1
  let z : Vec d K := fun j => x.sol j - z2 * 2 * dx j * x.sol j / (gw j - g j + eps)
  let u5 ← random
  let u6 ← random
  let u7 ← random
  let u8 ← random
  let yp : Vec d K := fun j => u5 * ((z j + x.sol j) / 2 + u6 * dx j)
  let yq : Vec d K := fun j => u7 * ((z j + x.sol j) / 2 - u8 * dx j)
  let z3 ← normal 0 1
  let u9 ← random
  let x2 : Vec d K := fun j => g j - z3 * p1 * 2 * dx j * x.sol j / (yp j - yq j + eps) + u9 * p2 * (a1.sol j - a2.sol j)
  let ra ← random
  let rb ← random
  let y : Vec d K := fun j => ra * (rb * x1 j + (1 - rb) * x2 j) + (1 - ra) * (x.sol j - p1 * (x2 j - x1 j))
  let v ← random
  if v < p.pr then do
    let f1 ← uniform (-1) 1
    let f2 ← normal 0 1
    let v1 ← random
    let l1 : K := Num.ufunc "round" (1 - v1)
    let v2 ← random
    let v3 ← random
    let v4 ← random
    let w1 : K := l1 * 2 * v2 + (1 - l1)
    let w2 : K := l1 * v3 + (1 - l1)
    let w3 : K := l1 * v4 + (1 - l1)
    let v5 ← random
    let l2 : K := Num.ufunc "round" (1 - v5)
    let xr ← genSolution
    let kp ← choice1 c.popSize
    let xp ← nth s.pop kp
    let v6 ← random
    let pos ← correct (fun j =>
      let xm : K := l2 * xp.sol j + (1 - l2) * xr j
      let q : K := f2 * p1 * (w3 * (x2 j - x1 j) + w2 * (a1.sol j - a2.sol j)) / 2
      if v6 < 0.5 then y j + f1 * (w1 * g j - w2 * xm) + q else g j + f1 * (w1 * g j - w2 * xm) + q)
    pure (pos, ())
  else do
    let pos ← correct y
    pure (pos, ())

/-- `OriginalGBO.evolve` (`mealpy/math_based/GBO.py:75-143`). The assignment of `g_best` in line 143 is left out: `solve` overwrites it at once
(`mealpy/optimizer.py:262`); `(epoch / self.epoch) ** 3` and the square around it are written as products. -/
def evolve (p : Params K) (ep : Nat) : M c Unit (Option (Vec d K)) Unit := do
  let t : K := ♯ep / ♯c.epoch
  let q : K := 1 - t * t * t
  let beta : K := p.betaMin + (p.betaMax - p.betaMin) * (q * q)
  let alpha : K := Num.abs (beta * Num.sin (3 * Num.pi / 2 + Num.sin (beta * 3 * Num.pi / 2)))
  greedyLoop c.popSize (move p alpha)
  let s ← get
  let w ← draw (worstAgent s.pop)
  modExt (fun _ => some w.sol)

/-- `OriginalGBO` (`mealpy/math_based/GBO.py:12-143`) -/
def algo (p : Params K) : Algo c Unit (Option (Vec d K)) := Algo.full false (fun _ => pure ()) (pure none) (evolve p)

theorem ok (hE : c.E.Lawful) (hP : c.P.Lawful) (hc : Accepted c 5) (p : Params K) :
    (algo p : Algo c Unit (Option (Vec d K))).Ok (FA c) JT JT JT c.popSize c.popSize c.popSize := by
  have hpop := hc.pop
  unfold algo
  refine Algo.full_ok hE hP (fun x hx => by dgo) (J := JT) (by exact DT.pure trivial) (fun ep hep1 hep2 => ?_)
  unfold evolve
  refine IT.pt (IT.bindS (IT.greedyLoop hE fun s i hs hl hi => ?_) (by omega) fun _ _ => IT.bind0 IT.get fun s hs => ?_)
  · unfold move
    refine DT.bind (DT.nth_mem (by omega)) fun x _ => DT.bind DT.random' fun _ _ => DT.bind DT.random' fun _ _ => ?_
    refine DT.bind (DT.othersOf hE (by simp; omega) (by simp; omega)) fun l hl' => ?_
    refine DT.bind (DT.nth_mem (by omega)) fun a1 _ => DT.bind (DT.nth_mem (by omega)) fun a2 _ => ?_
    refine DT.bind (DT.nth_mem (by omega)) fun a3 _ => DT.bind (DT.nth_mem (by omega)) fun a4 _ => ?_
    refine DT.bind DT.random' fun _ _ => DT.bind DT.random' fun _ _ => DT.bind (DT.choice1 hE (by omega)) fun k _ => ?_
    refine DT.bind DT.normal fun _ _ => DT.bind DT.random' fun _ _ => DT.bind DT.normal fun _ _ => ?_
    refine DT.bind DT.random' fun _ _ => DT.bind DT.random' fun _ _ => DT.bind DT.random' fun _ _ => DT.bind DT.random' fun _ _ => ?_
    refine DT.bind DT.normal fun _ _ => DT.bind DT.random' fun _ _ => DT.bind DT.random' fun _ _ => DT.bind DT.random' fun _ _ => ?_
    refine DT.bind DT.random' fun _ _ => DT.ite (fun _ => ?_) fun _ => DT.bind (DT.correct hP) fun pos hp => DT.pure (FA.mkOk hp)
    refine DT.bind DT.uniform' fun _ _ => DT.bind DT.normal fun _ _ => DT.bind DT.random' fun _ _ => DT.bind DT.random' fun _ _ => ?_
    refine DT.bind DT.random' fun _ _ => DT.bind DT.random' fun _ _ => DT.bind DT.random' fun _ _ => DT.bind DT.genSolution' fun _ _ => ?_
    refine DT.bind (DT.choice1 hE (by omega)) fun kp hkp => DT.bind (DT.nth_mem (by omega)) fun xp _ => DT.bind DT.random' fun _ _ => ?_
    exact DT.bind (DT.correct hP) fun pos hp => DT.pure (FA.mkOk hp)
  · refine IT.weaken (IT.bind0 (IT.draw (DT.worstAgent hE (by have := hs.len; omega))) fun w _ => IT.modExt fun y hy => trivial) (by omega) (by omega)

theorem framed (hE : c.E.Lawful) (p : Params K) (ep : Nat) : Framed true (evolve p ep : M c Unit (Option (Vec d K)) Unit) := by
  unfold evolve; framed

end OriginalGBO

namespace OriginalGRSA

/-- the parameters (`mealpy/physics_based/GRSA.py:70-74`) -/
structure Params (K : Type) where
  geometries : Nat
  wMax : K
  wMin : K
  gMax : K
  gMin : K

/-- best positions and fitnesses of the single agents, and their previous positions (`mealpy/physics_based/GRSA.py:77-79`) -/
structure Ext (d : Nat) (K : Type) where
  geoX : List (Vec d K)
  geoF : List K
  prev : List (Vec d K)

/-- `before_main_loop` (`mealpy/physics_based/GRSA.py:83-86`) -/
def before (s : St c Unit (Ext d K)) : D c (Ext d K) :=
  pure ⟨s.pop.map Agent.sol, s.pop.map Agent.fit, s.pop.map Agent.sol⟩

/-- `calculate_x_direction` (`mealpy/physics_based/GRSA.py:88-98`) -/
def direction (b x geo prev g : Vec d K) : Vec d K := fun j =>
  let w : K := if b j < 0.5 then 1 else 0
  let dx : K := -Num.sign (Num.sign (x j - prev j) + w * Num.sign (x j - g j) + (1 - w) * Num.sign (x j - geo j))
  let dx : K := if x j > c.P.ub j then -1 else dx
  let dx : K := if x j < c.P.lb j then 1 else dx
  if dx = 0 then -1 else dx

/-- the moves of one geometry (`mealpy/physics_based/GRSA.py:126-157`): `idxs` are its members, `cur` the positions so far. With two or more
geometries the loops of lines 149-157 run over all members, with one over none. -/
def geometry (p : Params K) (ep : Nat) (s : St c Unit (Ext d K)) (no : Nat) (idxs : List Nat) (cur : List (Vec d K)) : D c (List (Vec d K)) := do
  let st ← integers 0 (no - 1)
  let il ← nth idxs (no - 1)
  let ir ← nth idxs st.toNat
  let al ← nth s.pop il
  let ar ← nth s.pop ir
  let wt : K := p.wMax - ♯ep * (p.wMax - p.wMin) / ♯c.epoch
  let cur ← iter no (fun t (cur : List (Vec d K)) => do
    let jj ← nth idxs t
    let x ← nth s.pop jj
    let geo ← nth s.ext.geoX jj
    let prev ← nth s.ext.prev jj
    let ig : K := ♯(t + 1)
    let gama0 : K := 1 + ((ig - ♯c.popSize) / (♯c.popSize - 1) * p.gMax + (1 - ig) / (♯c.popSize - 1) * p.gMin)
    let kg ← randomVec
    let b ← randomVec
    let dx := direction (c := c) b x.sol geo prev s.gbest.sol
    pure (cur.set jj (fun j =>
      let gama : K := kg j + gama0 * (1 - kg j)
      let drag : K := Num.sqrt (max 0 ((1 - gama * gama) / (gama * gama + Num.EPSILON)))
      let uc : K := 0.5 * (c.P.ub j - c.P.lb j)
      clip (x.sol j + clip (wt * Num.abs (al.sol j - ar.sol j) * drag * dx j) (-uc) uc) (c.P.lb j) (c.P.ub j)))) cur
  if 1 < p.geometries then
    iter no (fun t (cur : List (Vec d K)) => do
      let alfa ← randomVec
      let jj ← nth idxs t
      let y ← nth cur jj
      pure (cur.set jj (fun j => if alfa j < 0.5 then s.gbest.sol j else y j))) cur
  else pure cur

/-- all moves (`mealpy/physics_based/GRSA.py:107-157`); `np.argsort` of the fitness, whatever the direction of the problem -/
def moves (p : Params K) (ep : Nat) (s : St c Unit (Ext d K)) : D c (List (Vec d K)) :=
  let no := c.popSize / p.geometries
  let order := c.E.argsort (s.pop.map Agent.fit)
  iter p.geometries (fun g cur => geometry p ep s no ((order.drop (g * no)).take no) cur) (s.pop.map Agent.sol)

/-- the personal best positions (`mealpy/physics_based/GRSA.py:172-175`), compared as for a minimisation problem -/
def remember (pop : List (Agent d K Unit)) (y : Ext d K) : Ext d K :=
  let l := List.zipWith (fun a q => if a.fit < q.1 then (a.fit, a.sol) else q) pop (List.zip y.geoF y.geoX)
  { y with geoF := l.map (·.1), geoX := l.map (·.2) }

/-- `OriginalGRSA.evolve` (`mealpy/physics_based/GRSA.py:100-179`) -/
def evolve (p : Params K) (ep : Nat) : M c Unit (Ext d K) Unit := do
  let s ← get
  let ps ← draw (moves p ep s)
  replaceLoop c.popSize (fun _ i => do
    let x ← nth ps i
    let pos ← correct x
    pure (pos, ()))
  modExt (fun y => { y with prev := s.pop.map Agent.sol })
  let s ← get
  modExt (remember s.pop)
  if meanL ((List.finRange d).map (fun j => stdL (s.pop.map (fun a => a.sol j)))) < Num.EPSILON then do
    let new ← liftB (generatePopulation (fun _ => pure ()) c.popSize)
    setPop new
  else pure ()

/-- one entry per agent -/
def Sized (c : Cfg d K) (y : Ext d K) : Prop := y.geoX.length = c.popSize ∧ y.geoF.length = c.popSize ∧ y.prev.length = c.popSize

theorem dt_geometry {Er : Err → Prop} (hE : c.E.Lawful) {p : Params K} {ep : Nat} {s : St c Unit (Ext d K)} {no : Nat} {idxs : List Nat} {cur : List (Vec d K)}
    (hl : s.pop.length = c.popSize) (hs : Sized c s.ext) (hno : 2 ≤ no) (hi : idxs.length = no) (hm : ∀ i ∈ idxs, i < c.popSize)
    (hc : cur.length = c.popSize) : DT Er (geometry p ep s no idxs cur : D c _) (fun l => l.length = c.popSize) := by
  obtain ⟨h1, h2, h3⟩ := hs
  unfold geometry
  refine DT.bind (DT.integers hE (by omega)) fun st hst => DT.bind (DT.nth_mem (by omega)) fun il hil => DT.bind (DT.nth_mem (by omega)) fun ir hir => ?_
  have := hm il hil
  have := hm ir hir
  refine DT.bind (DT.nth_mem (by omega)) fun al _ => DT.bind (DT.nth_mem (by omega)) fun ar _ => ?_
  refine DT.bind (R := fun l : List (Vec d K) => l.length = c.popSize) (DT.iter (fun _ (l : List (Vec d K)) => l.length = c.popSize) no hc fun t l ht hl' => ?_) fun cur' hc' => ?_
  · refine DT.bind (DT.nth_mem (by omega)) fun jj hjj => ?_
    have := hm jj hjj
    refine DT.bind (DT.nth_mem (by omega)) fun x _ => DT.bind (DT.nth_mem (by omega)) fun geo _ => DT.bind (DT.nth_mem (by omega)) fun prev _ => ?_
    refine DT.bind DT.randomVec fun kg _ => DT.bind DT.randomVec fun b _ => DT.pure ?_
    rw [List.length_set]; exact hl'
  · refine DT.ite (fun _ => ?_) fun _ => DT.pure hc'
    refine DT.iter (fun _ (l : List (Vec d K)) => l.length = c.popSize) no hc' fun t l ht hl' => ?_
    refine DT.bind DT.randomVec fun alfa _ => DT.bind (DT.nth_mem (by omega)) fun jj hjj => ?_
    have := hm jj hjj
    refine DT.bind (DT.nth_mem (by omega)) fun y _ => DT.pure ?_
    rw [List.length_set]; exact hl'

theorem dt_moves {Er : Err → Prop} (hE : c.E.Lawful) {p : Params K} {ep : Nat} {s : St c Unit (Ext d K)} (hl : s.pop.length = c.popSize) (hs : Sized c s.ext)
    (hp : 1 ≤ p.geometries ∧ p.geometries ≤ c.popSize / 2) : DT Er (moves p ep s : D c _) (fun l => l.length = c.popSize) := by
  have hno : 2 ≤ c.popSize / p.geometries := (Nat.le_div_iff_mul_le (by omega)).2 (by omega)
  have hperm := hE.argsortLaw.perm (s.pop.map Agent.fit)
  have hlen : (c.E.argsort (s.pop.map Agent.fit)).length = c.popSize := by rw [hperm.length_eq, List.length_range, List.length_map, hl]
  unfold moves
  refine DT.iter (fun _ (l : List (Vec d K)) => l.length = c.popSize) p.geometries (by rw [List.length_map]; exact hl) fun g cur hg hc => ?_
  refine dt_geometry hE hl hs hno ?_ ?_ hc
  · rw [List.length_take, List.length_drop, hlen]
    have h1 : p.geometries * (c.popSize / p.geometries) ≤ c.popSize := Nat.mul_div_le _ _
    have h2 : (g + 1) * (c.popSize / p.geometries) ≤ p.geometries * (c.popSize / p.geometries) := Nat.mul_le_mul_right _ hg
    rw [Nat.succ_mul] at h2
    omega
  · intro i hi
    have := List.mem_range.1 (hperm.mem_iff.1 (List.mem_of_mem_drop (List.mem_of_mem_take hi)))
    rw [List.length_map] at this
    omega

theorem sized_remember {y : Ext d K} {pop : List (Agent d K Unit)} (hl : pop.length = c.popSize) (h : Sized c y) : Sized c (remember pop y) := by
  obtain ⟨h1, h2, h3⟩ := h
  unfold remember Sized
  refine ⟨?_, ?_, h3⟩ <;> simp [hl, h1, h2]

/-- `OriginalGRSA` (`mealpy/physics_based/GRSA.py:12-179`) -/
def algo (p : Params K) : Algo c Unit (Ext d K) := Algo.pre false (fun _ => pure ()) (pure ⟨[], [], []⟩) before (evolve p)

theorem wok (hE : c.E.Lawful) (hP : c.P.Lawful) (hc : Accepted c 5) (p : Params K) (hp : 1 ≤ p.geometries ∧ p.geometries ≤ c.popSize / 2) :
    (algo p : Algo c Unit (Ext d K)).WOk noErr (Inv.std c Unit (Sized c)) JT JT c.popSize c.popSize 0 0 c.popSize (c.popSize + c.popSize) := by
  have hpop := hc.pop
  unfold algo
  refine Algo.pre_wok (J := (Sized c)) hE hP (by omega) (fun x hx => by dgo) (by dgo) (by intro s hs; exact DT.pure ⟨by simpa using hs, by simpa using hs, by simpa using hs⟩) (fun ep hep1 hep2 => ?_)
  unfold evolve
  refine WT.bind0 WT.get fun s hs => WT.bind0 (WT.draw (dt_moves hE hs.len hs.ext hp)) fun ps hps => ?_
  refine WT.bindS (WT.replaceLoop hE (fun _ => Iff.rfl) Inv.std_upd fun s' i hs' hl hi => ?_) (by omega) fun _ _ => ?_
  · exact DT.bind (DT.nth_mem (by omega)) fun x _ => DT.bind (DT.correct hP) fun pos hpos => DT.pure (Inv.std_mk hpos)
  · refine WT.bind0 (WT.modExt fun y hy => ⟨hy.1, hy.2.1, by rw [List.length_map]; exact hs.len⟩) fun _ _ => WT.bind0 WT.get fun s1 hs1 => ?_
    refine WT.bind0 (WT.modExt fun y hy => sized_remember hs1.len hy) fun _ _ => ?_
    refine WT.ite (fun _ => ?_) fun _ => WT.weaken (WT.pure trivial) (by omega) (by omega)
    refine WT.generatePopulation_std hE hP (fun x hx => DT.pure trivial) (by omega) fun new hn => ?_
    exact WT.weaken (WT.setPop hn.1 fun a ha => Inv.std_ag (hn.2 a ha)) (by omega) (by omega)

theorem framed (hE : c.E.Lawful) (p : Params K) (ep : Nat) : Framed true (evolve p ep : M c Unit (Ext d K) Unit) := by
  unfold evolve; framed

end OriginalGRSA

namespace OriginalEP

/-- the strategy and the number of wins of an agent (`mealpy/evolutionary_based/EP.py:79-81`) -/
structure Att (d : Nat) (K : Type) where
  strategy : Vec d K
  win : Nat

/-- `generate_empty_agent` (`mealpy/evolutionary_based/EP.py:74-81`) -/
def mkExt (_ : Vec d K) : D c (Att d K) := do
  let st ← uniformVec (fun _ => 0) (fun j => 0.05 * (c.P.ub j - c.P.lb j))
  pure ⟨st, 0⟩

/-- one child (`mealpy/evolutionary_based/EP.py:92-97`); a strategy is drawn for the empty agent and overwritten -/
def child (s : St c (Att d K) Unit) (idx : Nat) : D c (Vec d K × Att d K) := do
  let x ← nth s.pop idx
  let z ← normalVec 0 1
  let pos ← correct (fun j => x.sol j + x.ext.strategy j * z j)
  let _ ← mkExt pos
  let w ← normalVec 0 1
  pure (pos, ⟨fun j => x.ext.strategy j + w j * Num.pow (Num.abs (x.ext.strategy j)) 0.5, 0⟩)

/-- `agent.win += 1` -/
def bump (i : Nat) (l : List (Agent d K (Att d K))) : List (Agent d K (Att d K)) :=
  l.modify i (fun a => { a with ext := { a.ext with win := a.ext.win + 1 } })

/-- the bouts (`mealpy/evolutionary_based/EP.py:104-111`) -/
def bouts (n : Nat) (pop : List (Agent d K (Att d K))) : D c (List (Agent d K (Att d K))) :=
  iter pop.length (fun i (l : List (Agent d K (Att d K))) => iter n (fun _ (l : List (Agent d K (Att d K))) => do
    let k ← index l.length
    let a ← nth l i
    let b ← nth l k
    pure (if compareTarget a.tgt b.tgt c.P.mm then bump i l else bump k l)) l) pop

/-- `sorted(pop, key=win, reverse=True)`, a stable sort (`mealpy/evolutionary_based/EP.py:112`) -/
def byWins (pop : List (Agent d K (Att d K))) : List (Agent d K (Att d K)) := pop.insertionSort (fun a b => b.ext.win ≤ a.ext.win)

/-- `int(bout_size * pop_size)` (`mealpy/evolutionary_based/EP.py:73`) -/
def nBouts (p : K) : Nat := (Num.trunc (p * ♯c.popSize)).toNat

/-- `OriginalEP.evolve` (`mealpy/evolutionary_based/EP.py:83-113`) -/
def evolve (p : K) (ep : Nat) : M c (Att d K) Unit Unit := do
  let new ← buildEval c.popSize child
  let s ← get
  let l ← draw (bouts (nBouts (c := c) p) ((getSorted c.E.argsort new c.P.mm).1 ++ s.pop))
  setPop ((byWins l).take c.popSize)

theorem dt_mkExt {Er : Err → Prop} {x : Vec d K} : DT Er (mkExt x : D c (Att d K)) (fun _ => True) := by
  unfold mkExt; exact DT.bind DT.uniformVec' fun _ _ => DT.pure trivial

macro_rules
  | `(tactic| dprim) => `(tactic| exact OriginalEP.dt_mkExt)

theorem bump_length {i : Nat} {l : List (Agent d K (Att d K))} : (bump i l).length = l.length := by simp [bump]

theorem bump_cf {i : Nat} {l : List (Agent d K (Att d K))} (h : ∀ a ∈ l, CF c a) : ∀ a ∈ bump i l, CF c a := by
  intro a ha
  unfold bump at ha
  obtain ⟨k, hk⟩ := List.mem_iff_getElem?.1 ha
  rw [List.getElem?_modify] at hk
  cases hx : l[k]? with
  | none => rw [hx] at hk; simp at hk
  | some b =>
    have hb := h b (List.mem_of_getElem? hx)
    rw [hx] at hk
    cases Option.some.inj hk
    dsimp only
    split
    · exact hb
    · exact hb

theorem dt_bouts {Er : Err → Prop} (hE : c.E.Lawful) {n : Nat} {pop : List (Agent d K (Att d K))} (h : ∀ a ∈ pop, CF c a) :
    DT Er (bouts n pop : D c _) (fun l => l.length = pop.length ∧ ∀ a ∈ l, CF c a) := by
  unfold bouts
  refine DT.iter (fun _ (l : List (Agent d K (Att d K))) => l.length = pop.length ∧ ∀ a ∈ l, CF c a) _ ⟨rfl, h⟩ fun i l hi hl => ?_
  refine DT.iter (fun _ (l : List (Agent d K (Att d K))) => l.length = pop.length ∧ ∀ a ∈ l, CF c a) _ hl fun j l hj hl => ?_
  refine DT.bind (DT.index hE (by omega)) fun k hk => DT.bind (DT.nth_mem (by omega)) fun a _ => DT.bind (DT.nth_mem (by omega)) fun b _ => DT.pure ?_
  split
  · exact ⟨by rw [bump_length]; exact hl.1, bump_cf hl.2⟩
  · exact ⟨by rw [bump_length]; exact hl.1, bump_cf hl.2⟩

theorem byWins_length {l : List (Agent d K (Att d K))} : (byWins l).length = l.length := List.length_insertionSort _ _

theorem byWins_mem {l : List (Agent d K (Att d K))} {a : Agent d K (Att d K)} : a ∈ byWins l ↔ a ∈ l := (List.perm_insertionSort _ l).mem_iff

theorem dt_child {Er : Err → Prop} (hE : c.E.Lawful) (hP : c.P.Lawful) {s : St c (Att d K) Unit} {i : Nat} (hi : i < s.pop.length) :
    DT Er (child s i : D c _) (fun p => Feas c p.1) := by
  unfold child
  refine DT.bind (DT.nth_mem hi) fun x _ => DT.bind DT.normalVec fun z _ => DT.bind (DT.correct hP) fun pos hp => ?_
  exact DT.bind dt_mkExt fun _ _ => DT.bind DT.normalVec fun w _ => DT.pure hp

theorem cf_pool (hE : c.E.Lawful) {new pop : List (Agent d K (Att d K))} (h : ∀ a ∈ new, CF c a) (h' : ∀ a ∈ pop, CF c a) :
    ∀ a ∈ (getSorted c.E.argsort new c.P.mm).1 ++ pop, CF c a := by
  intro a ha
  rcases List.mem_append.1 ha with ha | ha
  · exact h a ((getSorted_mem hE.argsortLaw).1 ha)
  · exact h' a ha

/-- `OriginalEP` (`mealpy/evolutionary_based/EP.py:13-113`) -/
def algo (p : K) : Algo c (Att d K) Unit := Algo.full true mkExt (pure ()) (evolve p)

theorem wok (hE : c.E.Lawful) (hP : c.P.Lawful) (hc : Accepted c 5) (p : K) :
    (algo p : Algo c (Att d K) Unit).WOk noErr (Inv.std c (Att d K) JT) JT JT c.popSize c.popSize 0 0 c.popSize c.popSize := by
  wfullalg hE hP hc evolve
  refine WT.bindS (WT.buildEval hE fun s i hs hi => ?_) (by omega) fun new hn => WT.bind0 WT.get fun s hs => ?_
  · exact DT.mono (dt_child hE hP (by have : s.pop.length = c.popSize := hs.len; omega)) fun _ h => Inv.std_mk h
  · have hl : s.pop.length = c.popSize := hs.len
    refine WT.bind0 (WT.draw (dt_bouts hE (cf_pool hE (fun a ha => hn.2 a ha) fun a ha => hs.pop a ha))) fun l hl' => ?_
    have hlen := hl'.1
    rw [List.length_append, getSorted_length hE.argsortLaw] at hlen
    refine WT.weaken (WT.setPop ?_ fun a ha => Inv.std_ag (hl'.2 a (byWins_mem.1 (List.mem_of_mem_take ha)))) (by omega) (by omega)
    show ((byWins l).take c.popSize).length = c.popSize
    rw [List.length_take, byWins_length]
    omega

theorem framed (hE : c.E.Lawful) (p : K) (ep : Nat) : Framed true (evolve p ep : M c (Att d K) Unit Unit) := by
  unfold evolve; framed

end OriginalEP

namespace LevyEP
open OriginalEP (Att mkExt bouts byWins nBouts)

/-- one child (`mealpy/evolutionary_based/EP.py:174-179`) -/
def child (s : St c (Att d K) Unit) (idx : Nat) : D c (Vec d K × Att d K) := do
  let x ← nth s.pop idx
  let z ← normalVec 0 1
  let pos ← correct (fun j => x.sol j + x.ext.strategy j * z j)
  let w ← normalVec 0 1
  let _ ← mkExt pos
  pure (pos, ⟨fun j => x.ext.strategy j + w j * Num.pow (Num.abs (x.ext.strategy j)) 0.5, 0⟩)

/-- one agent coming back (`mealpy/evolutionary_based/EP.py:202-207`) -/
def comeback (left : List (Agent d K (Att d K))) (is : List Nat) (k : Nat) : D c (Vec d K × Att d K) := do
  let i ← nth is k
  let x ← nth left i
  let lf ← levyVec 1 0.01 0
  let pos ← correct (fun j => x.sol j + lf j)
  let _ ← mkExt pos
  pure (pos, ⟨fun j => 0.05 * (c.P.ub j - c.P.lb j), 0⟩)

/-- `LevyEP.evolve` (`mealpy/evolutionary_based/EP.py:165-211`) -/
def evolve (p : K) (ep : Nat) : M c (Att d K) Unit Unit := do
  let new ← buildEval c.popSize child
  let s ← get
  let l ← draw (bouts (nBouts (c := c) p) ((getSorted c.E.argsort new c.P.mm).1 ++ s.pop))
  let keep := (byWins l).take c.popSize
  let left := (byWins l).drop c.popSize
  let is ← draw (choice left.length (left.length / 2) false)
  let back ← buildEval is.length (fun _ k => comeback left is k)
  setPop (getSortedTrimmed c.E.argsort (keep ++ back) c.popSize c.P.mm)

theorem dt_child {Er : Err → Prop} (hE : c.E.Lawful) (hP : c.P.Lawful) {s : St c (Att d K) Unit} {i : Nat} (hi : i < s.pop.length) :
    DT Er (child s i : D c _) (fun p => Feas c p.1) := by
  unfold child
  refine DT.bind (DT.nth_mem hi) fun x _ => DT.bind DT.normalVec fun z _ => DT.bind (DT.correct hP) fun pos hp => ?_
  exact DT.bind DT.normalVec fun w _ => DT.bind OriginalEP.dt_mkExt fun _ _ => DT.pure hp

theorem dt_comeback {Er : Err → Prop} (hP : c.P.Lawful) {left : List (Agent d K (Att d K))} {is : List Nat} {k : Nat} (hk : k < is.length)
    (hm : ∀ i ∈ is, i < left.length) : DT Er (comeback left is k : D c _) (fun p => Feas c p.1) := by
  unfold comeback
  refine DT.bind (DT.nth_mem hk) fun i hi => DT.bind (DT.nth_mem (hm i hi)) fun x _ => DT.bind DT.levyVec fun lf _ => ?_
  exact DT.bind (DT.correct hP) fun pos hp => DT.bind OriginalEP.dt_mkExt fun _ _ => DT.pure hp

/-- `LevyEP` (`mealpy/evolutionary_based/EP.py:116-211`) -/
def algo (p : K) : Algo c (Att d K) Unit := Algo.full true mkExt (pure ()) (evolve p)

theorem wok (hE : c.E.Lawful) (hP : c.P.Lawful) (hc : Accepted c 5) (p : K) :
    (algo p : Algo c (Att d K) Unit).WOk noErr (Inv.std c (Att d K) JT) JT JT c.popSize c.popSize 0 0 (c.popSize + c.popSize / 2) (c.popSize + c.popSize / 2) := by
  wfullalg hE hP hc evolve
  refine WT.bindS (WT.buildEval hE fun s i hs hi => ?_) (by omega) fun new hn => WT.bind0 WT.get fun s hs => ?_
  · exact DT.mono (dt_child hE hP (by have : s.pop.length = c.popSize := hs.len; omega)) fun _ h => Inv.std_mk h
  · have hl : s.pop.length = c.popSize := hs.len
    refine WT.bind0 (WT.draw (OriginalEP.dt_bouts hE (OriginalEP.cf_pool hE (fun a ha => hn.2 a ha) fun a ha => hs.pop a ha))) fun l hl' => ?_
    have hlen := hl'.1
    rw [List.length_append, getSorted_length hE.argsortLaw] at hlen
    have hleft : ((byWins l).drop c.popSize).length = c.popSize := by rw [List.length_drop, OriginalEP.byWins_length]; omega
    refine WT.bind0 (WT.draw (DT.choice hE (choiceErr_false (by omega) (by omega)))) fun is his => ?_
    have hisl : is.length = c.popSize / 2 := by rw [his.1, hleft]
    refine WT.bindS (WT.buildEval hE fun s i hs hi => DT.mono (dt_comeback hP hi his.2.1) fun _ h => Inv.std_mk h) (by omega) fun back hb => ?_
    refine WT.weaken (WT.setPop ?_ fun a ha => Inv.std_ag ?_) (by omega) (by omega)
    · show (getSortedTrimmed c.E.argsort _ c.popSize c.P.mm).length = c.popSize
      rw [trimmed_length hE, List.length_append, List.length_take, OriginalEP.byWins_length]
      omega
    · rcases List.mem_append.1 (trimmed_mem hE ha) with h | h
      · exact hl'.2 a (OriginalEP.byWins_mem.1 (List.mem_of_mem_take h))
      · exact hb.2 a h

theorem framed (hE : c.E.Lawful) (p : K) (ep : Nat) : Framed true (evolve p ep : M c (Att d K) Unit Unit) := by
  unfold evolve; framed

end LevyEP

namespace OriginalAHO

/-- the parameters (`mealpy/swarm_based/AHO.py:89-90`) -/
structure Params (K : Type) where
  theta : K
  omega : K

/-- the agent `j` reacts to the prey `xp` (`mealpy/swarm_based/AHO.py:128-143,160-175`); the attribute holds the stagnation counters -/
def react (xp : Vec d K) (tp : Target K) (j : Nat) : M c Unit (List Nat) Unit := do
  let s ← get
  let x ← draw (nth s.pop j)
  if compareTarget tp x.tgt c.P.mm then do
    let dist : K := sumL ((List.finRange d).map (fun k => (xp k - x.sol k) * (xp k - x.sol k)))
    let pos ← draw (correct (fun k => x.sol k + Num.exp (-dist) * (xp k - x.sol k)))
    let a ← liftB (agentOf (fun _ => pure ()) pos)
    setAt j a
    modExt (fun y => y.set j 0)
  else do
    modExt (fun y => y.set j (y.getD j 0 + 1))
    let s1 ← get
    if d * c.popSize ≤ s1.ext.getD j 0 then do
      let lf ← draw (levyVec 1.5 1 0)
      let pos ← draw (correct (fun k => x.sol k + lf k))
      let a ← liftB (agentOf (fun _ => pure ()) pos)
      setAt j a
      modExt (fun y => y.set j 0)
    else pure ()

/-- one archerfish (`mealpy/swarm_based/AHO.py:108-175`). The conditions of lines 117 and 146 exclude each other. -/
def step (p : Params K) (i : Nat) : M c Unit (List Nat) Unit := do
  let b ← draw (integers 0 2)
  let al ← draw random
  let th : K := (if b = 1 then -1 else 1) * al * Num.pi
  if (0 ≤ Num.abs th ∧ Num.abs th < p.theta) ∨ (Num.abs th > Num.pi - p.theta ∧ Num.abs th ≤ Num.pi) then do
    let k ← draw (index d)
    let s ← get
    let x ← draw (nth s.pop i)
    let e ← draw (uniformVec (fun _ => -0.5) (fun _ => 0.5))
    let xp ← draw (correct (fun j => x.sol j + (if j.val = k then p.omega * Num.sin (2 * th) else 0) + e j))
    let tp ← liftB (getTarget xp)
    iter c.popSize (fun j _ => react xp tp j) ()
  else if p.theta ≤ Num.abs th ∧ Num.abs th ≤ Num.pi - p.theta then do
    let u : K := p.omega * Num.sin (2 * th)
    let v : K := p.omega * (Num.sin th * Num.sin th)
    let sv ← draw (if 1 < d then do
        let (k1, k2) ← choose2 d
        pure (fun j : Fin d => if j.val = k2 then -v else if j.val = k1 then u else 0)
      else pure (fun _ => u - v) : D c (Vec d K))
    let s ← get
    let x ← draw (nth s.pop i)
    let e ← draw (uniformVec (fun _ => -0.5) (fun _ => 0.5))
    let xp ← draw (correct (fun j => x.sol j + sv j + e j))
    let tp ← liftB (getTarget xp)
    react xp tp i
  else pure ()

/-- `OriginalAHO.evolve` (`mealpy/swarm_based/AHO.py:101-175`), one agent after the other in every mode -/
def evolve (p : Params K) (ep : Nat) : M c Unit (List Nat) Unit := iter c.popSize (fun i _ => step p i) ()

theorem wt_react (hE : c.E.Lawful) (hP : c.P.Lawful) {xp : Vec d K} {tp : Target K} {j : Nat} (hj : j < c.popSize) :
    WT noErr (Inv.std c Unit JT) 0 1 (react xp tp j : M c Unit (List Nat) Unit) (fun _ => True) := by
  unfold react
  refine WT.bind0 WT.get fun s hs => ?_
  have hl : s.pop.length = c.popSize := hs.len
  refine WT.bind0 (WT.draw (DT.nth_mem (by omega))) fun x _ => WT.ite (fun _ => ?_) fun _ => ?_
  · refine WT.bind0 (WT.draw (DT.correct hP)) fun pos hp => WT.agentOf_std hp (DT.pure trivial) (by omega) fun a ha => ?_
    exact WT.bind0 (WT.setAt (by wsz) (Inv.std_ag ha)) fun _ _ => WT.weaken (WT.modExt fun _ _ => trivial) (by omega) (by omega)
  · refine WT.bind0 (WT.modExt fun _ _ => trivial) fun _ _ => WT.bind0 WT.get fun s1 _ => WT.ite (fun _ => ?_) fun _ => ?_
    · refine WT.bind0 (WT.draw DT.levyVec) fun lf _ => WT.bind0 (WT.draw (DT.correct hP)) fun pos hp => ?_
      refine WT.agentOf_std hp (DT.pure trivial) (by omega) fun a ha => ?_
      exact WT.bind0 (WT.setAt (by wsz) (Inv.std_ag ha)) fun _ _ => WT.weaken (WT.modExt fun _ _ => trivial) (by omega) (by omega)
    · exact WT.weaken (WT.pure trivial) (by omega) (by omega)

theorem framed_react {xp : Vec d K} {tp : Target K} {j : Nat} : Framed true (react xp tp j : M c Unit (List Nat) Unit) := by
  unfold react; framed

macro_rules
  | `(tactic| fprim) => `(tactic| (at_last OriginalAHO.react; exact OriginalAHO.framed_react))

theorem wt_step (hE : c.E.Lawful) (hP : c.P.Lawful) (hd : 0 < d) {p : Params K} {i : Nat} (hi : i < c.popSize) :
    WT noErr (Inv.std c Unit JT) 0 (c.popSize + 1) (step p i : M c Unit (List Nat) Unit) (fun _ => True) := by
  unfold step
  refine WT.bind0 (WT.draw (DT.integers hE (by omega))) fun b _ => WT.bind0 (WT.draw DT.random') fun al _ => WT.ite (fun _ => ?_) fun _ => WT.ite (fun _ => ?_) fun _ => ?_
  · refine WT.bind0 (WT.draw (DT.index hE hd)) fun k _ => WT.bind0 WT.get fun s hs => ?_
    have hl : s.pop.length = c.popSize := hs.len
    refine WT.bind0 (WT.draw (DT.nth_mem (by omega))) fun x _ => WT.bind0 (WT.draw DT.uniformVec') fun e _ => WT.bind0 (WT.draw (DT.correct hP)) fun xp hxp => ?_
    exact WT.bindS (WT.getTarget hxp) (by omega) fun tp _ => WT.iterU 0 1 (by omega) (by omega) fun j hj => wt_react hE hP hj
  · refine WT.bind0 (R := fun _ => True) (WT.draw (DT.ite (fun h => DT.bind (DT.choose2 hE (by omega)) fun q _ => ?_) fun _ => DT.pure trivial)) fun sv _ => WT.bind0 WT.get fun s hs => ?_
    · obtain ⟨k1, k2⟩ := q
      exact DT.pure trivial
    have hl : s.pop.length = c.popSize := hs.len
    refine WT.bind0 (WT.draw (DT.nth_mem (by omega))) fun x _ => WT.bind0 (WT.draw DT.uniformVec') fun e _ => WT.bind0 (WT.draw (DT.correct hP)) fun xp hxp => ?_
    exact WT.bindS (WT.getTarget hxp) (by omega) fun tp _ => WT.weaken (wt_react hE hP hi) (by omega) (by omega)
  · exact WT.weaken (WT.pure trivial) (by omega) (by omega)

theorem framed_step {p : Params K} {i : Nat} : Framed true (step p i : M c Unit (List Nat) Unit) := by
  unfold step; framed

macro_rules
  | `(tactic| fprim) => `(tactic| (at_last OriginalAHO.step; exact OriginalAHO.framed_step))

/-- `OriginalAHO` (`mealpy/swarm_based/AHO.py:14-175`) -/
def algo (p : Params K) : Algo c Unit (List Nat) := Algo.full false (fun _ => pure ()) (pure (List.replicate c.popSize 0)) (evolve p)

theorem wok (hE : c.E.Lawful) (hP : c.P.Lawful) (hc : Accepted c 5) (p : Params K) (hd : 0 < d) :
    (algo p : Algo c Unit (List Nat)).WOk noErr (Inv.std c Unit JT) JT JT c.popSize c.popSize 0 0 0 (c.popSize * (c.popSize + 1)) := by
  wfullalg hE hP hc evolve
  exact WT.iterU 0 (c.popSize + 1) (by omega) le_rfl fun i hi => wt_step hE hP hd hi

theorem framed (hE : c.E.Lawful) (p : Params K) (ep : Nat) : Framed true (evolve p ep : M c Unit (List Nat) Unit) := by
  unfold evolve; framed

end OriginalAHO
