import Verif.Alg.Kit9

/-! # Simple optimizers, part 8

`AO.py`, `ARO.py`, `BES.py`, `MVO.py`, `KOA.py`, `SMA.py`, `SBO.py`, `FOX.py`, `DandelionO.py`, `INFO.py`, `TLO.py`, `ALO.py`, `BBO.py`,
`NMRA.py` -/

set_option linter.unusedSectionVars false
set_option linter.unusedVariables false

namespace Mealpy
open Spec

variable {d : Nat} {K : Type} [Num K] {c : Cfg d K}
namespace OriginalAO

/-- the two spirals (`mealpy/swarm_based/AO.py:73-81`) -/
def spiral (sine : Bool) : Vec d K := fun j =>
  let r : K := 10 + 0.00565 * ♯(j.val + 1)
  let phi : K := -(0.005) * ♯(j.val + 1) + 3 * Num.pi / 2
  if sine then r * Num.sin phi else r * Num.cos phi

/-- `QF` (`mealpy/swarm_based/AO.py:82`): with a single epoch the exponent divides the float by the integer zero, which raises
`ZeroDivisionError` -/
def quality (ep : Nat) : D c K := do
  let r ← random
  if c.epoch = 1 then dthrow .zeroDiv
  else pure (Num.pow ♯ep ((2 * r - 1) / ((1 - ♯c.epoch) * (1 - ♯c.epoch))))

/-- one agent (`mealpy/swarm_based/AO.py:85-100`); `expand` is the test of the exploration phase -/
def move (ep : Nat) (g1 g2 qf : K) (expand : D c Bool) (s : St c Unit Unit) (idx : Nat) : D c (Nat × (Vec d K × Unit)) := do
  let g := s.gbest.sol
  let mean : Vec d K := meanPos (s.pop.map Agent.sol)
  let lf ← levy 1.5 1 (-1)
  let e ← expand
  let u ← random
  if e then
    if u < 0.5 then do
      let r ← random
      let pos ← correct (fun j => g j * (1 - ♯ep / ♯c.epoch) + r * (mean j - g j))
      pure (idx, (pos, ()))
    else do
      let k ← pickWithout c.popSize [idx]
      let x ← nth s.pop k
      let r ← random
      let pos ← correct (fun j => g j * lf + x.sol j + r * (spiral false j - spiral true j))
      pure (k, (pos, ()))
  else
    if u < 0.5 then do
      let r1 ← random
      let r2 ← random
      let pos ← correct (fun j => 0.1 * (g j - mean j) - r1 * (r2 * (c.P.ub j - c.P.lb j) + c.P.lb j) * 0.1)
      pure (idx, (pos, ()))
    else do
      let x ← nth s.pop idx
      let r1 ← random
      let r2 ← random
      let pos ← correct (fun j => qf * g j - g2 * x.sol j * r1 - g2 * lf + r2 * g1)
      pure (idx, (pos, ()))

/-- `OriginalAO.evolve` (`mealpy/swarm_based/AO.py:63-108`) -/
def evolve (ep : Nat) : M c Unit Unit Unit := do
  let u ← draw random
  let qf ← draw (quality ep)
  greedyLoopAt c.popSize (move ep (2 * u - 1) (2 * (1 - ♯ep / ♯c.epoch)) qf (pure (decide ((♯ep : K) ≤ (2 / 3) * ♯c.epoch))))

theorem dt_quality {Er : Err → Prop} (he : 1 < c.epoch) {ep : Nat} : DT Er (quality ep : D c K) (fun _ => True) := by
  unfold quality
  refine DT.bind DT.random' fun r _ => ?_
  rw [if_neg (by omega)]
  exact DT.pure trivial

theorem dt_move {Er : Err → Prop} (hE : c.E.Lawful) (hP : c.P.Lawful) {ep : Nat} {g1 g2 qf : K} {expand : D c Bool}
    (hx : DT Er expand (fun _ => True)) {s : St c Unit Unit} {idx : Nat} (h2 : 2 ≤ c.popSize) (hl : s.pop.length = c.popSize)
    (hi : idx < c.popSize) :
    DT Er (move ep g1 g2 qf expand s idx : D c (Nat × (Vec d K × Unit))) (fun q => q.1 < c.popSize ∧ MkOk (FA c) c q.2) := by
  unfold move
  refine DT.bind DT.levy fun lf _ => DT.bind hx fun e _ => DT.bind DT.random' fun u _ => DT.ite (fun _ => DT.ite (fun _ => ?_) fun _ => ?_)
    fun _ => DT.ite (fun _ => ?_) fun _ => ?_
  · exact DT.bind DT.random' fun r _ => DT.bind (DT.correct hP) fun pos hp => DT.pure ⟨hi, FA.mkOk hp⟩
  · refine DT.bind (DT.pickOne hE h2) fun k hk => DT.bind (DT.nth_mem (by omega)) fun x _ => ?_
    exact DT.bind DT.random' fun r _ => DT.bind (DT.correct hP) fun pos hp => DT.pure ⟨hk, FA.mkOk hp⟩
  · exact DT.bind DT.random' fun r1 _ => DT.bind DT.random' fun r2 _ => DT.bind (DT.correct hP) fun pos hp => DT.pure ⟨hi, FA.mkOk hp⟩
  · refine DT.bind (DT.nth_mem (by omega)) fun x _ => DT.bind DT.random' fun r1 _ => DT.bind DT.random' fun r2 _ => ?_
    exact DT.bind (DT.correct hP) fun pos hp => DT.pure ⟨hi, FA.mkOk hp⟩

/-- `OriginalAO` (`mealpy/swarm_based/AO.py:12-108`) -/
def algo : Algo c Unit Unit := Algo.plain false evolve

theorem ok (hE : c.E.Lawful) (hP : c.P.Lawful) (hc : Accepted c 5) (he : 1 < c.epoch) :
    (algo : Algo c Unit Unit).Ok (FA c) JT JT JT c.popSize c.popSize c.popSize := by
  plainalg hE hP hc evolve
  refine IT.pt (IT.bind0 (IT.draw DT.random') fun u _ => IT.bind0 (IT.draw (dt_quality he)) fun qf _ => ?_)
  exact IT.greedyLoopAt hE fun s i hs hl hi => dt_move hE hP (DT.pure trivial) (by omega) hl hi

theorem framed (hE : c.E.Lawful) (ep : Nat) : Framed true (evolve ep : M c Unit Unit Unit) := by
  unfold evolve; framed

end OriginalAO

namespace AAO

/-- the parameters (`mealpy/swarm_based/AO.py:160-161`) -/
structure Params (K : Type) where
  sharpness : K
  midpoint : K

/-- the exploration test (`mealpy/swarm_based/AO.py:193-195`) -/
def expand (p : Params K) (ep : Nat) : D c Bool := do
  let r ← random
  pure (decide (r ≤ 1 - 1 / (1 + Num.exp (-p.sharpness * (♯ep / ♯c.epoch - p.midpoint)))))

/-- `AAO.evolve` (`mealpy/swarm_based/AO.py:165-217`): the moves are those of `OriginalAO`. The range of `sharpness` lets `np.exp` overflow to
infinity, which is no error. -/
def evolve (p : Params K) (ep : Nat) : M c Unit Unit Unit := do
  let u ← draw random
  let qf ← draw (OriginalAO.quality ep)
  greedyLoopAt c.popSize (OriginalAO.move ep (2 * u - 1) (2 * (1 - ♯ep / ♯c.epoch)) qf (expand p ep))

/-- `AAO` (`mealpy/swarm_based/AO.py:111-217`) -/
def algo (p : Params K) : Algo c Unit Unit := Algo.plain false (evolve p)

theorem ok (hE : c.E.Lawful) (hP : c.P.Lawful) (hc : Accepted c 5) (p : Params K) (he : 1 < c.epoch) :
    (algo p : Algo c Unit Unit).Ok (FA c) JT JT JT c.popSize c.popSize c.popSize := by
  plainalg hE hP hc evolve
  refine IT.pt (IT.bind0 (IT.draw DT.random') fun u _ => IT.bind0 (IT.draw (OriginalAO.dt_quality he)) fun qf _ => ?_)
  exact IT.greedyLoopAt hE fun s i hs hl hi => OriginalAO.dt_move hE hP (DT.bind DT.random' fun _ _ => DT.pure trivial) (by omega) hl hi

theorem framed (hE : c.E.Lawful) (p : Params K) (ep : Nat) : Framed true (evolve p ep : M c Unit Unit Unit) := by
  unfold evolve; framed

end AAO

namespace OriginalARO

/-- a random set of dimensions (`mealpy/swarm_based/ARO.py:74,84`): `int(np.ceil(r * n_dims))` is at most `n_dims` -/
def mask : D c (List Nat) := do
  let u ← random
  subset d (Num.ceil (u * ♯d : K)).toNat

/-- one agent (`mealpy/swarm_based/ARO.py:72-89`); `theta` and the factor of the hiding place differ between the variants -/
def move (ep : Nat) (theta : K) (factor : D c (Vec d K)) (s : St c Unit Unit) (idx : Nat) : D c (Vec d K × Unit) := do
  let u ← random
  let l : K := (Num.exp 1 - Num.exp ((♯ep / ♯c.epoch) * (♯ep / ♯c.epoch))) * Num.sin (2 * Num.pi * u)
  let m1 ← mask
  let r : Vec d K := fun j => if j.val ∈ m1 then l else 0
  let v ← random
  let x ← nth s.pop idx
  if 2 * Num.log (1 / v) * theta > 1 then do
    let k ← index c.popSize
    let y ← nth s.pop k
    let w ← random
    let z ← normal 0 1
    let pos ← correct (fun j => y.sol j + r j * (x.sol j - y.sol j) + Num.ufunc "round" (0.5 * (0.05 + w)) * z)
    pure (pos, ())
  else do
    let m2 ← mask
    let z ← normal 0 1
    let h : K := z * (♯ep / ♯c.epoch)
    let f ← factor
    let pos ← correct (fun j => x.sol j + r j * (f j * (x.sol j + h * (if j.val ∈ m2 then 1 else 0) * x.sol j) - x.sol j))
    pure (pos, ())

/-- one random factor for all dimensions -/
def same : D c (Vec d K) := do
  let r ← random
  pure (fun _ => r)

/-- `OriginalARO.evolve` (`mealpy/swarm_based/ARO.py:62-97`) -/
def evolve (ep : Nat) : M c Unit Unit Unit :=
  greedyLoop c.popSize (move ep (2 * (1 - ♯ep / ♯c.epoch)) same)

theorem dt_mask {Er : Err → Prop} (hE : c.E.Lawful) (hd : 0 < d) : DT Er (mask : D c (List Nat)) (fun _ => True) := by
  unfold mask
  exact DT.bind DT.random' fun u _ => DT.mono (DT.subset hE hd) fun _ _ => trivial

theorem dt_move {Er : Err → Prop} (hE : c.E.Lawful) (hP : c.P.Lawful) (hd : 0 < d) {ep : Nat} {theta : K} {factor : D c (Vec d K)}
    (hf : DT Er factor (fun _ => True)) {s : St c Unit Unit} {idx : Nat} (h0 : 0 < c.popSize) (hl : s.pop.length = c.popSize)
    (hi : idx < c.popSize) : DT Er (move ep theta factor s idx : D c (Vec d K × Unit)) (MkOk (FA c) c) := by
  unfold move
  refine DT.bind DT.random' fun u _ => DT.bind (dt_mask hE hd) fun m1 _ => DT.bind DT.random' fun v _ => ?_
  refine DT.bind (DT.nth_mem (by omega)) fun x _ => DT.ite (fun _ => ?_) fun _ => ?_
  · refine DT.bind (DT.index hE h0) fun k hk => DT.bind (DT.nth_mem (by omega)) fun y _ => ?_
    exact DT.bind DT.random' fun w _ => DT.bind DT.normal fun z _ => DT.bind (DT.correct hP) fun pos hp => DT.pure (FA.mkOk hp)
  · refine DT.bind (dt_mask hE hd) fun m2 _ => DT.bind DT.normal fun z _ => DT.bind hf fun f _ => ?_
    exact DT.bind (DT.correct hP) fun pos hp => DT.pure (FA.mkOk hp)

theorem dt_same {Er : Err → Prop} : DT Er (same : D c (Vec d K)) (fun _ => True) := by
  unfold same; exact DT.bind DT.random' fun _ _ => DT.pure trivial

/-- `OriginalARO` (`mealpy/swarm_based/ARO.py:12-97`) -/
def algo : Algo c Unit Unit := Algo.plain false evolve

theorem ok (hE : c.E.Lawful) (hP : c.P.Lawful) (hc : Accepted c 5) (hd : 0 < d) :
    (algo : Algo c Unit Unit).Ok (FA c) JT JT JT c.popSize c.popSize c.popSize := by
  plainalg hE hP hc evolve
  exact IT.pt (IT.greedyLoop hE fun s i hs hl hi => dt_move hE hP hd dt_same (by omega) hl hi)

theorem framed (hE : c.E.Lawful) (ep : Nat) : Framed true (evolve ep : M c Unit Unit Unit) := by
  unfold evolve; framed

end OriginalARO

namespace LARO

/-- the opposite of an agent is tried (`mealpy/swarm_based/ARO.py:186-201`). The division may be by zero, which numpy turns into a warning. -/
def oppose (ep : Nat) (i : Nat) : M c Unit Unit Unit := do
  let s ← get
  let x ← draw (nth s.pop i)
  let ts : K := 2 - 2 * ♯ep / ♯c.epoch
  if x.fit ≠ s.gbest.fit then
    let dd : List K := List.ofFn fun j => Num.abs (s.gbest.sol j - x.sol j)
    let far := dd.filter (fun a => decide (Num.sign (a - ts) < 0))
    let close := dd.filter (fun a => decide (0 < Num.sign (a - ts)))
    let src : K := 1 - 6 * sumL (dd.map (fun a => a * a)) / sumL (dd.map (fun a => a * (a * a - 1)))
    let b := if far.length = 0 then (minL dd, maxL dd) else (minL far, maxL far)
    if src ≤ 0 ∧ close.length < far.length then do
      let pos ← draw (correct (fun j => b.1 + b.2 - x.sol j))
      let _ ← tryUpd i pos
      pure ()
    else pure ()
  else pure ()

/-- `LARO.evolve` (`mealpy/swarm_based/ARO.py:146-201`) -/
def evolve (ep : Nat) : M c Unit Unit Unit := do
  greedyLoop c.popSize (OriginalARO.move ep (2 * (1 - (♯ep + 1) / ♯c.epoch)) (do
    let f ← levy 1.5 0.1 0
    pure (fun _ => f)))
  iter c.popSize (fun i _ => oppose ep i) ()

theorem it_oppose (hP : c.P.Lawful) {ep i : Nat} (hi : i < c.popSize) :
    IT (FA c) JT 0 1 (oppose ep i : M c Unit Unit Unit) (fun _ => True) := by
  unfold oppose
  refine IT.bind0 IT.get fun s hs => IT.bind0 (IT.draw (DT.nth_mem (by have := hs.len; omega))) fun x _ => ?_
  refine IT.iteS (fun _ => IT.iteS (fun _ => ?_) fun _ => ?_) fun _ => ?_
  · refine IT.bind0 (IT.draw (DT.correct hP)) fun pos hp => ?_
    refine IT.bindS (IT.tryUpd hi hp fun a ha => ?_) (by omega) fun _ _ => IT.weaken (IT.pure trivial) (by omega) (by omega)
    exact hp
  · exact IT.weaken (IT.pure trivial) (by omega) (by omega)
  · exact IT.weaken (IT.pure trivial) (by omega) (by omega)

theorem framed_oppose {ep i : Nat} : Framed true (oppose ep i : M c Unit Unit Unit) := by
  unfold oppose; framed

macro_rules
  | `(tactic| fprim) => `(tactic| (at_last LARO.oppose; exact LARO.framed_oppose))

/-- `LARO` (`mealpy/swarm_based/ARO.py:100-201`) -/
def algo : Algo c Unit Unit := Algo.plain false evolve

theorem ok (hE : c.E.Lawful) (hP : c.P.Lawful) (hc : Accepted c 5) (hd : 0 < d) :
    (algo : Algo c Unit Unit).Ok (FA c) JT JT JT c.popSize c.popSize (c.popSize + c.popSize) := by
  plainalg hE hP hc evolve
  refine IT.pt (IT.bindS (IT.greedyLoop hE fun s i hs hl hi => OriginalARO.dt_move hE hP hd ?_ (by omega) hl hi) (by omega) fun _ _ => ?_)
  · exact DT.bind DT.levy fun _ _ => DT.pure trivial
  · exact IT.iterS 0 1 (by omega) (by omega) fun i hi => it_oppose hP hi

theorem framed (hE : c.E.Lawful) (ep : Nat) : Framed true (evolve ep : M c Unit Unit Unit) := by
  unfold evolve; framed

end LARO

namespace IARO

/-- `IARO.evolve` (`mealpy/swarm_based/ARO.py:244-279`) -/
def evolve (ep : Nat) : M c Unit Unit Unit :=
  greedyLoop c.popSize (OriginalARO.move ep (2 * (1 - (♯ep + 1) / ♯c.epoch)) OriginalARO.same)

/-- `IARO` (`mealpy/swarm_based/ARO.py:204-279`) -/
def algo : Algo c Unit Unit := Algo.plain false evolve

theorem ok (hE : c.E.Lawful) (hP : c.P.Lawful) (hc : Accepted c 5) (hd : 0 < d) :
    (algo : Algo c Unit Unit).Ok (FA c) JT JT JT c.popSize c.popSize c.popSize := by
  plainalg hE hP hc evolve
  exact IT.pt (IT.greedyLoop hE fun s i hs hl hi => OriginalARO.dt_move hE hP hd OriginalARO.dt_same (by omega) hl hi)

theorem framed (hE : c.E.Lawful) (ep : Nat) : Framed true (evolve ep : M c Unit Unit Unit) := by
  unfold evolve; framed

end IARO

namespace OriginalBES

/-- the parameters (`mealpy/swarm_based/BES.py:76-80`) -/
structure Params (K : Type) where
  a : K
  r : K
  alpha : K
  c1 : K
  c2 : K

/-- the four lists of `create_x_y_x1_y1__` (`mealpy/swarm_based/BES.py:84-97`) -/
def swoop (p : Params K) : D c ((List K × List K) × (List K × List K)) := do
  let u ← repM c.popSize (fun _ => uniform 0 1)
  let v ← repM c.popSize (fun _ => uniform 0 1)
  let w ← repM c.popSize (fun _ => uniform 0 1)
  let phi := u.map (fun x => p.a * Num.pi * x)
  let r := List.zipWith (fun x y => x + p.r * y) phi v
  let xr := List.zipWith (fun x y => x * Num.sin y) r phi
  let yr := List.zipWith (fun x y => x * Num.cos y) r phi
  let r1 := w.map (fun x => p.a * Num.pi * x)
  let xr1 := r1.map (fun x => x * Num.ufunc "sinh" x)
  let yr1 := r1.map (fun x => x * Num.ufunc "cosh" x)
  let nor := fun l : List K => l.map (fun x => x / maxL l)
  pure ((nor xr, nor yr), (nor xr1, nor yr1))

/-- `OriginalBES.evolve` (`mealpy/swarm_based/BES.py:99-160`) -/
def evolve (p : Params K) (ep : Nat) : M c Unit Unit Unit := do
  let q ← draw (swoop p)
  let s0 ← get
  let m0 : Vec d K := meanPos (s0.pop.map Agent.sol)
  greedyLoop c.popSize (fun s idx => do
    let x ← nth s.pop idx
    let u ← uniform 0 1
    let pos ← correct (fun j => s.gbest.sol j + p.alpha * u * (m0 j - x.sol j))
    pure (pos, ()))
  let s1 ← get
  let m1 : Vec d K := meanPos (s1.pop.map Agent.sol)
  greedyLoop c.popSize (fun s idx => do
    let k ← pickWithout c.popSize [idx]
    let x ← nth s.pop idx
    let y ← nth s.pop k
    let pos ← correct (fun j => x.sol j + q.1.2.getD idx 0 * (x.sol j - y.sol j) + q.1.1.getD idx 0 * (x.sol j - m1 j))
    pure (pos, ()))
  let s2 ← get
  let m2 : Vec d K := meanPos (s2.pop.map Agent.sol)
  greedyLoop c.popSize (fun s idx => do
    let x ← nth s.pop idx
    let u ← uniform 0 1
    let pos ← correct (fun j => u * s.gbest.sol j + q.2.1.getD idx 0 * (x.sol j - p.c1 * m2 j) +
      q.2.2.getD idx 0 * (x.sol j - p.c2 * s.gbest.sol j))
    pure (pos, ()))

theorem dt_swoop {Er : Err → Prop} {p : Params K} : DT Er (swoop p : D c _) (fun _ => True) := by
  unfold swoop
  exact DT.bind (DT.repMT fun _ _ => DT.uniform') fun _ _ => DT.bind (DT.repMT fun _ _ => DT.uniform') fun _ _ =>
    DT.bind (DT.repMT fun _ _ => DT.uniform') fun _ _ => DT.pure trivial

/-- `OriginalBES` (`mealpy/swarm_based/BES.py:12-160`) -/
def algo (p : Params K) : Algo c Unit Unit := Algo.plain false (evolve p)

theorem ok (hE : c.E.Lawful) (hP : c.P.Lawful) (hc : Accepted c 5) (p : Params K) :
    (algo p : Algo c Unit Unit).Ok (FA c) JT JT JT c.popSize (c.popSize * 3) (c.popSize * 3) := by
  plainalg hE hP hc evolve
  refine IT.pt (IT.bind0 (IT.draw dt_swoop) fun q _ => IT.bind0 IT.get fun s0 _ => ?_)
  refine IT.bindS (IT.greedyLoop hE fun s i hs hl hi => ?_) (by omega) fun _ _ => IT.bind0 IT.get fun s1 _ => ?_
  · dgo
  refine IT.bindS (IT.greedyLoop hE fun s i hs hl hi => ?_) (by omega) fun _ _ => IT.bind0 IT.get fun s2 _ => ?_
  · dgo
  refine IT.weaken (IT.greedyLoop hE fun s i hs hl hi => ?_) (by omega) (by omega)
  dgo

theorem framed (hE : c.E.Lawful) (p : Params K) (ep : Nat) : Framed true (evolve p ep : M c Unit Unit Unit) := by
  unfold evolve; framed

end OriginalBES

namespace DevMVO

/-- the parameters (`mealpy/physics_based/MVO.py:71-72`) -/
structure Params (K : Type) where
  wepMin : K
  wepMax : K

/-- `DevMVO.evolve` (`mealpy/physics_based/MVO.py:76-106`) -/
def evolve (p : Params K) (ep : Nat) : M c Unit Unit Unit :=
  let wep : K := p.wepMax - ♯ep * ((p.wepMax - p.wepMin) / ♯c.epoch)
  let tdr : K := 1 - Num.pow ♯ep (1 / 6) / Num.pow ♯c.epoch (1 / 6)
  greedyLoop c.popSize (fun s idx => do
    let g := s.gbest.sol
    let u ← uniform 0 1
    if u < wep then do
      let w ← rouletteIdx (s.pop.map Agent.fit)
      let x ← nth s.pop idx
      let y ← nth s.pop w
      let z1 ← normal 0 1
      let z2 ← normal 0 1
      let r ← randomVec
      let pos ← correct (fun j => if r j < 0.5 then x.sol j + tdr * z1 * (y.sol j - x.sol j) else g j + tdr * z2 * (g j - x.sol j))
      pure (pos, ())
    else do
      let x ← genSolution
      let pos ← correct x
      pure (pos, ()))

/-- `DevMVO` (`mealpy/physics_based/MVO.py:12-106`) -/
def algo (p : Params K) : Algo c Unit Unit := Algo.plain true (evolve p)

theorem ok (hE : c.E.Lawful) (hP : c.P.Lawful) (hc : Accepted c 5) (p : Params K) :
    (algo p : Algo c Unit Unit).Ok (FA c) JT JT JT c.popSize c.popSize c.popSize := by
  plainalg hE hP hc evolve
  iauto

theorem framed (hE : c.E.Lawful) (p : Params K) (ep : Nat) : Framed true (evolve p ep : M c Unit Unit Unit) := by
  unfold evolve; framed

end DevMVO

namespace OriginalMVO

/-- `roulette_wheel_selection__(-fits)` with `None` turned into 0 (`mealpy/physics_based/MVO.py:168-176,216-218`) -/
def wheel (fits : List K) : D c Nat := do
  let acc := cumsum (fits.map (fun f => -f))
  let u ← uniform 0 1
  pure ((firstAbove acc (u * acc.getLast?.getD 0)).getD 0)

/-- `list_fitness_normalized` (`mealpy/physics_based/MVO.py:178-190,203-209`): `normalize__` subtracts the minimum along the axis of length one,
which leaves zeros, so it always returns fresh random numbers -/
def rates (fits : List K) : D c (List K) :=
  if maxL fits > 18446744073709551615 then repM c.popSize (fun _ => uniform 0 0.1) else repM c.popSize (fun _ => uniform 0.2 0.8)

/-- one coordinate (`mealpy/physics_based/MVO.py:214-228`) -/
def coord (wep tdr rate : K) (fits : List K) (pop : List (Agent d K Unit)) (x g : Vec d K) (j : Fin d) : D c K := do
  let r1 ← uniform 0 1
  let y ← (if r1 < rate then do
      let w ← wheel fits
      let a ← nth pop w
      pure (a.sol j)
    else pure (x j) : D c K)
  let r2 ← uniform 0 1
  if r2 < wep then do
    let r3 ← uniform 0 1
    let u ← uniform (c.P.lb j) (c.P.ub j)
    pure (if r3 < 0.5 then g j + tdr * u else g j - tdr * u)
  else pure y

/-- `OriginalMVO.evolve` (`mealpy/physics_based/MVO.py:192-237`) -/
def evolve (p : DevMVO.Params K) (ep : Nat) : M c Unit Unit Unit := do
  let wep : K := p.wepMin + ♯ep * ((p.wepMax - p.wepMin) / ♯c.epoch)
  let tdr : K := 1 - Num.pow ♯ep (1 / 6) / Num.pow ♯c.epoch (1 / 6)
  let s0 ← get
  let fits := s0.pop.map Agent.fit
  let rs ← draw (rates fits)
  greedyLoop c.popSize (fun s idx => do
    let x ← nth s.pop idx
    let y ← vecM (coord wep tdr (rs.getD idx 0) fits s.pop x.sol s.gbest.sol)
    let pos ← correct y
    pure (pos, ()))

theorem cumsum_length (l : List K) : (cumsum l).length = l.length := by simp [cumsum]

theorem dt_wheel {Er : Err → Prop} {fits : List K} (h : 0 < fits.length) : DT Er (wheel fits : D c Nat) (fun i => i < fits.length) := by
  unfold wheel
  refine DT.bind DT.uniform' fun u _ => DT.pure ?_
  cases hf : firstAbove (cumsum (fits.map (fun f => -f))) (u * (cumsum (fits.map (fun f => -f))).getLast?.getD 0) with
  | none => exact h
  | some i =>
    have := firstAbove_lt hf
    rw [cumsum_length, List.length_map] at this
    exact this

theorem dt_coord {Er : Err → Prop} {wep tdr rate : K} {fits : List K} {pop : List (Agent d K Unit)} {x g : Vec d K} {j : Fin d}
    (h : 0 < fits.length) (hl : fits.length = pop.length) : DT Er (coord wep tdr rate fits pop x g j : D c K) (fun _ => True) := by
  unfold coord
  refine DT.bind DT.uniform' fun r1 _ => DT.bind (R := fun _ => True) (DT.ite (fun _ => ?_) fun _ => DT.pure trivial) fun y _ => ?_
  · exact DT.bind (dt_wheel h) fun w hw => DT.bind (DT.nth_mem (by omega)) fun a _ => DT.pure trivial
  · refine DT.bind DT.uniform' fun r2 _ => DT.ite (fun _ => ?_) fun _ => DT.pure trivial
    exact DT.bind DT.uniform' fun _ _ => DT.bind DT.uniform' fun _ _ => DT.pure trivial

/-- `OriginalMVO` (`mealpy/physics_based/MVO.py:109-237`) -/
def algo (p : DevMVO.Params K) : Algo c Unit Unit := Algo.plain true (evolve p)

theorem ok (hE : c.E.Lawful) (hP : c.P.Lawful) (hc : Accepted c 5) (p : DevMVO.Params K) :
    (algo p : Algo c Unit Unit).Ok (FA c) JT JT JT c.popSize c.popSize c.popSize := by
  plainalg hE hP hc evolve
  refine IT.pt (IT.bind0 IT.get fun s0 hs0 => IT.bind0 (IT.draw (R := fun _ => True) ?_) fun rs _ => IT.greedyLoop hE fun s i hs hl hi => ?_)
  · unfold rates
    exact DT.ite (fun _ => DT.mono (DT.repMT fun _ _ => DT.uniform') fun _ _ => trivial) fun _ => DT.mono (DT.repMT fun _ _ => DT.uniform') fun _ _ => trivial
  · have h1 := hs0.len
    refine DT.bind (DT.nth_mem (by omega)) fun x _ => DT.bind (DT.vecMT fun j => dt_coord ?_ ?_) fun y _ => ?_
    · rw [List.length_map]; omega
    · rw [List.length_map]; omega
    · exact DT.bind (DT.correct hP) fun pos hp => DT.pure (FA.mkOk hp)

theorem framed (hE : c.E.Lawful) (p : DevMVO.Params K) (ep : Nat) : Framed true (evolve p ep : M c Unit Unit Unit) := by
  unfold evolve; framed

end OriginalMVO

namespace OriginalKOA

/-- the parameters (`mealpy/physics_based/KOA.py:67-69`) -/
structure Params (K : Type) where
  tc : Nat
  lamda : K
  mu0 : K

/-- `orbital`, `period` (`mealpy/physics_based/KOA.py:73-77`); `velocities` is written and never read, so it is left out -/
structure Ext (K : Type) where
  orbital : List K
  period : List K

/-- `initialize_variables` (`mealpy/physics_based/KOA.py:73-77`) -/
def init : D c (Ext K) := do
  let o ← repM c.popSize (fun _ => random)
  let p ← repM c.popSize (fun _ => normal 0 1)
  pure ⟨o, p.map Num.abs⟩

/-- the quantities computed once per epoch: `R`, `MS`, `m`, `Rnorm`, `Fg`, `a1` and the gravitational constant (`mealpy/physics_based/KOA.py:86-126`) -/
structure Orbit (K : Type) where
  r : List K
  ms : List K
  m : List K
  rn : List K
  fg : List K
  a1 : List K
  mu : K

/-- as above -/
def orbit (p : Params K) (ep : Nat) (s : St c Unit (Ext K)) : D c (Orbit K) := do
  let e : K := Num.EPSILON
  let fits := s.pop.map Agent.fit
  let worst : K := match c.P.mm with
    | .min => maxL fits
    | .max => minL fits
  let mu : K := p.mu0 * Num.exp (-p.lamda * ((♯ep - 1) * ♯c.popSize / (♯c.epoch * ♯c.popSize)))
  let r := s.pop.map (fun a => normV (fun j => s.gbest.sol j - a.sol j))
  let deltas := fits.map (fun f => f - worst)
  let total : K := if Num.abs (sumL deltas) ≤ 0.00000001 then Num.EPSILON else sumL deltas
  let u ← repM c.popSize (fun _ => random)
  let ms := u.map (fun x => x * (s.gbest.fit - worst) / total)
  let m := deltas.map (fun x => x / total)
  let nor := fun l : List K => l.map (fun x => (x - minL l) / (maxL l - minL l + e))
  let v ← repM c.popSize (fun _ => random)
  let fg := List.zipWith (fun x y => x + y) (List.zipWith (fun o t => o * mu * t) s.ext.orbital
    (List.zipWith (fun t x => t / (x * x + e)) (List.zipWith (fun x y => x * y) (nor ms) (nor m)) (nor r))) v
  let w ← repM c.popSize (fun _ => random)
  let mass := List.zipWith (fun x y => mu * (x + y) / (4 * Num.pi * Num.pi)) ms m
  let a1 := List.zipWith (fun x y => x * y) w (List.zipWith (fun t x => Num.ufunc "cbrt" (t * t * x)) s.ext.period mass)
  pure ⟨r, ms, m, nor r, fg, a1, mu⟩

/-- one planet (`mealpy/physics_based/KOA.py:130-174`) -/
def move (p : Params K) (ep : Nat) (o : Orbit K) (sun : Vec d K) (pop : List (Agent d K Unit)) (idx : Nat) : D c (Vec d K × Unit) := do
  let e : K := Num.EPSILON
  let span : K := ♯c.epoch * ♯c.popSize / ♯p.tc
  let a2 : K := -1 - Num.mod ((♯ep - 1) * ♯c.popSize + ♯idx) span / span
  let u ← random
  let n : K := (a2 - 1) * u + 1
  let a ← index c.popSize
  let b ← index c.popSize
  let xa ← nth pop a
  let xb ← nth pop b
  let x ← nth pop idx
  let rd ← randomVec
  let r ← random
  let q1 ← random
  let q2 ← random
  if q1 < q2 then do
    let z ← normal 0 1
    let h : K := 1 / Num.exp (n * z)
    let pos ← correct (fun j =>
      let xm : K := (xb.sol j + sun j + x.sol j) / 3
      if rd j < r then x.sol j else xm + h * (xm - xa.sol j))
    pure (pos, ())
  else do
    let f1 ← random
    let f : K := if f1 < 0.5 then 1 else -1
    let l : K := Num.sqrt (o.mu * (o.ms.getD idx 0 + o.m.getD idx 0) * Num.abs (2 / (o.r.getD idx 0 + e) - 1 / (o.a1.getD idx 0 + e)))
    let ru ← randomVec
    let rn := o.rn.getD idx 0
    let v ← if rn < 0.5 then do
        let t1 ← random
        let t2 ← randomVec
        let t3 ← random
        let t4 ← randomVec
        pure (fun j : Fin d =>
          let up : Bool := decide (ru j < rd j)
          (if up then l * (t1 * (1 - r) + r) else 0) * (2 * t3 * x.sol j - xa.sol j) +
          (if up then 0 else l * (t2 j * (1 - rd j) + rd j)) * (xb.sol j - xa.sol j) +
          (1 - rn) * f * (if rd j < r then 1 else 0) * t4 j * (c.P.ub j - c.P.lb j))
      else do
        let t1 ← random
        let t2 ← random
        let t3 ← random
        let t4 ← randomVec
        let t5 ← random
        pure (fun j : Fin d => t3 * l * (xa.sol j - x.sol j) +
          (1 - rn) * f * (if t2 < t1 then 1 else 0) * t4 j * (t5 * c.P.ub j - c.P.lb j))
    let f2 ← random
    let z ← normal 0 1
    let pos ← correct (fun j => x.sol j + v j * (if f2 < 0.5 then 1 else -1) +
      (o.fg.getD idx 0 + Num.abs z) * (if ru j < rd j then 1 else 0) * (sun j - x.sol j))
    pure (pos, ())

/-- `OriginalKOA.evolve` (`mealpy/physics_based/KOA.py:79-184`): positions are read from the population at the start of the epoch -/
def evolve (p : Params K) (ep : Nat) : M c Unit (Ext K) Unit := do
  let s0 ← get
  let o ← draw (orbit p ep s0)
  greedyLoop c.popSize (fun _ idx => move p ep o s0.gbest.sol s0.pop idx)

theorem dt_orbit {Er : Err → Prop} {p : Params K} {ep : Nat} {s : St c Unit (Ext K)} : DT Er (orbit p ep s : D c _) (fun _ => True) := by
  unfold orbit
  exact DT.bind (DT.repMT fun _ _ => DT.random') fun _ _ => DT.bind (DT.repMT fun _ _ => DT.random') fun _ _ =>
    DT.bind (DT.repMT fun _ _ => DT.random') fun _ _ => DT.pure trivial

/-- `OriginalKOA` (`mealpy/physics_based/KOA.py:10-184`) -/
def algo (p : Params K) : Algo c Unit (Ext K) := Algo.full false (fun _ => pure ()) init (evolve p)

theorem ok (hE : c.E.Lawful) (hP : c.P.Lawful) (hc : Accepted c 5) (p : Params K) :
    (algo p : Algo c Unit (Ext K)).Ok (FA c) JT JT JT c.popSize c.popSize c.popSize := by
  have hpop := hc.pop
  unfold algo
  refine Algo.full_ok hE hP (fun x hx => by dgo) (J := JT) (by unfold init; dgo) (fun ep hep1 hep2 => ?_)
  unfold evolve
  refine IT.pt (IT.bind0 IT.get fun s0 hs0 => IT.bind0 (IT.draw dt_orbit) fun o _ => IT.greedyLoop hE fun s i hs hl hi => ?_)
  have h1 := hs0.len
  unfold move
  dgo

theorem framed (hE : c.E.Lawful) (p : Params K) (ep : Nat) : Framed true (evolve p ep : M c Unit (Ext K) Unit) := by
  unfold evolve; framed

end OriginalKOA

namespace DevSMA

/-- the weights (`mealpy/bio_based/SMA.py:72-81`); they are written anew in every epoch, so `initialize_variables` does not matter -/
def weights (s : St c Unit Unit) : D c (List (Vec d K)) := do
  let last ← nthI s.pop (-1)
  let ss : K := s.gbest.fit - last.fit + Num.EPSILON
  repM c.popSize (fun idx => do
    let x ← nth s.pop idx
    let u ← uniformVec (fun _ => 0) (fun _ => 1)
    let l : K := Num.ufunc "log10" ((s.gbest.fit - x.fit) / ss + 1)
    pure (fun j => if idx ≤ c.popSize / 2 then 1 + u j * l else 1 - u j * l))

/-- `DevSMA.evolve` (`mealpy/bio_based/SMA.py:64-108`) -/
def evolve (pt : K) (ep : Nat) : M c Unit Unit Unit := do
  let s0 ← get
  let w ← draw (weights s0)
  let b : K := 1 - ♯ep / ♯c.epoch
  let a : K := Num.ufunc "arctanh" b
  greedyLoop c.popSize (fun s idx => do
    let g := s.gbest.sol
    let u ← uniform 0 1
    if u < pt then do
      let x ← genSolution
      let pos ← correct x
      pure (pos, ())
    else do
      let x ← nth s.pop idx
      let pr : K := Num.ufunc "tanh" (Num.abs (x.fit - s.gbest.fit))
      let vb ← uniformVec (fun _ => -a) (fun _ => a)
      let vc ← uniformVec (fun _ => -b) (fun _ => b)
      let (ia, ib) ← choose2Without c.popSize [idx]
      let xa ← nth s.pop ia
      let xb ← nth s.pop ib
      let r ← randomVec
      let pos ← correct (fun j => if r j < pr then g j + vb j * ((w.getD idx 0) j * xa.sol j - xb.sol j) else vc j * x.sol j)
      pure (pos, ()))

theorem dt_weights {Er : Err → Prop} {s : St c Unit Unit} (h0 : 0 < c.popSize) (hl : s.pop.length = c.popSize) :
    DT Er (weights s : D c (List (Vec d K))) (fun _ => True) := by
  unfold weights
  refine DT.bind (DT.nthI (by omega)) fun last _ => DT.mono (DT.repMT fun i hi => ?_) fun _ _ => trivial
  exact DT.bind (DT.nth_mem (by omega)) fun x _ => DT.bind DT.uniformVec' fun u _ => DT.pure trivial

/-- `DevSMA` (`mealpy/bio_based/SMA.py:12-108`) -/
def algo (p : K) : Algo c Unit Unit := Algo.plain true (evolve p)

theorem ok (hE : c.E.Lawful) (hP : c.P.Lawful) (hc : Accepted c 5) (p : K) :
    (algo p : Algo c Unit Unit).Ok (FA c) JT JT JT c.popSize c.popSize c.popSize := by
  plainalg hE hP hc evolve
  refine IT.pt (IT.bind0 IT.get fun s0 hs0 => IT.bind0 (IT.draw (dt_weights (by omega) hs0.len)) fun w _ => IT.greedyLoop hE fun s i hs hl hi => ?_)
  dgo

theorem framed (hE : c.E.Lawful) (p : K) (ep : Nat) : Framed true (evolve p ep : M c Unit Unit Unit) := by
  unfold evolve; framed

end DevSMA

namespace OriginalSMA

/-- one coordinate (`mealpy/bio_based/SMA.py:190-196`) -/
def coord (s : St c Unit Unit) (idx : Nat) (pr : K) (w vb vc x : Vec d K) (j : Fin d) : D c K := do
  let (ia, ib) ← choose2Without c.popSize [idx]
  let xa ← nth s.pop ia
  let xb ← nth s.pop ib
  let u ← uniform 0 1
  pure (if u < pr then s.gbest.sol j + vb j * (w j * xa.sol j - xb.sol j) else vc j * x j)

/-- `OriginalSMA.evolve` (`mealpy/bio_based/SMA.py:159-204`) -/
def evolve (pt : K) (ep : Nat) : M c Unit Unit Unit := do
  let s0 ← get
  let w ← draw (DevSMA.weights s0)
  let b : K := 1 - ♯ep / ♯c.epoch
  let a : K := Num.ufunc "arctanh" (-(♯ep / ♯c.epoch) + 1)
  rebindLoop c.popSize (fun s idx => do
    let u ← uniform 0 1
    if u < pt then do
      let x ← genSolution
      let pos ← correct x
      pure (pos, ())
    else do
      let x ← nth s.pop idx
      let vb ← uniformVec (fun _ => -a) (fun _ => a)
      let vc ← uniformVec (fun _ => -b) (fun _ => b)
      let y ← vecM (coord s idx (Num.ufunc "tanh" (Num.abs (x.fit - s.gbest.fit))) (w.getD idx 0) vb vc x.sol)
      let pos ← correct y
      pure (pos, ()))

/-- `OriginalSMA` (`mealpy/bio_based/SMA.py:111-204`) -/
def algo (p : K) : Algo c Unit Unit := Algo.plain true (evolve p)

theorem ok (hE : c.E.Lawful) (hP : c.P.Lawful) (hc : Accepted c 5) (p : K) :
    (algo p : Algo c Unit Unit).Ok (FA c) JT JT JT c.popSize c.popSize c.popSize := by
  plainalg hE hP hc evolve
  refine PT.bind0 IT.get fun s0 hs0 => PT.bind0 (IT.draw (DevSMA.dt_weights (by omega) hs0.len)) fun w _ => PT.rebindLoop hE fun s i hs hl hi => ?_
  refine DT.bind DT.uniform' fun u _ => DT.ite (fun _ => ?_) fun _ => ?_
  · dgo
  · refine DT.bind (DT.nth_mem (by omega)) fun x _ => DT.bind DT.uniformVec' fun vb _ => DT.bind DT.uniformVec' fun vc _ => ?_
    refine DT.bind (DT.vecMT fun j => ?_) fun y _ => DT.bind (DT.correct hP) fun pos hp => DT.pure (FA.mkOk hp)
    unfold coord
    dgo

theorem framed (hE : c.E.Lawful) (p : K) (ep : Nat) : Framed true (evolve p ep : M c Unit Unit Unit) := by
  unfold evolve; framed

end OriginalSMA

namespace DevSBO

/-- the parameters (`mealpy/bio_based/SBO.py:75-77`) -/
structure Params (K : Type) where
  alpha : K
  pm : K
  psw : K

/-- `DevSBO.evolve` (`mealpy/bio_based/SBO.py:81-112`) -/
def evolve (p : Params K) (ep : Nat) : M c Unit Unit Unit := do
  let s0 ← get
  let fits := s0.pop.map Agent.fit
  greedyLoop c.popSize (fun s idx => do
    let k ← rouletteIdx fits
    let u ← uniform 0 1
    let x ← nth s.pop idx
    let y ← nth s.pop k
    let z ← normalVec 0 1
    let r ← randomVec
    let pos ← correct (fun j => if r j < p.pm then x.sol j + z j * (p.psw * (c.P.ub j - c.P.lb j))
      else x.sol j + p.alpha * u * ((y.sol j + s.gbest.sol j) / 2 - x.sol j))
    pure (pos, ()))

/-- `DevSBO` (`mealpy/bio_based/SBO.py:12-112`) -/
def algo (p : Params K) : Algo c Unit Unit := Algo.plain false (evolve p)

theorem ok (hE : c.E.Lawful) (hP : c.P.Lawful) (hc : Accepted c 5) (p : Params K) :
    (algo p : Algo c Unit Unit).Ok (FA c) JT JT JT c.popSize c.popSize c.popSize := by
  plainalg hE hP hc evolve
  refine IT.pt (IT.bind0 IT.get fun s0 hs0 => IT.greedyLoop hE fun s i hs hl hi => ?_)
  have h1 := hs0.len
  refine DT.bind (DT.rouletteIdx hE (by rw [List.length_map]; omega)) fun k hk => ?_
  rw [List.length_map] at hk
  dgo

theorem framed (hE : c.E.Lawful) (p : Params K) (ep : Nat) : Framed true (evolve p ep : M c Unit Unit Unit) := by
  unfold evolve; framed

end DevSBO

namespace OriginalFOX

/-- the parameters (`mealpy/swarm_based/FOX.py:68-69`); `DevFOX` adds `pp`, which `OriginalFOX` fixes to 0.18 -/
structure Params (K : Type) where
  c1 : K
  c2 : K
  pp : K

/-- one fox (`mealpy/swarm_based/FOX.py:86-101`); the attribute is `mint` -/
def move (p : Params K) (walk : K → Vec d K → D c (Vec d K)) (s : St c Unit K) (_ : Nat) : D c (Vec d K × Unit × K) := do
  let aa : K := 2 * (1 - 1 / ♯c.epoch)
  let u ← random
  if 0.5 ≤ u then do
    let t1 ← randomVec
    let tt : K := meanL (List.ofFn t1)
    let jump : K := 0.5 * 9.81 * ((tt / 2) * (tt / 2))
    let r ← random
    let pos ← correct (fun j => 0.5 * (s.gbest.sol j / t1 j) * t1 j * jump * (if p.pp < r then p.c1 else p.c2))
    pure (pos, (), if tt < s.ext then tt else s.ext)
  else do
    let y ← walk (s.ext * aa) s.gbest.sol
    let pos ← correct y
    pure (pos, (), s.ext)

/-- the random walk of `OriginalFOX` (`mealpy/swarm_based/FOX.py:100`) -/
def walk (f : K) (g : Vec d K) : D c (Vec d K) := do
  let r ← randomVec
  pure (fun j => g j * r j * f)

/-- `initialize_variables` (`mealpy/swarm_based/FOX.py:73-74`) -/
def init : D c K := pure 10000000

/-- `OriginalFOX.evolve` (`mealpy/swarm_based/FOX.py:76-108`) -/
def evolve (p : Params K) (ep : Nat) : M c Unit K Unit := rebindLoopX c.popSize (move { p with pp := 0.18 } walk)

theorem dt_move {Er : Err → Prop} (hP : c.P.Lawful) {p : Params K} {walk : K → Vec d K → D c (Vec d K)}
    (hw : ∀ f g, DT Er (walk f g) (fun _ => True)) {s : St c Unit K} {i : Nat} :
    DT Er (move p walk s i : D c _) (fun q => MkOk (FA c) c (q.1, q.2.1) ∧ JT q.2.2) := by
  unfold move
  refine DT.bind DT.random' fun u _ => DT.ite (fun _ => ?_) fun _ => ?_
  · exact DT.bind DT.randomVec fun t1 _ => DT.bind DT.random' fun r _ => DT.bind (DT.correct hP) fun pos hp => DT.pure ⟨FA.mkOk hp, trivial⟩
  · exact DT.bind (hw _ _) fun y _ => DT.bind (DT.correct hP) fun pos hp => DT.pure ⟨FA.mkOk hp, trivial⟩

/-- `OriginalFOX` (`mealpy/swarm_based/FOX.py:12-108`) -/
def algo (p : Params K) : Algo c Unit K := Algo.full false (fun _ => pure ()) init (evolve p)

theorem ok (hE : c.E.Lawful) (hP : c.P.Lawful) (hc : Accepted c 5) (p : Params K) :
    (algo p : Algo c Unit K).Ok (FA c) JT JT JT c.popSize c.popSize c.popSize := by
  have hpop := hc.pop
  unfold algo
  refine Algo.full_ok hE hP (fun x hx => by dgo) (J := JT) (by unfold init; dgo) (fun ep hep1 hep2 => ?_)
  unfold evolve
  exact PT.rebindLoopX hE fun s i hs hl hi => dt_move hP fun _ _ => DT.bind DT.randomVec fun _ _ => DT.pure trivial

theorem framed (hE : c.E.Lawful) (p : Params K) (ep : Nat) : Framed true (evolve p ep : M c Unit K Unit) := by
  unfold evolve; framed

end OriginalFOX

namespace DevFOX

/-- the random walk of `DevFOX` (`mealpy/swarm_based/FOX.py:194`) -/
def walk (f : K) (g : Vec d K) : D c (Vec d K) := do
  let z ← normalVec 0 1
  pure (fun j => g j + z j * f)

/-- `initialize_variables` (`mealpy/swarm_based/FOX.py:167-168`) -/
def init : D c K := pure 10000000

/-- `DevFOX.evolve` (`mealpy/swarm_based/FOX.py:170-202`) -/
def evolve (p : OriginalFOX.Params K) (ep : Nat) : M c Unit K Unit := rebindLoopX c.popSize (OriginalFOX.move p walk)

/-- `DevFOX` (`mealpy/swarm_based/FOX.py:111-202`) -/
def algo (p : OriginalFOX.Params K) : Algo c Unit K := Algo.full false (fun _ => pure ()) init (evolve p)

theorem ok (hE : c.E.Lawful) (hP : c.P.Lawful) (hc : Accepted c 5) (p : OriginalFOX.Params K) :
    (algo p : Algo c Unit K).Ok (FA c) JT JT JT c.popSize c.popSize c.popSize := by
  have hpop := hc.pop
  unfold algo
  refine Algo.full_ok hE hP (fun x hx => by dgo) (J := JT) (by unfold init; dgo) (fun ep hep1 hep2 => ?_)
  unfold evolve
  exact PT.rebindLoopX hE fun s i hs hl hi => OriginalFOX.dt_move hP fun _ _ => DT.bind DT.normalVec fun _ _ => DT.pure trivial

theorem framed (hE : c.E.Lawful) (p : OriginalFOX.Params K) (ep : Nat) : Framed true (evolve p ep : M c Unit K Unit) := by
  unfold evolve; framed

end DevFOX

namespace OriginalDandelionO

/-- `np.clip(x, lb, ub)` -/
def inside (x : Vec d K) : Vec d K := fun j => clip (x j) (c.P.lb j) (c.P.ub j)

/-- the rising stage (`mealpy/swarm_based/DandelionO.py:81-97`): the inner product adds one common vector to every position -/
def rise (alpha kk : K) (pop : List (Vec d K)) : D c (List (Vec d K)) := do
  let z ← normal 0 1
  if z < 1.5 then do
    let lamd ← repM c.popSize (fun _ => normalVec 0 1)
    let th ← repM c.popSize (fun _ => random)
    let theta := th.map (fun u => (2 * u - 1) * Num.pi)
    let w := theta.map (fun t => alpha * (1 / Num.exp t * Num.cos t) * (1 / Num.exp t * Num.sin t))
    let rows ← repM c.popSize (fun _ => randomVec)
    let pdf : K → K := fun y => Num.exp (-(0.5) * (Num.log (Num.abs y) * Num.log (Num.abs y))) / (Num.abs y * Num.sqrt (2 * Num.pi))
    let step : Vec d K := fun j => sumL (List.zipWith (fun a b => a * b) w
      (List.zipWith (fun l q => pdf (l j) * q) lamd
        (List.zipWith (fun r x => r j * (c.P.ub j - c.P.lb j) + c.P.lb j - x j) rows pop)))
    pure (pop.map (fun x => inside (c := c) (fun j => x j + step j)))
  else pure (pop.map (fun x => inside (c := c) (fun j => x j * kk)))

/-- the descending stage (`mealpy/swarm_based/DandelionO.py:100-104`) -/
def descend (alpha : K) (pop : List (Vec d K)) : D c (List (Vec d K)) := do
  let beta ← repM c.popSize (fun _ => normalVec 0 1)
  let mean := meanPos pop
  pure (List.zipWith (fun b x => inside (c := c) (fun j => x j - b j * alpha * (mean j - b j * alpha * mean j))) beta pop)

/-- `aa` (`mealpy/swarm_based/DandelionO.py:75`): a python division, which raises `ZeroDivisionError` for a single epoch -/
def slope : D c K :=
  if c.epoch = 1 then dthrow .zeroDiv else pure (1 / (♯c.epoch * ♯c.epoch - 2 * ♯c.epoch + 1))

/-- `OriginalDandelionO.evolve` (`mealpy/swarm_based/DandelionO.py:66-120`) -/
def evolve (ep : Nat) : M c Unit Unit Unit := do
  let s ← get
  let t : K := ♯ep / ♯c.epoch
  let u ← draw random
  let alpha : K := u * (t * t - 2 * ♯ep / ♯c.epoch + 1)
  let aa ← draw slope
  let v ← draw random
  let kk : K := 1 - v * (1 - aa - -2 * aa + aa * (♯ep * ♯ep) + -2 * aa * ♯ep)
  let p1 ← draw (rise alpha kk (s.pop.map Agent.sol))
  let p2 ← draw (descend alpha p1)
  let lf ← draw (levyRows c.popSize 1.5 0.01)
  rebindLoop c.popSize (fun s idx => do
    let l := lf.getD idx 0
    let x := p2.getD idx 0
    let pos ← correct (fun j => s.gbest.sol j + l j * alpha * (s.gbest.sol j - x j * (2 * ♯ep / ♯c.epoch)))
    pure (pos, ()))

theorem dt_rise {Er : Err → Prop} {alpha kk : K} {pop : List (Vec d K)} : DT Er (rise alpha kk pop : D c (List (Vec d K))) (fun _ => True) := by
  unfold rise
  refine DT.bind DT.normal fun z _ => DT.ite (fun _ => ?_) fun _ => DT.pure trivial
  exact DT.bind (DT.repMT fun _ _ => DT.normalVec) fun _ _ => DT.bind (DT.repMT fun _ _ => DT.random') fun _ _ =>
    DT.bind (DT.repMT fun _ _ => DT.randomVec) fun _ _ => DT.pure trivial

theorem dt_descend {Er : Err → Prop} {alpha : K} {pop : List (Vec d K)} : DT Er (descend alpha pop : D c (List (Vec d K))) (fun _ => True) := by
  unfold descend
  exact DT.bind (DT.repMT fun _ _ => DT.normalVec) fun _ _ => DT.pure trivial

/-- `OriginalDandelionO` (`mealpy/swarm_based/DandelionO.py:12-120`) -/
def algo : Algo c Unit Unit := Algo.plain true evolve

theorem ok (hE : c.E.Lawful) (hP : c.P.Lawful) (hc : Accepted c 5) (he : 1 < c.epoch) :
    (algo : Algo c Unit Unit).Ok (FA c) JT JT JT c.popSize c.popSize c.popSize := by
  plainalg hE hP hc evolve
  refine PT.bind0 IT.get fun s hs => PT.bind0 (IT.draw DT.random') fun u _ => PT.bind0 (IT.draw (R := fun _ => True) ?_) fun aa _ => ?_
  · unfold slope; rw [if_neg (by omega)]; exact DT.pure trivial
  refine PT.bind0 (IT.draw DT.random') fun v _ => PT.bind0 (IT.draw dt_rise) fun p1 _ => PT.bind0 (IT.draw dt_descend) fun p2 _ => ?_
  refine PT.bind0 (IT.draw DT.levyRows) fun lf _ => PT.rebindLoop hE fun s i hs hl hi => ?_
  exact DT.bind (DT.correct hP) fun pos hp => DT.pure (FA.mkOk hp)

theorem framed (hE : c.E.Lawful) (ep : Nat) : Framed true (evolve ep : M c Unit Unit Unit) := by
  unfold evolve; framed

end OriginalDandelionO

namespace DevDandelionO

/-- the rising stage of one agent (`mealpy/swarm_based/DandelionO.py:206-236`) -/
def rise (alpha k : K) (x theta ln xs : Vec d K) (z : K) : Vec d K := fun j =>
  let r : K := 1 / Num.exp (theta j)
  if z < 1.5 then x j + alpha * (r * Num.cos (theta j)) * (r * Num.sin (theta j)) * ln j * (xs j - x j) else x j * k

/-- `get_lognormal_distribution` (`mealpy/swarm_based/DandelionO.py:175-191`) -/
def pdf (y : K) : K :=
  let a : K := Num.abs y + 1e-100
  1 / (a * 1 * Num.sqrt (2 * Num.pi)) * Num.exp (-((Num.log a - 0) * (Num.log a - 0)) / (2 * 1))

/-- `DevDandelionO.evolve` (`mealpy/swarm_based/DandelionO.py:193-270`). One Levy step is shared by all agents. -/
def evolve (ep : Nat) : M c Unit Unit Unit := do
  let s ← get
  let t : K := ♯ep / ♯c.epoch
  let u ← draw random
  let alpha : K := u * ((1 - t) * (1 - t))
  let theta ← draw (repM c.popSize (fun _ => uniformVec (fun _ => -Num.pi) (fun _ => Num.pi)))
  let y ← draw (repM c.popSize (fun _ => normalVec 0 1))
  let xs ← draw (repM c.popSize (fun _ => uniformVec c.P.lb c.P.ub))
  let v ← draw random
  let k : K := 1 - v * (t * t - 2 * t + 1)
  let wz ← draw (repM c.popSize (fun _ => normal 0 1))
  let up : List (Vec d K) := (List.range c.popSize).map (fun i =>
    rise alpha k ((s.pop.map Agent.sol).getD i 0) (theta.getD i 0) (fun j => pdf ((y.getD i 0) j)) (xs.getD i 0) (wz.getD i 0))
  let mean := meanPos up
  let br ← draw (repM c.popSize (fun _ => normalVec 0 1))
  let lf ← draw (levy 1.5 0.01 (-1))
  rebindLoop c.popSize (fun s idx => do
    let x := up.getD idx 0
    let b := br.getD idx 0
    let pos ← correct (fun j =>
      let dsc : K := x j - alpha * b j * (mean j - alpha * b j * x j)
      s.gbest.sol j + lf * alpha * (s.gbest.sol j - dsc * (2 * ♯ep / ♯c.epoch)))
    pure (pos, ()))

/-- `DevDandelionO` (`mealpy/swarm_based/DandelionO.py:123-270`) -/
def algo : Algo c Unit Unit := Algo.plain true evolve

theorem ok (hE : c.E.Lawful) (hP : c.P.Lawful) (hc : Accepted c 5) :
    (algo : Algo c Unit Unit).Ok (FA c) JT JT JT c.popSize c.popSize c.popSize := by
  plainalg hE hP hc evolve
  refine PT.bind0 IT.get fun s hs => PT.bind0 (IT.draw DT.random') fun u _ => ?_
  refine PT.bind0 (IT.draw (DT.repMT fun _ _ => DT.uniformVec')) fun _ _ => PT.bind0 (IT.draw (DT.repMT fun _ _ => DT.normalVec)) fun _ _ => ?_
  refine PT.bind0 (IT.draw (DT.repMT fun _ _ => DT.uniformVec')) fun _ _ => PT.bind0 (IT.draw DT.random') fun _ _ => ?_
  refine PT.bind0 (IT.draw (DT.repMT fun _ _ => DT.normal)) fun _ _ => PT.bind0 (IT.draw (DT.repMT fun _ _ => DT.normalVec)) fun _ _ => ?_
  refine PT.bind0 (IT.draw DT.levy) fun lf _ => PT.rebindLoop hE fun s i hs hl hi => ?_
  exact DT.bind (DT.correct hP) fun pos hp => DT.pure (FA.mkOk hp)

theorem framed (hE : c.E.Lawful) (ep : Nat) : Framed true (evolve ep : M c Unit Unit Unit) := by
  unfold evolve; framed

end DevDandelionO

namespace OriginalINFO

/-- the weighted mean of three differences (`mealpy/math_based/INFO.py:90-99,104-112`) -/
def rule (delta eps : K) (x y z : Agent d K Unit) : Vec d K :=
  let om : K := max (max x.fit y.fit) z.fit
  let w : K → K := fun m => Num.cos (m + Num.pi) * Num.exp (-Num.abs (m / om))
  let w1 := w (x.fit - y.fit)
  let w2 := w (x.fit - z.fit)
  let w3 := w (y.fit - z.fit)
  fun j => delta * (w1 * (x.sol j - y.sol j) + w2 * (x.sol j - z.sol j) + w3 * (y.sol j - z.sol j)) / (w1 + w2 + w3 + 1) + eps

/-- one vector (`mealpy/math_based/INFO.py:81-147`) -/
def move (ep : Nat) (better worst : Agent d K Unit) (s : St c Unit Unit) (idx : Nat) : D c (Vec d K × Unit) := do
  let g := s.gbest
  let alpha : K := 2 * Num.exp (-4 * (♯ep / ♯c.epoch))
  let u1 ← random
  let u2 ← random
  let sigma : K := 2 * u2 * alpha - alpha
  let (ia, ib, ic) ← choose3 c.popSize
  let u3 ← random
  let eps : K := 1e-25 * u3
  let a ← nth s.pop ia
  let b ← nth s.pop ib
  let e ← nth s.pop ic
  let x ← nth s.pop idx
  let wm1 := rule (2 * u1 * alpha - alpha) eps a b e
  let wm2 := rule (2 * u1 * alpha - alpha) eps g better worst
  let r ← uniform 0.1 0.5
  let mr : Vec d K := fun j => r * wm1 j + (1 - r) * wm2 j
  let q ← random
  let r1 ← random
  let r2 ← random
  let r3 ← random
  let r4 ← random
  let z1 : Vec d K := fun j => if q < 0.5 then x.sol j + sigma * (r1 * mr j) + r2 * (g.sol j - a.sol j) / (g.fit - a.fit + 1)
    else a.sol j + sigma * (r1 * mr j) + r2 * (b.sol j - e.sol j) / (b.fit - e.fit + 1)
  let z2 : Vec d K := fun j => (if q < 0.5 then g.sol j else better.sol j) + sigma * (r3 * mr j) + r4 * (a.sol j - b.sol j) / (a.fit - b.fit + 1)
  let m ← randomVec
  let c1 ← randomVec
  let c2 ← randomVec
  let mu : Vec d K := fun j => 0.05 * m j
  let y : Vec d K := fun j => if c2 j < 0.05 then
      (if c1 j < 0.05 then z1 j + mu j * Num.abs (z1 j - z2 j) else z2 j + mu j * Num.abs (z1 j - z2 j))
    else x.sol j
  let q2 ← random
  if q2 < 0.5 then do
    let t ← random
    let l : K := if t < 0.5 then 1 else 0
    let t1 ← random
    let t2 ← random
    let phi ← random
    let xr : Vec d K := fun j => phi * ((a.sol j + b.sol j + e.sol j) / 3) + (1 - phi) * (phi * better.sol j + (1 - phi) * g.sol j)
    let n1 ← randomVec
    let n2 ← random
    let q3 ← random
    let t3 ← random
    let pos ← correct (fun j =>
      let nr : K := l * n1 j + (1 - l) * n2
      if q3 < 0.5 then g.sol j + nr * (mr j + t3 * (g.sol j - a.sol j))
      else xr j + nr * (mr j + t3 * (((1 - l) * 2 * t1 + l) * g.sol j - (t2 * l + (1 - l)) * xr j)))
    pure (pos, ())
  else do
    let pos ← correct y
    pure (pos, ())

/-- `OriginalINFO.evolve` (`mealpy/math_based/INFO.py:66-152`): `self.pop[generator.integers(2, 6)]` may raise IndexError for five agents -/
def evolve (ep : Nat) : M c Unit Unit Unit := do
  let s0 ← get
  let k ← draw (integers 2 6)
  let better ← draw (nth s0.pop k.toNat)
  let worst ← draw (nthI s0.pop (-1))
  let new ← buildEval c.popSize (move ep better worst)
  setPop new

/-- `OriginalINFO` (`mealpy/math_based/INFO.py:12-152`) -/
def algo : Algo c Unit Unit := Algo.plain true evolve

theorem ok (hE : c.E.Lawful) (hP : c.P.Lawful) (hc : Accepted c 5) (h6 : 6 ≤ c.popSize) :
    (algo : Algo c Unit Unit).Ok (FA c) JT JT JT c.popSize c.popSize c.popSize := by
  plainalg hE hP hc evolve
  refine PT.bind0 IT.get fun s0 hs0 => PT.bind0 (IT.draw (DT.integers hE (by omega))) fun k hk => ?_
  have h1 := hs0.len
  refine PT.bind0 (IT.draw (DT.nth_mem (by omega))) fun better _ => PT.bind0 (IT.draw (DT.nthI (by omega))) fun worst _ => ?_
  refine PT.evalReplace hE fun s i hs hl hi => ?_
  unfold move
  dgo

theorem framed (hE : c.E.Lawful) (ep : Nat) : Framed true (evolve ep : M c Unit Unit Unit) := by
  unfold evolve; framed

end OriginalINFO

namespace OriginalTLO

/-- one student: teaching and learning (`mealpy/human_based/TLO.py:184-204`) -/
def round (idx : Nat) : M c Unit Unit Unit := do
  let s ← get
  let tf ← draw (integers 1 3)
  let x ← draw (nth s.pop idx)
  let mean : Vec d K := meanPos (s.pop.map Agent.sol)
  let u ← draw (uniformVec (fun _ => 0) (fun _ => 1))
  let pos ← draw (correct (fun j => x.sol j + u j * (s.gbest.sol j - Num.ofInt tf * mean j)))
  tryCompare (fun _ => pure ()) idx pos
  let k ← draw (pickWithout c.popSize [idx])
  let s ← get
  let x ← draw (nth s.pop idx)
  let y ← draw (nth s.pop k)
  let w ← draw (uniformVec (fun _ => 0) (fun _ => 1))
  let pos ← draw (correct (fun j => x.sol j + w j * (if compareTarget x.tgt y.tgt c.P.mm then x.sol j - y.sol j else y.sol j - x.sol j)))
  tryCompare (fun _ => pure ()) idx pos

/-- `OriginalTLO.evolve` (`mealpy/human_based/TLO.py:175-204`) -/
def evolve (ep : Nat) : M c Unit Unit Unit := iter c.popSize (fun i _ => round i) ()

theorem it_round (hE : c.E.Lawful) (hP : c.P.Lawful) {i : Nat} (h2 : 2 ≤ c.popSize) (hi : i < c.popSize) :
    IT (FA c) JT 2 2 (round i : M c Unit Unit Unit) (fun _ => True) := by
  unfold round
  iwalk

theorem framed_round {i : Nat} : Framed true (round i : M c Unit Unit Unit) := by
  unfold round; framed

macro_rules
  | `(tactic| fprim) => `(tactic| (at_last OriginalTLO.round; exact OriginalTLO.framed_round))

/-- `OriginalTLO` (`mealpy/human_based/TLO.py:128-204`) -/
def algo : Algo c Unit Unit := Algo.plain false evolve

theorem ok (hE : c.E.Lawful) (hP : c.P.Lawful) (hc : Accepted c 5) :
    (algo : Algo c Unit Unit).Ok (FA c) JT JT JT c.popSize (c.popSize * 2) (c.popSize * 2) := by
  plainalg hE hP hc evolve
  exact IT.pt (IT.iterS 2 2 (by omega) (by omega) fun i hi => it_round hE hP (by omega) hi)

theorem framed (hE : c.E.Lawful) (ep : Nat) : Framed true (evolve ep : M c Unit Unit Unit) := by
  unfold evolve; framed

end OriginalTLO

namespace OriginalALO

/-- the shrinking ratio (`mealpy/swarm_based/ALO.py:62-72`) -/
def ratio (ep : Nat) : K :=
  let t : K := ♯ep / ♯c.epoch
  if (♯ep : K) > ♯c.epoch * 0.95 then 1 + 1000000 * t
  else if (♯ep : K) > ♯c.epoch * 0.9 then 1 + 100000 * t
  else if (♯ep : K) > ♯c.epoch * (3 / 4) then 1 + 10000 * t
  else if (♯ep : K) > ♯c.epoch / 2 then 1 + 1000 * t
  else if (♯ep : K) > ♯c.epoch / 10 then 1 + 100 * t
  else 1

/-- one column of the walk of `random_walk_antlion__` (`mealpy/swarm_based/ALO.py:61-98,173-199`): `len` steps per dimension, of which the `col`-th is
used -/
def walk (len col : Nat) (ep : Nat) (x : Vec d K) : D c (Vec d K) := do
  let i : K := ratio (c := c) ep
  let u1 ← random
  let u2 ← random
  let lb : Vec d K := fun j => (if u1 < 0.5 then c.P.lb j / i else -(c.P.lb j / i)) + x j
  let ub : Vec d K := fun j => (if u2 < 0.5 then c.P.ub j / i else -(c.P.ub j / i)) + x j
  let steps ← vecM (fun _ : Fin d => repM len (fun _ => random))
  pure (fun j =>
    let xs : List K := cumsum ((steps j).map (fun r => if 0.5 < r then 1 else -1))
    (xs.getD col 0 - minL xs) * (ub j - lb j) / (maxL xs - minL xs) + lb j)

/-- `self.pop = get_sorted_and_trimmed_population(self.pop + pop_new, pop_size); self.pop[-1] = self.g_best.copy()`
(`mealpy/swarm_based/ALO.py:128-130`) -/
def merge (g : Agent d K Unit) (new : List (Agent d K Unit)) : M c Unit Unit Unit :=
  reshape (fun pop => (getSortedTrimmed c.E.argsort (pop ++ new) c.popSize c.P.mm).dropLast ++ [g])

/-- `OriginalALO.evolve` (`mealpy/swarm_based/ALO.py:100-130`); `col` is the column used for agent `idx` -/
def colony (len : Nat) (col : Nat → Nat) (ep : Nat) : M c Unit Unit Unit := do
  let s ← get
  let fits := s.pop.map Agent.fit
  let new ← buildEval c.popSize (fun _ idx => do
    let k ← rouletteIdx fits
    let y ← nth s.pop k
    let ra ← walk len (col idx) ep y.sol
    let re ← walk len (col idx) ep s.gbest.sol
    let pos ← correct (fun j => (ra j + re j) / 2)
    pure (pos, ()))
  merge s.gbest new

/-- as above: a walk as long as the number of epochs, column `epoch - 1`. With a single epoch the walk has one step, and line 96 makes it
`0 / 0`, a NaN, which `np.clip` keeps; the model has no NaN, so that case is excluded. -/
def evolve (ep : Nat) : M c Unit Unit Unit := colony c.epoch (fun _ => ep - 1) ep

theorem dt_walk {Er : Err → Prop} {len col ep : Nat} {x : Vec d K} : DT Er (walk len col ep x : D c (Vec d K)) (fun _ => True) := by
  unfold walk
  exact DT.bind DT.random' fun _ _ => DT.bind DT.random' fun _ _ => DT.bind (DT.vecMT fun _ => DT.mono (DT.repMT fun _ _ => DT.random') fun _ _ => trivial) fun _ _ =>
    DT.pure trivial

theorem trimmed_dropLast (l : List (Agent d K Unit)) (n : Nat) (h : n ≤ (getSortedTrimmed c.E.argsort l n c.P.mm).length) :
    (getSortedTrimmed c.E.argsort l n c.P.mm).dropLast = getSortedTrimmed c.E.argsort l (n - 1) c.P.mm := by
  unfold getSortedTrimmed at h ⊢
  rw [List.length_take] at h
  rw [List.dropLast_eq_take, List.take_take, List.length_take]
  congr 1
  omega

theorem it_colony (hE : c.E.Lawful) (hP : c.P.Lawful) (h2 : 2 ≤ c.popSize) {len : Nat} {col : Nat → Nat} {ep : Nat} :
    IT (FA c) JT c.popSize c.popSize (colony len col ep : M c Unit Unit Unit) (fun _ => True) := by
  unfold colony
  refine HJ.it (HJ.getHoldG (fun s => [s.gbest]) (by simp) fun s hs => ?_)
  have h1 := hs.len
  refine HJ.bindS (HJ.buildEval hE fun s' i hs' hl hi => ?_) (by omega) fun new hn => ?_
  · refine DT.bind (DT.rouletteIdx hE (by rw [List.length_map]; omega)) fun k hk => ?_
    rw [List.length_map] at hk
    refine DT.bind (DT.nth_mem (by omega)) fun y _ => DT.bind dt_walk fun ra _ => DT.bind dt_walk fun re _ => ?_
    exact DT.bind (DT.correct hP) fun pos hp => DT.pure (FA.mkOk hp)
  · unfold merge
    refine HJ.weaken (HJ.reshape fun pop hpl => ?_) (by omega) (by omega)
    have hlen : (getSortedTrimmed c.E.argsort (pop ++ new) c.popSize c.P.mm).length = c.popSize := by
      rw [trimmed_length hE, List.length_append]; omega
    rw [trimmed_dropLast _ _ (by omega)]
    refine ⟨?_, fun a ha => ?_, fun a ha => ?_⟩
    · rw [List.length_append, trimmed_length hE, List.length_append, List.length_singleton]; omega
    · rcases List.mem_append.1 ha with h | h
      · rcases List.mem_append.1 (trimmed_mem hE h) with h | h
        · exact .inl h
        · exact .inr (by simp [h])
      · exact .inr (by simp only [List.mem_singleton] at h; simp [h])
    · have : a ∈ pop ++ new ∨ a = s.gbest := by
        rcases ha with h | h
        · exact .inl (List.mem_append_left _ h)
        · simp only [List.nil_append, List.mem_append, List.mem_singleton] at h
          rcases h with h | h
          · exact .inr h
          · exact .inl (List.mem_append_right _ h)
      rcases this with h | h
      · obtain ⟨a', ha', hn'⟩ := trimmed_cover (n := c.popSize - 1) hE (by omega) h
        exact ⟨a', List.mem_append_left _ ha', hn'⟩
      · exact ⟨a, by simp [h], NoWorse.rfl⟩

theorem framed_colony (hE : c.E.Lawful) {len : Nat} {col : Nat → Nat} {ep : Nat} : Framed true (colony len col ep : M c Unit Unit Unit) := by
  unfold colony merge; framed

macro_rules
  | `(tactic| fprim) => `(tactic| (at_last OriginalALO.colony; exact OriginalALO.framed_colony (by assumption)))

/-- `OriginalALO` (`mealpy/swarm_based/ALO.py:12-130`) -/
def algo : Algo c Unit Unit := Algo.plain true evolve

theorem ok (hE : c.E.Lawful) (hP : c.P.Lawful) (hc : Accepted c 5) (he : 1 < c.epoch) :
    (algo : Algo c Unit Unit).Ok (FA c) JT JT JT c.popSize c.popSize c.popSize := by
  plainalg hE hP hc evolve
  exact IT.pt (it_colony hE hP (by omega))

theorem framed (hE : c.E.Lawful) (ep : Nat) : Framed true (evolve ep : M c Unit Unit Unit) := by
  unfold evolve; framed

end OriginalALO

namespace DevALO

/-- `DevALO.evolve` (`mealpy/swarm_based/ALO.py:201-230`): a walk as long as the population, column `idx` -/
def evolve (ep : Nat) : M c Unit Unit Unit := OriginalALO.colony c.popSize (fun idx => idx) ep

/-- `DevALO` (`mealpy/swarm_based/ALO.py:133-230`) -/
def algo : Algo c Unit Unit := Algo.plain true evolve

theorem ok (hE : c.E.Lawful) (hP : c.P.Lawful) (hc : Accepted c 5) :
    (algo : Algo c Unit Unit).Ok (FA c) JT JT JT c.popSize c.popSize c.popSize := by
  plainalg hE hP hc evolve
  exact IT.pt (OriginalALO.it_colony hE hP (by omega))

theorem framed (hE : c.E.Lawful) (ep : Nat) : Framed true (evolve ep : M c Unit Unit Unit) := by
  unfold evolve; framed

end DevALO

namespace OriginalBBO

/-- the parameters (`mealpy/bio_based/BBO.py:58-59`) -/
structure Params (K : Type) where
  pm : K
  nElites : Nat

/-- emigration rates `mu` (`mealpy/bio_based/BBO.py:62`) -/
def mu (n i : Nat) : K := (♯n + 1 - ♯(i + 1)) / (♯n + 1)

/-- where an immigrant comes from (`mealpy/bio_based/BBO.py:80-85`) -/
def source : D c Nat := do
  let rates : List K := (List.range c.popSize).map (mu c.popSize)
  let u ← random
  let r : K := u * sumL rates
  pure (((cumsum rates).findIdx? (fun x => decide (r ≤ x))).getD (c.popSize - 1))

/-- one coordinate (`mealpy/bio_based/BBO.py:77-87`) -/
def coord (s : St c Unit Unit) (idx : Nat) (x : Vec d K) (j : Fin d) : D c K := do
  let u ← random
  if u < 1 - mu c.popSize idx then do
    let k ← source
    let y ← nth s.pop k
    pure (y.sol j)
  else pure (x j)

/-- one habitat (`mealpy/bio_based/BBO.py:76-91`) -/
def move (p : Params K) (s : St c Unit Unit) (idx : Nat) : D c (Vec d K × Unit) := do
  let x ← nth s.pop idx
  let y ← vecM (coord s idx x.sol)
  let noise ← uniformVec c.P.lb c.P.ub
  let r ← randomVec
  let pos ← correct (fun j => if r j < p.pm then noise j else y j)
  pure (pos, ())

/-- `evolve` for either way of making a position (`mealpy/bio_based/BBO.py:65-101,144-174`) -/
def migrate (p : Params K) (mv : St c Unit Unit → Nat → D c (Vec d K × Unit)) : M c Unit Unit Unit := do
  let s ← get
  let elites := (getSorted c.E.argsort s.pop c.P.mm).1.take p.nElites
  greedyLoopR c.popSize mv
  reshape (fun pop => getSortedTrimmed c.E.argsort (pop ++ elites) c.popSize c.P.mm)

/-- `OriginalBBO.evolve` (`mealpy/bio_based/BBO.py:65-101`) -/
def evolve (p : Params K) (ep : Nat) : M c Unit Unit Unit := migrate p (move p)

theorem dt_source {Er : Err → Prop} (h0 : 0 < c.popSize) : DT Er (source : D c Nat) (fun k => k < c.popSize) := by
  unfold source
  refine DT.bind DT.random' fun u _ => DT.pure ?_
  cases hf : (cumsum ((List.range c.popSize).map (mu c.popSize : Nat → K))).findIdx?
      (fun x => decide (u * sumL ((List.range c.popSize).map (mu c.popSize : Nat → K)) ≤ x)) with
  | none => simp; omega
  | some i =>
    have := (List.findIdx?_eq_some_iff_getElem.1 hf).1
    simpa [cumsum] using this

theorem dt_move {Er : Err → Prop} (hP : c.P.Lawful) {p : Params K} {s : St c Unit Unit} {idx : Nat} (hl : s.pop.length = c.popSize)
    (hi : idx < c.popSize) : DT Er (move p s idx : D c (Vec d K × Unit)) (MkOk (FA c) c) := by
  unfold move
  refine DT.bind (DT.nth_mem (by omega)) fun x _ => DT.bind (DT.vecMT fun j => ?_) fun y _ => DT.bind DT.uniformVec' fun _ _ => ?_
  · unfold coord
    refine DT.bind DT.random' fun u _ => DT.ite (fun _ => ?_) fun _ => DT.pure trivial
    exact DT.bind (dt_source (by omega)) fun k hk => DT.bind (DT.nth_mem (by omega)) fun y _ => DT.pure trivial
  · exact DT.bind DT.randomVec fun _ _ => DT.bind (DT.correct hP) fun pos hp => DT.pure (FA.mkOk hp)

theorem it_migrate (hE : c.E.Lawful) (h0 : 0 < c.popSize) {p : Params K} {mv : St c Unit Unit → Nat → D c (Vec d K × Unit)}
    (hmv : ∀ (s : St c Unit Unit) (i : Nat), s.pop.length = c.popSize → i < c.popSize → DT noErr (mv s i) (MkOk (FA c) c)) :
    IT (FA c) JT c.popSize c.popSize (migrate p mv : M c Unit Unit Unit) (fun _ => True) := by
  unfold migrate
  refine HJ.it (HJ.getHold (fun s => (getSorted c.E.argsort s.pop c.P.mm).1.take p.nElites)
    (fun s a ha => (getSorted_mem hE.argsortLaw).1 (List.mem_of_mem_take ha)) fun s hs => ?_)
  refine HJ.bindS (HJ.ofIT (IT.greedyLoopR hE fun s i hs hl hi => hmv s i hl hi)) (by omega) fun _ _ => ?_
  refine HJ.weaken (HJ.reshape fun pop hpl => ⟨?_, fun a ha => ?_, fun a ha => ?_⟩) (by omega) (by omega)
  · rw [trimmed_length hE, List.length_append]; omega
  · exact List.mem_append.1 (trimmed_mem hE ha)
  · exact trimmed_cover hE (by omega) (List.mem_append.2 ha)

theorem framed_migrate (hE : c.E.Lawful) {p : Params K} {mv : St c Unit Unit → Nat → D c (Vec d K × Unit)} :
    Framed true (migrate p mv : M c Unit Unit Unit) := by
  unfold migrate; framed

macro_rules
  | `(tactic| fprim) => `(tactic| (at_last OriginalBBO.migrate; exact OriginalBBO.framed_migrate (by assumption)))

/-- `OriginalBBO` (`mealpy/bio_based/BBO.py:12-101`) -/
def algo (p : Params K) : Algo c Unit Unit := Algo.plain false (evolve p)

theorem ok (hE : c.E.Lawful) (hP : c.P.Lawful) (hc : Accepted c 5) (p : Params K) :
    (algo p : Algo c Unit Unit).Ok (FA c) JT JT JT c.popSize c.popSize c.popSize := by
  plainalg hE hP hc evolve
  exact IT.pt (it_migrate hE (by omega) fun s i hl hi => dt_move hP hl hi)

theorem framed (hE : c.E.Lawful) (p : Params K) (ep : Nat) : Framed true (evolve p ep : M c Unit Unit Unit) := by
  unfold evolve; framed

end OriginalBBO

namespace DevBBO

/-- `DevBBO.evolve` (`mealpy/bio_based/BBO.py:144-174`) -/
def evolve (p : OriginalBBO.Params K) (ep : Nat) : M c Unit Unit Unit := do
  let s0 ← get
  let fits := s0.pop.map Agent.fit
  OriginalBBO.migrate p (fun s idx => do
    let k ← rouletteIdx fits
    let r ← randomVec
    let y ← nth s.pop k
    let x ← nth s.pop idx
    let noise ← uniformVec c.P.lb c.P.ub
    let w ← randomVec
    let pos ← correct (fun j => if w j < p.pm then noise j else if r j < 1 - OriginalBBO.mu c.popSize idx then y.sol j else x.sol j)
    pure (pos, ()))

/-- `DevBBO` (`mealpy/bio_based/BBO.py:104-174`) -/
def algo (p : OriginalBBO.Params K) : Algo c Unit Unit := Algo.plain false (evolve p)

theorem ok (hE : c.E.Lawful) (hP : c.P.Lawful) (hc : Accepted c 5) (p : OriginalBBO.Params K) :
    (algo p : Algo c Unit Unit).Ok (FA c) JT JT JT c.popSize c.popSize c.popSize := by
  plainalg hE hP hc evolve
  refine IT.pt (IT.bind0 IT.get fun s0 hs0 => OriginalBBO.it_migrate hE (by omega) fun s i hl hi => ?_)
  have h1 := hs0.len
  refine DT.bind (DT.rouletteIdx hE (by rw [List.length_map]; omega)) fun k hk => ?_
  rw [List.length_map] at hk
  dgo

theorem framed (hE : c.E.Lawful) (p : OriginalBBO.Params K) (ep : Nat) : Framed true (evolve p ep : M c Unit Unit Unit) := by
  unfold evolve; framed

end DevBBO

namespace OriginalNMRA

/-- one mole-rat (`mealpy/swarm_based/NMRA.py:70-78`) -/
def move (pb : K) (s : St c Unit Unit) (idx : Nat) : D c (Vec d K × Unit) := do
  let x ← nth s.pop idx
  let b := c.popSize / 5
  if idx < b then do
    let u ← uniform 0 1
    if u < pb then do
      let al ← uniform 0 1
      let pos ← correct (fun j => (1 - al) * x.sol j + al * (s.gbest.sol j - x.sol j))
      pure (pos, ())
    else do
      let pos ← correct x.sol
      pure (pos, ())
  else do
    let (i1, i2) ← choose2 (c.popSize - b)
    let y ← nth s.pop (b + i1)
    let z ← nth s.pop (b + i2)
    let u ← uniform 0 1
    let pos ← correct (fun j => x.sol j + u * (y.sol j - z.sol j))
    pure (pos, ())

/-- `OriginalNMRA.evolve` (`mealpy/swarm_based/NMRA.py:61-86`): every new agent is evaluated twice -/
def evolve (pb : K) (ep : Nat) : M c Unit Unit Unit := greedyTwice c.popSize (move pb)

/-- `OriginalNMRA` (`mealpy/swarm_based/NMRA.py:12-86`) -/
def algo (p : K) : Algo c Unit Unit := Algo.plain true (evolve p)

theorem wok (hE : c.E.Lawful) (hP : c.P.Lawful) (hc : Accepted c 5) (p : K) :
    (algo p : Algo c Unit Unit).WOk noErr (Inv.std c Unit JT) JT JT c.popSize c.popSize 0 0 (c.popSize * 2) (c.popSize * 2) := by
  wplainalg hE hP hc evolve
  refine WT.greedyTwice hE (fun m h => h) fun s i hs hl hi => ?_
  have h5 : c.popSize / 5 ≤ c.popSize := Nat.div_le_self _ _
  unfold move
  dgo

theorem framed (hE : c.E.Lawful) (p : K) (ep : Nat) : Framed true (evolve p ep : M c Unit Unit Unit) := by
  unfold evolve; framed

end OriginalNMRA

namespace ImprovedNMRA

/-- the parameters (`mealpy/swarm_based/NMRA.py:143-144`) -/
structure Params (K : Type) where
  pb : K
  pm : K

/-- `crossover_random__` (`mealpy/swarm_based/NMRA.py:149-160`): `integers(0, n_dims / 2)` truncates its bound, so one dimension raises
`ValueError` -/
def cross (pop : List (Agent d K Unit)) (g : Vec d K) : D c (Vec d K) := do
  let st ← index (d / 2)
  let k ← index c.popSize
  let y ← nth pop k
  let e : Nat := (Num.floor (♯st + ♯d / 3 : K)).toNat
  pure (fun j => if st ≤ j.val ∧ j.val < e then y.sol j else g j)

/-- one mole-rat (`mealpy/swarm_based/NMRA.py:172-192`) -/
def move (p : Params K) (ep : Nat) (s : St c Unit Unit) (idx : Nat) : D c (Vec d K × Unit) := do
  let x ← nth s.pop idx
  let g := s.gbest.sol
  let b := c.popSize / 5
  let u ← uniform 0 1
  let y ← (if idx < b then
      if u < p.pb then do
        let z ← normalVec 0 1
        pure (fun j => x.sol j + z j * (g j - x.sol j))
      else do
        let lf ← levy 1 0.001 (-1)
        let r ← random
        pure (fun j => x.sol j + 1 / Num.sqrt ♯ep * Num.sign (r - 0.5) * lf * (x.sol j - g j))
    else
      if u < 0.5 then do
        let (i1, i2) ← choose2 (c.popSize - b)
        let y1 ← nth s.pop (b + i1)
        let y2 ← nth s.pop (b + i2)
        let z ← normalVec 0 1
        pure (fun j => x.sol j + z j * (y1.sol j - y2.sol j))
      else cross s.pop g : D c (Vec d K))
  let tmp ← uniformVec c.P.lb c.P.ub
  let r ← uniformVec (fun _ => 0) (fun _ => 1)
  let pos ← correct (fun j => if r j < p.pm then tmp j else y j)
  pure (pos, ())

/-- `ImprovedNMRA.evolve` (`mealpy/swarm_based/NMRA.py:162-200`): every new agent is evaluated twice -/
def evolve (p : Params K) (ep : Nat) : M c Unit Unit Unit := greedyTwice c.popSize (move p ep)

/-- `ImprovedNMRA` (`mealpy/swarm_based/NMRA.py:89-200`) -/
def algo (p : Params K) : Algo c Unit Unit := Algo.plain true (evolve p)

theorem wok (hE : c.E.Lawful) (hP : c.P.Lawful) (hc : Accepted c 5) (p : Params K) (hd : 2 ≤ d) :
    (algo p : Algo c Unit Unit).WOk noErr (Inv.std c Unit JT) JT JT c.popSize c.popSize 0 0 (c.popSize * 2) (c.popSize * 2) := by
  wplainalg hE hP hc evolve
  refine WT.greedyTwice hE (fun m h => h) fun s i hs hl hi => ?_
  have h5 : c.popSize / 5 ≤ c.popSize := Nat.div_le_self _ _
  have hd2 : 0 < d / 2 := by omega
  unfold move
  refine DT.bind (DT.nth_mem (by omega)) fun x _ => DT.bind DT.uniform' fun u _ => DT.bind (R := fun _ => True) ?_ fun y _ => ?_
  · refine DT.ite (fun _ => DT.ite (fun _ => ?_) fun _ => ?_) fun _ => DT.ite (fun _ => ?_) fun _ => ?_
    · dgo
    · dgo
    · dgo
    · unfold cross; dgo
  · dgo

theorem framed (hE : c.E.Lawful) (p : Params K) (ep : Nat) : Framed true (evolve p ep : M c Unit Unit Unit) := by
  unfold evolve; framed

end ImprovedNMRA
