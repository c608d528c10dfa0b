import Verif.Alg.Kit5

/-! # Simple optimizers, part 4

`EAO.py`, `GOA.py`, `HBA.py`, `ServalOA.py`, `KLA.py`, `BBOA.py`, `DSO.py`, `SHO.py`, `WaOA.py`, `CrayfishOA.py`, `CGO.py`, `EHO.py`,
`WDO.py`, `MPA.py`, `ACOR.py`, `AFT.py`, `ABC.py`, `IWO.py` -/

set_option linter.unusedSectionVars false
set_option linter.unusedVariables false

namespace Mealpy
open Spec

variable {d : Nat} {K : Type} [Num K] {c : Cfg d K}
namespace OriginalEAO

/-- `ec in [0, 100]` (`mealpy/bio_based/EAO.py:67`) -/
structure Params (K : Type) [Num K] where
  ec : K

/-- the body of the loop of `OriginalEAO.evolve` (`mealpy/bio_based/EAO.py:72-108`) -/
def round (p : Params K) (af : K) (idx : Nat) : M c Unit Unit Unit := do
  let s ← get
  let g := s.gbest.sol
  let x ← draw (nth s.pop idx)
  let r1 ← draw randomVec
  let pos1 ← draw (correct (fun j => (g j - x.sol j) + r1 j * Num.sin (af * x.sol j)))
  let a1 ← liftB (agentOf (fun _ => pure ()) pos1)
  let (j1, j2) ← draw (choose2Without c.popSize [idx])
  let y1 ← draw (nth s.pop j1)
  let y2 ← draw (nth s.pop j2)
  let ra ← draw randomVec
  let rb ← draw randomVec
  let posA ← draw (correct (fun j => x.sol j + (p.ec + (1 - p.ec) * ra j) * (y1.sol j - y2.sol j) +
    af * (p.ec + (1 - p.ec) * rb j) * (g j - x.sol j)))
  let aA ← liftB (agentOf (fun _ => pure ()) posA)
  let rc ← draw random
  let rd ← draw random
  let posB ← draw (correct (fun j => x.sol j + (p.ec + (1 - p.ec) * rc) * (y1.sol j - y2.sol j) +
    af * (p.ec + (1 - p.ec) * rd) * (g j - x.sol j)))
  let aB ← liftB (agentOf (fun _ => pure ()) posB)
  slotBest idx ([a1] ++ [aA] ++ [aB])

theorem it_round (hE : c.E.Lawful) (hP : c.P.Lawful) (hpop : 5 ≤ c.popSize) {p : Params K} {af : K} {idx : Nat} (hi : idx < c.popSize) :
    IT (FA c) JT 3 3 (round p af idx : M c Unit Unit Unit) (fun _ => True) := by
  unfold round
  refine HJ.it ?_
  hwalk

theorem framed_round {p : Params K} {af : K} {idx : Nat} : Framed true (round p af idx : M c Unit Unit Unit) := by
  unfold round; framed

macro_rules
  | `(tactic| fprim) => `(tactic| (at_last OriginalEAO.round; exact OriginalEAO.framed_round))

/-- `OriginalEAO.evolve` (`mealpy/bio_based/EAO.py:72-108`) -/
def evolve (p : Params K) (ep : Nat) : M c Unit Unit Unit :=
  iter c.popSize (fun idx _ => round p (Num.sqrt (♯ep / ♯c.epoch)) idx) ()

/-- `OriginalEAO` (`mealpy/bio_based/EAO.py:12-108`) -/
def algo (p : Params K) : Algo c Unit Unit := Algo.plain false (evolve p)

theorem ok (hE : c.E.Lawful) (hP : c.P.Lawful) (hc : Accepted c 5) (p : Params K) :
    (algo p : Algo c Unit Unit).Ok (FA c) JT JT JT c.popSize (c.popSize * 3) (c.popSize * 3) := by
  plainalg hE hP hc evolve
  exact IT.pt (IT.iterS 3 3 (by omega) (by omega) fun i hi => it_round hE hP hc.pop.1 hi)

theorem framed (hE : c.E.Lawful) (p : Params K) (ep : Nat) : Framed true (evolve p ep : M c Unit Unit Unit) := by
  unfold evolve; framed

end OriginalEAO

namespace OriginalGOA

/-- `c_min in [0.00001, 0.2]`, `c_max in [0.2, 5]` (`mealpy/swarm_based/GOA.py:70-71`) -/
structure Params (K : Type) [Num K] where
  cMin : K
  cMax : K

/-- `OriginalGOA.s_function__` (`mealpy/swarm_based/GOA.py:75-79`) -/
def sFun (r : K) : K := 0.5 * Num.exp (-r / 1.5) - Num.exp (-r)

/-- `OriginalGOA.evolve` (`mealpy/swarm_based/GOA.py:81-110`) -/
def evolve (p : Params K) (ep : Nat) : M c Unit Unit Unit :=
  greedyLoop c.popSize (fun s idx => do
    let cc : K := p.cMax - ♯ep * ((p.cMax - p.cMin) / ♯c.epoch)
    let x ← nth s.pop idx
    let pull : Vec d K := fun j => sumL (s.pop.map (fun y =>
      let dist : K := normV (fun k => x.sol k - y.sol k)
      cc / 2 * (c.P.ub j - c.P.lb j) * sFun (2 + Num.mod dist 2) * ((x.sol j - y.sol j) / (dist + Num.EPSILON))))
    let n ← normalVec 0 1
    let pos ← correct (fun j => cc * n j * pull j + s.gbest.sol j)
    pure (pos, ()))

/-- `OriginalGOA` (`mealpy/swarm_based/GOA.py:12-110`) -/
def algo (p : Params K) : Algo c Unit Unit := Algo.plain false (evolve p)

theorem ok (hE : c.E.Lawful) (hP : c.P.Lawful) (hc : Accepted c 5) (p : Params K) :
    (algo p : Algo c Unit Unit).Ok (FA c) JT JT JT c.popSize c.popSize c.popSize := by
  plainalg hE hP hc evolve
  iauto

theorem framed (hE : c.E.Lawful) (p : Params K) (ep : Nat) : Framed true (evolve p ep : M c Unit Unit Unit) := by
  unfold evolve; framed

end OriginalGOA

namespace OriginalHBA

/-- `OriginalHBA.get_intensity__` (`mealpy/swarm_based/HBA.py:67-78`) -/
def intensity (best : Agent d K Unit) (pop : List (Agent d K Unit)) : D c (List K) :=
  repM pop.length (fun idx => do
    let x ← nth pop idx
    let y ← nth pop (if idx = pop.length - 1 then 0 else idx + 1)
    let r ← random
    let di : K := normV (fun j => x.sol j - best.sol j) + Num.EPSILON
    let si : K := normV (fun j => x.sol j - y.sol j) + Num.EPSILON
    pure (r * (si * si) / (4 * Num.pi * (di * di))))

theorem dt_intensity {Er : Err → Prop} {best : Agent d K Unit} {pop : List (Agent d K Unit)} :
    DT Er (intensity best pop : D c (List K)) (fun l => l.length = pop.length) := by
  unfold intensity
  refine DT.mono (DT.repM (Q := fun _ => True) fun i hi => ?_) fun l h => h.1
  refine DT.bind (DT.nth_mem hi) fun x _ => DT.bind (DT.nth_mem (by split <;> omega)) fun y _ => ?_
  dgo

macro_rules
  | `(tactic| dprim) => `(tactic| (at_head OriginalHBA.intensity; exact OriginalHBA.dt_intensity))

/-- `OriginalHBA.evolve` (`mealpy/swarm_based/HBA.py:80-111`); the density factor does not decrease with the epoch: `tt` is
`self.epoch` -/
def evolve (ep : Nat) : M c Unit Unit Unit := do
  let s ← get
  let alpha : K := 2 * Num.exp (-♯c.epoch / ♯c.epoch)
  let is ← draw (intensity s.gbest s.pop)
  greedyLoop c.popSize (fun s idx => do
    let g := s.gbest.sol
    let r ← random
    let f ← index 2
    let F : K := if f = 0 then 1 else -1
    let x ← nth s.pop idx
    let r3 ← randomVec
    let r4 ← randomVec
    let r5 ← randomVec
    let r6 ← randomVec
    let r7 ← randomVec
    let i ← nth is idx
    let pos ← correct (fun j =>
      let di : K := g j - x.sol j
      if r6 j < 0.5 then g j + F * 6 * i * g j + F * r3 j * alpha * di * Num.abs (Num.cos (2 * Num.pi * r4 j) * (1 - Num.cos (2 * Num.pi * r5 j)))
      else g j + F * r7 j * alpha * di)
    pure (pos, ()))

/-- `OriginalHBA` (`mealpy/swarm_based/HBA.py:12-111`) -/
def algo : Algo c Unit Unit := Algo.plain false evolve

theorem ok (hE : c.E.Lawful) (hP : c.P.Lawful) (hc : Accepted c 5) :
    (algo : Algo c Unit Unit).Ok (FA c) JT JT JT c.popSize c.popSize c.popSize := by
  plainalg hE hP hc evolve
  iauto

theorem framed (hE : c.E.Lawful) (ep : Nat) : Framed true (evolve ep : M c Unit Unit Unit) := by
  unfold evolve; framed

end OriginalHBA

namespace OriginalServalOA

/-- one serval (`mealpy/swarm_based/ServalOA.py:86-100`) -/
def round (kk ep idx : Nat) : M c Unit Unit Unit := do
  let s ← get
  let x ← draw (nth s.pop idx)
  let y ← draw (nth s.pop kk)
  let r ← draw randomVec
  let i1 ← draw (vecM (fun _ : Fin d => integers 1 3))
  let pos ← draw (correct (fun j => x.sol j + r j * (y.sol j - Num.ofInt (i1 j) * x.sol j)))
  tryCompare (fun _ => pure ()) idx pos
  let s ← get
  let x ← draw (nth s.pop idx)
  let i2 ← draw (vecM (fun _ : Fin d => integers 1 3))
  let pos ← draw (correct (fun j => x.sol j + Num.ofInt (i2 j) * (c.P.ub j - c.P.lb j) / ♯ep))
  tryCompare (fun _ => pure ()) idx pos

theorem it_round (hE : c.E.Lawful) (hP : c.P.Lawful) {kk ep idx : Nat} (hk : kk < c.popSize) (hi : idx < c.popSize) :
    IT (FA c) JT 2 2 (round kk ep idx : M c Unit Unit Unit) (fun _ => True) := by
  unfold round; iwalk

theorem framed_round {kk ep idx : Nat} : Framed true (round kk ep idx : M c Unit Unit Unit) := by
  unfold round; framed

macro_rules
  | `(tactic| fprim) => `(tactic| (at_last OriginalServalOA.round; exact OriginalServalOA.framed_round))

/-- `OriginalServalOA.evolve` (`mealpy/swarm_based/ServalOA.py:78-100`) -/
def evolve (ep : Nat) : M c Unit Unit Unit := do
  let per ← draw (permutation c.popSize)
  let kk ← draw (nth per 0)
  iter c.popSize (fun idx _ => round kk ep idx) ()

/-- `OriginalServalOA` (`mealpy/swarm_based/ServalOA.py:11-100`) -/
def algo : Algo c Unit Unit := Algo.plain false evolve

theorem ok (hE : c.E.Lawful) (hP : c.P.Lawful) (hc : Accepted c 5) :
    (algo : Algo c Unit Unit).Ok (FA c) JT JT JT c.popSize (c.popSize * 2) (c.popSize * 2) := by
  plainalg hE hP hc evolve
  refine IT.pt (IT.bind0 (IT.draw (DT.permutation' hE)) fun per hper => IT.bind0 (IT.draw (DT.nth_mem (by omega))) fun kk hkk => ?_)
  exact IT.iterS 2 2 (by omega) (by omega) fun i hi => it_round hE hP (hper.2 kk hkk) hi

theorem framed (hE : c.E.Lawful) (ep : Nat) : Framed true (evolve ep : M c Unit Unit Unit) := by
  unfold evolve; framed

end OriginalServalOA

namespace OriginalKLA

/-- `OriginalKLA.evolve` (`mealpy/physics_based/KLA.py:61-108`) -/
def evolve (ep : Nat) : M c Unit Unit Unit :=
  greedyLoopR c.popSize (fun s idx => do
    let (a, b, jj) ← sample3 c.popSize idx
    let x ← nth s.pop idx
    let xa ← nth s.pop a
    let xb ← nth s.pop b
    let xj ← nth s.pop jj
    let q : K := (x.fit - xj.fit) / (Num.abs (x.fit - xj.fit) + Num.EPSILON)
    let Q : K := (x.fit - xa.fit) / (Num.abs (x.fit - xa.fit) + Num.EPSILON)
    let Q2 : K := (x.fit - xb.fit) / (Num.abs (x.fit - xb.fit) + Num.EPSILON)
    let r1 ← random
    let r2 ← random
    let r3 ← random
    let q1 : K := Num.pow (xj.fit / (x.fit + Num.EPSILON)) (2 * r1)
    let Q1 : K := Num.pow (xa.fit / (x.fit + Num.EPSILON)) (2 * r2)
    let Q21 : K := Num.pow (xb.fit / (x.fit + Num.EPSILON)) (2 * r3)
    let v1 ← randomVec
    let v2 ← randomVec
    let v3 ← randomVec
    let s1 : Vec d K := fun j => q1 * q * v1 j * (xj.sol j - x.sol j)
    let s2 : Vec d K := fun j => Q * Q1 * v2 j * (xa.sol j - x.sol j)
    let s3 : Vec d K := fun j => Q2 * Q21 * v3 j * (xb.sol j - x.sol j)
    let u1 ← random
    let u2 ← random
    let u3 ← random
    let u4 ← random
    let u5 ← random
    let u6 ← random
    let pos ← correct (fun j => x.sol j + ((u1 + u2) * s1 j + (u3 + u4) * s2 j + (u5 + u6) * s3 j))
    pure (pos, ()))

/-- `OriginalKLA` (`mealpy/physics_based/KLA.py:12-108`) -/
def algo : Algo c Unit Unit := Algo.plain false evolve

theorem ok (hE : c.E.Lawful) (hP : c.P.Lawful) (hc : Accepted c 5) :
    (algo : Algo c Unit Unit).Ok (FA c) JT JT JT c.popSize c.popSize c.popSize := by
  plainalg hE hP hc evolve
  iauto

theorem framed (hE : c.E.Lawful) (ep : Nat) : Framed true (evolve ep : M c Unit Unit Unit) := by
  unfold evolve; framed

end OriginalKLA

namespace OriginalBBOA

/-- `OriginalBBOA.evolve` (`mealpy/bio_based/BBOA.py:62-108`) -/
def evolve (ep : Nat) : M c Unit Unit Unit := do
  let pp : K := ♯ep / ♯c.epoch
  greedyLoop c.popSize (fun s idx => do
    let g := s.gbest.sol
    let w := (gWorst s).sol
    let x ← nth s.pop idx
    if pp ≤ 1 / 3 then do
      let r ← randomVec
      let pos ← correct (fun j => x.sol j + (-pp * r j * x.sol j))
      pure (pos, ())
    else if pp ≤ 2 / 3 then do
      let r ← randomVec
      let i ← integers 1 3
      let pos ← correct (fun j => x.sol j + (pp * r j * (g j - Num.ofInt i * w j)))
      pure (pos, ())
    else do
      let r ← randomVec
      let pos ← correct (fun j =>
        let ww : K := 2 * pp * Num.pi * r j
        x.sol j + (ww * g j - Num.abs (x.sol j)) - (ww * w j - Num.abs (x.sol j)))
      pure (pos, ()))
  greedyLoop c.popSize (fun s idx => do
    let kk ← pickWithout c.popSize [idx]
    let x ← nth s.pop idx
    let y ← nth s.pop kk
    let r ← random
    let pos ← correct (fun j => if compareTarget x.tgt y.tgt c.P.mm then x.sol j + r * (x.sol j - y.sol j)
      else x.sol j + r * (y.sol j - x.sol j))
    pure (pos, ()))

/-- `OriginalBBOA` (`mealpy/bio_based/BBOA.py:12-108`) -/
def algo : Algo c Unit Unit := Algo.plain false evolve

theorem ok (hE : c.E.Lawful) (hP : c.P.Lawful) (hc : Accepted c 5) :
    (algo : Algo c Unit Unit).Ok (FA c) JT JT JT c.popSize (2 * c.popSize) (2 * c.popSize) := by
  plainalg hE hP hc evolve
  iauto

theorem framed (hE : c.E.Lawful) (ep : Nat) : Framed true (evolve ep : M c Unit Unit Unit) := by
  unfold evolve; framed

end OriginalBBOA

namespace OriginalDSO

/-- `lamda in [0, 1]`, `eta in [-100, 100]` (`mealpy/swarm_based/DSO.py:64-65`) -/
structure Params (K : Type) [Num K] where
  lamda : K
  eta : K

/-- `before_main_loop` (`mealpy/swarm_based/DSO.py:70-71`) -/
def before (s : St c Unit (List K)) : D c (List K) := pure (List.replicate c.popSize 0)

/-- the satiety of every agent (`mealpy/swarm_based/DSO.py:81-91`) -/
def satiety (p : Params K) (pop : List (Agent d K Unit)) (old : List K) (best : K) : List K :=
  List.zipWith (fun v (a : Agent d K Unit) => if best ≠ 0 then
      (match c.P.mm with
      | .min => p.lamda * v + Num.exp (best - a.fit)
      | .max => p.lamda * v + Num.exp (a.fit - best))
    else p.lamda * v + 1.0) old pop

/-- `OriginalDSO.evolve` (`mealpy/swarm_based/DSO.py:73-118`) -/
def evolve (p : Params K) (ep : Nat) : M c Unit (List K) Unit := do
  let s ← get
  let b ← draw (bestAgent s.pop)
  let sat := satiety (c := c) p s.pop s.ext b.fit
  modExt (fun _ => sat)
  let w ← draw (nth s.pop (argmaxL sat))
  let sds : K := maxL sat
  let dist : List K := s.pop.map (fun a => normV (fun j => a.sol j - w.sol j))
  let md : K := maxL dist
  if md ≠ 0 ∨ sds ≠ 0 then
    replaceLoop c.popSize (fun s idx => do
      let x ← nth s.pop idx
      let si ← nth sat idx
      let di ← nth dist idx
      let pos ← correct (fun j => x.sol j + p.eta * ((sds - si) / sds * (1.0 - di / md)) * (w.sol j - x.sol j))
      pure (pos, ()))
  else pure ()

/-- `OriginalDSO` (`mealpy/swarm_based/DSO.py:12-118`) -/
def algo (p : Params K) : Algo c Unit (List K) := Algo.pre false (fun _ => pure ()) (pure []) before (evolve p)

theorem ok (hE : c.E.Lawful) (hP : c.P.Lawful) (hc : Accepted c 5) (p : Params K) :
    (algo p : Algo c Unit (List K)).Ok (FA c) JT JT (fun y : List K => y.length = c.popSize) c.popSize 0 c.popSize := by
  have hpop := hc.pop
  unfold algo
  refine Algo.pre_ok (J := (fun y : List K => y.length = c.popSize)) hE hP (fun x hx => by dgo) (by dgo) (by intro s hs; exact DT.pure (by simp)) (fun ep hep1 hep2 => ?_)
  unfold evolve
  refine PT.bind0 IT.get fun s hs => ?_
  have hlen := hs.toGoodPop.len
  have hj := hs.toGoodPop.ext
  have hsat : ∀ v : K, (satiety (c := c) p s.pop s.ext v).length = c.popSize := fun v => by
    unfold satiety; rw [List.length_zipWith]; omega
  refine PT.bind0 (IT.draw (DT.bestAgent hE (by omega))) fun b hb => ?_
  refine PT.bind0 (IT.modExt fun _ _ => hsat _) fun _ _ => ?_
  have hl := hsat b.fit
  refine PT.bind0 (IT.draw (DT.nth_mem (by have := argmaxL_lt (l := satiety (c := c) p s.pop s.ext b.fit) (by omega); omega))) fun w hw => ?_
  refine PT.iteS (fun _ => ?_) (fun _ => ?_)
  · refine PT.weaken (PT.replaceLoop hE FA.upd ?_) (by omega) (by omega)
    mkgo
  · exact PT.weaken (IT.pt (IT.pure trivial)) (by omega) (by omega)

theorem framed (hE : c.E.Lawful) (p : Params K) (ep : Nat) : Framed true (evolve p ep : M c Unit (List K) Unit) := by
  unfold evolve; framed

end OriginalDSO

namespace OriginalSHO

/-- `h_factor in (0.5, 10)`, `n_trials in [1, 1000000]` (`mealpy/swarm_based/SHO.py:66-67`) -/
structure Params (K : Type) [Num K] where
  hFactor : K
  nTrials : Nat

/-- `np.dot(x, y)` -/
def dot (x y : Vec d K) : K := sumL (List.ofFn (fun j => x j * y j))

/-- the trials around the global best (`mealpy/swarm_based/SHO.py:91-99`): every trial is evaluated, none is kept. `N` counts the
trials made, plus one. -/
def trials : Nat → Nat → M c Unit Unit Nat
  | 0, N => pure N
  | n + 1, N => do
    let s ← get
    let z ← draw (normalVec 0 1)
    let u ← draw (uniformVec c.P.lb c.P.ub)
    let pos ← draw (correct (fun j => s.gbest.sol j + z j * u j))
    let a ← liftB (agentOf (fun _ => pure ()) pos)
    if compareTarget a.tgt s.gbest.tgt c.P.mm then pure (N + 1) else trials n (N + 1)

theorem wt_trials (hP : c.P.Lawful) : ∀ (n N : Nat), WT noErr (Inv.std c Unit JT) 0 n (trials n N : M c Unit Unit Nat) (fun k => 0 < N → 0 < k ∧ k ≤ N + n)
  | 0, N => WT.pure (by omega)
  | n + 1, N => by
    unfold trials
    refine WT.bind0 WT.get fun s hs => WT.bind0 (WT.draw DT.normalVec) fun z _ => WT.bind0 (WT.draw DT.uniformVec') fun u _ => ?_
    refine WT.bind0 (WT.draw (DT.correct hP)) fun pos hpos => ?_
    refine WT.weaken (lo := 1) (hi := n + 1) ?_ (by omega) (by omega)
    refine WT.agentOf_std (by assumption) (by dgo) (by omega) fun a ha => ?_
    refine WT.ite (fun _ => WT.weaken (WT.pure (by omega)) (by omega) (by omega)) fun _ => ?_
    exact WT.mono (WT.weaken (wt_trials hP n (N + 1)) (by omega) (by omega)) fun k hk h => by have := hk (by omega); omega

theorem framed_trials {q : Bool} : ∀ n N, Framed q (trials n N : M c Unit Unit Nat)
  | 0, _ => .pure
  | n + 1, N => .bind .get fun _ => .bind .draw fun _ => .bind .draw fun _ => .bind .draw fun _ => .bind (.liftB .agentOf) fun _ =>
    .ite .pure (framed_trials n (N + 1))

/-- the body of the loop (`mealpy/swarm_based/SHO.py:80-107`) -/
def move (p : Params K) (ep idx : Nat) : M c Unit Unit (Vec d K × Unit) := do
  let s ← get
  let g := s.gbest.sol
  let hh : K := p.hFactor - ♯ep * (p.hFactor / ♯c.epoch)
  let rd1 ← draw (uniformVec (fun _ => 0) (fun _ => 1))
  let rd2 ← draw (uniformVec (fun _ => 0) (fun _ => 1))
  let B : Vec d K := fun j => 2 * rd1 j
  let E : Vec d K := fun j => 2 * hh * rd2 j - hh
  let r ← draw random
  if r < 0.5 then do
    let x ← draw (nth s.pop idx)
    let pos ← draw (correct (fun j => g j - dot E (fun k => Num.abs (dot B g - x.sol k))))
    pure (pos, ())
  else do
    let N ← trials p.nTrials 1
    let is ← draw (choice c.popSize N false)
    let ps ← draw (repM N (fun k => do
      let i ← nth is k
      let y ← nth s.pop i
      pure (fun j : Fin d => g j - dot E (fun k => Num.abs (dot B g - y.sol k)))))
    let pos ← draw (correct (fun j => meanL (ps.map (fun v => v j))))
    pure (pos, ())

theorem wt_move (hE : c.E.Lawful) (hP : c.P.Lawful) {p : Params K} (hn : p.nTrials + 1 ≤ c.popSize) {ep idx : Nat} (hi : idx < c.popSize) :
    WT noErr (Inv.std c Unit JT) 0 p.nTrials (move p ep idx : M c Unit Unit (Vec d K × Unit)) (Inv.std c Unit (JT : Unit → Prop)).Mk := by
  unfold move
  refine WT.bind0 WT.get fun s hs => ?_
  have hlen : s.pop.length = c.popSize := hs.len
  refine WT.bind0 (WT.draw DT.uniformVec') fun u _ => WT.bind0 (WT.draw DT.uniformVec') fun v _ => WT.bind0 (WT.draw DT.random') fun r _ => ?_
  refine WT.ite (fun _ => WT.weaken (lo := 0) (hi := 0) ?_ (by omega) (by omega)) fun _ => ?_
  · refine WT.bind0 (WT.draw (DT.nth_mem (by omega))) fun x _ => WT.bind0 (WT.draw (DT.correct hP)) fun pos hpos => ?_
    exact WT.pure (Inv.std_mk hpos)
  · refine WT.bindS (WT.mono (wt_trials hP p.nTrials 1) fun k h => h (by omega)) (by omega) fun N hN => ?_
    refine WT.weaken (lo := 0) (hi := 0) ?_ (by omega) (by omega)
    refine WT.bind0 (WT.draw (DT.choice hE (choiceErr_false (by omega) (by omega)))) ?_
    rintro is ⟨h1, h2, -⟩
    refine WT.bind0 (WT.draw (DT.repMT fun i hi => ?_)) fun ps _ => WT.bind0 (WT.draw (DT.correct hP)) fun pos hpos => WT.pure (Inv.std_mk hpos)
    refine DT.bind (DT.nth_mem (by omega)) fun i hi => DT.bind (DT.nth_mem (by have := h2 i hi; omega)) fun y _ => DT.pure trivial

theorem framed_move {q : Bool} {p : Params K} {ep idx : Nat} : Framed q (move p ep idx : M c Unit Unit (Vec d K × Unit)) :=
  .bind .get fun _ => .bind .draw fun _ => .bind .draw fun _ => .bind .draw fun _ => .ite (.bind .draw fun _ => .bind .draw fun _ => .pure)
    (.bind (framed_trials _ _) fun _ => .bind .draw fun _ => .bind .draw fun _ => .bind .draw fun _ => .pure)

macro_rules
  | `(tactic| fprim) => `(tactic| (at_last OriginalSHO.move; exact OriginalSHO.framed_move))

/-- `OriginalSHO.evolve` (`mealpy/swarm_based/SHO.py:71-115`) -/
def evolve (p : Params K) (ep : Nat) : M c Unit Unit Unit := greedyLoopM true c.popSize (move p ep)

/-- `OriginalSHO` (`mealpy/swarm_based/SHO.py:12-115`) -/
def algo (p : Params K) : Algo c Unit Unit := Algo.plain false (evolve p)

theorem wok (hE : c.E.Lawful) (hP : c.P.Lawful) (hc : Accepted c 5) (p : Params K) (hn : p.nTrials + 1 ≤ c.popSize) :
    (algo p : Algo c Unit Unit).WOk noErr (Inv.std c Unit JT) JT JT c.popSize c.popSize 0 0 (c.popSize * (0 + 1)) (c.popSize * (p.nTrials + 1)) := by
  wplainalg hE hP hc evolve
  exact WT.greedyLoopM hE (fun _ h => h) fun i hi => wt_move hE hP hn hi

theorem framed (hE : c.E.Lawful) (p : Params K) (ep : Nat) : Framed true (evolve p ep : M c Unit Unit Unit) := by
  unfold evolve; framed

end OriginalSHO

namespace OriginalWaOA

/-- one walrus (`mealpy/swarm_based/WaOA.py:84-102`) -/
def round (ep idx : Nat) : M c Unit Unit Unit := do
  let s ← get
  let per ← draw (permutation c.popSize)
  let kk ← draw (nth per 0)
  let y ← draw (nth s.pop kk)
  let x ← draw (nth s.pop idx)
  let r ← draw random
  let i ← draw (if compareTarget y.tgt x.tgt c.P.mm then integers 1 3 else pure 0 : D c Int)
  let pos ← draw (correct (fun j => if compareTarget y.tgt x.tgt c.P.mm then x.sol j + r * (y.sol j - Num.ofInt i * x.sol j)
    else x.sol j + r * (x.sol j - y.sol j)))
  tryCompare (fun _ => pure ()) idx pos
  let s ← get
  let x ← draw (nth s.pop idx)
  let r ← draw random
  let pos ← draw (correct (fun j =>
    let lb : K := c.P.lb j / ♯ep
    let ub : K := c.P.ub j / ♯ep
    x.sol j + lb + (ub - r * lb)))
  tryCompare (fun _ => pure ()) idx pos

theorem it_round (hE : c.E.Lawful) (hP : c.P.Lawful) (hpop : 5 ≤ c.popSize) {ep idx : Nat} (hi : idx < c.popSize) :
    IT (FA c) JT 2 2 (round ep idx : M c Unit Unit Unit) (fun _ => True) := by
  unfold round
  refine IT.bind0 IT.get fun s hs => ?_
  have hlen := hs.toGoodPop.len
  refine IT.bind0 (IT.draw (DT.permutation' hE)) fun per hper => IT.bind0 (IT.draw (DT.nth_mem (by omega))) fun kk hkk => ?_
  refine IT.bind0 (IT.draw (DT.nth_mem (by have := hper.2 kk hkk; omega))) fun y _ => ?_
  iwalk

theorem framed_round {ep idx : Nat} : Framed true (round ep idx : M c Unit Unit Unit) := by
  unfold round; framed

macro_rules
  | `(tactic| fprim) => `(tactic| (at_last OriginalWaOA.round; exact OriginalWaOA.framed_round))

/-- `OriginalWaOA.evolve` (`mealpy/swarm_based/WaOA.py:77-102`) -/
def evolve (ep : Nat) : M c Unit Unit Unit := iter c.popSize (fun idx _ => round ep idx) ()

/-- `OriginalWaOA` (`mealpy/swarm_based/WaOA.py:11-102`) -/
def algo : Algo c Unit Unit := Algo.plain false evolve

theorem ok (hE : c.E.Lawful) (hP : c.P.Lawful) (hc : Accepted c 5) :
    (algo : Algo c Unit Unit).Ok (FA c) JT JT JT c.popSize (c.popSize * 2) (c.popSize * 2) := by
  plainalg hE hP hc evolve
  exact IT.pt (IT.iterS 2 2 (by omega) (by omega) fun i hi => it_round hE hP hc.pop.1 hi)

theorem framed (hE : c.E.Lawful) (ep : Nat) : Framed true (evolve ep : M c Unit Unit Unit) := by
  unfold evolve; framed

end OriginalWaOA

namespace OriginalCrayfishOA

/-- `OriginalCrayfishOA.p_obj` (`mealpy/swarm_based/CrayfishOA.py:54-61`) -/
def pObj (x : K) : K := 0.2 * (1 / (Num.sqrt (2 * Num.pi) * 3)) * Num.exp (-((x - 25) * (x - 25)) / (2 * (3 * 3)))

/-- the body of the loop (`mealpy/swarm_based/CrayfishOA.py:78-106`); the attribute is the local variable `Xfood` -/
def move (C temp : K) (xf : Vec d K) (idx : Nat) : M c Unit (Vec d K) (Vec d K × Unit) := do
  let s ← get
  let x ← draw (nth s.pop idx)
  if temp > 30 then do
    let r ← draw random
    let z ← draw (if r < 0.5 then randomVec else vecM (fun j => do
      let i ← index c.popSize
      let y ← nth s.pop i
      pure (y.sol j)) : D c (Vec d K))
    let pos ← draw (correct (fun j => if r < 0.5 then x.sol j + C * z j * (xf j - x.sol j) else x.sol j - z j + xf j))
    pure (pos, ())
  else do
    let r ← draw random
    let P : K := 3 * r * x.fit / (s.gbest.fit + Num.EPSILON)
    if P > 2 then do
      modExt (fun f j => Num.exp (-1 / P) * f j)
      let s ← get
      let r1 ← draw randomVec
      let r2 ← draw randomVec
      let pos ← draw (correct (fun j => x.sol j + s.ext j * pObj temp * (Num.cos (2 * Num.pi * r1 j) - Num.sin (2 * Num.pi * r2 j))))
      pure (pos, ())
    else do
      let r1 ← draw randomVec
      let pos ← draw (correct (fun j => (x.sol j - s.ext j + r1 j * x.sol j) * pObj temp))
      pure (pos, ())

theorem it_move (hE : c.E.Lawful) (hP : c.P.Lawful) (hpop : 5 ≤ c.popSize) {C temp : K} {xf : Vec d K} {idx : Nat} (hi : idx < c.popSize) :
    IT (FA c) JT 0 0 (move C temp xf idx : M c Unit (Vec d K) (Vec d K × Unit)) (MkOk (FA c) c) := by
  unfold move
  iwalk

theorem framed_move {C temp : K} {xf : Vec d K} {idx : Nat} : Framed true (move C temp xf idx : M c Unit (Vec d K) (Vec d K × Unit)) := by
  unfold move; framed

macro_rules
  | `(tactic| fprim) => `(tactic| (at_last OriginalCrayfishOA.move; exact OriginalCrayfishOA.framed_move))

/-- `OriginalCrayfishOA.evolve` (`mealpy/swarm_based/CrayfishOA.py:63-117`); in single mode the agents are evaluated after all of them are
made, here as they are made, which is the same since making them reads neither targets of new agents nor the evaluation state -/
def evolve (ep : Nat) : M c Unit (Vec d K) Unit := do
  let C : K := 2.0 - ♯ep / ♯c.epoch
  let r ← draw random
  let temp : K := r * 15 + 20
  let s ← get
  let b ← draw (bestAgent s.pop)
  modExt (fun _ => s.gbest.sol)
  let new ← buildEvalM c.popSize (move C temp (fun j => (s.gbest.sol j + b.sol j) / 2.0))
  selectGreedy ([] ++ new)

/-- `OriginalCrayfishOA` (`mealpy/swarm_based/CrayfishOA.py:12-117`) -/
def algo : Algo c Unit (Vec d K) := Algo.full false (fun _ => pure ()) (pure (fun _ => 0)) evolve

theorem ok (hE : c.E.Lawful) (hP : c.P.Lawful) (hc : Accepted c 5) :
    (algo : Algo c Unit (Vec d K)).Ok (FA c) JT JT JT c.popSize c.popSize c.popSize := by
  fullalg hE hP hc evolve
  refine IT.pt (HJ.it ?_)
  refine HJ.drawT (by dgo) fun r => HJ.bind0 (HJ.ofIT IT.get) fun s hs => ?_
  have hlen := hs.toGoodPop.len
  refine HJ.bind0 (HJ.draw (DT.bestAgent hE (by omega))) fun b _ => HJ.bind0 (HJ.ofIT (IT.modExt fun _ _ => trivial)) fun _ _ => ?_
  refine HJ.bindS (HJ.buildEvalM (lo := 0) (hi := 0) hE fun i hi => it_move hE hP hc.pop.1 hi) (by omega) fun new hn => ?_
  exact HJ.weaken (HJ.selectGreedy (by simpa using hn.1)) (by omega) (by omega)

theorem framed (hE : c.E.Lawful) (ep : Nat) : Framed true (evolve ep : M c Unit (Vec d K) Unit) := by
  unfold evolve; framed

end OriginalCrayfishOA

namespace OriginalCGO

/-- one chaos point (`mealpy/math_based/CGO.py:77-108`) -/
def round (idx : Nat) : M c Unit Unit Unit := do
  let s ← get
  let g := s.gbest.sol
  let x ← draw (nth s.pop idx)
  let (s1, s2, s3) ← draw (choose3 c.popSize)
  let y1 ← draw (nth s.pop s1)
  let y2 ← draw (nth s.pop s2)
  let y3 ← draw (nth s.pop s3)
  let mg : Vec d K := fun j => (y1.sol j + y2.sol j + y3.sol j) / 3
  let alpha1 ← draw random
  let u2 ← draw random
  let u3 ← draw random
  let u4 ← draw random
  let esp ← draw random
  let u5 ← draw random
  let alpha4 : K := esp + esp * u5
  let b0 ← draw (integers 0 2)
  let b1 ← draw (integers 0 2)
  let b2 ← draw (integers 0 2)
  let g0 ← draw (integers 0 2)
  let g1 ← draw (integers 0 2)
  let g2 ← draw (integers 0 2)
  let k ← draw (index d)
  let ks ← draw (choice d k false)
  let us ← draw (uniformVec (fun _ => 0) (fun _ => 1))
  let p1 ← draw (correct (fun j => x.sol j + alpha1 * (Num.ofInt b0 * g j - Num.ofInt g0 * mg j)))
  let p2 ← draw (correct (fun j => g j + 2 * u2 * (Num.ofInt b1 * x.sol j - Num.ofInt g1 * mg j)))
  let p3 ← draw (correct (fun j => mg j + (1 + u3 * u4) * (Num.ofInt b2 * x.sol j - Num.ofInt g2 * g j)))
  let p4 ← draw (correct (atDims ks x.sol (fun j => x.sol j + us j)))
  let a1 ← liftB (agentOf (fun _ => pure ()) p1)
  let a2 ← liftB (agentOf (fun _ => pure ()) p2)
  let a3 ← liftB (agentOf (fun _ => pure ()) p3)
  let a4 ← liftB (agentOf (fun _ => pure ()) p4)
  slotTop idx ([a1] ++ [a2] ++ [a3] ++ [a4])

theorem it_round (hE : c.E.Lawful) (hP : c.P.Lawful) (hpop : 5 ≤ c.popSize) (hd : 0 < d) {idx : Nat} (hi : idx < c.popSize) :
    IT (FA c) JT 4 4 (round idx : M c Unit Unit Unit) (fun _ => True) := by
  unfold round
  refine HJ.it ?_
  hwalk

theorem framed_round {idx : Nat} : Framed true (round idx : M c Unit Unit Unit) := by
  unfold round; framed

macro_rules
  | `(tactic| fprim) => `(tactic| (at_last OriginalCGO.round; exact OriginalCGO.framed_round))

/-- `OriginalCGO.evolve` (`mealpy/math_based/CGO.py:68-108`); the `k` uniform numbers added to the chosen dimensions are taken from a vector
drawn for all dimensions -/
def evolve (ep : Nat) : M c Unit Unit Unit := iter c.popSize (fun idx _ => round idx) ()

/-- `OriginalCGO` (`mealpy/math_based/CGO.py:11-108`) -/
def algo : Algo c Unit Unit := Algo.plain false evolve

theorem ok (hE : c.E.Lawful) (hP : c.P.Lawful) (hc : Accepted c 5) (hd : 0 < d) :
    (algo : Algo c Unit Unit).Ok (FA c) JT JT JT c.popSize (c.popSize * 4) (c.popSize * 4) := by
  plainalg hE hP hc evolve
  exact IT.pt (IT.iterS 4 4 (by omega) (by omega) fun i hi => it_round hE hP hc.pop.1 hd hi)

theorem framed (hE : c.E.Lawful) (ep : Nat) : Framed true (evolve ep : M c Unit Unit Unit) := by
  unfold evolve; framed

end OriginalCGO

namespace OriginalEHO

/-- `alpha in (0, 3)`, `beta in (0, 1)`, `n_clans in [2, pop_size/5]`, `n_individuals = int(pop_size / n_clans)`
(`mealpy/swarm_based/EHO.py:69-73`) -/
structure Params (K : Type) [Num K] where
  alpha : K
  beta : K
  nClans : Nat
  nInd : Nat

/-- `OriginalEHO.evolve` (`mealpy/swarm_based/EHO.py:81-113`). `self.pop_group` at the start of `evolve` is the division of the population
into groups: it is made in `initialization` (76-79) and the population is rebuilt from it at the end of `evolve`. The clans are sorted
after the random agents are generated, which does not matter. When `n_clans` does not divide `pop_size` the first loop raises
IndexError (`OriginalEHO.raises`). -/
def evolve (p : Params K) (ep : Nat) : M c Unit Unit Unit := do
  let s ← get
  let groups := generateGroups s.pop p.nClans p.nInd
  greedyLoop c.popSize (fun s idx => do
    let g ← nth groups (idx / p.nInd)
    let x ← nth g (idx % p.nInd)
    let y ← nth g 0
    let ctr : Vec d K := fun j => meanL (g.map (fun a => a.sol j))
    let r ← (if idx % p.nInd = 0 then pure 0 else random : D c K)
    let pos ← correct (fun j => if idx % p.nInd = 0 then p.beta * ctr j else x.sol j + p.alpha * r * (y.sol j - x.sol j))
    pure (pos, ()))
  let new ← genAgents p.nClans (fun _ => pure ())
  reshape (regroup c p.nClans p.nInd ([] ++ new))

/-- `OriginalEHO` (`mealpy/swarm_based/EHO.py:12-113`) -/
def algo (p : Params K) : Algo c Unit Unit := Algo.plain false (evolve p)

theorem ok (hE : c.E.Lawful) (hP : c.P.Lawful) (hc : Accepted c 5) (p : Params K) (hk : p.nClans * p.nInd = c.popSize ∧ 2 ≤ p.nInd) :
    (algo p : Algo c Unit Unit).Ok (FA c) JT JT JT c.popSize (c.popSize + p.nClans) (c.popSize + p.nClans) := by
  plainalg hE hP hc evolve
  obtain ⟨hk, h2⟩ := hk
  refine IT.pt (HJ.it (HJ.bind0 (HJ.ofIT IT.get) fun s hs => ?_))
  have hlen := hs.toGoodPop.len
  obtain ⟨g1, -, g3, -⟩ := C22_groups s.pop p.nClans p.nInd
  have g3 := g3 (by omega)
  refine HJ.bindS (HJ.ofIT (IT.greedyLoop hE fun s' idx _ _ hi => ?_)) (by omega) fun _ _ => ?_
  · have h1 : idx / p.nInd < p.nClans := Nat.div_lt_of_lt_mul (by rw [Nat.mul_comm]; omega)
    have h3 : idx % p.nInd < p.nInd := Nat.mod_lt _ (by omega)
    refine DT.bind (DT.nth_mem (by omega)) fun g hg => ?_
    have := g3 g hg
    refine DT.bind (DT.nth_mem (by omega)) fun x _ => DT.bind (DT.nth_mem (by omega)) fun y _ => ?_
    dgo
  · refine HJ.bindS (HJ.genAgents hP fun x hx => DT.pure hx) (by omega) fun new hn => ?_
    exact HJ.weaken (HJ.reshape fun pop hp => regroup_spec hE hk h2 (by simpa using hn.1) hp) (by omega) (by omega)

theorem framed (hE : c.E.Lawful) (p : Params K) (ep : Nat) : Framed true (evolve p ep : M c Unit Unit Unit) := by
  unfold evolve; framed

end OriginalEHO

namespace OriginalWDO

/-- `RT in [1, 4]`, `g_c`, `alp`, `c_e`, `max_v in (0, 1)` (`mealpy/physics_based/WDO.py:84-88`) -/
structure Params (K : Type) [Num K] where
  rt : K
  gc : K
  alp : K
  ce : K
  maxV : K

/-- `initialize_variables` (`mealpy/physics_based/WDO.py:92-93`) -/
def init (p : Params K) : D c (List (Vec d K)) := repM c.popSize (fun _ => do
  let u ← uniformVec c.P.lb c.P.ub
  pure (fun j => p.maxV * u j))

/-- the body of the loop (`mealpy/physics_based/WDO.py:103-112`) -/
def move (p : Params K) (idx : Nat) : M c Unit (List (Vec d K)) (Vec d K × Unit) := do
  let s ← get
  let k ← draw (index d)
  let v ← draw (nth s.ext idx)
  let x ← draw (nth s.pop idx)
  let vel : Vec d K := fun j => clip ((1 - p.alp) * v j - p.gc * x.sol j + (1 - 1.0 / ♯(idx + 1)) * p.rt * (s.gbest.sol j - x.sol j) +
    p.ce * (v.at k * 1) / ♯(idx + 1)) (-p.maxV) p.maxV
  modExt (fun y => y.set idx vel)
  let pos ← draw (correct (fun j => x.sol j + vel j))
  pure (pos, ())

theorem it_move (hE : c.E.Lawful) (hP : c.P.Lawful) (hd : 0 < d) {p : Params K} {idx : Nat} (hi : idx < c.popSize) :
    IT (FA c) (fun y => y.length = c.popSize) 0 0 (move p idx : M c Unit (List (Vec d K)) (Vec d K × Unit)) (MkOk (FA c) c) := by
  unfold move
  refine IT.bind0 IT.get fun s hs => ?_
  have hlen := hs.toGoodPop.len
  have hj := hs.toGoodPop.ext
  refine IT.bind0 (IT.draw (DT.index hE hd)) fun k _ => IT.bind0 (IT.draw (DT.nth_mem (by omega))) fun v _ => ?_
  refine IT.bind0 (IT.draw (DT.nth_mem (by omega))) fun x _ => IT.bind0 (IT.modExt fun y hy => by simpa using hy) fun _ _ => ?_
  exact IT.bind0 (IT.draw (DT.correct hP)) fun pos hpos => IT.pure (FA.mkOk hpos)

theorem framed_move {p : Params K} {idx : Nat} : Framed true (move p idx : M c Unit (List (Vec d K)) (Vec d K × Unit)) := by
  unfold move; framed

macro_rules
  | `(tactic| fprim) => `(tactic| (at_last OriginalWDO.move; exact OriginalWDO.framed_move))

/-- `OriginalWDO.evolve` (`mealpy/physics_based/WDO.py:95-120`) -/
def evolve (p : Params K) (ep : Nat) : M c Unit (List (Vec d K)) Unit := greedyLoopM false c.popSize (move p)

theorem dt_init {p : Params K} : DT noErr (init p : D c (List (Vec d K))) (fun y => y.length = c.popSize) :=
  DT.mono (DT.repM (Q := fun _ => True) fun i hi => DT.bind DT.uniformVec' fun _ _ => DT.pure trivial) fun l h => h.1

/-- `OriginalWDO` (`mealpy/physics_based/WDO.py:12-120`) -/
def algo (p : Params K) : Algo c Unit (List (Vec d K)) := Algo.full false (fun _ => pure ()) (init p) (evolve p)

theorem ok (hE : c.E.Lawful) (hP : c.P.Lawful) (hc : Accepted c 5) (p : Params K) (hd : 0 < d) :
    (algo p : Algo c Unit (List (Vec d K))).Ok (FA c) (fun y : List (Vec d K) => y.length = c.popSize) (fun y : List (Vec d K) => y.length = c.popSize) (fun y : List (Vec d K) => y.length = c.popSize) c.popSize c.popSize c.popSize := by
  have hpop := hc.pop
  unfold algo
  refine Algo.full_ok hE hP (fun x hx => by dgo) (J := (fun y : List (Vec d K) => y.length = c.popSize)) (by exact dt_init) (fun ep hep1 hep2 => ?_)
  unfold evolve
  exact IT.pt (IT.weaken (IT.greedyLoopM (lo := 0) (hi := 0) hE fun i hi => it_move hE hP hd hi) (by omega) (by omega))

theorem framed (hE : c.E.Lawful) (p : Params K) (ep : Nat) : Framed true (evolve p ep : M c Unit (List (Vec d K)) Unit) := by
  unfold evolve; framed

end OriginalWDO

namespace OriginalMPA

/-- `OriginalMPA.evolve` (`mealpy/swarm_based/MPA.py:72-116`) with `FADS = 0.2`, `P = 0.5` (69-70) -/
def evolve (ep : Nat) : M c Unit Unit Unit := do
  let cf : K := Num.pow (1 - ♯ep / ♯c.epoch) (2 * ♯ep / ♯c.epoch)
  let rl ← draw (levyRows c.popSize 1.5 0.05)
  let rb ← draw (repM c.popSize (fun _ => normalVec 0 1))
  let per1 ← draw (permutation c.popSize)
  let per2 ← draw (permutation c.popSize)
  greedyLoopR c.popSize (fun s idx => do
    let g := s.gbest.sol
    let R ← randomVec
    let x ← nth s.pop idx
    let L ← nth rl idx
    let B ← nth rb idx
    let p1 ← correct (fun j => if 3 * ep < c.epoch then x.sol j + 0.5 * R j * (B j * (g j - B j * x.sol j))
      else if c.epoch < 3 * ep ∧ 3 * ep < 2 * c.epoch then
        (if 2 * idx > c.popSize then g j + 0.5 * cf * (B j * (B j * g j - x.sol j))
        else x.sol j + 0.5 * R j * (L j * (g j - L j * x.sol j)))
      else g j + 0.5 * cf * (L j * (L j * g j - x.sol j)))
    let r0 ← random
    if r0 < 0.2 then do
      let u ← randomVec
      let v ← randomVec
      let pos ← correct (fun j => p1 j + cf * (c.P.lb j + v j * (c.P.ub j - c.P.lb j)) * (if u j < 0.2 then 1 else 0))
      pure (pos, ())
    else do
      let r ← random
      let i1 ← nth per1 idx
      let i2 ← nth per2 idx
      let y1 ← nth s.pop i1
      let y2 ← nth s.pop i2
      let pos ← correct (fun j => p1 j + (0.2 * (1 - r) + r) * (y1.sol j - y2.sol j))
      pure (pos, ()))

/-- `OriginalMPA` (`mealpy/swarm_based/MPA.py:12-116`) -/
def algo : Algo c Unit Unit := Algo.plain false evolve

theorem ok (hE : c.E.Lawful) (hP : c.P.Lawful) (hc : Accepted c 5) :
    (algo : Algo c Unit Unit).Ok (FA c) JT JT JT c.popSize c.popSize c.popSize := by
  plainalg hE hP hc evolve
  iauto

theorem framed (hE : c.E.Lawful) (ep : Nat) : Framed true (evolve ep : M c Unit Unit Unit) := by
  unfold evolve; framed

end OriginalMPA

namespace OriginalACOR

/-- `sample_count in [2, 10000]`, `intent_factor in (0, 1)`, `zeta in (0, 5)` (`mealpy/swarm_based/ACOR.py:71-73`) -/
structure Params (K : Type) [Num K] where
  sampleCount : Nat
  intentFactor : K
  zeta : K

/-- `matrix_p` (`mealpy/swarm_based/ACOR.py:85-88`) -/
def probs (c : Cfg d K) (p : Params K) : List K :=
  let qn : K := p.intentFactor * ♯c.popSize
  let w : List K := (List.range c.popSize).map (fun i => 1.0 / (Num.sqrt (2 * Num.pi) * qn) * Num.exp (-0.5 * ((♯i / qn) * (♯i / qn))))
  w.map (· / sumL w)

theorem probs_length (p : Params K) : (probs c p).length = c.popSize := by simp [probs]

/-- `OriginalACOR.evolve` (`mealpy/swarm_based/ACOR.py:77-112`) -/
def evolve (p : Params K) (ep : Nat) : M c Unit Unit Unit := do
  let s ← get
  let new ← buildEval p.sampleCount (fun s idx => do
    let child ← vecM (fun j => do
      let r ← choiceP (probs c p)
      let x ← nth s.pop r
      let n ← normal 0 1
      let sigma : K := p.zeta * sumL (s.pop.map (fun y => Num.abs (y.sol j - x.sol j))) / (♯c.popSize - 1)
      pure (x.sol j + n * sigma))
    let pos ← correct child
    pure (pos, ()))
  mergeTrim c.popSize ([] ++ new)

/-- `OriginalACOR` (`mealpy/swarm_based/ACOR.py:12-112`) -/
def algo (p : Params K) : Algo c Unit Unit := Algo.plain true (evolve p)

theorem ok (hE : c.E.Lawful) (hP : c.P.Lawful) (hc : Accepted c 5) (p : Params K) :
    (algo p : Algo c Unit Unit).Ok (FA c) JT JT JT c.popSize p.sampleCount p.sampleCount := by
  plainalg hE hP hc evolve
  have hpl := probs_length (c := c) p
  refine IT.pt (HJ.it ?_)
  refine HJ.bind0 (HJ.ofIT IT.get) fun s hs => HJ.bindS (HJ.buildEval hE fun s' i hs' hl' hi => ?_) (by omega) fun new hn => ?_
  · refine DT.bind (DT.vecM_true fun j => DT.bind (DT.choiceP hE (by omega)) fun r hr => DT.bind (DT.nth_mem (by omega)) fun x _ => ?_) fun ch _ => ?_
    · dgo
    · dgo
  · exact HJ.weaken (HJ.mergeTrim hE (by omega)) (by omega) (by omega)

theorem framed (hE : c.E.Lawful) (p : Params K) (ep : Nat) : Framed true (evolve p ep : M c Unit Unit Unit) := by
  unfold evolve; framed

end OriginalACOR

namespace OriginalAFT

/-- `before_main_loop` (`mealpy/human_based/AFT.py:58-60`) -/
def before (s : St c Unit (List (Agent d K Unit))) : D c (List (Agent d K Unit)) := pure s.pop

/-- `OriginalAFT.evolve` (`mealpy/human_based/AFT.py:63-109`). `pop_best` is only updated in the parallel modes: in single mode it stays
the initial population. -/
def evolve (ep : Nat) : M c Unit (List (Agent d K Unit)) Unit := do
  let pp : K := 0.1 * Num.log (2.75 * Num.pow (♯ep / ♯c.epoch) 0.1)
  let t : K := ♯ep / ♯c.epoch
  let td : K := 2 * Num.exp (-2 * (t * t))
  let fol ← draw (repM c.popSize (fun _ => index c.popSize))
  rebindLoop c.popSize (fun s idx => do
    let r ← random
    let r' ← (if r ≥ 0.5 then random else pure 1 : D c K)
    if r < 0.5 ∨ r' > pp then do
      let u ← random
      let x ← nth s.pop idx
      let b ← nth s.ext idx
      let k ← nth fol idx
      let f ← nth s.ext k
      let v ← random
      let w ← random
      let mv : Vec d K := fun j => (td * (b.sol j - x.sol j) * v + td * (x.sol j - f.sol j) * w) * Num.sign (u - 0.5)
      let pos ← correct (fun j => if r < 0.5 then s.gbest.sol j - mv j else s.gbest.sol j + mv j)
      pure (pos, ())
    else do
      let v ← randomVec
      let pos ← correct (fun j => c.P.lb j + td * (c.P.ub j - c.P.lb j) * v j)
      pure (pos, ()))
  if c.swarmLike then do
    let s ← get
    modExt (fun b => zipGreedy c.P.mm b s.pop)
  else pure ()

/-- `OriginalAFT` (`mealpy/human_based/AFT.py:12-109`) -/
def algo : Algo c Unit (List (Agent d K Unit)) := Algo.pre false (fun _ => pure ()) (pure []) before evolve

theorem ok (hE : c.E.Lawful) (hP : c.P.Lawful) (hc : Accepted c 5) :
    (algo : Algo c Unit (List (Agent d K Unit))).Ok (FA c) JT JT (fun y : List (Agent d K Unit) => y.length = c.popSize) c.popSize c.popSize c.popSize := by
  have hpop := hc.pop
  unfold algo
  refine Algo.pre_ok (J := (fun y : List (Agent d K Unit) => y.length = c.popSize)) hE hP (fun x hx => by dgo) (by dgo) (by intro s hs; exact DT.pure hs) (fun ep hep1 hep2 => ?_)
  unfold evolve
  refine PT.bind0 (IT.draw (DT.repM (Q := fun i => i < c.popSize) fun _ _ => DT.index hE (by omega))) fun fol hf => ?_
  obtain ⟨hf1, hf2⟩ := hf
  refine PT.bindS (PT.rebindLoop hE ?_) (by omega) fun _ _ => ?_
  · intro s i hs hl hi
    have hj := hs.toGoodPop.ext
    refine DT.bind DT.random' fun r _ => DT.bindT (by dgo) fun r' => ?_
    refine DT.ite (fun _ => ?_) (fun _ => by dgo)
    refine DT.bind DT.random' fun u _ => DT.bind (DT.nth_mem (by omega)) fun x _ => DT.bind (DT.nth_mem (by omega)) fun b _ => ?_
    refine DT.bind (DT.nth_mem (by omega)) fun k hk => DT.bind (DT.nth_mem (by have := hf2 k hk; omega)) fun f _ => ?_
    dgo
  · refine IT.weaken (lo := 0) (hi := 0) (IT.iteS (fun _ => ?_) fun _ => IT.pure trivial) (by omega) (by omega)
    refine IT.bind0 IT.get fun s hs => IT.modExt fun y hy => ?_
    have := hs.toGoodPop.len
    rw [zipGreedy_length]; omega

theorem framed (hE : c.E.Lawful) (ep : Nat) : Framed true (evolve ep : M c Unit (List (Agent d K Unit)) Unit) := by
  unfold evolve; framed

end OriginalAFT

namespace OriginalABC

/-- `n_limits in [1, 1000]` (`mealpy/swarm_based/ABC.py:63`) -/
structure Params where
  nLimits : Nat

/-- a bee looks for a better place near source `sel` and the trial counter is updated (`mealpy/swarm_based/ABC.py:80-90`, `99-109`) -/
def bee (idx sel : Nat) (excl : List Nat) : M c Unit (List Nat) Unit := do
  let s ← get
  let k ← draw (pickWithout c.popSize excl)
  let phi ← draw (uniformVec (fun _ => -1) (fun _ => 1))
  let x ← draw (nth s.pop sel)
  let y ← draw (nth s.pop k)
  let pos ← draw (correct (fun j => x.sol j + phi j * (y.sol j - x.sol j)))
  let ok ← tryComp (fun _ => pure ()) sel pos
  if ok then modExt (fun t => t.set sel 0) else modExt (fun t => t.modify sel (· + 1))

theorem wt_bee (hE : c.E.Lawful) (hP : c.P.Lawful) {idx sel : Nat} {excl : List Nat} (h : excl.length < c.popSize) (hs : sel < c.popSize) :
    WT noErr (Inv.std c Unit JT) 1 1 (bee idx sel excl : M c Unit (List Nat) Unit) (fun _ => True) := by
  unfold bee
  wwalk

theorem framed_bee {q : Bool} {idx sel : Nat} {excl : List Nat} : Framed q (bee idx sel excl : M c Unit (List Nat) Unit) := by
  unfold bee; framed

/-- a scout (`mealpy/swarm_based/ABC.py:112-115`) -/
def scout (p : Params) (idx : Nat) : M c Unit (List Nat) Unit := do
  let s ← get
  if p.nLimits ≤ (s.ext[idx]?).getD 0 then do
    let a ← liftB (generateAgent (fun _ => pure ()))
    setAt idx a
    modExt (fun t => t.set idx 0)
  else pure ()

theorem wt_scout (hP : c.P.Lawful) {p : Params} {idx : Nat} (hi : idx < c.popSize) :
    WT noErr (Inv.std c Unit JT) 0 1 (scout p idx : M c Unit (List Nat) Unit) (fun _ => True) := by
  unfold scout
  refine WT.bind0 WT.get fun s hs => WT.ite (fun _ => WT.weaken (lo := 1) (hi := 1) ?_ (by omega) (by omega)) fun _ => WT.weaken (WT.pure trivial) (by omega) (by omega)
  wwalk

theorem framed_scout {q : Bool} {p : Params} {idx : Nat} : Framed q (scout p idx : M c Unit (List Nat) Unit) := by
  unfold scout; framed

macro_rules
  | `(tactic| fprim) => `(tactic| first
    | (at_last OriginalABC.bee; exact OriginalABC.framed_bee)
    | (at_last OriginalABC.scout; exact OriginalABC.framed_scout))

/-- `OriginalABC.evolve` (`mealpy/swarm_based/ABC.py:71-115`) with `initialize_variables` (68-69) -/
def evolve (p : Params) (ep : Nat) : M c Unit (List Nat) Unit := do
  iter c.popSize (fun idx _ => bee idx idx [idx]) ()
  let s ← get
  let fits := s.pop.map Agent.fit
  iter c.popSize (fun idx _ => do
    let sel ← draw (rouletteIdx fits)
    bee idx sel [idx, sel]) ()
  iter c.popSize (fun idx _ => scout p idx) ()

/-- `OriginalABC` (`mealpy/swarm_based/ABC.py:12-115`) -/
def algo (p : Params) : Algo c Unit (List Nat) := Algo.full false (fun _ => pure ()) (pure (List.replicate c.popSize 0)) (evolve p)

theorem wok (hE : c.E.Lawful) (hP : c.P.Lawful) (hc : Accepted c 5) (p : Params) :
    (algo p : Algo c Unit (List Nat)).WOk noErr (Inv.std c Unit JT) JT JT c.popSize c.popSize 0 0 (2 * c.popSize) (3 * c.popSize) := by
  wfullalg hE hP hc evolve
  refine WT.iterS 1 1 (by omega) (fun i hi => wt_bee hE hP (by simp; omega) hi) ?_
  refine WT.bind0 WT.get fun s hs => ?_
  have hlen : s.pop.length = c.popSize := hs.len
  refine WT.iterS 1 1 (by omega) (fun i hi => ?_) ?_
  · refine WT.bind0 (WT.draw (DT.rouletteIdx hE (by simp; omega))) fun sel hsel => wt_bee hE hP (by simp; omega) (by simpa [hlen] using hsel)
  · exact WT.iterU 0 1 (by omega) (by omega) fun i hi => wt_scout hP hi

theorem framed (hE : c.E.Lawful) (p : Params) (ep : Nat) : Framed true (evolve p ep : M c Unit (List Nat) Unit) := by
  unfold evolve; framed

end OriginalABC

namespace OriginalIWO

/-- `seed_min in [1, 3]`, `seed_max in [4, pop_size/2]`, `exponent in [2, 4]`, `sigma_start in [0.5, 5]`, `sigma_end in (0, 0.5)`
(`mealpy/bio_based/IWO.py:71-75`) -/
structure Params (K : Type) [Num K] where
  seedMin : Nat
  seedMax : Nat
  exponent : Nat
  sigmaStart : K
  sigmaEnd : K

/-- the number of seeds of a weed (`mealpy/bio_based/IWO.py:97-99`) -/
def seeds (c : Cfg d K) (p : Params K) (ratio : K) : Nat :=
  min (Num.ceil (♯p.seedMin + (♯p.seedMax - ♯p.seedMin) * ratio : K)).toNat c.popSize.sqrt

/-- what is assumed of the arithmetic: a ratio is not negative and gives at least one seed. Over ℚ it holds for every `seed_min ≥ 1` and
`seed_max ≥ seed_min` (`OriginalIWO.sows_rat`). -/
structure Sows (p : Params K) : Prop where
  ratio : ∀ f w b : K, (w ≤ f ∧ f ≤ b) ∨ (b ≤ f ∧ f ≤ w) → b - w ≠ 0 → 0 ≤ (f - w) / (b - w)
  one : ∀ r : K, 0 ≤ r → 1 ≤ Num.ceil (♯p.seedMin + (♯p.seedMax - ♯p.seedMin) * r : K)

/-- the ratio (`mealpy/bio_based/IWO.py:92-96`) -/
def ratio (x best worst : Agent d K Unit) : D c K :=
  if best.fit - worst.fit = 0 then random else pure ((x.fit - worst.fit) / (best.fit - worst.fit))

/-- the seeds of one weed (`mealpy/bio_based/IWO.py:91-111`) -/
def sow (p : Params K) (sigma : K) (sorted : List (Agent d K Unit)) (best worst : Agent d K Unit) (idx : Nat) : M c Unit Unit (List (Agent d K Unit)) := do
  let x ← draw (nth sorted idx)
  let r ← draw (ratio x best worst)
  buildEval (seeds c p r) (fun _ _ => do
    let z ← normalVec 0 1
    let pos ← correct (fun j => x.sol j + sigma * z j)
    pure (pos, ()))

/-- `OriginalIWO.evolve` (`mealpy/bio_based/IWO.py:79-112`): the new population is made of seeds only -/
def evolve (p : Params K) (ep : Nat) : M c Unit Unit Unit := do
  let t : K := 1.0 - ♯ep / ♯c.epoch
  let sigma : K := prodL (List.replicate p.exponent t) * (p.sigmaStart - p.sigmaEnd) + p.sigmaEnd
  let s ← get
  let sorted ← draw (sortedPop s.pop)
  let best ← draw (nth sorted 0)
  let worst ← draw (nth sorted (sorted.length - 1))
  let new ← iter c.popSize (fun idx acc => do
    let l ← sow p sigma sorted best worst idx
    pure (acc ++ l)) []
  setPop ((getSorted c.E.argsort new c.P.mm).1.take c.popSize)

theorem framed_sow {q : Bool} (hE : c.E.Lawful) {p : Params K} {sigma : K} {sorted : List (Agent d K Unit)} {best worst : Agent d K Unit} {idx : Nat} :
    Framed q (sow p sigma sorted best worst idx : M c Unit Unit _) := by
  unfold sow; framed

macro_rules
  | `(tactic| fprim) => `(tactic| (at_last OriginalIWO.sow; exact OriginalIWO.framed_sow (by assumption)))

theorem dt_ratio (hE : c.E.Lawful) {p : Params K} (hs : Sows p) {x best worst : Agent d K Unit}
    (h1 : NoWorse c.P.mm best.fit x.fit) (h2 : NoWorse c.P.mm x.fit worst.fit) :
    DT noErr (ratio x best worst : D c K) (fun r => 0 ≤ r) := by
  unfold ratio
  refine DT.ite (fun _ => DT.mono (DT.random hE) fun r hr => hr.1) fun hne => DT.pure (hs.ratio _ _ _ ?_ hne)
  revert h1 h2
  cases c.P.mm <;> intro h1 h2
  · exact .inr ⟨h1, h2⟩
  · exact .inl ⟨h2, h1⟩

theorem rj_sow (hE : c.E.Lawful) (hP : c.P.Lawful) (hpop : 5 ≤ c.popSize) {p : Params K} (hs : Sows p) {sigma : K}
    {sorted : List (Agent d K Unit)} {best worst : Agent d K Unit} (hl : sorted.length = c.popSize)
    (h1 : ∀ x ∈ sorted, NoWorse c.P.mm best.fit x.fit) (h2 : ∀ x ∈ sorted, NoWorse c.P.mm x.fit worst.fit) {idx : Nat} (hi : idx < c.popSize)
    {G : List (Agent d K Unit)} :
    RJ (FA c) JT 1 c.popSize.sqrt G (sow p sigma sorted best worst idx : M c Unit Unit _) (fun l => G ++ l) (fun l => 1 ≤ l.length) := by
  unfold sow
  refine RJ.bind0 (RJ.draw (DT.nth_mem (by omega))) fun x hx => RJ.bind0 (RJ.draw (dt_ratio hE hs (h1 x hx) (h2 x hx))) fun r hr => ?_
  have h3 := hs.one r hr
  have h4 : 1 ≤ c.popSize.sqrt := Nat.le_sqrt.2 (by omega)
  have h5 : 1 ≤ seeds c p r ∧ seeds c p r ≤ c.popSize.sqrt := by unfold seeds; omega
  refine RJ.weaken (RJ.mono (RJ.buildEval hE ?_) fun l hl => by rw [hl.1]; exact h5.1) h5.1 h5.2
  mkgo

/-- `OriginalIWO` (`mealpy/bio_based/IWO.py:12-112`) -/
def algo (p : Params K) : Algo c Unit Unit := Algo.plain true (evolve p)

theorem ok (hE : c.E.Lawful) (hP : c.P.Lawful) (hc : Accepted c 5) (p : Params K) (hs : OriginalIWO.Sows p) :
    (algo p : Algo c Unit Unit).Ok (FA c) JT JT JT c.popSize (c.popSize * 1) (c.popSize * c.popSize.sqrt) := by
  plainalg hE hP hc evolve
  refine RT.pt (RT.bind0 RJ.get fun s hgs => ?_)
  have hlen := hgs.toGoodPop.len
  refine RT.bind0 (RJ.draw (DT.sortedPop' hE)) fun sorted hso => ?_
  obtain ⟨ho1, ho2, ho3⟩ := hso
  refine RT.bind0 (RJ.draw (DT.nth (Q := fun b => ∀ x ∈ sorted, NoWorse c.P.mm b.fit x.fit) (by omega) (fun x hx => (sorted_ends ho3 (by omega) x hx).1))) fun best hb => ?_
  refine RT.bind0 (RJ.draw (DT.nth (Q := fun w => ∀ x ∈ sorted, NoWorse c.P.mm x.fit w.fit) (by omega) (fun x hx => (sorted_ends ho3 (by omega) x hx).2))) fun worst hw => ?_
  refine RT.bindS (RJ.iter (lo := 1) (hi := c.popSize.sqrt) (fun l : List (Agent d K Unit) => l) (fun i (l : List (Agent d K Unit)) => i ≤ l.length) c.popSize (Nat.le_refl 0) (fun i l hi hl => ?_)) (by omega) fun new hn => ?_
  · refine RJ.bind (rj_sow hE hP hc.pop.1 hs (by omega) hb hw hi) fun l' hl' => RJ.pure (a := l ++ l') (H := fun l => l) (R := fun l => i + 1 ≤ l.length) rfl (by rw [List.length_append]; omega)
  · refine RT.weaken (RT.setPop ?_ (fun a ha => (getSorted_mem hE.argsortLaw).1 (List.mem_of_mem_take ha)) fun b hb => sorted_take_cover hE (by omega) hb) (by omega) (by omega)
    rw [List.length_take, getSorted_length hE.argsortLaw]; omega

theorem framed (hE : c.E.Lawful) (p : Params K) (ep : Nat) : Framed true (evolve p ep : M c Unit Unit Unit) := by
  unfold evolve; framed

end OriginalIWO

end Mealpy
