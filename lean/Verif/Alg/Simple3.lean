import Verif.Alg.Kit4

/-! # Simple optimizers, part 3

`SSO.py`, `MFO.py`, `PFA.py`, `RSA.py`, `WarSO.py`, `CSA.py`, `CDO.py`, `SOS.py`, `ChOA.py`, `SSDO.py`, `EOA.py` -/

set_option linter.unusedSectionVars false
set_option linter.unusedVariables false

namespace Mealpy
open Spec

variable {d : Nat} {K : Type} [Num K] {c : Cfg d K}
namespace OriginalSSO

/-- `OriginalSSO.evolve` (`mealpy/swarm_based/SSO.py:58-87`) -/
def evolve (ep : Nat) : M c Unit Unit Unit :=
  greedyLoop c.popSize (fun s idx => do
    let t : K := 4 * ♯ep / ♯c.epoch
    let c1 : K := 2 * Num.exp (-(t * t))
    if 2 * idx < c.popSize then do
      let c2 ← randomVec
      let c3 ← randomVec
      let g := s.gbest.sol
      let pos ← correct (fun j => if c3 j < 0.5 then g j + c1 * ((c.P.ub j - c.P.lb j) * c2 j + c.P.lb j)
        else g j - c1 * ((c.P.ub j - c.P.lb j) * c2 j + c.P.lb j))
      pure (pos, ())
    else do
      let x ← nth s.pop idx
      let y ← nth s.pop (idx - 1)
      let pos ← correct (fun j => (x.sol j + y.sol j) / 2)
      pure (pos, ()))

/-- `OriginalSSO` (`mealpy/swarm_based/SSO.py:12-87`) -/
def algo : Algo c Unit Unit := Algo.plain true evolve

theorem ok (hE : c.E.Lawful) (hP : c.P.Lawful) (hc : Accepted c 5) :
    (algo : Algo c Unit Unit).Ok (FA c) JT JT JT c.popSize c.popSize c.popSize := by
  plainalg hE hP hc evolve
  iauto

theorem framed (hE : c.E.Lawful) (ep : Nat) : Framed true (evolve ep : M c Unit Unit Unit) := by
  unfold evolve; framed

end OriginalSSO

namespace OriginalMFO

/-- `OriginalMFO.evolve` (`mealpy/swarm_based/MFO.py:57-90`) -/
def evolve (ep : Nat) : M c Unit Unit Unit := do
  let s ← get
  let flames ← draw (sortedPop s.pop)
  let g ← draw (nth flames 0)
  let numFlame : K := Num.ufunc "round" (♯c.popSize - ♯ep * ((♯c.popSize - 1) / ♯c.epoch))
  let a : K := -1 + ♯ep * (-1 / ♯c.epoch)
  greedyLoopR c.popSize (fun s idx => do
    let fl ← nth flames idx
    let x ← nth s.pop idx
    let dist : Vec d K := fun j => Num.abs (fl.sol j - x.sol j)
    let u ← uniform 0 1
    let t : K := (a - 1) * u + 1
    let e : K := Num.exp (1 * t) * Num.cos (t * 2 * Num.pi)
    let pos ← correct (fun j => if ♯idx < numFlame then dist j * e + fl.sol j else dist j * e + g.sol j)
    pure (pos, ()))

/-- `OriginalMFO` (`mealpy/swarm_based/MFO.py:12-90`) -/
def algo : Algo c Unit Unit := Algo.plain false evolve

theorem ok (hE : c.E.Lawful) (hP : c.P.Lawful) (hc : Accepted c 5) :
    (algo : Algo c Unit Unit).Ok (FA c) JT JT JT c.popSize c.popSize c.popSize := by
  plainalg hE hP hc evolve
  iauto

theorem framed (hE : c.E.Lawful) (ep : Nat) : Framed true (evolve ep : M c Unit Unit Unit) := by
  unfold evolve; framed

end OriginalMFO

namespace OriginalPFA

/-- the inner loop over the other members (`mealpy/swarm_based/PFA.py:75-81`) -/
def drift (alpha t : K) (pop : List (Agent d K Unit)) (x : Agent d K Unit) : D c (Vec d K) :=
  iter (c.popSize - 1) (fun k (acc : Vec d K) => do
    let y ← nth pop (k + 1)
    let dist : K := normV (fun j => y.sol j - x.sol j) / ♯d
    let u ← uniform 0 1
    let v ← uniform 0 1
    pure (fun j => acc j + (alpha * u * (y.sol j - x.sol j) + v * t * (dist / (c.P.ub j - c.P.lb j))))) x.sol

theorem DT.drift {Er : Err → Prop} {alpha t : K} {pop : List (Agent d K Unit)} {x : Agent d K Unit} (h : pop.length = c.popSize) :
    DT Er (drift alpha t pop x : D c (Vec d K)) (fun _ => True) := by
  refine DT.iter (fun _ _ => True) _ trivial fun k acc hk _ => ?_
  dgo

macro_rules
  | `(tactic| dprim) => `(tactic| (at_head OriginalPFA.drift; exact OriginalPFA.DT.drift (by assumption)))

/-- `OriginalPFA.evolve` (`mealpy/swarm_based/PFA.py:57-92`) -/
def evolve (ep : Nat) : M c Unit Unit Unit := do
  let s ← get
  let alpha ← draw (uniform 1 2)
  let beta ← draw (uniform 1 2)
  let r ← draw (uniformVec c.P.lb c.P.ub)
  let t : K := 1 - ♯ep * 1.0 / ♯c.epoch
  let x0 ← draw (nth s.pop 0)
  let u ← draw (uniform 0 1)
  let pos ← draw (correct (fun j => x0.sol j + 2 * u * (s.gbest.sol j - x0.sol j) + r j * Num.exp (-2 * ♯ep / ♯c.epoch)))
  let a ← liftB (agentOf (fun _ => pure ()) pos)
  let new ← buildEval (c.popSize - 1) (fun s k => do
    let x ← nth s.pop (k + 1)
    let z ← drift alpha t s.pop x
    let v ← uniform 0 1
    let pos ← correct (fun j => (z j + beta * v * (s.gbest.sol j - x.sol j)) / ♯c.popSize)
    pure (pos, ()))
  selectGreedy ([a] ++ new)

/-- `OriginalPFA` (`mealpy/swarm_based/PFA.py:12-92`) -/
def algo : Algo c Unit Unit := Algo.plain true evolve

theorem ok (hE : c.E.Lawful) (hP : c.P.Lawful) (hc : Accepted c 5) :
    (algo : Algo c Unit Unit).Ok (FA c) JT JT JT c.popSize c.popSize c.popSize := by
  plainalg hE hP hc evolve
  hauto

theorem framed (hE : c.E.Lawful) (ep : Nat) : Framed true (evolve ep : M c Unit Unit Unit) := by
  unfold evolve; framed

end OriginalPFA

namespace OriginalRSA

/-- `alpha`, `beta in (0, 100)` (`mealpy/swarm_based/RSA.py:57-58`) -/
structure Params (K : Type) [Num K] where
  alpha : K
  beta : K

/-- `OriginalRSA.evolve` (`mealpy/swarm_based/RSA.py:62-104`) -/
def evolve (p : Params K) (ep : Nat) : M c Unit Unit Unit := do
  let r3 ← draw (integers (-1) 2)
  let es : K := 2.0 * Num.ofInt r3 * (1 - 1 / ♯c.epoch)
  greedyLoop c.popSize (fun s idx => do
    let g := s.gbest.sol
    let x ← nth s.pop idx
    let mx : K := meanL (List.ofFn x.sol)
    let i1 ← index c.popSize
    let i2 ← index c.popSize
    let y1 ← nth s.pop i1
    let y2 ← nth s.pop i2
    let r ← randomVec
    let P : Vec d K := fun j => p.alpha + (x.sol j - mx) / (g j * (c.P.ub j - c.P.lb j) + Num.EPSILON)
    let eta : Vec d K := fun j => g j * P j
    let R : Vec d K := fun j => (g j - y2.sol j) / (g j + Num.EPSILON)
    let pos ← correct (fun j => if 4 * ep ≤ c.epoch then g j * (-eta j * p.beta - R j * r j)
      else if 4 * ep ≤ 2 * c.epoch then g j * (y1.sol j * es * r j)
      else if 4 * ep ≤ 3 * c.epoch then g j * (P j * r j)
      else g j - eta j * Num.EPSILON - R j * r j)
    pure (pos, ()))

/-- `OriginalRSA` (`mealpy/swarm_based/RSA.py:10-104`) -/
def algo (p : Params K) : Algo c Unit Unit := Algo.plain false (evolve p)

theorem ok (hE : c.E.Lawful) (hP : c.P.Lawful) (hc : Accepted c 5) (p : Params K) :
    (algo p : Algo c Unit Unit).Ok (FA c) JT JT JT c.popSize c.popSize c.popSize := by
  plainalg hE hP hc evolve
  iauto

theorem framed (hE : c.E.Lawful) (p : Params K) (ep : Nat) : Framed true (evolve p ep : M c Unit Unit Unit) := by
  unfold evolve; framed

end OriginalRSA

namespace OriginalWarSO

/-- `rr in (0, 1)` (`mealpy/human_based/WarSO.py:63`) -/
structure Params (K : Type) [Num K] where
  rr : K

/-- `initialize_variables` (`mealpy/human_based/WarSO.py:68-70`): `wl` and `wg` -/
def init : D c (List (K × K)) := pure (List.replicate c.popSize (2, 0))

/-- `OriginalWarSO.evolve` (`mealpy/human_based/WarSO.py:72-96`) -/
def evolve (p : Params K) (ep : Nat) : M c Unit (List (K × K)) Unit := do
  let s ← get
  let sorted ← draw (sortedPop s.pop)
  modExt (fun w => picks w (getSorted c.E.argsort s.pop c.P.mm).2)
  let com ← draw (permutation c.popSize)
  iter c.popSize (fun idx _ => do
    let s ← get
    let wl : K := ((s.ext[idx]?).getD (0, 0)).1
    let r1 ← draw random
    let r2 ← draw random
    let k ← draw (nth com idx)
    let y ← draw (nth s.pop k)
    let x ← draw (nth s.pop idx)
    let b ← draw (nth sorted idx)
    let g := s.gbest.sol
    let pos ← draw (correct (fun j => if r1 < p.rr then 2 * r1 * (g j - y.sol j) + wl * r2 * (b.sol j - x.sol j)
      else 2 * r1 * (b.sol j - g j) + r2 * (wl * g j - x.sol j)))
    let ok ← tryComp (fun _ => pure ()) idx pos
    if ok then modExt (fun w => w.modify idx (fun v =>
      let e : K := 1 - (v.2 + 1) / ♯c.epoch
      (1 * v.1 * (e * e), v.2 + 1)))
    else pure ()) ()

/-- `OriginalWarSO` (`mealpy/human_based/WarSO.py:12-96`) -/
def algo (p : Params K) : Algo c Unit (List (K × K)) := Algo.full false (fun _ => pure ()) init (evolve p)

theorem ok (hE : c.E.Lawful) (hP : c.P.Lawful) (hc : Accepted c 5) (p : Params K) :
    (algo p : Algo c Unit (List (K × K))).Ok (FA c) JT JT JT c.popSize c.popSize c.popSize := by
  have hpop := hc.pop
  refine Algo.full_ok hE hP (fun x hx => by dgo) (J := JT) (by unfold init; dgo) (fun ep hep1 hep2 => ?_)
  unfold evolve
  iauto

theorem framed (hE : c.E.Lawful) (p : Params K) (ep : Nat) : Framed true (evolve p ep : M c Unit (List (K × K)) Unit) := by
  unfold evolve; framed

end OriginalWarSO

namespace OriginalCSA

/-- `n_cut = int(p_a * pop_size)` for `p_a in (0, 1)` (`mealpy/swarm_based/CSA.py:63-65`) -/
structure Params where
  nCut : Nat

/-- `OriginalCSA.evolve` (`mealpy/swarm_based/CSA.py:68-101`). The random positions of the second phase are evaluated without
`correct_solution`. -/
def evolve (p : Params) (ep : Nat) : M c Unit Unit Unit := do
  greedyLoop c.popSize (fun s idx => do
    let l ← levyVec 1 0.001 (-1)
    let x ← nth s.pop idx
    let r ← random
    let pos ← correct (fun j => x.sol j + 1.0 / Num.sqrt (♯ep) * Num.sign (r - 0.5) * l j * (x.sol j - s.gbest.sol j))
    pure (pos, ()))
  let new ← buildEval p.nCut (fun s idx => do
    let pos ← uniformVec c.P.lb c.P.ub
    pure (pos, ()))
  keepBest (c.popSize - p.nCut) new

/-- `OriginalCSA` (`mealpy/swarm_based/CSA.py:12-101`) -/
def algo (p : Params) : Algo c Unit Unit := Algo.plain false (evolve p)

theorem ok (hE : c.E.Lawful) (hP : c.P.Lawful) (hc : Accepted c 5) (p : Params) (hn : p.nCut < c.popSize) :
    (algo p : Algo c Unit Unit).Ok (FA c) JT JT JT c.popSize (c.popSize + p.nCut) (c.popSize + p.nCut) := by
  plainalg hE hP hc evolve
  hauto

theorem framed (hE : c.E.Lawful) (p : Params) (ep : Nat) : Framed true (evolve p ep : M c Unit Unit Unit) := by
  unfold evolve; framed

end OriginalCSA

namespace OriginalCDO

/-- one of the three attractors (`mealpy/physics_based/CDO.py:76-81`) -/
def pull (w q a : K) (b x : Vec d K) : D c (Vec d K) := do
  let r1 ← randomVec
  let r2 ← randomVec
  let r3 ← randomVec
  pure (fun j => w * (b j - (Num.pi * r1 j * r1 j / q - a * r3 j) * Num.abs (r2 j * r2 j * Num.pi * b j - x j)))

theorem DT.pull {Er : Err → Prop} {w q a : K} {b x : Vec d K} : DT Er (pull w q a b x : D c (Vec d K)) (fun _ => True) := by
  unfold OriginalCDO.pull; dgo

macro_rules
  | `(tactic| dprim) => `(tactic| (at_head OriginalCDO.pull; exact OriginalCDO.DT.pull))

/-- `OriginalCDO.evolve` (`mealpy/physics_based/CDO.py:62-105`) -/
def evolve (ep : Nat) : M c Unit Unit Unit := do
  let s ← get
  let (b1, b2, b3) ← draw (best3 s.pop)
  let a : K := 3 - 3 * ♯ep / ♯c.epoch
  let q1 ← draw random
  let q2 ← draw random
  let q3 ← draw random
  let a1 : K := Num.ufunc "log10" ((16000 - 1) * q1 + 16000)
  let a2 : K := Num.ufunc "log10" ((270000 - 1) * q2 + 270000)
  let a3 : K := Num.ufunc "log10" ((300000 - 1) * q3 + 300000)
  let new ← buildEval c.popSize (fun s idx => do
    let x ← nth s.pop idx
    let pa ← pull 0.25 (0.25 * a1) a b1.sol x.sol
    let pb ← pull 0.5 (0.5 * a2) a b2.sol x.sol
    let pc ← pull 1 a3 a b3.sol x.sol
    let pos ← correct (fun j => (pa j + pb j + pc j) / 3)
    pure (pos, ()))
  setPop new

/-- `OriginalCDO` (`mealpy/physics_based/CDO.py:12-105`) -/
def algo : Algo c Unit Unit := Algo.plain false evolve

theorem ok (hE : c.E.Lawful) (hP : c.P.Lawful) (hc : Accepted c 5) :
    (algo : Algo c Unit Unit).Ok (FA c) JT JT JT c.popSize c.popSize c.popSize := by
  plainalg hE hP hc evolve
  pwalk

theorem framed (hE : c.E.Lawful) (ep : Nat) : Framed true (evolve ep : M c Unit Unit Unit) := by
  unfold evolve; framed

end OriginalCDO

namespace OriginalSOS

/-- one round of the loop (`mealpy/bio_based/SOS.py:64-94`) -/
def round (idx : Nat) : M c Unit Unit Unit := do
  let s ← get
  let jdx ← draw (pickWithout c.popSize [idx])
  let x ← draw (nth s.pop idx)
  let y ← draw (nth s.pop jdx)
  let f1 ← draw (integers 1 3)
  let f2 ← draw (integers 1 3)
  let r1 ← draw random
  let r2 ← draw random
  let g := s.gbest.sol
  let xi ← draw (correct (fun j => x.sol j + r1 * (g j - Num.ofInt f1 * ((x.sol j + y.sol j) / 2))))
  let xj ← draw (correct (fun j => y.sol j + r2 * (g j - Num.ofInt f2 * ((x.sol j + y.sol j) / 2))))
  tryPair (fun _ => pure ()) idx xi jdx xj
  let s ← get
  let jdx ← draw (pickWithout c.popSize [idx])
  let x ← draw (nth s.pop idx)
  let y ← draw (nth s.pop jdx)
  let u ← draw (uniform (-1) 1)
  let xi ← draw (correct (fun j => x.sol j + u * (g j - y.sol j)))
  tryCompare (fun _ => pure ()) idx xi
  let s ← get
  let jdx ← draw (pickWithout c.popSize [idx])
  let y ← draw (nth s.pop jdx)
  let t ← draw (integers 0 d)
  let z ← draw genSolution
  let xi ← draw (correct (atDims [t.toNat] y.sol z))
  tryCompare (fun _ => pure ()) idx xi

/-- `OriginalSOS.evolve` (`mealpy/bio_based/SOS.py:57-94`) -/
def evolve (ep : Nat) : M c Unit Unit Unit := iter c.popSize (fun idx _ => round idx) ()

theorem it_round (hE : c.E.Lawful) (hP : c.P.Lawful) (hd : 0 < d) (hpop : 5 ≤ c.popSize) {idx : Nat} (hi : idx < c.popSize) :
    IT (FA c) JT 4 4 (round idx : M c Unit Unit Unit) (fun _ => True) := by
  unfold round; iwalk

theorem framed_round (hE : c.E.Lawful) {idx : Nat} : Framed true (round idx : M c Unit Unit Unit) := by
  unfold round; framed

macro_rules
  | `(tactic| fprim) => `(tactic| (at_last OriginalSOS.round; exact OriginalSOS.framed_round (by assumption)))

/-- `OriginalSOS` (`mealpy/bio_based/SOS.py:11-94`) -/
def algo : Algo c Unit Unit := Algo.plain false evolve

theorem ok (hE : c.E.Lawful) (hP : c.P.Lawful) (hc : Accepted c 5) (hd : 0 < d) :
    (algo : Algo c Unit Unit).Ok (FA c) JT JT JT c.popSize (4 * c.popSize) (4 * c.popSize) := by
  plainalg hE hP hc evolve
  exact IT.pt (IT.iterS 4 4 (by omega) (by omega) fun i hi => it_round hE hP hd (by omega) hi)

theorem framed (hE : c.E.Lawful) (ep : Nat) : Framed true (evolve ep : M c Unit Unit Unit) := by
  unfold evolve; framed

end OriginalSOS

namespace OriginalChOA

/-- one of the four leaders (`mealpy/swarm_based/ChOA.py:75-80`) -/
def pull (f : K) (b x : Vec d K) : D c (Vec d K) := do
  let r1 ← randomVec
  let r2 ← randomVec
  pure (fun j => b j - (2 * f * r1 j - f) * Num.abs (2 * r2 j * b j - x j))

theorem DT.pull {Er : Err → Prop} {f : K} {b x : Vec d K} : DT Er (pull f b x : D c (Vec d K)) (fun _ => True) := by
  unfold OriginalChOA.pull; dgo

macro_rules
  | `(tactic| dprim) => `(tactic| (at_head OriginalChOA.pull; exact OriginalChOA.DT.pull))

/-- `OriginalChOA.evolve` (`mealpy/swarm_based/ChOA.py:55-120`) -/
def evolve (ep : Nat) : M c Unit Unit Unit := do
  let f : K := 2.5 - 2.5 * (♯ep / ♯c.epoch)
  let s ← get
  let best ← draw (bestAgents s.pop 4)
  let b1 ← draw (nth best 0)
  let b2 ← draw (nth best 1)
  let b3 ← draw (nth best 2)
  let b4 ← draw (nth best 3)
  greedyLoop c.popSize (fun s idx => do
    let x ← nth s.pop idx
    let x1 ← pull f b1.sol x.sol
    let x2 ← pull f b2.sol x.sol
    let x3 ← pull f b3.sol x.sol
    let x4 ← pull f b4.sol x.sol
    let pos ← correct (fun j => (x1 j + x2 j + x3 j + x4 j) / 4)
    pure (pos, ()))

/-- `OriginalChOA` (`mealpy/swarm_based/ChOA.py:10-120`) -/
def algo : Algo c Unit Unit := Algo.plain false evolve

theorem ok (hE : c.E.Lawful) (hP : c.P.Lawful) (hc : Accepted c 5) :
    (algo : Algo c Unit Unit).Ok (FA c) JT JT JT c.popSize c.popSize c.popSize := by
  plainalg hE hP hc evolve
  iauto

theorem framed (hE : c.E.Lawful) (ep : Nat) : Framed true (evolve ep : M c Unit Unit Unit) := by
  unfold evolve; framed

end OriginalChOA

namespace OriginalSSDO

/-- `generate_empty_agent` (`mealpy/human_based/SSDO.py:63-68`): `velocity` and `local_solution` -/
def mkExt (x : Vec d K) : D c (Vec d K × Vec d K) := do
  let v ← uniformVec c.P.lb c.P.ub
  pure (v, x)

/-- the new position of a member (`mealpy/human_based/SSDO.py:93-96`) -/
def move (x vel : Vec d K) : D c (Vec d K × (Vec d K × Vec d K)) := do
  let n ← normalVec 0 1
  let r ← random
  let pos ← correct (fun j => n j * x j + r * vel j)
  let e ← mkExt pos
  pure (pos, (e.1, x))

/-- `OriginalSSDO.evolve` (`mealpy/human_based/SSDO.py:70-102`). In the modes that evaluate in bulk it is `pop_new`, the copies of
the old population, that is evaluated again, not the new agents. -/
def evolve (ep : Nat) : M c (Vec d K × Vec d K) Unit Unit := do
  let k : K := 2 - ♯ep * (2.0 / ♯c.epoch)
  let s ← get
  let best ← draw (bestAgents s.pop 3)
  let mean : K := meanAll (best.map (·.sol))
  let r1 ← draw (uniform 0 1)
  let r2 ← draw (uniform 0 1)
  let w : K := if r2 ≤ 0.5 then Num.sin r1 else Num.cos r1
  let vel (a : Agent d K (Vec d K × Vec d K)) : Vec d K := fun j =>
    k * w * (a.ext.2 j - a.sol j) + (2 - k) * w * (mean - a.sol j)
  if c.swarmLike then do
    let new ← buildEval c.popSize (fun s idx => do
      let x ← nth s.pop idx
      let _ ← move x.sol (vel x)
      pure (x.sol, (vel x, x.ext.2)))
    selectGreedy new
  else do
    mapExt (fun _ a => (vel a, a.ext.2))
    greedyLoop c.popSize (fun s idx => do
      let x ← nth s.pop idx
      move x.sol x.ext.1)

theorem dt_mkExt {Er : Err → Prop} {Q : Vec d K × Vec d K → Prop} {x : Vec d K} (h : ∀ e, Q e) : DT Er (mkExt x : D c _) Q := by
  unfold OriginalSSDO.mkExt
  exact DT.bind DT.uniformVec' fun _ _ => DT.pure (h _)

theorem dt_move (hP : c.P.Lawful) {x v : Vec d K} : DT noErr (move x v : D c _) (MkOk (FA c) c) := by
  unfold OriginalSSDO.move
  refine DT.bind DT.normalVec fun _ _ => DT.bind DT.random' fun _ _ => DT.bind (DT.correct hP) fun _ h => ?_
  refine DT.bind (dt_mkExt (Q := fun _ => True) fun _ => trivial) fun _ _ => ?_
  exact DT.pure ⟨h, h⟩

theorem dt_move' (hP : c.P.Lawful) {x v : Vec d K} : DT noErr (move x v : D c _) (fun _ => True) :=
  DT.mono (dt_move hP) fun _ _ => trivial

macro_rules
  | `(tactic| dprim) => `(tactic| first
    | (at_head OriginalSSDO.mkExt; exact OriginalSSDO.dt_mkExt (fun _ => by dfin))
    | (at_head OriginalSSDO.move; exact OriginalSSDO.dt_move (by assumption))
    | (at_head OriginalSSDO.move; exact OriginalSSDO.dt_move' (by assumption)))

/-- `OriginalSSDO` (`mealpy/human_based/SSDO.py:13-102`) -/
def algo : Algo c (Vec d K × Vec d K) Unit := Algo.full false mkExt (pure ()) evolve

theorem ok (hE : c.E.Lawful) (hP : c.P.Lawful) (hc : Accepted c 5) :
    (algo : Algo c (Vec d K × Vec d K) Unit).Ok (FA c) JT JT JT c.popSize c.popSize c.popSize := by
  fullalg hE hP hc evolve
  iauto

theorem framed (hE : c.E.Lawful) (ep : Nat) : Framed true (evolve ep : M c (Vec d K × Vec d K) Unit Unit) := by
  unfold evolve; framed

end OriginalSSDO

namespace OriginalEOA

/-- `p_c`, `p_m`, `alpha`, `beta`, `gama in (0, 1)`, `n_best in [2, pop_size / 2]` (`mealpy/bio_based/EOA.py:98-103`) -/
structure Params (K : Type) [Num K] where
  pc : K
  pm : K
  nBest : Nat
  alpha : K
  beta : K
  gama : K

/-- `OriginalEOA.evolve` (`mealpy/bio_based/EOA.py:110-177`). `dyn_beta` is `gama * beta` in every epoch. -/
def evolve (p : Params K) (ep : Nat) : M c Unit Unit Unit := do
  let s ← get
  let worst ← draw (worstAgent s.pop)
  let fits : List K := s.pop.map (fun a => match c.P.mm with
    | .min => worst.fit - a.fit + Num.EPSILON
    | .max => a.fit - worst.fit + Num.EPSILON)
  let ps := fits.map (fun f => f / sumL fits)
  let beta : K := p.gama * p.beta
  let old := s.pop
  let new ← buildEval c.popSize (fun s idx => do
    let x ← nth s.pop idx
    let r1 ← index c.popSize
    let x1 ← (if p.nBest ≤ idx then do
        let m1 ← index c.popSize
        let m2 ← choiceP ps
        let a ← nth s.pop m1
        let b ← nth s.pop m2
        let rc ← randomVec
        let rs ← randomVec
        pure (fun j => if (rc j < p.pc ∧ 0.5 < rs j) ∨ (p.pc ≤ rc j ∧ rs j ≤ 0.5) then a.sol j else b.sol j)
      else do
        let a ← nth s.pop r1
        pure a.sol : D c (Vec d K))
    let pos ← correct (fun j => beta * (c.P.lb j + c.P.ub j - p.alpha * x.sol j) + (1 - beta) * x1 j)
    pure (pos, ()))
  let sorted := (getSorted c.E.argsort new c.P.mm).1
  let best ← draw (bestAgent new)
  let mean := meanPos (sorted.map (·.sol))
  let new2 ← buildEval (c.popSize - p.nBest) (fun _ k => do
    if k + p.nBest < c.popSize - p.nBest then do
      let r ← randomVec
      let pos ← correct (fun j => ((if r j < p.pm then mean j else best.sol j) + best.sol j) / 2)
      pure (pos, ())
    else do
      let x ← nth old (k + p.nBest - (c.popSize - p.nBest))
      let pos ← correct x.sol
      pure (pos, ()))
  setPop (sorted.take p.nBest ++ new2)

/-- `OriginalEOA` (`mealpy/bio_based/EOA.py:12-177`) -/
def algo (p : Params K) : Algo c Unit Unit := Algo.plain true (evolve p)

theorem ok (hE : c.E.Lawful) (hP : c.P.Lawful) (hc : Accepted c 5) (p : Params K) (hn1 : 2 ≤ p.nBest) (hn2 : p.nBest ≤ c.popSize / 2) :
    (algo p : Algo c Unit Unit).Ok (FA c) JT JT JT c.popSize (c.popSize + (c.popSize - p.nBest)) (c.popSize + (c.popSize - p.nBest)) := by
  plainalg hE hP hc evolve
  rwalk
  rename_i new hnew b hb new2 hnew2
  have hl := getSorted_length hE.argsortLaw new c.P.mm
  have hperm := getSorted_perm hE.argsortLaw new c.P.mm
  refine RT.weaken (RT.setPop ?_ ?_ ?_) (by omega) (by omega)
  · simp only [List.length_append, List.length_take]; omega
  · intro a ha
    rcases List.mem_append.1 ha with h | h
    · exact List.mem_append_left _ (hperm.mem_iff.1 (List.mem_of_mem_take h))
    · exact List.mem_append_right _ h
  · intro a ha
    rcases List.mem_append.1 ha with h | h
    · obtain ⟨z, hz, hn⟩ := sorted_take_cover hE (n := p.nBest) (by omega) h
      exact ⟨z, List.mem_append_left _ hz, hn⟩
    · exact ⟨a, List.mem_append_right _ h, NoWorse.rfl⟩

theorem framed (hE : c.E.Lawful) (p : Params K) (ep : Nat) : Framed true (evolve p ep : M c Unit Unit Unit) := by
  unfold evolve; framed

end OriginalEOA

end Mealpy
