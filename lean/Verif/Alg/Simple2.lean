import Verif.Alg.Kit3

/-! # Simple optimizers, part 2

`HS.py`, `WOA.py` (first three classes), `POA.py`, `VCS.py`, `SPBO.py`, `AOA.py`, `CEM.py`, `EO.py`, `EOA.py` -/

set_option linter.unusedSectionVars false
set_option linter.unusedVariables false

namespace Mealpy
open Spec

variable {d : Nat} {K : Type} [Num K] {c : Cfg d K}
namespace DevHS

/-- `c_r`, `pa_r` (`mealpy/music_based/HS.py:64-65`) -/
structure Params (K : Type) [Num K] where
  cr : K
  par : K

/-- `initialize_variables` (`mealpy/music_based/HS.py:69-72`): `dyn_fw` -/
def init : D c (Vec d K) := pure (fun j => 0.0001 * (c.P.ub j - c.P.lb j))

/-- `DevHS.evolve` (`mealpy/music_based/HS.py:74-100`). The upper bounds are passed to `normal` as scales. -/
def evolve (p : Params K) (ep : Nat) : M c Unit (Vec d K) Unit := do
  let new ← buildEval c.popSize (fun s idx => do
    let pos ← uniformVec c.P.lb c.P.ub
    let nrm ← normalArr c.P.lb c.P.ub
    let r1 ← randomVec
    let pos : Vec d K := fun j => if r1 j < p.cr then s.gbest.sol j else pos j
    let r2 ← randomVec
    let x ← correct (fun j => if r2 j < p.par then pos j + s.ext j * nrm j else pos j)
    pure (x, ()))
  modExt (fun fw => fun j => fw j * 0.9995)
  mergeTrim c.popSize new

/-- `DevHS` (`mealpy/music_based/HS.py:12-100`) -/
def algo (p : Params K) : Algo c Unit (Vec d K) := Algo.full false (fun _ => pure ()) init (evolve p)

theorem ok (hE : c.E.Lawful) (hP : c.P.Lawful) (hc : Accepted c 5) (p : Params K) (hu : ∀ j, 0 ≤ c.P.ub j) :
    (algo p : Algo c Unit (Vec d K)).Ok (FA c) JT JT JT c.popSize c.popSize c.popSize := by
  have hpop := hc.pop
  refine Algo.full_ok hE hP (fun x hx => by dgo) (J := JT) (by unfold init; dgo) (fun ep hep1 hep2 => ?_)
  unfold evolve
  hauto

theorem framed (hE : c.E.Lawful) (p : Params K) (ep : Nat) : Framed true (evolve p ep : M c Unit (Vec d K) Unit) := by
  unfold evolve; framed

end DevHS

namespace OriginalHS

/-- `OriginalHS.evolve` (`mealpy/music_based/HS.py:156-186`) -/
def evolve (p : DevHS.Params K) (ep : Nat) : M c Unit (Vec d K) Unit := do
  let new ← buildEval c.popSize (fun s idx => do
    let pos ← uniformVec c.P.lb c.P.ub
    let pos ← vecM (fun j => do
      let u ← uniform 0 1
      let z ← (if u ≤ p.cr then do
          let i ← index c.popSize
          let a ← nth s.pop i
          pure (a.sol j)
        else pure (pos j) : D c K)
      let v ← uniform 0 1
      if v ≤ p.par then do
        let nrm ← vecM (fun k => normal ((c.P.lb k + c.P.ub k) / 2) (Num.abs (c.P.ub k - c.P.lb k) / 6))
        pure (z + s.ext j * nrm j)
      else pure z)
    let x ← correct pos
    pure (x, ()))
  modExt (fun fw => fun j => fw j * 0.9995)
  mergeTrim c.popSize new

/-- `OriginalHS` (`mealpy/music_based/HS.py:103-186`) -/
def algo (p : DevHS.Params K) : Algo c Unit (Vec d K) := Algo.full false (fun _ => pure ()) DevHS.init (evolve p)

theorem ok (hE : c.E.Lawful) (hP : c.P.Lawful) (hc : Accepted c 5) (p : DevHS.Params K) :
    (algo p : Algo c Unit (Vec d K)).Ok (FA c) JT JT JT c.popSize c.popSize c.popSize := by
  have hpop := hc.pop
  refine Algo.full_ok hE hP (fun x hx => by dgo) (J := JT) (by unfold DevHS.init; dgo) (fun ep hep1 hep2 => ?_)
  unfold evolve
  hauto

theorem framed (hE : c.E.Lawful) (p : DevHS.Params K) (ep : Nat) : Framed true (evolve p ep : M c Unit (Vec d K) Unit) := by
  unfold evolve; framed

end OriginalHS

namespace OriginalWOA

/-- the position built for agent `idx` (`mealpy/swarm_based/WOA.py:72-93`), also used by the `WOAmM` classes -/
def move (amend : Vec d K → D c (Vec d K)) (ep : Nat) {Y : Type} (s : St c Unit Y) (idx : Nat) : D c (Vec d K × Unit) := do
  let a : K := 2 - 2 * ♯ep / ♯c.epoch
  let a2 : K := -1 - ♯ep / ♯c.epoch
  let r1 ← randomVec
  let r2 ← randomVec
  let r ← random
  let ll : K := (a2 - 1) * r + 1
  let pp ← randomVec
  let x ← nth s.pop idx
  let g := s.gbest.sol
  let pos ← vecM (fun j => do
    let A : K := 2 * a * r1 j - a
    let C : K := 2 * r2 j
    if pp j < 0.5 then
      if 1 ≤ Num.abs A then do
        let i ← pickWithout c.popSize [idx]
        let y ← nth s.pop i
        pure (y.sol j - A * Num.abs (C * y.sol j - x.sol j))
      else pure (g j - A * Num.abs (C * g j - x.sol j))
    else pure (Num.abs (g j - x.sol j) * Num.exp (1 * ll) * Num.cos (ll * 2 * Num.pi) + g j))
  let pos ← correctWith amend pos
  pure (pos, ())

/-- `OriginalWOA.evolve` (`mealpy/swarm_based/WOA.py:61-99`) -/
def evolve (ep : Nat) : M c Unit Unit Unit := replaceLoop c.popSize (move amendClip ep)

/-- `OriginalWOA` (`mealpy/swarm_based/WOA.py:12-99`) -/
def algo : Algo c Unit Unit := Algo.plain false evolve

theorem ok (hE : c.E.Lawful) (hP : c.P.Lawful) (hc : Accepted c 5) :
    (algo : Algo c Unit Unit).Ok (FA c) JT JT JT c.popSize c.popSize c.popSize := by
  plainalg hE hP hc evolve
  unfold move
  pwalk

theorem framed (hE : c.E.Lawful) (ep : Nat) : Framed true (evolve ep : M c Unit Unit Unit) := by
  unfold evolve; framed

end OriginalWOA

namespace DevWOA

/-- `DevWOA.evolve` (`mealpy/swarm_based/WOA.py:140-179`) -/
def evolve (ep : Nat) : M c Unit Unit Unit :=
  greedyLoop c.popSize (fun s idx => do
    let a : K := 2 - 2 * ♯ep / ♯c.epoch
    let r1 ← randomVec
    let r2 ← randomVec
    let ll ← uniform (-1) 1
    let x ← nth s.pop idx
    let g := s.gbest.sol
    let A : Vec d K := fun j => 2 * a * r1 j - a
    let C : Vec d K := fun j => 2 * r2 j
    let i ← pickWithout c.popSize [idx]
    let y ← nth s.pop i
    let pos : Vec d K := fun j => if Num.abs (A j) < 1 then g j - A j * Num.abs (C j * g j - x.sol j)
      else y.sol j - A j * Num.abs (C j * y.sol j - x.sol j)
    let r ← randomVec
    let z ← correct (fun j => if r j < 0.5 then pos j
      else g j + Num.exp (1 * ll) * Num.cos (2 * Num.pi * ll) * Num.abs (g j - x.sol j))
    pure (z, ()))

/-- `DevWOA` (`mealpy/swarm_based/WOA.py:102-179`) -/
def algo : Algo c Unit Unit := Algo.plain false evolve

theorem ok (hE : c.E.Lawful) (hP : c.P.Lawful) (hc : Accepted c 5) :
    (algo : Algo c Unit Unit).Ok (FA c) JT JT JT c.popSize c.popSize c.popSize := by
  plainalg hE hP hc evolve
  iauto

theorem framed (hE : c.E.Lawful) (ep : Nat) : Framed true (evolve ep : M c Unit Unit Unit) := by
  unfold evolve; framed

end DevWOA

namespace HI_WOA

/-- `feedback_max` (`mealpy/swarm_based/WOA.py:233`) -/
structure Params where
  feedbackMax : Nat

/-- `HI_WOA.evolve` (`mealpy/swarm_based/WOA.py:242-289`); the attribute is `dyn_feedback_count` -/
def evolve (p : Params) (ep : Nat) : M c Unit Nat Unit := do
  greedyLoop c.popSize (fun s idx => do
    let a : K := 2 + 2 * Num.cos (Num.pi / 2 * (1 + ♯ep / ♯c.epoch))
    let r1 ← randomVec
    let r2 ← randomVec
    let ll ← uniform (-1) 1
    let x ← nth s.pop idx
    let g := s.gbest.sol
    let A : Vec d K := fun j => 2 * a * r1 j - a
    let C : Vec d K := fun j => 2 * r2 j
    let u ← uniform 0 1
    if u < 0.5 then do
      let i ← pickWithout c.popSize [idx]
      let y ← nth s.pop i
      let z ← correct (fun j => if Num.abs (A j) < 1 then g j - A j * Num.abs (C j * g j - x.sol j)
        else y.sol j - A j * Num.abs (C j * y.sol j - x.sol j))
      pure (z, ())
    else do
      let z ← correct (fun j => g j + Num.exp (1 * ll) * Num.cos (2 * Num.pi * ll) * Num.abs (g j - x.sol j))
      pure (z, ()))
  let s ← get
  let b ← draw (bestAgent s.pop)
  modExt (fun n => if b.fit = s.gbest.fit then n + 1 else 0)
  let s ← get
  if p.feedbackMax ≤ s.ext then do
    let is ← draw (choice c.popSize (c.popSize / 2) false)
    let new ← liftB (generatePopulation (fun _ => pure ()) (c.popSize / 2))
    iter (c.popSize / 2) (fun k _ => do
      let i ← draw (nth is k)
      let a ← draw (nth new k)
      setAt i a) ()
  else pure ()

/-- `HI_WOA` (`mealpy/swarm_based/WOA.py:182-289`) -/
def algo (p : Params) : Algo c Unit Nat := Algo.full true (fun _ => pure ()) (pure 0) (evolve p)

theorem wok (hE : c.E.Lawful) (hP : c.P.Lawful) (hc : Accepted c 5) (p : Params) :
    (algo p : Algo c Unit Nat).WOk noErr (Inv.std c Unit JT) JT JT c.popSize c.popSize 0 0 c.popSize (c.popSize + c.popSize / 2) := by
  wfullalg hE hP hc evolve
  wwalk

theorem framed (hE : c.E.Lawful) (p : Params) (ep : Nat) : Framed true (evolve p ep : M c Unit Nat Unit) := by
  unfold evolve; framed

end HI_WOA

namespace OriginalPOA

/-- `OriginalPOA.evolve` (`mealpy/swarm_based/POA.py:82-107`) -/
def evolve (ep : Nat) : M c Unit Unit Unit := do
  let perm ← draw (permutation c.popSize)
  let kk ← draw (nth perm 0)
  iter c.popSize (fun idx _ => do
    let s ← get
    let pos ← draw (do
      let k ← nth s.pop kk
      let x ← nth s.pop idx
      let r ← random
      if compareTarget k.tgt x.tgt c.P.mm then do
        let t ← integers 1 3
        correct (fun j => x.sol j + r * (k.sol j - Num.ofInt t * x.sol j))
      else correct (fun j => x.sol j + r * (x.sol j - k.sol j)))
    tryCompare (fun _ => pure ()) idx pos
    let s ← get
    let pos ← draw (do
      let x ← nth s.pop idx
      let r ← randomVec
      correct (fun j => x.sol j + 0.2 * (1 - ♯ep / ♯c.epoch) * (2 * r j - 1) * x.sol j))
    tryCompare (fun _ => pure ()) idx pos) ()

/-- `OriginalPOA` (`mealpy/swarm_based/POA.py:11-107`) -/
def algo : Algo c Unit Unit := Algo.plain false evolve

theorem ok (hE : c.E.Lawful) (hP : c.P.Lawful) (hc : Accepted c 5) :
    (algo : Algo c Unit Unit).Ok (FA c) JT JT JT c.popSize (2 * c.popSize) (2 * c.popSize) := by
  plainalg hE hP hc evolve
  iauto

theorem framed (hE : c.E.Lawful) (ep : Nat) : Framed true (evolve ep : M c Unit Unit Unit) := by
  unfold evolve; framed

end OriginalPOA

namespace DevVCS

/-- `lamda`, `sigma` and `n_best = int(lamda * pop_size)` (`mealpy/bio_based/VCS.py:70-72`) -/
structure Params (K : Type) [Num K] where
  nBest : Nat
  sigma : K

/-- `calculate_xmean__` (`mealpy/bio_based/VCS.py:76-93`) -/
def xmean (p : Params K) (pop : List (Agent d K Unit)) : D c (Vec d K) := do
  let l ← sortedPop pop
  let top := (l.take p.nBest).map (·.sol)
  let down : K := ♯p.nBest * Num.ufunc "log1p" (♯(p.nBest + 1)) -
    Num.ufunc "log1p" (prodL ((List.range p.nBest).map (fun i => ♯(i + 1))))
  let w : K := Num.ufunc "log1p" (♯(p.nBest + 1)) / down / ♯p.nBest
  pure (fun j => w * sumL (top.map (fun x => x j)))

/-- the third phase (`mealpy/bio_based/VCS.py:138-143`) -/
def third (s : St c Unit Unit) (idx : Nat) : D c (Vec d K × Unit) := do
  let pr : K := (♯d - ♯idx + 1) / ♯d
  let (i1, i2) ← choose2Without c.popSize [idx]
  let x ← nth s.pop idx
  let y ← nth s.pop i1
  let z ← nth s.pop i2
  let u ← uniform 0 1
  let r ← randomVec
  let pos ← correct (fun j => if r j < pr then x.sol j else y.sol j - (z.sol j - x.sol j) * u)
  pure (pos, ())

/-- `DevVCS.evolve` (`mealpy/bio_based/VCS.py:95-151`) -/
def evolve (p : Params K) (ep : Nat) : M c Unit Unit Unit := do
  greedyLoop c.popSize (fun s idx => do
    let x ← nth s.pop idx
    let g := s.gbest.sol
    let g1 ← vecM (fun j => normal (g j) (Num.abs (Num.ufunc "log1p" (♯(ep + 1)) / ♯c.epoch * (x.sol j - g j))))
    let g2 ← vecM (fun j => normal (g1 j) 1)
    let u ← uniform 0 1
    let v ← uniform 0 1
    let pos ← correct (fun j => g2 j + u * g j - v * x.sol j)
    pure (pos, ()))
  let s ← get
  let xm ← draw (xmean p s.pop)
  greedyLoop c.popSize (fun s idx => do
    let n ← normalVec 0 1
    let pos ← correct (fun j => xm j + p.sigma * (1 - ♯ep / ♯c.epoch) * n j)
    pure (pos, ()))
  sortPop
  greedyLoop c.popSize third

theorem DT.xmean {Er : Err → Prop} (hE : c.E.Lawful) {p : Params K} {pop : List (Agent d K Unit)} :
    DT Er (xmean p pop : D c (Vec d K)) (fun _ => True) := by
  unfold DevVCS.xmean; dgo

macro_rules
  | `(tactic| dprim) => `(tactic| (at_head DevVCS.xmean; exact DevVCS.DT.xmean (by assumption)))

/-- `DevVCS` (`mealpy/bio_based/VCS.py:12-151`) -/
def algo (p : Params K) : Algo c Unit Unit := Algo.plain true (evolve p)

theorem ok (hE : c.E.Lawful) (hP : c.P.Lawful) (hc : Accepted c 5) (p : Params K) :
    (algo p : Algo c Unit Unit).Ok (FA c) JT JT JT c.popSize (3 * c.popSize) (3 * c.popSize) := by
  plainalg hE hP hc evolve
  unfold third
  iauto

theorem framed (hE : c.E.Lawful) (p : Params K) (ep : Nat) : Framed true (evolve p ep : M c Unit Unit Unit) := by
  unfold evolve; framed

end DevVCS

namespace OriginalVCS

/-- `OriginalVCS.amend_solution` (`mealpy/bio_based/VCS.py:207-210`): the clipped array is used as the condition, so that
only coordinates whose clipped value is zero are redrawn -/
def amend (x : Vec d K) : D c (Vec d K) := do
  let r ← uniformVec c.P.lb c.P.ub
  pure (fun j => if clip (x j) (c.P.lb j) (c.P.ub j) = 0 then r j else x j)

/-- the third phase (`mealpy/bio_based/VCS.py:253-259`) -/
def third (s : St c Unit Unit) (idx : Nat) : D c (Vec d K × Unit) := do
  let pr : K := (♯d - ♯idx + 1) / ♯d
  let x ← nth s.pop idx
  let pos ← vecM (fun j => do
    let u ← uniform 0 1
    if pr < u then do
      let (i1, i2) ← choose2Without c.popSize [idx]
      let y ← nth s.pop i1
      let z ← nth s.pop i2
      let v ← uniform 0 1
      pure (y.sol j - (z.sol j - x.sol j) * v)
    else pure (x.sol j))
  let pos ← correctWith amend pos
  pure (pos, ())

/-- `OriginalVCS.evolve` (`mealpy/bio_based/VCS.py:212-267`) -/
def evolve (p : DevVCS.Params K) (ep : Nat) : M c Unit Unit Unit := do
  greedyLoop c.popSize (fun s idx => do
    let x ← nth s.pop idx
    let g := s.gbest.sol
    let g1 ← vecM (fun j => normal (g j) (Num.abs (Num.ufunc "log1p" (♯ep) / ♯c.epoch * (x.sol j - g j))))
    let u ← uniform 0 1
    let v ← uniform 0 1
    let pos ← correctWith amend (fun j => g1 j + u * g j - v * x.sol j)
    pure (pos, ()))
  let s ← get
  let xm ← draw (DevVCS.xmean p s.pop)
  greedyLoop c.popSize (fun s idx => do
    let n ← normalVec 0 1
    let pos ← correctWith amend (fun j => xm j + p.sigma * (1 - ♯ep / ♯c.epoch) * n j)
    pure (pos, ()))
  greedyLoop c.popSize third

theorem DT.amend {Er : Err → Prop} {x : Vec d K} : DT Er (amend x : D c (Vec d K)) (fun _ => True) := by
  unfold OriginalVCS.amend; dgo

macro_rules
  | `(tactic| dprim) => `(tactic| (at_head OriginalVCS.amend; exact OriginalVCS.DT.amend))

/-- `OriginalVCS` (`mealpy/bio_based/VCS.py:154-267`) -/
def algo (p : DevVCS.Params K) : Algo c Unit Unit := Algo.plain true (evolve p)

theorem ok (hE : c.E.Lawful) (hP : c.P.Lawful) (hc : Accepted c 5) (p : DevVCS.Params K) :
    (algo p : Algo c Unit Unit).Ok (FA c) JT JT JT c.popSize (3 * c.popSize) (3 * c.popSize) := by
  plainalg hE hP hc evolve
  unfold third
  iauto

theorem framed (hE : c.E.Lawful) (p : DevVCS.Params K) (ep : Nat) : Framed true (evolve p ep : M c Unit Unit Unit) := by
  unfold evolve; framed

end OriginalVCS

namespace OriginalSPBO

/-- one round for one dimension (`mealpy/human_based/SPBO.py:70-100`) -/
def round : M c Unit Unit Unit := do
  let s ← get
  let ib ← draw (bestIdx s.pop)
  let mid ← draw (integers 1 ((c.popSize : Int) - 1))
  let xm := meanPos (s.pop.map (·.sol))
  greedyLoop c.popSize (fun s idx => do
    let x ← nth s.pop idx
    let g := s.gbest.sol
    if idx = ib then do
      let k ← index 2
      let j ← sample1 c.popSize idx
      let y ← nth s.pop j
      let r ← randomVec
      let pos ← correct (fun j => g j + (if k = 0 then -1 else 1) * r j * (g j - y.sol j))
      pure (pos, ())
    else if (idx : Int) < mid then do
      let r1 ← random
      let r2 ← random
      if r2 < r1 then do
        let r ← randomVec
        let pos ← correct (fun j => g j + r j * (g j - x.sol j))
        pure (pos, ())
      else do
        let r ← randomVec
        let u ← random
        let pos ← correct (fun j => x.sol j + r j * (g j - x.sol j) + u * (x.sol j - xm j))
        pure (pos, ())
    else do
      let r1 ← random
      let r2 ← random
      if r2 < r1 then do
        let r ← randomVec
        let pos ← correct (fun j => x.sol j + r j * (xm j - x.sol j))
        pure (pos, ())
      else do
        let pos ← genSolution
        let pos ← correct pos
        pure (pos, ()))

/-- `OriginalSPBO.evolve` (`mealpy/human_based/SPBO.py:62-100`) -/
def evolve (ep : Nat) : M c Unit Unit Unit := iter d (fun _ _ => round) ()

theorem it_round (hE : c.E.Lawful) (hP : c.P.Lawful) (hp : 5 ≤ c.popSize) :
    IT (FA c) JT c.popSize c.popSize (round : M c Unit Unit Unit) (fun _ => True) := by
  unfold round
  iwalk

theorem framed_round (hE : c.E.Lawful) : Framed true (round : M c Unit Unit Unit) := by
  unfold round; framed

macro_rules
  | `(tactic| fprim) => `(tactic| (at_last OriginalSPBO.round; exact OriginalSPBO.framed_round (by assumption)))

/-- `OriginalSPBO` (`mealpy/human_based/SPBO.py:12-100`) -/
def algo : Algo c Unit Unit := Algo.plain false evolve

theorem ok (hE : c.E.Lawful) (hP : c.P.Lawful) (hc : Accepted c 5) :
    (algo : Algo c Unit Unit).Ok (FA c) JT JT JT c.popSize (d * c.popSize) (d * c.popSize) := by
  plainalg hE hP hc evolve
  exact IT.pt (IT.iterS _ _ (Nat.le_refl _) (Nat.le_refl _) fun i hi => it_round hE hP (by omega))

theorem framed (hE : c.E.Lawful) (ep : Nat) : Framed true (evolve ep : M c Unit Unit Unit) := by
  unfold evolve; framed

end OriginalSPBO

namespace DevSPBO

/-- `DevSPBO.evolve` (`mealpy/human_based/SPBO.py:151-184`) -/
def evolve (ep : Nat) : M c Unit Unit Unit := do
  let s ← get
  let xm := meanPos (s.pop.map (·.sol))
  greedyLoop c.popSize (fun s idx => do
    let x ← nth s.pop idx
    let g := s.gbest.sol
    if idx = 0 then do
      let i ← pickWithout c.popSize [idx]
      let n ← normalVec 0 1
      let y ← nth s.pop i
      let pos ← correct (fun j => g j + n j * (g j - y.sol j))
      pure (pos, ())
    else if idx < c.popSize / 3 then do
      let r1 ← random
      let r2 ← random
      if r2 < r1 then do
        let n ← normalVec 0 1
        let pos ← correct (fun j => g j + n j * (g j - x.sol j))
        pure (pos, ())
      else do
        let ra ← randomVec
        let pos ← correct (fun j => x.sol j + ra j * (g j - x.sol j) + (1 - ra j) * (x.sol j - xm j))
        pure (pos, ())
    else if idx < 2 * (c.popSize / 3) then do
      let n ← normalVec 0 1
      let pos ← correct (fun j => x.sol j + n j * (xm j - x.sol j))
      pure (pos, ())
    else do
      let pos ← genSolution
      let pos ← correct pos
      pure (pos, ()))

/-- `DevSPBO` (`mealpy/human_based/SPBO.py:103-184`) -/
def algo : Algo c Unit Unit := Algo.plain true evolve

theorem ok (hE : c.E.Lawful) (hP : c.P.Lawful) (hc : Accepted c 5) :
    (algo : Algo c Unit Unit).Ok (FA c) JT JT JT c.popSize c.popSize c.popSize := by
  plainalg hE hP hc evolve
  iauto

theorem framed (hE : c.E.Lawful) (ep : Nat) : Framed true (evolve ep : M c Unit Unit Unit) := by
  unfold evolve; framed

end DevSPBO

namespace OriginalAOA

/-- `alpha`, `miu`, `moa_min`, `moa_max` (`mealpy/math_based/AOA.py:72-75`) -/
structure Params (K : Type) [Num K] where
  alpha : Nat
  miu : K
  moaMin : K
  moaMax : K

/-- `OriginalAOA.evolve` (`mealpy/math_based/AOA.py:79-112`) -/
def evolve (p : Params K) (ep : Nat) : M c Unit Unit Unit :=
  greedyLoop c.popSize (fun s idx => do
    let moa : K := p.moaMin + ♯ep * ((p.moaMax - p.moaMin) / ♯c.epoch)
    let mop : K := 1 - Num.pow (♯(ep + 1)) (1.0 / ♯p.alpha) / Num.pow (♯c.epoch) (1.0 / ♯p.alpha)
    let g := s.gbest.sol
    let pos ← vecM (fun j => do
      let r1 ← random
      let r2 ← random
      let r3 ← random
      let w : K := (c.P.ub j - c.P.lb j) * p.miu + c.P.lb j
      if moa < r1 then
        if r2 < 0.5 then pure (g j / (mop + Num.EPSILON) * w) else pure (g j * mop * w)
      else
        if r3 < 0.5 then pure (g j - mop * w) else pure (g j + mop * w))
    let pos ← correct pos
    pure (pos, ()))

/-- `OriginalAOA` (`mealpy/math_based/AOA.py:11-112`) -/
def algo (p : Params K) : Algo c Unit Unit := Algo.plain false (evolve p)

theorem ok (hE : c.E.Lawful) (hP : c.P.Lawful) (hc : Accepted c 10) (p : Params K) :
    (algo p : Algo c Unit Unit).Ok (FA c) JT JT JT c.popSize c.popSize c.popSize := by
  plainalg hE hP hc evolve
  iauto

theorem framed (hE : c.E.Lawful) (p : Params K) (ep : Nat) : Framed true (evolve p ep : M c Unit Unit Unit) := by
  unfold evolve; framed

end OriginalAOA

namespace OriginalCEM

/-- `n_best`, `alpha` (`mealpy/math_based/CEM.py:70-71`) -/
structure Params (K : Type) [Num K] where
  nBest : Nat
  alpha : K

/-- `initialize_variables` (`mealpy/math_based/CEM.py:75-77`): `means`, `stdevs` -/
def init : D c (Vec d K × Vec d K) := do
  let m ← uniformVec c.P.lb c.P.ub
  pure (m, fun j => Num.abs (c.P.ub j - c.P.lb j))

/-- `OriginalCEM.evolve` (`mealpy/math_based/CEM.py:79-106`) -/
def evolve (p : Params K) (ep : Nat) : M c Unit (Vec d K × Vec d K) Unit := do
  let s ← get
  let pl := (s.pop.take p.nBest).map (·.sol)
  let mn := meanPos pl
  let sn : Vec d K := meanPos (pl.map (fun x => fun j => Num.pow (x j - mn j) 2))
  modExt (fun y => (fun j => p.alpha * y.1 j + (1.0 - p.alpha) * mn j,
    fun j => Num.abs (p.alpha * y.2 j + (1.0 - p.alpha) * sn j)))
  greedyLoop c.popSize (fun s idx => do
    let pos ← vecM (fun j => normal (s.ext.1 j) (s.ext.2 j))
    let pos ← correct pos
    pure (pos, ()))

/-- `OriginalCEM` (`mealpy/math_based/CEM.py:12-106`) -/
def algo (p : Params K) : Algo c Unit (Vec d K × Vec d K) := Algo.full true (fun _ => pure ()) init (evolve p)

theorem ok (hE : c.E.Lawful) (hP : c.P.Lawful) (hc : Accepted c 10) (p : Params K) :
    (algo p : Algo c Unit (Vec d K × Vec d K)).Ok (FA c) JT JT JT c.popSize c.popSize c.popSize := by
  have hpop := hc.pop
  refine Algo.full_ok hE hP (fun x hx => by dgo) (J := JT) (by unfold init; dgo) (fun ep hep1 hep2 => ?_)
  unfold evolve
  iauto

theorem framed (hE : c.E.Lawful) (p : Params K) (ep : Nat) : Framed true (evolve p ep : M c Unit (Vec d K × Vec d K) Unit) := by
  unfold evolve; framed

end OriginalCEM

namespace OriginalEO

/-- `make_equilibrium_pool__` (`mealpy/physics_based/EO.py:67-73, 83-84`): the four best agents and a new agent at their
mean, which is evaluated but does not enter the population -/
def pool : M c Unit Unit (List (Agent d K Unit)) := do
  let s ← get
  let l ← draw (bestAgents s.pop 4)
  let m ← draw (correct (meanPos (l.map (·.sol))))
  let a ← liftB (agentOf (fun _ => pure ()) m)
  pure (l ++ [a])

/-- Eq. 11-16 (`mealpy/physics_based/EO.py:89-98`) -/
def move (pool : List (Agent d K Unit)) (ep : Nat) (s : St c Unit Unit) (idx : Nat) : D c (Vec d K) := do
  let t : K := Num.pow (1 - ♯ep / ♯c.epoch) (1 * ♯ep / ♯c.epoch)
  let lam ← uniformVec (fun _ => 0) (fun _ => 1)
  let r ← uniformVec (fun _ => 0) (fun _ => 1)
  let k ← index pool.length
  let eq ← nth pool k
  let x ← nth s.pop idx
  let f : Vec d K := fun j => 2 * Num.sign (r j - 0.5) * (Num.exp (-(lam j) * t) - 1.0)
  let r1 ← uniform 0 1
  let r2 ← uniform 0 1
  let gcp : K := 0.5 * r1 * 1 * (if 0.5 ≤ r2 then 1 else 0)
  pure (fun j => eq.sol j + (x.sol j - eq.sol j) * f j +
    (gcp * (eq.sol j - lam j * x.sol j) * f j * 1 / lam j) * (1.0 - f j))

/-- `OriginalEO.evolve` (`mealpy/physics_based/EO.py:75-107`) -/
def evolve (ep : Nat) : M c Unit Unit Unit := do
  let pl ← pool
  greedyLoop c.popSize (fun s idx => do
    let x ← move pl ep s idx
    let pos ← correct x
    pure (pos, ()))

theorem DT.move {Er : Err → Prop} (hE : c.E.Lawful) {pool : List (Agent d K Unit)} {ep idx : Nat} {s : St c Unit Unit}
    (h : 0 < pool.length) (hi : idx < s.pop.length) :
    DT Er (move pool ep s idx : D c (Vec d K)) (fun _ => True) := by
  unfold OriginalEO.move; dgo

theorem WT.pool (hE : c.E.Lawful) (hP : c.P.Lawful) :
    WT noErr (Inv.std c Unit JT) 1 1 (pool : M c Unit Unit (List (Agent d K Unit)))
      (fun l => l.length = min 4 c.popSize + 1 ∧ ∀ a ∈ l, CF c a) := by
  unfold OriginalEO.pool
  wstep; wstep; wstep; wstep
  rename_i s hs hl l h1 m h2 a h3
  refine WT.weaken (WT.pure ⟨by simp [h1.1, hl], ?_⟩) (by omega) (by omega)
  intro b hb
  rcases List.mem_append.1 hb with hb | hb
  · exact hs.pop b (h1.2 b hb)
  · rw [List.mem_singleton.1 hb]; exact h3

theorem framed_pool (hE : c.E.Lawful) : Framed true (pool : M c Unit Unit _) := by
  unfold OriginalEO.pool; framed

macro_rules
  | `(tactic| fprim) => `(tactic| (at_last OriginalEO.pool; exact OriginalEO.framed_pool (by assumption)))
macro_rules
  | `(tactic| wstep) => `(tactic| (at_bind OriginalEO.pool; refine WT.bindS (OriginalEO.WT.pool (by assumption) (by assumption)) (by omega) (fun _ _ => ?_)))
macro_rules
  | `(tactic| dprim) => `(tactic| (at_head OriginalEO.move; exact OriginalEO.DT.move (by assumption) (by dside) (by dside)))

/-- `OriginalEO` (`mealpy/physics_based/EO.py:12-107`) -/
def algo : Algo c Unit Unit := Algo.plain false evolve

theorem wok (hE : c.E.Lawful) (hP : c.P.Lawful) (hc : Accepted c 5) :
    (algo : Algo c Unit Unit).WOk noErr (Inv.std c Unit JT) JT JT c.popSize c.popSize 0 0 (1 + c.popSize) (1 + c.popSize) := by
  wplainalg hE hP hc evolve
  wwalk

theorem framed (hE : c.E.Lawful) (ep : Nat) : Framed true (evolve ep : M c Unit Unit Unit) := by
  unfold evolve; framed

end OriginalEO

namespace ModifiedEO

/-- `ModifiedEO.evolve` (`mealpy/physics_based/EO.py:159-227`). `greedy_selection_population(pop_s2_new, pop_s2)` is called
with the new agents first. -/
def evolve (ep : Nat) : M c Unit Unit Unit := do
  let pl ← OriginalEO.pool
  greedyLoop c.popSize (fun s idx => do
    let x ← OriginalEO.move pl ep s idx
    let pos ← correct x
    pure (pos, ()))
  let n := c.popSize / 3
  let s ← get
  let s1 ← draw (bestAgents s.pop n)
  let s2new ← buildEval n (fun _ idx => do
    let x ← nth s1 idx
    let r ← normalVec 0 1
    let pos ← correct (fun j => x.sol j * (1 + r j))
    pure (pos, ()))
  let s2 := if c.swarmLike then zipGreedy c.P.mm s2new s1 else zipBetter c.P.mm s2new s1
  let mean := meanPos (s1.map (·.sol))
  let top ← draw (nth pl 0)
  let s3 ← buildEval n (fun _ _ => do
    let r1 ← random
    let r2 ← random
    let pos ← correct (fun j => (top.sol j - mean j) - r1 * (c.P.lb j + r2 * (c.P.ub j - c.P.lb j)))
    pure (pos, ()))
  let left := c.popSize - (s1 ++ s2 ++ s3).length
  let is ← draw (choice pl.length left false)
  setPop (s1 ++ s2 ++ s3 ++ picks pl is)

/-- `ModifiedEO` (`mealpy/physics_based/EO.py:110-227`) -/
def algo : Algo c Unit Unit := Algo.plain false evolve

theorem wok (hE : c.E.Lawful) (hP : c.P.Lawful) (hc : Accepted c 5) :
    (algo : Algo c Unit Unit).WOk noErr (Inv.std c Unit JT) JT JT c.popSize c.popSize 0 0 (1 + c.popSize + 2 * (c.popSize / 3)) (1 + c.popSize + 2 * (c.popSize / 3)) := by
  wplainalg hE hP hc evolve
  wwalk
  rename_i pl hpl _ _ s hs hlen s1 h1 s2 h2 top htop s3 h3
  have e1 : s1.length = c.popSize / 3 := by rw [h1.1, hlen]; omega
  have hz : (if c.swarmLike then zipGreedy c.P.mm s2 s1 else zipBetter c.P.mm s2 s1).length = c.popSize / 3 := by
    split <;> simp only [zipGreedy_length, zipBetter_length] <;> omega
  have a1 : ∀ a ∈ s1, CF c a := fun a ha => hs.pop a (h1.2 a ha)
  have hza : ∀ a ∈ (if c.swarmLike then zipGreedy c.P.mm s2 s1 else zipBetter c.P.mm s2 s1), CF c a := by
    split
    · exact zipGreedy_all h2.2 a1
    · exact zipBetter_all h2.2 a1
  refine WT.bind0 (WT.draw (DT.choice hE (choiceErr_false (by omega) (by simp only [List.length_append]; omega)))) (fun is his => ?_)
  refine WT.weaken (WT.setPop ?_ ?_) (by omega) (by omega)
  · change _ = c.popSize
    have := picks_length his.2.1
    simp only [List.length_append] at his ⊢
    omega
  · intro a ha
    simp only [List.mem_append] at ha
    rcases ha with ((h | h) | h) | h
    · exact a1 a h
    · exact hza a h
    · exact h3.2 a h
    · exact picks_all hpl.2 a h

theorem framed (hE : c.E.Lawful) (ep : Nat) : Framed true (evolve ep : M c Unit Unit Unit) := by
  unfold evolve; framed

end ModifiedEO

namespace AdaptiveEO

/-- `AdaptiveEO.evolve` (`mealpy/physics_based/EO.py:280-317`) -/
def evolve (ep : Nat) : M c Unit Unit Unit := do
  let pl ← OriginalEO.pool
  greedyLoop c.popSize (fun s idx => do
    let x ← OriginalEO.move pl ep s idx
    let avg := meanL (s.pop.map (·.fit))
    let y ← nth s.pop idx
    if compareFitness y.fit avg c.P.mm then do
      let u ← uniformVec (fun _ => 0) (fun _ => 1)
      let pos ← correct (fun j => x j * (0.5 + u j))
      pure (pos, ())
    else do
      let pos ← correct x
      pure (pos, ()))

/-- `AdaptiveEO` (`mealpy/physics_based/EO.py:230-317`) -/
def algo : Algo c Unit Unit := Algo.plain false evolve

theorem wok (hE : c.E.Lawful) (hP : c.P.Lawful) (hc : Accepted c 5) :
    (algo : Algo c Unit Unit).WOk noErr (Inv.std c Unit JT) JT JT c.popSize c.popSize 0 0 (1 + c.popSize) (1 + c.popSize) := by
  wplainalg hE hP hc evolve
  wwalk

theorem framed (hE : c.E.Lawful) (ep : Nat) : Framed true (evolve ep : M c Unit Unit Unit) := by
  unfold evolve; framed

end AdaptiveEO

end Mealpy
