import Verif.Alg.Kit2

/-! # Simple optimizers, part 1

`BMO.py`, `FPA.py`, `TSA.py`, `MGOA.py`, `RIME.py`, `SHIO.py`, `CircleSA.py`, `SCSO.py`, `GJO.py`, `JA.py`, `SCA.py`,
`LCO.py` -/

set_option linter.unusedSectionVars false
set_option linter.unusedVariables false

namespace Mealpy
open Spec

variable {d : Nat} {K : Type} [Num K] {c : Cfg d K}

namespace OriginalBMO

/-- `pl in [1, pop_size - 1]` (`mealpy/bio_based/BMO.py:64`) -/
structure Params where
  pl : Int

/-- `OriginalBMO.evolve` (`mealpy/bio_based/BMO.py:68-90`) -/
def evolve (p : Params) (ep : Nat) : M c Unit Unit Unit := do
  let k1 ← draw (permutation c.popSize)
  let k2 ← draw (permutation c.popSize)
  let new ← buildEval c.popSize (fun s idx => do
    let i1 ← nth k1 idx
    let i2 ← nth k2 idx
    let b ← nth s.pop i2
    if (((i1 : Int) - i2).natAbs : Int) ≤ p.pl then do
      let q ← uniform 0 1
      let a ← nth s.pop i1
      let pos ← correct (fun j => q * a.sol j + (1 - q) * b.sol j)
      pure (pos, ())
    else do
      let q ← uniform 0 1
      let pos ← correct (fun j => q * b.sol j)
      pure (pos, ()))
  setPop new

/-- `OriginalBMO` (`mealpy/bio_based/BMO.py:12-90`) -/
def algo (p : Params) : Algo c Unit Unit := Algo.plain true (evolve p)

theorem ok (hE : c.E.Lawful) (hP : c.P.Lawful) (hc : Accepted c 5) (p : Params) :
    (algo p : Algo c Unit Unit).Ok (FA c) JT JT JT c.popSize c.popSize c.popSize := by
  plainalg hE hP hc evolve
  pwalk

theorem framed (hE : c.E.Lawful) (p : Params) (ep : Nat) : Framed true (evolve p ep : M c Unit Unit Unit) := by
  unfold evolve; framed

end OriginalBMO

namespace OriginalFPA

/-- `p_s in (0, 1)`, `levy_multiplier in (-10000, 10000)` (`mealpy/evolutionary_based/FPA.py:66-67`) -/
structure Params (K : Type) [Num K] where
  ps : K
  levyMultiplier : K

/-- `OriginalFPA.amend_solution` (`mealpy/evolutionary_based/FPA.py:71-74`) -/
def amend (x : Vec d K) : D c (Vec d K) := do
  let r ← genSolution
  pure (fun j => if c.P.lb j ≤ x j ∧ x j ≤ c.P.ub j then x j else r j)

/-- `OriginalFPA.evolve` (`mealpy/evolutionary_based/FPA.py:76-99`) -/
def evolve (p : Params K) (ep : Nat) : M c Unit Unit Unit :=
  greedyLoop c.popSize (fun s idx => do
    let x ← nth s.pop idx
    let u ← uniform 0 1
    if u < p.ps then do
      let l ← levyVec 1 p.levyMultiplier (-1)
      let pos ← correctWith amend (fun j => x.sol j + 1.0 / Num.sqrt (♯ep) * l j * (x.sol j - s.gbest.sol j))
      pure (pos, ())
    else do
      let (i1, i2) ← choose2Without c.popSize [idx]
      let a ← nth s.pop i1
      let b ← nth s.pop i2
      let v ← uniform 0 1
      let pos ← correctWith amend (fun j => x.sol j + v * (a.sol j - b.sol j))
      pure (pos, ()))

/-- `OriginalFPA` (`mealpy/evolutionary_based/FPA.py:12-99`) -/
def algo (p : Params K) : Algo c Unit Unit := Algo.plain false (evolve p)

theorem DT.amend {Er : Err → Prop} {x : Vec d K} : DT Er (amend x : D c (Vec d K)) (fun _ => True) :=
  DT.bind DT.genSolution' fun _ _ => DT.pure trivial

theorem DT.correctAmend {Er : Err → Prop} (hP : c.P.Lawful) {x : Vec d K} :
    DT Er (correctWith OriginalFPA.amend x : D c (Vec d K)) (fun x => Spec.InBox c.P.lb c.P.ub x) :=
  Mealpy.DT.correctWith hP OriginalFPA.DT.amend

macro_rules
  | `(tactic| dprim) => `(tactic| (at_head correctWith; exact OriginalFPA.DT.correctAmend (by assumption)))

theorem ok (hE : c.E.Lawful) (hP : c.P.Lawful) (hc : Accepted c 5) (p : Params K) :
    (algo p : Algo c Unit Unit).Ok (FA c) JT JT JT c.popSize c.popSize c.popSize := by
  plainalg hE hP hc evolve
  iauto

theorem framed (hE : c.E.Lawful) (p : Params K) (ep : Nat) : Framed true (evolve p ep : M c Unit Unit Unit) := by
  unfold evolve; framed

end OriginalFPA

namespace OriginalTSA

/-- `OriginalTSA.evolve` (`mealpy/bio_based/TSA.py:75-100`) -/
def evolve (ep : Nat) : M c Unit Unit Unit := do
  let new ← buildEval c.popSize (fun s idx => do
    let c3 ← randomVec
    let c2 ← randomVec
    let c1 ← randomVec
    let r ← random
    let m : K := Num.ufunc "fix" (1 + r * (4 - 1))
    let x ← nth s.pop idx
    let A : Vec d K := fun j => (c2 j + c3 j - 2 * c1 j) / m
    let g := s.gbest.sol
    let t1 : Vec d K := fun j => g j + A j * Num.abs (g j - c2 j * x.sol j)
    let t2 : Vec d K := fun j => g j - A j * Num.abs (g j - c2 j * x.sol j)
    let y : Vec d K := fun j => if 0.5 ≤ c3 j then t1 j else t2 j
    if idx ≠ 0 then do
      let prev ← nth s.pop (idx - 1)
      let pos ← correct (fun j => (y j + prev.sol j) / 2)
      pure (pos, ())
    else do
      let pos ← correct y
      pure (pos, ()))
  setPop new

/-- `OriginalTSA` (`mealpy/bio_based/TSA.py:12-100`) -/
def algo : Algo c Unit Unit := Algo.plain false evolve

theorem ok (hE : c.E.Lawful) (hP : c.P.Lawful) (hc : Accepted c 5) :
    (algo : Algo c Unit Unit).Ok (FA c) JT JT JT c.popSize c.popSize c.popSize := by
  plainalg hE hP hc evolve
  pwalk

theorem framed (hE : c.E.Lawful) (ep : Nat) : Framed true (evolve ep : M c Unit Unit Unit) := by
  unfold evolve; framed

end OriginalTSA

namespace OriginalMGOA

/-- `attract_dim_rate in (0, 1)` (`mealpy/human_based/MGOA.py:63`) -/
structure Params (K : Type) [Num K] where
  rate : K

/-- `n_attract_dims = int(np.ceil(self.attract_dim_rate * self.problem.n_dims))` (`mealpy/human_based/MGOA.py:79`) -/
def nDims (d : Nat) (p : Params K) : Nat := (Num.ceil (p.rate * ♯d)).toNat

/-- `OriginalMGOA.evolve` (`mealpy/human_based/MGOA.py:67-101`) -/
def evolve (p : Params K) (ep : Nat) : M c Unit Unit Unit := do
  let ratio : K := ♯ep / ♯c.epoch
  let S : K := Num.pi * Num.sin (2 * Num.pi * (ratio * 2.0)) * Num.exp (-(1.0 : K) * ratio)
  let r ← draw random
  greedyLoopR c.popSize (fun s idx => do
    let x ← nth s.pop idx
    if r < 0.5 then do
      let dims ← choice d (nDims d p) false
      let pos ← correct (atDims dims x.sol (fun j => x.sol j - S * (s.gbest.sol j - x.sol j)))
      pure (pos, ())
    else do
      let (rA, rB) ← sample2 c.popSize idx
      let a ← nth s.pop rA
      let b ← nth s.pop rB
      let u ← random
      let v ← random
      let pos ← correct (fun j => x.sol j + u * (a.sol j - x.sol j) + v * (b.sol j - x.sol j))
      pure (pos, ()))

/-- `OriginalMGOA` (`mealpy/human_based/MGOA.py:12-101`) -/
def algo (p : Params K) : Algo c Unit Unit := Algo.plain false (evolve p)

theorem ok (hE : c.E.Lawful) (hP : c.P.Lawful) (hc : Accepted c 5) (p : Params K) (hd : 0 < d) (hk : nDims d p ≤ d) :
    (algo p : Algo c Unit Unit).Ok (FA c) JT JT JT c.popSize c.popSize c.popSize := by
  plainalg hE hP hc evolve
  iauto

theorem framed (hE : c.E.Lawful) (p : Params K) (ep : Nat) : Framed true (evolve p ep : M c Unit Unit Unit) := by
  unfold evolve; framed

end OriginalMGOA

namespace OriginalRIME

/-- `sr in (0, 100)` (`mealpy/physics_based/RIME.py:67`) -/
structure Params (K : Type) [Num K] where
  sr : K

/-- `OriginalRIME.evolve` (`mealpy/physics_based/RIME.py:71-102`); the norms are taken once, before the loop -/
def evolve (p : Params K) (ep : Nat) : M c Unit Unit Unit := do
  let r ← draw random
  let factor : K := (r - 0.5) * 2 * Num.cos (Num.pi * ♯ep / (♯c.epoch / 10)) * (1 - Num.ufunc "round" (♯ep * p.sr / ♯c.epoch) / p.sr)
  let ee : K := Num.sqrt (♯(ep + 1) / ♯c.epoch)
  let s0 ← get
  let fits := s0.pop.map (·.fit)
  let norm := normL fits
  greedyLoop c.popSize (fun s idx => do
    let x ← nth s.pop idx
    let f ← nth fits idx
    let pos ← vecM (fun j => do
      let u ← random
      let y ← (if u < ee then do
          let v ← random
          pure (s.gbest.sol j + factor * (c.P.lb j + v * (c.P.ub j - c.P.lb j)))
        else pure (x.sol j) : D c K)
      let w ← random
      pure (if w < f / norm then s.gbest.sol j else y))
    let pos ← correct pos
    pure (pos, ()))

/-- `OriginalRIME` (`mealpy/physics_based/RIME.py:12-102`) -/
def algo (p : Params K) : Algo c Unit Unit := Algo.plain false (evolve p)

theorem ok (hE : c.E.Lawful) (hP : c.P.Lawful) (hc : Accepted c 5) (p : Params K) :
    (algo p : Algo c Unit Unit).Ok (FA c) JT JT JT c.popSize c.popSize c.popSize := by
  plainalg hE hP hc evolve
  iauto

theorem framed (hE : c.E.Lawful) (p : Params K) (ep : Nat) : Framed true (evolve p ep : M c Unit Unit Unit) := by
  unfold evolve; framed

end OriginalRIME

namespace OriginalSHIO

/-- `a = a - 0.04`, `n` times -/
def dec (a : K) : Nat → K
  | 0 => a
  | n + 1 => dec a n - 0.04

/-- one of the three terms (`mealpy/math_based/SHIO.py:72-74`) -/
def term (a : K) (b x : Vec d K) : D c (Vec d K) := do
  let r ← randomVec
  let q ← randomVec
  pure (fun j => b j + (a * 2 * r j - a) * Num.abs (q j * b j - x j))

/-- `OriginalSHIO.evolve` (`mealpy/math_based/SHIO.py:60-83`) -/
def evolve (ep : Nat) : M c Unit Unit Unit := do
  let s0 ← get
  let (b1, b2, b3) ← draw (best3 s0.pop)
  let new ← buildEval c.popSize (fun s idx => do
    let a : K := dec 1.5 (idx + 1)
    let x ← nth s.pop idx
    let x1 ← term a b1.sol x.sol
    let x2 ← term a b2.sol x.sol
    let x3 ← term a b3.sol x.sol
    let pos ← correct (fun j => (x1 j + x2 j + x3 j) / 3)
    pure (pos, ()))
  setPop new

/-- `OriginalSHIO` (`mealpy/math_based/SHIO.py:12-83`) -/
def algo : Algo c Unit Unit := Algo.plain false evolve

theorem DT.term {Er : Err → Prop} {a : K} {b x : Vec d K} : DT Er (term a b x : D c (Vec d K)) (fun _ => True) :=
  DT.bind DT.randomVec fun _ _ => DT.bind DT.randomVec fun _ _ => DT.pure trivial

macro_rules
  | `(tactic| dprim) => `(tactic| (at_head OriginalSHIO.term; exact OriginalSHIO.DT.term))

theorem ok (hE : c.E.Lawful) (hP : c.P.Lawful) (hc : Accepted c 5) :
    (algo : Algo c Unit Unit).Ok (FA c) JT JT JT c.popSize c.popSize c.popSize := by
  plainalg hE hP hc evolve
  pwalk

theorem framed (hE : c.E.Lawful) (ep : Nat) : Framed true (evolve ep : M c Unit Unit Unit) := by
  unfold evolve; framed

end OriginalSHIO

namespace OriginalCircleSA

/-- `c_factor in (0, 1)` (`mealpy/math_based/CircleSA.py:57`) -/
structure Params (K : Type) [Num K] where
  cFactor : K

/-- `OriginalCircleSA.evolve` (`mealpy/math_based/CircleSA.py:61-83`) -/
def evolve (p : Params K) (ep : Nat) : M c Unit Unit Unit := do
  let ratio : K := ♯ep / ♯c.epoch
  let a : K := Num.pi - Num.pi * Num.pow ratio 2
  let q : K := 1 - 0.9 * Num.pow ratio 0.5
  let threshold : K := p.cFactor * ♯c.epoch
  let new ← buildEval c.popSize (fun s idx => do
    let r ← random
    let w : K := a * r - a
    let x ← nth s.pop idx
    let g := s.gbest.sol
    if threshold < ♯ep then do
      let r2 ← random
      let pos ← correct (fun j => g j + (g j - x.sol j) * Num.tan (w * r2))
      pure (pos, ())
    else do
      let pos ← correct (fun j => g j - (g j - x.sol j) * Num.tan (w * q))
      pure (pos, ()))
  setPop new

/-- `OriginalCircleSA` (`mealpy/math_based/CircleSA.py:12-83`) -/
def algo (p : Params K) : Algo c Unit Unit := Algo.plain false (evolve p)

theorem ok (hE : c.E.Lawful) (hP : c.P.Lawful) (hc : Accepted c 5) (p : Params K) :
    (algo p : Algo c Unit Unit).Ok (FA c) JT JT JT c.popSize c.popSize c.popSize := by
  plainalg hE hP hc evolve
  pwalk

theorem framed (hE : c.E.Lawful) (p : Params K) (ep : Nat) : Framed true (evolve p ep : M c Unit Unit Unit) := by
  unfold evolve; framed

end OriginalCircleSA

namespace OriginalSCSO

/-- `OriginalSCSO.evolve` (`mealpy/swarm_based/SCSO.py:71-97`).  `get_index_roulette_wheel_selection__` (`:66-69`) over
`arange(1, 361)` is one draw of an index below 360: its last cumulative weight is 1, above every `random()`. -/
def evolve (ep : Nat) : M c Unit Unit Unit := do
  let guides : K := 2 - (2 * ♯ep / ♯c.epoch)
  let new ← buildEval c.popSize (fun s idx => do
    let r0 ← random
    let r : K := r0 * guides
    let R0 ← random
    let R : K := (2 * guides) * R0 - guides
    let x ← nth s.pop idx
    let pos ← vecM (fun j => do
      let teta ← index 360
      if -1 ≤ R ∧ R ≤ 1 then do
        let u ← random
        pure (s.gbest.sol j - r * Num.abs (u * s.gbest.sol j - x.sol j) * Num.cos (♯teta))
      else do
        let cp ← randIndex c.popSize
        let y ← nth s.pop cp
        let u ← random
        pure (r * (y.sol j - u * x.sol j)))
    let pos ← correct pos
    pure (pos, ()))
  setPop new

/-- `OriginalSCSO` (`mealpy/swarm_based/SCSO.py:12-97`) -/
def algo : Algo c Unit Unit := Algo.plain false evolve

theorem ok (hE : c.E.Lawful) (hP : c.P.Lawful) (hc : Accepted c 5) :
    (algo : Algo c Unit Unit).Ok (FA c) JT JT JT c.popSize c.popSize c.popSize := by
  plainalg hE hP hc evolve
  pwalk

theorem framed (hE : c.E.Lawful) (ep : Nat) : Framed true (evolve ep : M c Unit Unit Unit) := by
  unfold evolve; framed

end OriginalSCSO

namespace OriginalGJO

/-- `OriginalGJO.evolve` (`mealpy/swarm_based/GJO.py:62-98`) -/
def evolve (ep : Nat) : M c Unit Unit Unit := do
  let e1 : K := 1.5 * (1.0 - (♯ep / ♯c.epoch))
  let rl ← draw (levyRows c.popSize 1.5 0.05)
  let s0 ← get
  let (male, female) ← draw (best2 s0.pop)
  rebindLoop c.popSize (fun s idx => do
    let x ← nth s.pop idx
    let l ← nth rl idx
    let pos ← vecM (fun j => do
      let r1 ← random
      let e : K := e1 * (2 * r1 - 1)
      if Num.abs e < 1 then
        pure (((male.sol j - e * Num.abs (l j * male.sol j - x.sol j)) + (female.sol j - e * Num.abs (l j * female.sol j - x.sol j))) / 2)
      else
        pure (((male.sol j - e * Num.abs (male.sol j - l j * x.sol j)) + (female.sol j - e * Num.abs (female.sol j - l j * x.sol j))) / 2))
    let pos ← correct pos
    pure (pos, ()))

/-- `OriginalGJO` (`mealpy/swarm_based/GJO.py:12-98`) -/
def algo : Algo c Unit Unit := Algo.plain false evolve

theorem ok (hE : c.E.Lawful) (hP : c.P.Lawful) (hc : Accepted c 5) :
    (algo : Algo c Unit Unit).Ok (FA c) JT JT JT c.popSize c.popSize c.popSize := by
  plainalg hE hP hc evolve
  pwalk

theorem framed (hE : c.E.Lawful) (ep : Nat) : Framed true (evolve ep : M c Unit Unit Unit) := by
  unfold evolve; framed

end OriginalGJO

/-- `_, (g_best, ), (g_worst, ) = self.get_special_agents(self.pop, n_best=1, n_worst=1)` (`mealpy/swarm_based/JA.py:64`) -/
def bestWorst {X : Type} (pop : List (Agent d K X)) : D c (Agent d K X × Agent d K X) := do
  let b ← bestAgent pop
  let w ← worstAgent pop
  pure (b, w)

theorem DT.bestWorst {X : Type} {Er : Err → Prop} (hE : c.E.Lawful) {pop : List (Agent d K X)} (h : 0 < pop.length) :
    DT Er (Mealpy.bestWorst pop : D c _) (fun p => p.1 ∈ pop ∧ p.2 ∈ pop) :=
  DT.bind (DT.bestAgent hE h) fun _ h1 => DT.bind (DT.worstAgent hE h) fun _ h2 => DT.pure ⟨h1, h2⟩

macro_rules
  | `(tactic| dprim) => `(tactic| (at_head bestWorst; exact DT.bestWorst (by assumption) (by dside)))

namespace DevJA

/-- `DevJA.evolve` (`mealpy/swarm_based/JA.py:57-77`) -/
def evolve (ep : Nat) : M c Unit Unit Unit := do
  let s0 ← get
  let (b, w) ← draw (bestWorst s0.pop)
  greedyLoopR c.popSize (fun s idx => do
    let x ← nth s.pop idx
    let r ← randomVec
    let n ← normal 0 1
    let pos ← correct (fun j => x.sol j + r j * (b.sol j - Num.abs (x.sol j)) + n * (w.sol j - Num.abs (x.sol j)))
    pure (pos, ()))

/-- `DevJA` (`mealpy/swarm_based/JA.py:12-77`) -/
def algo : Algo c Unit Unit := Algo.plain false evolve

theorem ok (hE : c.E.Lawful) (hP : c.P.Lawful) (hc : Accepted c 5) :
    (algo : Algo c Unit Unit).Ok (FA c) JT JT JT c.popSize c.popSize c.popSize := by
  plainalg hE hP hc evolve
  iauto

theorem framed (hE : c.E.Lawful) (ep : Nat) : Framed true (evolve ep : M c Unit Unit Unit) := by
  unfold evolve; framed

end DevJA

namespace OriginalJA

/-- `OriginalJA.evolve` (`mealpy/swarm_based/JA.py:122-142`) -/
def evolve (ep : Nat) : M c Unit Unit Unit := do
  let s0 ← get
  let (b, w) ← draw (bestWorst s0.pop)
  let new ← buildEval c.popSize (fun s idx => do
    let x ← nth s.pop idx
    let r ← uniformVec (fun _ => 0) (fun _ => 1)
    let q ← uniformVec (fun _ => 0) (fun _ => 1)
    let pos ← correct (fun j => x.sol j + r j * (b.sol j - Num.abs (x.sol j)) - q j * (w.sol j - Num.abs (x.sol j)))
    pure (pos, ()))
  setPop new

/-- `OriginalJA` (`mealpy/swarm_based/JA.py:80-142`) -/
def algo : Algo c Unit Unit := Algo.plain false evolve

theorem ok (hE : c.E.Lawful) (hP : c.P.Lawful) (hc : Accepted c 5) :
    (algo : Algo c Unit Unit).Ok (FA c) JT JT JT c.popSize c.popSize c.popSize := by
  plainalg hE hP hc evolve
  pwalk

theorem framed (hE : c.E.Lawful) (ep : Nat) : Framed true (evolve ep : M c Unit Unit Unit) := by
  unfold evolve; framed

end OriginalJA

namespace LevyJA

/-- `LevyJA.evolve` (`mealpy/swarm_based/JA.py:193-215`) -/
def evolve (ep : Nat) : M c Unit Unit Unit := do
  let s0 ← get
  let (b, w) ← draw (bestWorst s0.pop)
  greedyLoopR c.popSize (fun s idx => do
    let x ← nth s.pop idx
    let l1 ← levy 1.8 1.0 (-1)
    let l2 ← levy 1.8 1.0 (-1)
    let pos ← correct (fun j => x.sol j + Num.abs l1 * (b.sol j - Num.abs (x.sol j)) - Num.abs l2 * (w.sol j - Num.abs (x.sol j)))
    pure (pos, ()))

/-- `LevyJA` (`mealpy/swarm_based/JA.py:145-215`) -/
def algo : Algo c Unit Unit := Algo.plain false evolve

theorem ok (hE : c.E.Lawful) (hP : c.P.Lawful) (hc : Accepted c 5) :
    (algo : Algo c Unit Unit).Ok (FA c) JT JT JT c.popSize c.popSize c.popSize := by
  plainalg hE hP hc evolve
  iauto

theorem framed (hE : c.E.Lawful) (ep : Nat) : Framed true (evolve ep : M c Unit Unit Unit) := by
  unfold evolve; framed

end LevyJA

namespace DevSCA

/-- `DevSCA.evolve` (`mealpy/math_based/SCA.py:63-91`) -/
def evolve (ep : Nat) : M c Unit Unit Unit :=
  greedyLoop c.popSize (fun s idx => do
    let r1 : K := 2.0 * (1.0 - ♯ep / ♯c.epoch)
    let u2 ← uniformVec (fun _ => 0) (fun _ => 1)
    let u3 ← uniformVec (fun _ => 0) (fun _ => 1)
    let x ← nth s.pop idx
    let r4 ← randomVec
    let g := s.gbest.sol
    let pos ← correct (fun j =>
      let r2 : K := 2 * Num.pi * u2 j
      let r3 : K := 2 * u3 j
      if r4 j < 0.5 then x.sol j + r1 * Num.sin r2 * Num.abs (r3 * g j - x.sol j)
      else x.sol j + r1 * Num.cos r2 * Num.abs (r3 * g j - x.sol j))
    pure (pos, ()))

/-- `DevSCA` (`mealpy/math_based/SCA.py:13-91`) -/
def algo : Algo c Unit Unit := Algo.plain true evolve

theorem ok (hE : c.E.Lawful) (hP : c.P.Lawful) (hc : Accepted c 5) :
    (algo : Algo c Unit Unit).Ok (FA c) JT JT JT c.popSize c.popSize c.popSize := by
  plainalg hE hP hc evolve
  iauto

theorem framed (hE : c.E.Lawful) (ep : Nat) : Framed true (evolve ep : M c Unit Unit Unit) := by
  unfold evolve; framed

end DevSCA

namespace OriginalSCA

/-- `OriginalSCA.evolve` (`mealpy/math_based/SCA.py:150-182`) -/
def evolve (ep : Nat) : M c Unit Unit Unit :=
  greedyLoop c.popSize (fun s idx => do
    let r1 : K := 2.0 * (1.0 - ♯ep / ♯c.epoch)
    let x ← nth s.pop idx
    let g := s.gbest.sol
    let pos ← vecM (fun j => do
      let u2 ← uniform 0 1
      let u3 ← uniform 0 1
      let r4 ← uniform 0 1
      let r2 : K := 2 * Num.pi * u2
      let r3 : K := 2 * u3
      pure (if r4 < 0.5 then x.sol j + r1 * Num.sin r2 * Num.abs (r3 * g j - x.sol j)
        else x.sol j + r1 * Num.cos r2 * Num.abs (r3 * g j - x.sol j)))
    let pos ← correctWith amendRandom pos
    pure (pos, ()))

/-- `OriginalSCA` (`mealpy/math_based/SCA.py:94-182`) -/
def algo : Algo c Unit Unit := Algo.plain false evolve

theorem ok (hE : c.E.Lawful) (hP : c.P.Lawful) (hc : Accepted c 5) :
    (algo : Algo c Unit Unit).Ok (FA c) JT JT JT c.popSize c.popSize c.popSize := by
  plainalg hE hP hc evolve
  iauto

theorem framed (hE : c.E.Lawful) (ep : Nat) : Framed true (evolve ep : M c Unit Unit Unit) := by
  unfold evolve; framed

end OriginalSCA

/-- `np.mean([generator.random() * pop[j].solution for j in range(0, n_agents)], axis=0)`
(`mealpy/human_based/LCO.py:78-79`) -/
def meanOfBest (pop : List (Agent d K Unit)) : D c (Vec d K) := do
  let l ← repM (ceilSqrt c.popSize) (fun j => do
    let r ← random
    let a ← nth pop j
    pure (fun k => r * a.sol k : Vec d K))
  pure (meanPos l)

theorem DT.meanOfBest {Er : Err → Prop} {pop : List (Agent d K Unit)} (h : pop.length = c.popSize) (h2 : 2 ≤ c.popSize) :
    DT Er (Mealpy.meanOfBest pop : D c (Vec d K)) (fun _ => True) := by
  have := ceilSqrt_le h2
  unfold Mealpy.meanOfBest
  refine DT.bind (DT.repMT fun j hj => ?_) fun _ _ => DT.pure trivial
  dgo

macro_rules
  | `(tactic| dprim) => `(tactic| (at_head meanOfBest; exact DT.meanOfBest (by assumption) (by dside)))

namespace OriginalLCO

/-- `r1 in [1, 3]` (`mealpy/human_based/LCO.py:62`) -/
structure Params (K : Type) [Num K] where
  r1 : K

/-- `OriginalLCO.evolve` (`mealpy/human_based/LCO.py:67-97`) -/
def evolve (p : Params K) (ep : Nat) : M c Unit Unit Unit :=
  greedyLoop c.popSize (fun s idx => do
    let prob ← random
    if 0.875 < prob then do
      let m ← meanOfBest s.pop
      let pos ← correct m
      pure (pos, ())
    else do
      let x ← nth s.pop idx
      if prob < 0.7 then do
        let f1 : K := 1 - ♯ep / ♯c.epoch
        let f2 : K := 1 - f1
        let prev ← (if idx = 0 then pure s.gbest.sol else do
          let a ← nth s.pop (idx - 1)
          pure a.sol : D c (Vec d K))
        let u ← random
        let v ← random
        let pos ← correct (fun j => x.sol j + u * (f2 * p.r1 * (prev j - x.sol j)) + v * (f1 * p.r1 * (s.gbest.sol j - x.sol j)))
        pure (pos, ())
      else do
        let u ← random
        let pos ← correct (fun j => c.P.ub j - (x.sol j - c.P.lb j) * u)
        pure (pos, ()))

/-- `OriginalLCO` (`mealpy/human_based/LCO.py:12-97`) -/
def algo (p : Params K) : Algo c Unit Unit := Algo.plain true (evolve p)

theorem ok (hE : c.E.Lawful) (hP : c.P.Lawful) (hc : Accepted c 5) (p : Params K) :
    (algo p : Algo c Unit Unit).Ok (FA c) JT JT JT c.popSize c.popSize c.popSize := by
  plainalg hE hP hc evolve
  iauto

theorem framed (hE : c.E.Lawful) (p : Params K) (ep : Nat) : Framed true (evolve p ep : M c Unit Unit Unit) := by
  unfold evolve; framed

end OriginalLCO

namespace DevLCO

/-- `DevLCO.evolve` (`mealpy/human_based/LCO.py:148-180`) -/
def evolve (p : OriginalLCO.Params K) (ep : Nat) : M c Unit Unit Unit :=
  greedyLoop c.popSize (fun s idx => do
    let prob ← random
    if 0.875 < prob then do
      let m ← meanOfBest s.pop
      let pos ← correct m
      pure (pos, ())
    else if prob < 0.7 then do
      let x ← nth s.pop idx
      let f : K := ♯ep / ♯c.epoch
      let prev ← (if idx ≠ 0 then do
          let a ← nth s.pop (idx - 1)
          pure a.sol
        else pure s.gbest.sol : D c (Vec d K))
      let first ← nth s.pop 0
      let u ← random
      let v ← random
      let pos ← correct (fun j => x.sol j + u * (f * p.r1 * (prev j - x.sol j)) + v * ((1 - f) * p.r1 * (first.sol j - x.sol j)))
      pure (pos, ())
    else do
      let y ← genSolution
      let pos ← correct y
      pure (pos, ()))

/-- `DevLCO` (`mealpy/human_based/LCO.py:100-180`) -/
def algo (p : OriginalLCO.Params K) : Algo c Unit Unit := Algo.plain true (evolve p)

theorem ok (hE : c.E.Lawful) (hP : c.P.Lawful) (hc : Accepted c 5) (p : OriginalLCO.Params K) :
    (algo p : Algo c Unit Unit).Ok (FA c) JT JT JT c.popSize c.popSize c.popSize := by
  plainalg hE hP hc evolve
  iauto

theorem framed (hE : c.E.Lawful) (p : OriginalLCO.Params K) (ep : Nat) : Framed true (evolve p ep : M c Unit Unit Unit) := by
  unfold evolve; framed

end DevLCO

end Mealpy
