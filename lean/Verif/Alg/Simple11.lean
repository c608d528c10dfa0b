import Verif.Alg.Kit12

/-! # Simple optimizers, part 11

`AEO.py`, `QSA.py` -/

set_option linter.unusedSectionVars false
set_option linter.unusedVariables false

namespace Mealpy
open Spec

variable {d : Nat} {K : Type} [Num K] {c : Cfg d K}
namespace AEO

/-- production: the last agent is replaced (`mealpy/system_based/AEO.py:72-75`, the same in every class) -/
def produce (a : K) : M c Unit Unit Unit := do
  let s ← get
  let x ← draw (nth s.pop (s.pop.length - 1))
  let u ← draw (uniformVec c.P.lb c.P.ub)
  let pos ← draw (correct (fun j => (1 - a) * x.sol j + a * u j))
  let ag ← liftB (agentOf (fun _ => pure ()) pos)
  reshape (fun pop => pop.set (pop.length - 1) ag)

/-- `1 if idx == 0 else self.generator.integers(0, idx)` (`mealpy/system_based/AEO.py:84`) -/
def partner (idx : Nat) : D c Nat := if idx = 0 then pure 1 else index idx

/-- the consumption factor (`mealpy/system_based/AEO.py:81-83`) -/
def factor : D c K := do
  let v1 ← normal 0 1
  let v2 ← normal 0 1
  pure (0.5 * v1 / Num.abs v2)

/-- the decomposition factors `d`, `e` and `h` (`mealpy/system_based/AEO.py:111-114`) -/
def weights : D c (K × K × K) := do
  let r3 ← uniform 0 1
  let n ← normal 0 1
  let k ← integers 1 3
  pure (3 * n, r3 * Num.ofInt k - 1, 2 * r3 - 1)

theorem pt_produce (hE : c.E.Lawful) (hP : c.P.Lawful) (h : 0 < c.popSize) {a : K} :
    RT (FA c) JT 1 1 [] (produce a : M c Unit Unit Unit) (fun _ => True) := by
  unfold produce
  refine RT.bind0 RJ.get fun s hs => ?_
  have hl : s.pop.length = c.popSize := hs.len
  refine RT.bind0 (RJ.draw (DT.nth_mem (by omega))) fun x _ => RT.bind0 (RJ.draw (DT.uniformBox hE hP)) fun u _ => RT.drawPos (DT.correct hP) fun pos hp => ?_
  exact RT.bindS (RJ.agentOf hp (DT.pure hp)) (by omega) fun ag _ => RT.weaken (RT.setLast h) (by omega) (by omega)

theorem framed_produce {a : K} : Framed true (produce a : M c Unit Unit Unit) := by
  unfold produce; framed

macro_rules
  | `(tactic| fprim) => `(tactic| (at_last AEO.produce; exact AEO.framed_produce))

variable {Er : Err → Prop}

theorem dt_partner (hE : c.E.Lawful) {idx n : Nat} (h : idx < n - 1) : DT Er (partner idx : D c Nat) (fun j => j < n) := by
  unfold partner
  exact DT.ite (fun _ => DT.pure (by omega)) fun _ => DT.mono (DT.index hE (by omega)) fun j hj => by omega

theorem dt_factor : DT Er (factor : D c K) (fun _ => True) := by
  unfold factor; dgo

theorem dt_weights (hE : c.E.Lawful) : DT Er (weights : D c (K × K × K)) (fun _ => True) := by
  unfold weights; dgo

/-- production, consumption by all agents but the last, decomposition around the best -/
theorem ok_of (hE : c.E.Lawful) (hP : c.P.Lawful) (h : 1 < c.popSize) {a : K} {mk : St c Unit Unit → Nat → D c (Vec d K × Unit)}
    {mk2 : Agent d K Unit → St c Unit Unit → Nat → D c (Vec d K × Unit)}
    (h1 : ∀ (s : St c Unit Unit) (i : Nat), Mid (FA c) JT s → s.pop.length = c.popSize → i < c.popSize - 1 → DT noErr (mk s i) (MkOk (FA c) c))
    (h2 : ∀ (b : Agent d K Unit) (s : St c Unit Unit) (i : Nat), Mid (FA c) JT s → s.pop.length = c.popSize → i < c.popSize → DT noErr (mk2 b s i) (MkOk (FA c) c)) :
    PT (FA c) JT (c.popSize + c.popSize) (c.popSize + c.popSize) (do
      produce a
      greedyFirst (c.popSize - 1) mk
      let s ← get
      let best ← draw (bestAgent s.pop)
      greedyLoop c.popSize (mk2 best) : M c Unit Unit Unit) (fun _ => True) := by
  refine RT.pt (RT.thenIT (pt_produce hE hP (by omega)) (by omega) fun _ _ => ?_)
  refine IT.bindS (IT.greedyFirst hE (by omega) h1) (by omega) fun _ _ => IT.bind0 IT.get fun s hs => ?_
  have hl : s.pop.length = c.popSize := hs.len
  exact IT.bind0 (IT.draw (DT.bestAgent' hE (by omega))) fun b _ => IT.weaken (IT.greedyLoop hE (h2 b)) (by omega) (by omega)

end AEO

namespace OriginalAEO

/-- consumption (`mealpy/system_based/AEO.py:78-98`) -/
def consume (ep : Nat) (s : St c Unit Unit) (idx : Nat) : D c (Vec d K × Unit) := do
  let u ← random
  let k ← AEO.factor
  let j ← AEO.partner idx
  let x ← nth s.pop idx
  let a ← nth s.pop 0
  let b ← nth s.pop j
  let pos ← (if u < 1.0 / 3 then pure (fun i => x.sol i + k * (x.sol i - a.sol i))
    else if u ≤ 2.0 / 3 then pure (fun i => x.sol i + k * (x.sol i - b.sol i))
    else do
      let r2 ← uniform 0 1
      pure (fun i => x.sol i + k * (r2 * (x.sol i - a.sol i) + (1 - r2) * (x.sol i - b.sol i))) : D c (Vec d K))
  let pos ← correct pos
  pure (pos, ())

/-- decomposition (`mealpy/system_based/AEO.py:111-117`) -/
def decompose (ep : Nat) (best : Agent d K Unit) (s : St c Unit Unit) (idx : Nat) : D c (Vec d K × Unit) := do
  let x ← nth s.pop idx
  let w ← AEO.weights
  let pos ← correct (fun j => best.sol j + w.1 * (w.2.1 * best.sol j - w.2.2 * x.sol j))
  pure (pos, ())

/-- `OriginalAEO.evolve` (`mealpy/system_based/AEO.py:62-124`) -/
def evolve (ep : Nat) : M c Unit Unit Unit := do
  let u ← draw (uniform 0 1)
  AEO.produce ((1 - ♯ep / ♯c.epoch) * u)
  greedyFirst (c.popSize - 1) (consume ep)
  let s ← get
  let best ← draw (bestAgent s.pop)
  greedyLoop c.popSize (decompose ep best)

theorem dt_consume (hE : c.E.Lawful) (hP : c.P.Lawful) {ep : Nat} {s : St c Unit Unit} {i : Nat} (hl : s.pop.length = c.popSize) (hi : i < c.popSize - 1) :
    DT noErr (consume ep s i : D c _) (MkOk (FA c) c) := by
  unfold consume
  refine DT.bind DT.random' fun u _ => DT.bind AEO.dt_factor fun k _ => DT.bind (AEO.dt_partner hE hi) fun j hj => ?_
  refine DT.bind (DT.nth_mem (by omega)) fun x _ => DT.bind (DT.nth_mem (by omega)) fun a _ => DT.bind (DT.nth_mem (by omega)) fun b _ => ?_
  refine DT.bind (R := fun _ => True) (DT.ite (fun _ => DT.pure trivial) fun _ => DT.ite (fun _ => DT.pure trivial) fun _ => DT.bind DT.uniform' fun _ _ => DT.pure trivial) fun pos _ => ?_
  exact DT.bind (DT.correct hP) fun pos h => DT.pure ⟨h, h⟩

theorem dt_decompose (hE : c.E.Lawful) (hP : c.P.Lawful) (h2 : 2 ≤ c.popSize) {ep : Nat} {b : Agent d K Unit} {s : St c Unit Unit} {i : Nat} (hl : s.pop.length = c.popSize) (hi : i < c.popSize) :
    DT noErr (decompose ep b s i : D c _) (MkOk (FA c) c) := by
  unfold decompose
  refine DT.bind (DT.nth_mem (by omega)) fun x _ => DT.bind (AEO.dt_weights hE) fun w _ => ?_
  exact DT.bind (DT.correct hP) fun pos h => DT.pure ⟨h, h⟩

/-- `OriginalAEO` (`mealpy/system_based/AEO.py:12-124`) -/
def algo : Algo c Unit Unit := Algo.plain true evolve

theorem ok (hE : c.E.Lawful) (hP : c.P.Lawful) (hc : Accepted c 5) :
    (algo : Algo c Unit Unit).Ok (FA c) JT JT JT c.popSize (c.popSize + c.popSize) (c.popSize + c.popSize) := by
  plainalg hE hP hc evolve
  exact PT.bind0 (IT.draw DT.uniform') fun u _ => AEO.ok_of hE hP (by omega) (fun s i hs hl hi => dt_consume hE hP hl hi) (fun b s i hs hl hi => dt_decompose hE hP (by omega) hl hi)

theorem framed (hE : c.E.Lawful) (ep : Nat) : Framed true (evolve ep : M c Unit Unit Unit) := by
  unfold evolve; framed

end OriginalAEO

namespace ImprovedAEO

/-- consumption (`mealpy/system_based/AEO.py:191-211`) -/
def consume (ep : Nat) (s : St c Unit Unit) (idx : Nat) : D c (Vec d K × Unit) := do
  let u ← random
  let k ← AEO.factor
  let j ← AEO.partner idx
  let x ← nth s.pop idx
  let a ← nth s.pop 0
  let b ← nth s.pop j
  let pos ← (if u < 1.0 / 3 then pure (fun i => x.sol i + k * (x.sol i - a.sol i))
    else if u ≤ 2.0 / 3 then pure (fun i => x.sol i + k * (x.sol i - b.sol i))
    else do
      let r2 ← uniform 0 1
      pure (fun i => x.sol i + k * (r2 * (x.sol i - a.sol i) + (1 - r2) * (x.sol i - b.sol i))) : D c (Vec d K))
  let pos ← correct pos
  pure (pos, ())

/-- decomposition (`mealpy/system_based/AEO.py:224-239`) -/
def decompose (ep : Nat) (best : Agent d K Unit) (s : St c Unit Unit) (idx : Nat) : D c (Vec d K × Unit) := do
  let x ← nth s.pop idx
  let w ← AEO.weights
  let u ← random
  let pos ← (if u < 0.5 then do
      let beta : K := 1 - (1 - 0) * (♯ep / ♯c.epoch)
      let r ← index (c.popSize - 1)
      let y ← nth s.pop r
      let v ← random
      pure (fun j => if v < 0.5 then beta * y.sol j + (1 - beta) * x.sol j else beta * x.sol j + (1 - beta) * y.sol j)
    else pure (fun j => best.sol j + w.1 * (w.2.1 * best.sol j - w.2.2 * x.sol j)) : D c (Vec d K))
  let pos ← correct pos
  pure (pos, ())

/-- `ImprovedAEO.evolve` (`mealpy/system_based/AEO.py:175-246`) -/
def evolve (ep : Nat) : M c Unit Unit Unit := do
  let u ← draw (uniform 0 1)
  AEO.produce ((1 - ♯ep / ♯c.epoch) * u)
  greedyFirst (c.popSize - 1) (consume ep)
  let s ← get
  let best ← draw (bestAgent s.pop)
  greedyLoop c.popSize (decompose ep best)

theorem dt_consume (hE : c.E.Lawful) (hP : c.P.Lawful) {ep : Nat} {s : St c Unit Unit} {i : Nat} (hl : s.pop.length = c.popSize) (hi : i < c.popSize - 1) :
    DT noErr (consume ep s i : D c _) (MkOk (FA c) c) := by
  unfold consume
  refine DT.bind DT.random' fun u _ => DT.bind AEO.dt_factor fun k _ => DT.bind (AEO.dt_partner hE hi) fun j hj => ?_
  refine DT.bind (DT.nth_mem (by omega)) fun x _ => DT.bind (DT.nth_mem (by omega)) fun a _ => DT.bind (DT.nth_mem (by omega)) fun b _ => ?_
  refine DT.bind (R := fun _ => True) (DT.ite (fun _ => DT.pure trivial) fun _ => DT.ite (fun _ => DT.pure trivial) fun _ => DT.bind DT.uniform' fun _ _ => DT.pure trivial) fun pos _ => ?_
  exact DT.bind (DT.correct hP) fun pos h => DT.pure ⟨h, h⟩

theorem dt_decompose (hE : c.E.Lawful) (hP : c.P.Lawful) (h2 : 2 ≤ c.popSize) {ep : Nat} {b : Agent d K Unit} {s : St c Unit Unit} {i : Nat} (hl : s.pop.length = c.popSize) (hi : i < c.popSize) :
    DT noErr (decompose ep b s i : D c _) (MkOk (FA c) c) := by
  unfold decompose
  refine DT.bind (DT.nth_mem (by omega)) fun x _ => DT.bind (AEO.dt_weights hE) fun w _ => DT.bind DT.random' fun u _ => ?_
  refine DT.bind (R := fun _ => True) (DT.ite (fun _ => ?_) fun _ => DT.pure trivial) fun pos _ => ?_
  · exact DT.bind (DT.index hE (by omega)) fun r hr => DT.bind (DT.nth_mem (by omega)) fun _ _ => DT.bind DT.random' fun _ _ => DT.pure trivial
  · exact DT.bind (DT.correct hP) fun pos h => DT.pure ⟨h, h⟩

/-- `ImprovedAEO` (`mealpy/system_based/AEO.py:127-246`) -/
def algo : Algo c Unit Unit := Algo.plain true evolve

theorem ok (hE : c.E.Lawful) (hP : c.P.Lawful) (hc : Accepted c 5) :
    (algo : Algo c Unit Unit).Ok (FA c) JT JT JT c.popSize (c.popSize + c.popSize) (c.popSize + c.popSize) := by
  plainalg hE hP hc evolve
  exact PT.bind0 (IT.draw DT.uniform') fun u _ => AEO.ok_of hE hP (by omega) (fun s i hs hl hi => dt_consume hE hP hl hi) (fun b s i hs hl hi => dt_decompose hE hP (by omega) hl hi)

theorem framed (hE : c.E.Lawful) (ep : Nat) : Framed true (evolve ep : M c Unit Unit Unit) := by
  unfold evolve; framed

end ImprovedAEO

namespace EnhancedAEO

/-- consumption (`mealpy/system_based/AEO.py:311-343`) -/
def consume (ep : Nat) (s : St c Unit Unit) (idx : Nat) : D c (Vec d K × Unit) := do
  let u ← random
  let k ← AEO.factor
  let r3 ← random
  let r4 ← random
  let j ← AEO.partner idx
  let x ← nth s.pop idx
  let a ← nth s.pop 0
  let b ← nth s.pop j
  let wave : K → K := fun r => if r4 ≤ 0.5 then Num.sin r else Num.cos r
  let pos ← (if u ≤ 1.0 / 3 then pure (fun i => x.sol i + wave (2 * Num.pi * r3) * k * (x.sol i - a.sol i))
    else if u ≤ 2.0 / 3 then pure (fun i => x.sol i + wave (2 * Num.pi * r3) * k * (x.sol i - b.sol i))
    else do
      let r5 ← random
      pure (fun i => x.sol i + wave r5 * k * (r5 * (x.sol i - a.sol i) + (1 - r5) * (x.sol i - b.sol i))) : D c (Vec d K))
  let pos ← correct pos
  pure (pos, ())

/-- decomposition (`mealpy/system_based/AEO.py:356-371`) -/
def decompose (ep : Nat) (best : Agent d K Unit) (s : St c Unit Unit) (idx : Nat) : D c (Vec d K × Unit) := do
  let x ← nth s.pop idx
  let w ← AEO.weights
  let u ← random
  let pos ← (if u < 0.5 then do
      let beta : K := 1 - (1 - 0) * (♯ep / ♯c.epoch)
      let r ← pickWithout c.popSize [idx]
      let y ← nth s.pop r
      let v ← random
      pure (fun j => if v < 0.5 then beta * y.sol j + (1 - beta) * x.sol j else (1 - beta) * y.sol j + beta * x.sol j)
    else pure (fun j => best.sol j + w.1 * (w.2.1 * best.sol j - w.2.2 * x.sol j)) : D c (Vec d K))
  let pos ← correct pos
  pure (pos, ())

/-- `EnhancedAEO.evolve` (`mealpy/system_based/AEO.py:295-378`) -/
def evolve (ep : Nat) : M c Unit Unit Unit := do
  AEO.produce (2 * (1 - ♯ep / ♯c.epoch))
  greedyFirst (c.popSize - 1) (consume ep)
  let s ← get
  let best ← draw (bestAgent s.pop)
  greedyLoop c.popSize (decompose ep best)

theorem dt_consume (hE : c.E.Lawful) (hP : c.P.Lawful) {ep : Nat} {s : St c Unit Unit} {i : Nat} (hl : s.pop.length = c.popSize) (hi : i < c.popSize - 1) :
    DT noErr (consume ep s i : D c _) (MkOk (FA c) c) := by
  unfold consume
  refine DT.bind DT.random' fun u _ => DT.bind AEO.dt_factor fun k _ => DT.bind DT.random' fun r3 _ => DT.bind DT.random' fun r4 _ => DT.bind (AEO.dt_partner hE hi) fun j hj => ?_
  refine DT.bind (DT.nth_mem (by omega)) fun x _ => DT.bind (DT.nth_mem (by omega)) fun a _ => DT.bind (DT.nth_mem (by omega)) fun b _ => ?_
  refine DT.bind (R := fun _ => True) (DT.ite (fun _ => DT.pure trivial) fun _ => DT.ite (fun _ => DT.pure trivial) fun _ => DT.bind DT.random' fun _ _ => DT.pure trivial) fun pos _ => ?_
  exact DT.bind (DT.correct hP) fun pos h => DT.pure ⟨h, h⟩

theorem dt_decompose (hE : c.E.Lawful) (hP : c.P.Lawful) (h2 : 2 ≤ c.popSize) {ep : Nat} {b : Agent d K Unit} {s : St c Unit Unit} {i : Nat} (hl : s.pop.length = c.popSize) (hi : i < c.popSize) :
    DT noErr (decompose ep b s i : D c _) (MkOk (FA c) c) := by
  unfold decompose
  refine DT.bind (DT.nth_mem (by omega)) fun x _ => DT.bind (AEO.dt_weights hE) fun w _ => DT.bind DT.random' fun u _ => ?_
  refine DT.bind (R := fun _ => True) (DT.ite (fun _ => ?_) fun _ => DT.pure trivial) fun pos _ => ?_
  · exact DT.bind (DT.pickWithout hE (by simp; omega)) fun r hr => DT.bind (DT.nth_mem (by omega)) fun _ _ => DT.bind DT.random' fun _ _ => DT.pure trivial
  · exact DT.bind (DT.correct hP) fun pos h => DT.pure ⟨h, h⟩

/-- `EnhancedAEO` (`mealpy/system_based/AEO.py:249-378`) -/
def algo : Algo c Unit Unit := Algo.plain true evolve

theorem ok (hE : c.E.Lawful) (hP : c.P.Lawful) (hc : Accepted c 5) :
    (algo : Algo c Unit Unit).Ok (FA c) JT JT JT c.popSize (c.popSize + c.popSize) (c.popSize + c.popSize) := by
  plainalg hE hP hc evolve
  exact AEO.ok_of hE hP (by omega) (fun s i hs hl hi => dt_consume hE hP hl hi) (fun b s i hs hl hi => dt_decompose hE hP (by omega) hl hi)

theorem framed (hE : c.E.Lawful) (ep : Nat) : Framed true (evolve ep : M c Unit Unit Unit) := by
  unfold evolve; framed

end EnhancedAEO

namespace ModifiedAEO

/-- consumption (`mealpy/system_based/AEO.py:445-465`) -/
def consume (ep : Nat) (s : St c Unit Unit) (idx : Nat) : D c (Vec d K × Unit) := do
  let u ← random
  let k ← AEO.factor
  let j ← AEO.partner idx
  let x ← nth s.pop idx
  let a ← nth s.pop 0
  let b ← nth s.pop j
  let pos ← (if u ≤ 1.0 / 3 then pure (fun i => x.sol i + 2 * (1 - ♯ep / ♯c.epoch) * k * (x.sol i - a.sol i))
    else if u ≤ 2.0 / 3 then pure (fun i => x.sol i + 2 * (1 - ♯ep / ♯c.epoch) * k * (x.sol i - b.sol i))
    else do
      let r2 ← random
      pure (fun i => x.sol i + 2 * (1 - ♯ep / ♯c.epoch) * k * (r2 * (x.sol i - a.sol i) + (1 - r2) * (x.sol i - b.sol i))) : D c (Vec d K))
  let pos ← correct pos
  pure (pos, ())

/-- decomposition (`mealpy/system_based/AEO.py:478-493`) -/
def decompose (ep : Nat) (best : Agent d K Unit) (s : St c Unit Unit) (idx : Nat) : D c (Vec d K × Unit) := do
  let x ← nth s.pop idx
  let w ← AEO.weights
  let u ← random
  let pos ← (if u < 0.5 then do
      let beta : K := 1 - (1 - 0) * (♯ep / ♯c.epoch)
      let r ← pickWithout c.popSize [idx]
      let y ← nth s.pop r
      let v ← random
      pure (fun j => if v < 0.5 then beta * y.sol j + (1 - beta) * x.sol j else (1 - beta) * y.sol j + beta * x.sol j)
    else pure (fun j => best.sol j + w.1 * (w.2.1 * best.sol j - w.2.2 * x.sol j)) : D c (Vec d K))
  let pos ← correct pos
  pure (pos, ())

/-- `ModifiedAEO.evolve` (`mealpy/system_based/AEO.py:428-500`) -/
def evolve (ep : Nat) : M c Unit Unit Unit := do
  let u ← draw random
  AEO.produce ((1 - ♯ep / ♯c.epoch) * u)
  greedyFirst (c.popSize - 1) (consume ep)
  let s ← get
  let best ← draw (bestAgent s.pop)
  greedyLoop c.popSize (decompose ep best)

theorem dt_consume (hE : c.E.Lawful) (hP : c.P.Lawful) {ep : Nat} {s : St c Unit Unit} {i : Nat} (hl : s.pop.length = c.popSize) (hi : i < c.popSize - 1) :
    DT noErr (consume ep s i : D c _) (MkOk (FA c) c) := by
  unfold consume
  refine DT.bind DT.random' fun u _ => DT.bind AEO.dt_factor fun k _ => DT.bind (AEO.dt_partner hE hi) fun j hj => ?_
  refine DT.bind (DT.nth_mem (by omega)) fun x _ => DT.bind (DT.nth_mem (by omega)) fun a _ => DT.bind (DT.nth_mem (by omega)) fun b _ => ?_
  refine DT.bind (R := fun _ => True) (DT.ite (fun _ => DT.pure trivial) fun _ => DT.ite (fun _ => DT.pure trivial) fun _ => DT.bind DT.random' fun _ _ => DT.pure trivial) fun pos _ => ?_
  exact DT.bind (DT.correct hP) fun pos h => DT.pure ⟨h, h⟩

theorem dt_decompose (hE : c.E.Lawful) (hP : c.P.Lawful) (h2 : 2 ≤ c.popSize) {ep : Nat} {b : Agent d K Unit} {s : St c Unit Unit} {i : Nat} (hl : s.pop.length = c.popSize) (hi : i < c.popSize) :
    DT noErr (decompose ep b s i : D c _) (MkOk (FA c) c) := by
  unfold decompose
  refine DT.bind (DT.nth_mem (by omega)) fun x _ => DT.bind (AEO.dt_weights hE) fun w _ => DT.bind DT.random' fun u _ => ?_
  refine DT.bind (R := fun _ => True) (DT.ite (fun _ => ?_) fun _ => DT.pure trivial) fun pos _ => ?_
  · exact DT.bind (DT.pickWithout hE (by simp; omega)) fun r hr => DT.bind (DT.nth_mem (by omega)) fun _ _ => DT.bind DT.random' fun _ _ => DT.pure trivial
  · exact DT.bind (DT.correct hP) fun pos h => DT.pure ⟨h, h⟩

/-- `ModifiedAEO` (`mealpy/system_based/AEO.py:381-500`) -/
def algo : Algo c Unit Unit := Algo.plain true evolve

theorem ok (hE : c.E.Lawful) (hP : c.P.Lawful) (hc : Accepted c 5) :
    (algo : Algo c Unit Unit).Ok (FA c) JT JT JT c.popSize (c.popSize + c.popSize) (c.popSize + c.popSize) := by
  plainalg hE hP hc evolve
  exact PT.bind0 (IT.draw DT.random') fun u _ => AEO.ok_of hE hP (by omega) (fun s i hs hl hi => dt_consume hE hP hl hi) (fun b s i hs hl hi => dt_decompose hE hP (by omega) hl hi)

theorem framed (hE : c.E.Lawful) (ep : Nat) : Framed true (evolve ep : M c Unit Unit Unit) := by
  unfold evolve; framed

end ModifiedAEO

namespace AugmentedAEO

/-- consumption (`mealpy/system_based/AEO.py:566-588`) -/
def consume (ep : Nat) (s : St c Unit Unit) (idx : Nat) : D c (Vec d K × Unit) := do
  let x ← nth s.pop idx
  let t ← random
  let pos ← (if t < 0.5 then do
      let u ← random
      let k ← AEO.factor
      let j ← AEO.partner idx
      let a ← nth s.pop 0
      let b ← nth s.pop j
      let wf : K := 2 * (1 - ♯ep / ♯c.epoch)
      if u < 1.0 / 3 then pure (fun i => x.sol i + wf * k * (x.sol i - a.sol i))
      else if u ≤ 2.0 / 3 then pure (fun i => x.sol i + wf * k * (x.sol i - b.sol i))
      else do
        let r2 ← uniform 0 1
        pure (fun i => x.sol i + wf * k * (r2 * (x.sol i - a.sol i) + (1 - r2) * (x.sol i - b.sol i)))
    else do
      let l ← levy 1 0.001 (-1)
      let r ← random
      pure (fun i => x.sol i + l * (1 / Num.sqrt ♯ep) * Num.sign (r - 0.5) * (x.sol i - s.gbest.sol i)) : D c (Vec d K))
  let pos ← correct pos
  pure (pos, ())

/-- decomposition (`mealpy/system_based/AEO.py:600-607`) -/
def decompose (ep : Nat) (best : Agent d K Unit) (s : St c Unit Unit) (idx : Nat) : D c (Vec d K × Unit) := do
  let x ← nth s.pop idx
  let t ← random
  let w ← (if t < 0.5 then normalVec 0 1
    else do
      let beta ← uniform 0.01 1
      levyVec beta 0.01 0 : D c (Vec d K))
  let pos ← correct (fun i => best.sol i + w i * (best.sol i - x.sol i))
  pure (pos, ())

/-- `AugmentedAEO.evolve` (`mealpy/system_based/AEO.py:549-614`) -/
def evolve (ep : Nat) : M c Unit Unit Unit := do
  let u ← draw random
  AEO.produce ((1 - ♯ep / ♯c.epoch) * u)
  greedyFirst (c.popSize - 1) (consume ep)
  let s ← get
  let best ← draw (bestAgent s.pop)
  greedyLoop c.popSize (decompose ep best)

theorem dt_consume (hE : c.E.Lawful) (hP : c.P.Lawful) {ep : Nat} {s : St c Unit Unit} {i : Nat} (hl : s.pop.length = c.popSize) (hi : i < c.popSize - 1) :
    DT noErr (consume ep s i : D c _) (MkOk (FA c) c) := by
  unfold consume
  refine DT.bind (DT.nth_mem (by omega)) fun x _ => DT.bind DT.random' fun t _ => ?_
  refine DT.bind (R := fun _ => True) (DT.ite (fun _ => ?_) fun _ => DT.bind DT.levy fun _ _ => DT.bind DT.random' fun _ _ => DT.pure trivial) fun pos _ => ?_
  · refine DT.bind DT.random' fun u _ => DT.bind AEO.dt_factor fun k _ => DT.bind (AEO.dt_partner hE hi) fun j hj => ?_
    refine DT.bind (DT.nth_mem (by omega)) fun a _ => DT.bind (DT.nth_mem (by omega)) fun b _ => ?_
    exact DT.ite (fun _ => DT.pure trivial) fun _ => DT.ite (fun _ => DT.pure trivial) fun _ => DT.bind DT.uniform' fun _ _ => DT.pure trivial
  · exact DT.bind (DT.correct hP) fun pos h => DT.pure ⟨h, h⟩

theorem dt_decompose (hE : c.E.Lawful) (hP : c.P.Lawful) (h2 : 2 ≤ c.popSize) {ep : Nat} {b : Agent d K Unit} {s : St c Unit Unit} {i : Nat} (hl : s.pop.length = c.popSize) (hi : i < c.popSize) :
    DT noErr (decompose ep b s i : D c _) (MkOk (FA c) c) := by
  unfold decompose
  refine DT.bind (DT.nth_mem (by omega)) fun x _ => DT.bind DT.random' fun t _ => ?_
  refine DT.bind (R := fun _ => True) (DT.ite (fun _ => DT.normalVec) fun _ => DT.bind DT.uniform' fun _ _ => DT.levyVec) fun w _ => ?_
  exact DT.bind (DT.correct hP) fun pos h => DT.pure ⟨h, h⟩

/-- `AugmentedAEO` (`mealpy/system_based/AEO.py:503-614`) -/
def algo : Algo c Unit Unit := Algo.plain true evolve

theorem ok (hE : c.E.Lawful) (hP : c.P.Lawful) (hc : Accepted c 5) :
    (algo : Algo c Unit Unit).Ok (FA c) JT JT JT c.popSize (c.popSize + c.popSize) (c.popSize + c.popSize) := by
  plainalg hE hP hc evolve
  exact PT.bind0 (IT.draw DT.random') fun u _ => AEO.ok_of hE hP (by omega) (fun s i hs hl hi => dt_consume hE hP hl hi) (fun b s i hs hl hi => dt_decompose hE hP (by omega) hl hi)

theorem framed (hE : c.E.Lawful) (ep : Nat) : Framed true (evolve ep : M c Unit Unit Unit) := by
  unfold evolve; framed

end AugmentedAEO

namespace QSA

/-- the lengths of the first two queues (`mealpy/human_based/QSA.py:68-84`); `int` truncates -/
def queues (pop : List (Agent d K Unit)) (a1 a2 a3 : Agent d K Unit) : Int × Int :=
  let t1 := a1.fit
  let t2 := a2.fit
  let t3 := a3.fit
  let all : K := 1 / t1 + 1 / t2 + 1 / t3
  let n1 : K := if 1.0e-6 < t1 then 1 / t1 / all else 1.0 / 3
  let n2 : K := if 1.0e-6 < t1 then 1 / t2 / all else 1.0 / 3
  (Num.trunc (n1 * ♯c.popSize), Num.trunc (n2 * ♯c.popSize))

/-- the server of an agent (`mealpy/human_based/QSA.py:92-103`), with whether the agent is the first of its queue -/
def server (q : Int × Int) (a1 a2 a3 : Agent d K Unit) (idx : Nat) : Vec d K × Bool :=
  if (idx : Int) < q.1 then (a1.sol, decide (idx = 0))
  else if (idx : Int) < q.1 + q.2 then (a2.sol, decide ((idx : Int) = q.1))
  else (a3.sol, decide ((idx : Int) = q.1 + q.2))

/-- a step of the first business (`mealpy/human_based/QSA.py:92-124`); the flag says `case == 1` (no case yet counts as the second case).
Everything is sequential in every mode. -/
def serve (ep : Nat) (q : Int × Int) (a1 a2 a3 : Agent d K Unit) (idx : Nat) (one : Bool) : M c Unit Unit Bool := do
  let sv := server q a1 a2 a3 idx
  let a := sv.1
  let beta : K := Num.pow ♯ep (Num.pow (♯ep / ♯c.epoch) 0.5)
  let alpha ← draw (uniform (-1) 1)
  let e ← draw (vecM (fun _ => dist "exponential" [0.5]))
  let g ← draw (dist "exponential" [0.5])
  let x ← popAt idx
  if one || sv.2 then do
    let pos ← draw (correct (fun i => a i + (beta * alpha * (e i * Num.abs (a i - x.sol i)) + g * (a i - x.sol i))))
    tryComp (fun _ => pure ()) idx pos
  else do
    let pos ← draw (correct (fun i => x.sol i + beta * alpha * (e i * Num.abs (a i - x.sol i))))
    let won ← tryComp (fun _ => pure ()) idx pos
    pure (!won)

/-- `update_business_1__` (`mealpy/human_based/QSA.py:86-126`). The code returns a sorted list and leaves `self.pop` unsorted; nothing reads
`self.pop` before it is assigned at the end of the epoch, so the model sorts it here. -/
def business1 (ep : Nat) : M c Unit Unit Unit := do
  let s ← get
  let a1 ← draw (nth s.pop 0)
  let a2 ← draw (nth s.pop 1)
  let a3 ← draw (nth s.pop 2)
  let _ ← iter c.popSize (fun i one => serve ep (queues (c := c) s.pop a1 a2 a3) a1 a2 a3 i one) false
  sortPop

/-- a position of the second business (`mealpy/human_based/QSA.py:138-155`) -/
def mix (s : St c Unit Unit) (idx : Nat) : D c (Vec d K × Unit) := do
  let a1 ← nth s.pop 0
  let a2 ← nth s.pop 1
  let a3 ← nth s.pop 2
  let a := (server (queues (c := c) s.pop a1 a2 a3) a1 a2 a3 idx).1
  let cv : K := if 1.0e-5 < a1.fit then a1.fit / (a2.fit + a3.fit) else 1.0 / 2
  let x ← nth s.pop idx
  let u ← random
  if u < ♯(idx + 1) / ♯c.popSize then do
    let (i1, i2) ← choose2 c.popSize
    let y ← nth s.pop i1
    let z ← nth s.pop i2
    let v ← random
    let e ← dist "exponential" [0.5]
    let pos ← correct (fun i => if v < cv then x.sol i + e * (y.sol i - z.sol i) else x.sol i + e * (a i - y.sol i))
    pure (pos, ())
  else do
    let g ← genSolution
    let pos ← correct g
    pure (pos, ())

/-- the same with Levy flights (`mealpy/human_based/QSA.py:332-351`), corrected twice -/
def mixLevy (s : St c Unit Unit) (idx : Nat) : D c (Vec d K × Unit) := do
  let a1 ← nth s.pop 0
  let a2 ← nth s.pop 1
  let a3 ← nth s.pop 2
  let a := (server (queues (c := c) s.pop a1 a2 a3) a1 a2 a3 idx).1
  let cv : K := if 1.0e-6 < a1.fit then a1.fit / (a2.fit + a3.fit) else 1 / 2
  let x ← nth s.pop idx
  let u ← random
  if u < ♯(idx + 1) / ♯c.popSize then do
    let i1 ← choice1 c.popSize
    let y ← nth s.pop i1
    let v ← random
    let pos ← (if v < cv then do
        let l ← levy 1 0.001 (-1)
        let n ← normalVec 0 1
        pure (fun i => x.sol i + n i * l)
      else do
        let e ← dist "exponential" [0.5]
        pure (fun i => x.sol i + e * (a i - y.sol i)) : D c (Vec d K))
    let pos ← correct pos
    let pos ← correct pos
    pure (pos, ())
  else do
    let g ← genSolution
    let pos ← correct g
    pure (pos, ())

/-- a position of the third business (`mealpy/human_based/QSA.py:167-174`) -/
def around (s : St c Unit Unit) (idx : Nat) : D c (Vec d K × Unit) := do
  let x ← nth s.pop idx
  let i1 ← choice1 c.popSize
  let y ← nth s.pop i1
  let e ← vecM (fun _ => dist "exponential" [0.5])
  let u ← randomVec
  let pos ← correct (fun i => if ♯(idx + 1) / ♯c.popSize < u i then s.gbest.sol i + e i * (y.sol i - x.sol i) else x.sol i)
  pure (pos, ())

/-- the third business of the original (`mealpy/human_based/QSA.py:480-491`) -/
def aroundAll (s : St c Unit Unit) (idx : Nat) : D c (Vec d K × Unit) := do
  let x ← nth s.pop idx
  let pos ← vecM (fun i => do
    let u ← random
    if ♯(idx + 1) / ♯c.popSize < u then do
      let (i1, i2) ← choose2 c.popSize
      let e ← dist "exponential" [0.5]
      let y ← nth s.pop i1
      let z ← nth s.pop i2
      pure (y.sol i + e * (z.sol i - x.sol i))
    else pure (x.sol i))
  let pos ← correct pos
  pure (pos, ())

/-- an opposite position (`mealpy/human_based/QSA.py:248-251`) -/
def opposite (s : St c Unit Unit) (idx : Nat) : D c (Vec d K × Unit) := do
  let x ← nth s.pop idx
  let pos ← oppositionSol x.sol s.gbest.sol
  let pos ← correct pos
  pure (pos, ())

/-- `opposition_based__` (`mealpy/human_based/QSA.py:244-258`) -/
def opposition : M c Unit Unit Unit := do
  sortPop
  evalBetter opposite

/-- `update_business_2__` (`mealpy/human_based/QSA.py:128-162`, `322-358`): trimming a population to its own size only sorts it -/
def business2 (mk : St c Unit Unit → Nat → D c (Vec d K × Unit)) : M c Unit Unit Unit := do
  evalBetter mk
  sortPop

theorem it_serve (hE : c.E.Lawful) (hP : c.P.Lawful) {ep : Nat} {q : Int × Int} {a1 a2 a3 : Agent d K Unit} {idx : Nat} (hi : idx < c.popSize) {one : Bool} :
    IT (FA c) JT 1 1 (serve ep q a1 a2 a3 idx one : M c Unit Unit Bool) (fun _ => True) := by
  unfold serve
  refine IT.bind0 (IT.draw (DT.uniform' (c := c))) fun _ _ => IT.bind0 (IT.draw (DT.vecMT fun _ => DT.dist)) fun e _ => IT.bind0 (IT.draw DT.dist) fun g _ => ?_
  refine IT.bind0 (IT.popAt hi) fun x _ => IT.iteS (fun _ => ?_) fun _ => ?_
  · exact IT.bind0 (IT.draw (DT.correct hP)) fun pos hp => IT.tryComp hi hp (DT.pure hp)
  · exact IT.bind0 (IT.draw (DT.correct hP)) fun pos hp => IT.bindL (IT.tryComp hi hp (DT.pure hp)) fun _ _ => IT.pure trivial

theorem framed_serve {ep : Nat} {q : Int × Int} {a1 a2 a3 : Agent d K Unit} {idx : Nat} {one : Bool} :
    Framed true (serve ep q a1 a2 a3 idx one : M c Unit Unit Bool) := by
  unfold serve; framed

macro_rules
  | `(tactic| fprim) => `(tactic| (at_last QSA.serve; exact QSA.framed_serve))

theorem it_business1 (hE : c.E.Lawful) (hP : c.P.Lawful) (h : 3 ≤ c.popSize) {ep : Nat} :
    IT (FA c) JT c.popSize c.popSize (business1 ep : M c Unit Unit Unit) (fun _ => True) := by
  unfold business1
  refine IT.bind0 IT.get fun s hs => ?_
  have hl : s.pop.length = c.popSize := hs.len
  refine IT.bind0 (IT.draw (DT.nth_mem (by omega))) fun a1 _ => IT.bind0 (IT.draw (DT.nth_mem (by omega))) fun a2 _ => IT.bind0 (IT.draw (DT.nth_mem (by omega))) fun a3 _ => ?_
  have := IT.iter (F := FA c) (J := JT) (f := fun i one => serve ep (queues (c := c) s.pop a1 a2 a3) a1 a2 a3 i one) (fun _ (_ : Bool) => True) c.popSize
    (a := false) trivial (fun i one hi _ => it_serve hE hP hi)
  rw [Nat.mul_one] at this
  exact IT.bindL this fun _ _ => IT.sortPop hE

theorem framed_business1 (hE : c.E.Lawful) {ep : Nat} : Framed true (business1 ep : M c Unit Unit Unit) := by
  unfold business1; framed

theorem it_business2 (hE : c.E.Lawful) {mk : St c Unit Unit → Nat → D c (Vec d K × Unit)}
    (h : ∀ (s : St c Unit Unit) (i : Nat), Mid (FA c) JT s → s.pop.length = c.popSize → i < c.popSize → DT noErr (mk s i) (MkOk (FA c) c)) :
    IT (FA c) JT c.popSize c.popSize (business2 mk : M c Unit Unit Unit) (fun _ => True) := by
  unfold business2
  exact IT.bindL (IT.evalBetter hE h) fun _ _ => IT.sortPop hE

theorem framed_business2 (hE : c.E.Lawful) {mk : St c Unit Unit → Nat → D c (Vec d K × Unit)} : Framed true (business2 mk : M c Unit Unit Unit) := by
  unfold business2; framed

variable {Er : Err → Prop}

theorem dt_mix (hE : c.E.Lawful) (hP : c.P.Lawful) {s : St c Unit Unit} {i : Nat} (h : 3 ≤ c.popSize) (hl : s.pop.length = c.popSize) (hi : i < c.popSize) :
    DT Er (mix s i : D c _) (MkOk (FA c) c) := by
  unfold mix; dgo

theorem dt_mixLevy (hE : c.E.Lawful) (hP : c.P.Lawful) {s : St c Unit Unit} {i : Nat} (h : 3 ≤ c.popSize) (hl : s.pop.length = c.popSize) (hi : i < c.popSize) :
    DT Er (mixLevy s i : D c _) (MkOk (FA c) c) := by
  unfold mixLevy; dgo

theorem dt_around (hE : c.E.Lawful) (hP : c.P.Lawful) {s : St c Unit Unit} {i : Nat} (h : 3 ≤ c.popSize) (hl : s.pop.length = c.popSize) (hi : i < c.popSize) :
    DT Er (around s i : D c _) (MkOk (FA c) c) := by
  unfold around; dgo

theorem dt_aroundAll (hE : c.E.Lawful) (hP : c.P.Lawful) {s : St c Unit Unit} {i : Nat} (h : 3 ≤ c.popSize) (hl : s.pop.length = c.popSize) (hi : i < c.popSize) :
    DT Er (aroundAll s i : D c _) (MkOk (FA c) c) := by
  unfold aroundAll; dgo

theorem dt_opposite (hE : c.E.Lawful) (hP : c.P.Lawful) {s : St c Unit Unit} {i : Nat} (hl : s.pop.length = c.popSize) (hi : i < c.popSize) :
    DT Er (opposite s i : D c _) (MkOk (FA c) c) := by
  unfold opposite; dgo

theorem it_opposition (hE : c.E.Lawful) (hP : c.P.Lawful) :
    IT (FA c) JT c.popSize c.popSize (opposition : M c Unit Unit Unit) (fun _ => True) := by
  unfold opposition
  exact IT.bind0 (IT.sortPop hE) fun _ _ => IT.evalBetter hE fun s i hs hl hi => dt_opposite hE hP hl hi

theorem framed_opposition (hE : c.E.Lawful) : Framed true (opposition : M c Unit Unit Unit) := by
  unfold opposition; framed

macro_rules
  | `(tactic| fprim) => `(tactic| (at_last QSA.business1; exact QSA.framed_business1 (by assumption)))
macro_rules
  | `(tactic| fprim) => `(tactic| (at_last QSA.business2; exact QSA.framed_business2 (by assumption)))
macro_rules
  | `(tactic| fprim) => `(tactic| (at_last QSA.opposition; exact QSA.framed_opposition (by assumption)))

end QSA

namespace DevQSA

/-- `DevQSA.evolve` (`mealpy/human_based/QSA.py:183-192`) -/
def evolve (ep : Nat) : M c Unit Unit Unit := do
  QSA.business1 ep
  QSA.business2 QSA.mix
  evalBetter QSA.around

/-- `DevQSA` (`mealpy/human_based/QSA.py:12-192`) -/
def algo : Algo c Unit Unit := Algo.plain true evolve

theorem ok (hE : c.E.Lawful) (hP : c.P.Lawful) (hc : Accepted c 5) :
    (algo : Algo c Unit Unit).Ok (FA c) JT JT JT c.popSize (c.popSize + c.popSize + c.popSize) (c.popSize + c.popSize + c.popSize) := by
  plainalg hE hP hc evolve
  refine IT.pt (IT.bindS (QSA.it_business1 hE hP (by omega)) (by omega) fun _ _ => IT.bindS (QSA.it_business2 hE fun s i hs hl hi => QSA.dt_mix hE hP (by omega) hl hi) (by omega) fun _ _ => ?_)
  exact IT.weaken (IT.evalBetter hE fun s i hs hl hi => QSA.dt_around hE hP (by omega) hl hi) (by omega) (by omega)

theorem framed (hE : c.E.Lawful) (ep : Nat) : Framed true (evolve ep : M c Unit Unit Unit) := by
  unfold evolve; framed

end DevQSA

namespace OppoQSA

/-- `OppoQSA.evolve` (`mealpy/human_based/QSA.py:260-270`) -/
def evolve (ep : Nat) : M c Unit Unit Unit := do
  QSA.business1 ep
  QSA.business2 QSA.mix
  evalBetter QSA.around
  QSA.opposition

/-- `OppoQSA` (`mealpy/human_based/QSA.py:195-270`) -/
def algo : Algo c Unit Unit := Algo.plain true evolve

theorem ok (hE : c.E.Lawful) (hP : c.P.Lawful) (hc : Accepted c 5) :
    (algo : Algo c Unit Unit).Ok (FA c) JT JT JT c.popSize (c.popSize + c.popSize + c.popSize + c.popSize) (c.popSize + c.popSize + c.popSize + c.popSize) := by
  plainalg hE hP hc evolve
  refine IT.pt (IT.bindS (QSA.it_business1 hE hP (by omega)) (by omega) fun _ _ => IT.bindS (QSA.it_business2 hE fun s i hs hl hi => QSA.dt_mix hE hP (by omega) hl hi) (by omega) fun _ _ => ?_)
  exact IT.bindS (IT.evalBetter hE fun s i hs hl hi => QSA.dt_around hE hP (by omega) hl hi) (by omega) fun _ _ => IT.weaken (QSA.it_opposition hE hP) (by omega) (by omega)

theorem framed (hE : c.E.Lawful) (ep : Nat) : Framed true (evolve ep : M c Unit Unit Unit) := by
  unfold evolve; framed

end OppoQSA

namespace LevyQSA

/-- `LevyQSA.evolve` (`mealpy/human_based/QSA.py:360-369`) -/
def evolve (ep : Nat) : M c Unit Unit Unit := do
  QSA.business1 ep
  QSA.business2 QSA.mixLevy
  evalBetter QSA.around

/-- `LevyQSA` (`mealpy/human_based/QSA.py:273-369`) -/
def algo : Algo c Unit Unit := Algo.plain true evolve

theorem ok (hE : c.E.Lawful) (hP : c.P.Lawful) (hc : Accepted c 5) :
    (algo : Algo c Unit Unit).Ok (FA c) JT JT JT c.popSize (c.popSize + c.popSize + c.popSize) (c.popSize + c.popSize + c.popSize) := by
  plainalg hE hP hc evolve
  refine IT.pt (IT.bindS (QSA.it_business1 hE hP (by omega)) (by omega) fun _ _ => IT.bindS (QSA.it_business2 hE fun s i hs hl hi => QSA.dt_mixLevy hE hP (by omega) hl hi) (by omega) fun _ _ => ?_)
  exact IT.weaken (IT.evalBetter hE fun s i hs hl hi => QSA.dt_around hE hP (by omega) hl hi) (by omega) (by omega)

theorem framed (hE : c.E.Lawful) (ep : Nat) : Framed true (evolve ep : M c Unit Unit Unit) := by
  unfold evolve; framed

end LevyQSA

namespace ImprovedQSA

/-- `ImprovedQSA.evolve` (`mealpy/human_based/QSA.py:421-431`) -/
def evolve (ep : Nat) : M c Unit Unit Unit := do
  QSA.business1 ep
  QSA.business2 QSA.mixLevy
  evalBetter QSA.around
  QSA.opposition

/-- `ImprovedQSA` (`mealpy/human_based/QSA.py:372-431`) -/
def algo : Algo c Unit Unit := Algo.plain true evolve

theorem ok (hE : c.E.Lawful) (hP : c.P.Lawful) (hc : Accepted c 5) :
    (algo : Algo c Unit Unit).Ok (FA c) JT JT JT c.popSize (c.popSize + c.popSize + c.popSize + c.popSize) (c.popSize + c.popSize + c.popSize + c.popSize) := by
  plainalg hE hP hc evolve
  refine IT.pt (IT.bindS (QSA.it_business1 hE hP (by omega)) (by omega) fun _ _ => IT.bindS (QSA.it_business2 hE fun s i hs hl hi => QSA.dt_mixLevy hE hP (by omega) hl hi) (by omega) fun _ _ => ?_)
  exact IT.bindS (IT.evalBetter hE fun s i hs hl hi => QSA.dt_around hE hP (by omega) hl hi) (by omega) fun _ _ => IT.weaken (QSA.it_opposition hE hP) (by omega) (by omega)

theorem framed (hE : c.E.Lawful) (ep : Nat) : Framed true (evolve ep : M c Unit Unit Unit) := by
  unfold evolve; framed

end ImprovedQSA

namespace OriginalQSA

/-- `OriginalQSA.evolve` (`mealpy/human_based/QSA.py:500-509`) -/
def evolve (ep : Nat) : M c Unit Unit Unit := do
  QSA.business1 ep
  QSA.business2 QSA.mix
  evalBetter QSA.aroundAll

/-- `OriginalQSA` (`mealpy/human_based/QSA.py:434-509`) -/
def algo : Algo c Unit Unit := Algo.plain true evolve

theorem ok (hE : c.E.Lawful) (hP : c.P.Lawful) (hc : Accepted c 5) :
    (algo : Algo c Unit Unit).Ok (FA c) JT JT JT c.popSize (c.popSize + c.popSize + c.popSize) (c.popSize + c.popSize + c.popSize) := by
  plainalg hE hP hc evolve
  refine IT.pt (IT.bindS (QSA.it_business1 hE hP (by omega)) (by omega) fun _ _ => IT.bindS (QSA.it_business2 hE fun s i hs hl hi => QSA.dt_mix hE hP (by omega) hl hi) (by omega) fun _ _ => ?_)
  exact IT.weaken (IT.evalBetter hE fun s i hs hl hi => QSA.dt_aroundAll hE hP (by omega) hl hi) (by omega) (by omega)

theorem framed (hE : c.E.Lawful) (ep : Nat) : Framed true (evolve ep : M c Unit Unit Unit) := by
  unfold evolve; framed

end OriginalQSA

end Mealpy
