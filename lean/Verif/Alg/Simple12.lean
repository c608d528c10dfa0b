import Verif.Alg.Kit13

/-! # Simple optimizers, part 12

`SSA.py`, `SLO.py` (`OriginalSLO`), `GSKA.py`, `FBIO.py`, `MRFO.py`, `BA.py` -/

set_option linter.unusedSectionVars false
set_option linter.unusedVariables false

namespace Mealpy
open Spec

variable {d : Nat} {K : Type} [Num K] {c : Cfg d K}
namespace DevSSA

/-- the hyper-parameters (`mealpy/swarm_based/SSA.py:68-70`) -/
structure Params (K : Type) where
  st : K
  pd : K
  sd : K

/-- `int(self.PD * self.pop_size)` (`mealpy/swarm_based/SSA.py:72`) -/
def n1 (c : Cfg d K) (p : Params K) : Nat := (Num.trunc (p.pd * ♯c.popSize)).toNat

/-- `int(self.SD * self.pop_size)` (`mealpy/swarm_based/SSA.py:73`) -/
def n2 (c : Cfg d K) (p : Params K) : Nat := (Num.trunc (p.sd * ♯c.popSize)).toNat

/-- the producers' and the scroungers' move (`mealpy/swarm_based/SSA.py:92-107`) -/
def move (p : Params K) (ep : Nat) (r2 : K) (s : St c Unit Unit) (idx : Nat) : D c (Vec d K × Unit) := do
  let x ← nth s.pop idx
  let pos ← (if idx < n1 c p then
      (if r2 < p.st then do
        let u ← uniform 0 1
        let des : K := ♯ep / (u * ♯c.epoch + Num.EPSILON)
        let des ← (if des > 5 then normal 0 1 else pure des : D c K)
        pure (fun j => x.sol j * Num.exp des)
      else do
        let u ← normal 0 1
        pure (fun j => x.sol j + u * 1))
    else do
      let g ← bestAgent s.pop
      let w ← worstAgent s.pop
      if idx > c.popSize / 2 then do
        let u ← normal 0 1
        pure (fun j => u * Num.exp ((w.sol j - x.sol j) / ♯((idx + 1) ^ 2)))
      else do
        let u ← normal 0 1
        pure (fun j => g.sol j + Num.abs (x.sol j - g.sol j) * u) : D c (Vec d K))
  let pos ← correctWith amendRandom pos
  pure (pos, ())

/-- the move of those who notice the danger (`mealpy/swarm_based/SSA.py:122-127`); `pop2[idx]` is `self.pop[n2 + idx]` -/
def alarm (k : Nat) (s : St c Unit Unit) (idx : Nat) : D c (Vec d K × Unit) := do
  let g ← bestAgent s.pop
  let w ← worstAgent s.pop
  let a ← nth s.pop idx
  let x ← nth s.pop (k + idx)
  let pos ← (if compareTarget a.tgt g.tgt c.P.mm then do
      let u ← uniform (-1) 1
      pure (fun j => x.sol j + u * (Num.abs (x.sol j - w.sol j) / (x.tgt.fitness - w.tgt.fitness + Num.EPSILON)))
    else do
      let u ← normal 0 1
      pure (fun j => g.sol j + u * Num.abs (x.sol j - g.sol j)) : D c (Vec d K))
  let pos ← correctWith amendRandom pos
  pure (pos, ())

/-- `DevSSA.evolve` (`mealpy/swarm_based/SSA.py:81-136`) -/
def evolve (p : Params K) (ep : Nat) : M c Unit Unit Unit := do
  let r2 ← draw (uniform 0 1)
  greedyLoopR c.popSize (move p ep r2)
  sortPop
  evalSuffix (n2 c p) (alarm (n2 c p))

theorem dt_alarm (hE : c.E.Lawful) (hP : c.P.Lawful) {k : Nat} {s : St c Unit Unit} {i : Nat} (hl : s.pop.length = c.popSize) (hi : i < c.popSize - k) :
    DT noErr (alarm k s i : D c _) (MkOk (FA c) c) := by
  unfold alarm
  dgo

theorem dt_move (hE : c.E.Lawful) (hP : c.P.Lawful) {p : Params K} {ep : Nat} {r2 : K} {s : St c Unit Unit} {i : Nat} (hl : s.pop.length = c.popSize) (hi : i < c.popSize) :
    DT noErr (move p ep r2 s i : D c _) (MkOk (FA c) c) := by
  unfold move
  dgo

/-- `DevSSA` (`mealpy/swarm_based/SSA.py:12-136`) -/
def algo (p : Params K) : Algo c Unit Unit := Algo.plain true (evolve p)

theorem ok (hE : c.E.Lawful) (hP : c.P.Lawful) (hc : Accepted c 5) (p : Params K) :
    (algo p : Algo c Unit Unit).Ok (FA c) JT JT JT c.popSize (c.popSize + (c.popSize - DevSSA.n2 c p)) (c.popSize + (c.popSize - DevSSA.n2 c p)) := by
  plainalg hE hP hc evolve
  refine IT.pt (IT.bind0 (IT.draw DT.uniform') fun r2 _ => ?_)
  refine IT.bindS (IT.greedyLoopR hE fun s i hs hl hi => dt_move hE hP hl hi) (by omega) fun _ _ => IT.bind0 (IT.sortPop hE) fun _ _ => ?_
  exact IT.weaken (IT.evalSuffix hE fun s i hs hl hi => dt_alarm hE hP hl hi) (by omega) (by omega)

theorem framed (hE : c.E.Lawful) (p : Params K) (ep : Nat) : Framed true (evolve p ep : M c Unit Unit Unit) := by
  unfold evolve; framed

end DevSSA

namespace OriginalSSA

/-- the producers' and the scroungers' move (`mealpy/swarm_based/SSA.py:209-228`).  `np.matmul(A, A.T)` is the number of
non-zero signs; the case that every sign is zero, on which `np.linalg.inv` raises, is not modelled. -/
def move (p : DevSSA.Params K) (r2 : K) (s : St c Unit Unit) (idx : Nat) : D c (Vec d K × Unit) := do
  let x ← nth s.pop idx
  let pos ← (if idx < DevSSA.n1 c p then
      (if r2 < p.st then do
        let u ← uniform 0 1
        let des : K := ♯(idx + 1) / (u * ♯c.epoch + Num.EPSILON)
        let des ← (if des > 5 then uniform 0 1 else pure des : D c K)
        pure (fun j => x.sol j * Num.exp des)
      else do
        let u ← normal 0 1
        pure (fun j => x.sol j + u * 1))
    else do
      let g ← bestAgent s.pop
      let w ← worstAgent s.pop
      if idx > c.popSize / 2 then do
        let u ← normal 0 1
        pure (fun j => u * Num.exp ((w.sol j - x.sol j) / ♯((idx + 1) ^ 2)))
      else do
        let u ← uniformVec (fun _ => -1) (fun _ => 1)
        let a : Vec d K := fun j => Num.sign (u j)
        let inv : K := 1 / sumL (List.ofFn fun j => a j * a j)
        pure (fun j => g.sol j + sumL (List.ofFn fun k => Num.abs (x.sol k - g.sol k) * (a k * inv * 1))) : D c (Vec d K))
  let pos ← correctWith amendRandom pos
  pure (pos, ())

/-- `OriginalSSA.evolve` (`mealpy/swarm_based/SSA.py:198-257`); the second phase is that of `DevSSA` -/
def evolve (p : DevSSA.Params K) (ep : Nat) : M c Unit Unit Unit := do
  let r2 ← draw (uniform 0 1)
  greedyLoopR c.popSize (move p r2)
  sortPop
  evalSuffix (DevSSA.n2 c p) (DevSSA.alarm (DevSSA.n2 c p))

theorem dt_move (hE : c.E.Lawful) (hP : c.P.Lawful) {p : DevSSA.Params K} {r2 : K} {s : St c Unit Unit} {i : Nat} (hl : s.pop.length = c.popSize) (hi : i < c.popSize) :
    DT noErr (move p r2 s i : D c _) (MkOk (FA c) c) := by
  unfold move
  dgo

/-- `OriginalSSA` (`mealpy/swarm_based/SSA.py:139-257`) -/
def algo (p : DevSSA.Params K) : Algo c Unit Unit := Algo.plain true (evolve p)

theorem ok (hE : c.E.Lawful) (hP : c.P.Lawful) (hc : Accepted c 5) (p : DevSSA.Params K) :
    (algo p : Algo c Unit Unit).Ok (FA c) JT JT JT c.popSize (c.popSize + (c.popSize - DevSSA.n2 c p)) (c.popSize + (c.popSize - DevSSA.n2 c p)) := by
  plainalg hE hP hc evolve
  refine IT.pt (IT.bind0 (IT.draw DT.uniform') fun r2 _ => ?_)
  refine IT.bindS (IT.greedyLoopR hE fun s i hs hl hi => dt_move hE hP hl hi) (by omega) fun _ _ => IT.bind0 (IT.sortPop hE) fun _ _ => ?_
  exact IT.weaken (IT.evalSuffix hE fun s i hs hl hi => DevSSA.dt_alarm hE hP hl hi) (by omega) (by omega)

theorem framed (hE : c.E.Lawful) (p : DevSSA.Params K) (ep : Nat) : Framed true (evolve p ep : M c Unit Unit Unit) := by
  unfold evolve; framed

end OriginalSSA

namespace OriginalSLO

/-- the move (`mealpy/swarm_based/SLO.py:80-89`) -/
def move (ep : Nat) (lead : K) (s : St c Unit Unit) (idx : Nat) : D c (Vec d K × Unit) := do
  let cc : K := 2 - 2 * ♯ep / ♯c.epoch
  let x ← nth s.pop idx
  let pos ← (if lead < 0.25 then
      (if cc < 1 then do
        let u ← random
        pure (fun j => s.gbest.sol j - cc * Num.abs (2 * u * s.gbest.sol j - x.sol j))
      else do
        let ri ← pickWithout c.popSize [idx]
        let r ← nth s.pop ri
        let u ← random
        pure (fun j => r.sol j - cc * Num.abs (2 * u * r.sol j - x.sol j)))
    else do
      let u ← uniform (-1) 1
      pure (fun j => Num.abs (s.gbest.sol j - x.sol j) * Num.cos (2 * Num.pi * u) + s.gbest.sol j) : D c (Vec d K))
  let pos ← correctWith amendRandom pos
  pure (pos, ())

/-- `OriginalSLO.evolve` (`mealpy/swarm_based/SLO.py:66-97`) -/
def evolve (ep : Nat) : M c Unit Unit Unit := do
  let t0 ← draw random
  let v1 : K := Num.sin (2 * Num.pi * t0)
  let v2 : K := Num.sin (2 * Num.pi * (1 - t0))
  greedyLoopR c.popSize (move ep (Num.abs (v1 * (1 + v2) / v2)))

theorem dt_move (hE : c.E.Lawful) (hP : c.P.Lawful) (h2 : 2 ≤ c.popSize) {ep : Nat} {l : K} {s : St c Unit Unit} {i : Nat} (hl : s.pop.length = c.popSize) (hi : i < c.popSize) :
    DT noErr (move ep l s i : D c _) (MkOk (FA c) c) := by
  unfold move
  dgo

/-- `OriginalSLO` (`mealpy/swarm_based/SLO.py:13-97`) -/
def algo : Algo c Unit Unit := Algo.plain false evolve

theorem ok (hE : c.E.Lawful) (hP : c.P.Lawful) (hc : Accepted c 5) :
    (algo : Algo c Unit Unit).Ok (FA c) JT JT JT c.popSize c.popSize c.popSize := by
  plainalg hE hP hc evolve
  exact IT.pt (IT.bind0 (IT.draw DT.random') fun t0 _ => IT.greedyLoopR hE fun s i hs hl hi => dt_move hE hP (by omega) hl hi)

theorem framed (hE : c.E.Lawful) (ep : Nat) : Framed true (evolve ep : M c Unit Unit Unit) := by
  unfold evolve; framed

end OriginalSLO

namespace DevGSKA

/-- the hyper-parameters (`mealpy/human_based/GSKA.py:68-69`) -/
structure Params (K : Type) where
  pb : K
  kr : K

/-- `int(self.pb * self.pop_size)` (`mealpy/human_based/GSKA.py:105`) -/
def id1 (c : Cfg d K) (pb : K) : Nat := (Num.trunc (pb * ♯c.popSize)).toNat

/-- `int(id1 + self.pop_size * (1 - 2 * self.pb))` (`mealpy/human_based/GSKA.py:106`) -/
def id2 (c : Cfg d K) (pb : K) : Nat := (Num.trunc (♯(id1 c pb) + ♯c.popSize * (1 - 2 * pb))).toNat

/-- the neighbours `previ`, `nexti` (`mealpy/human_based/GSKA.py:84-91`) -/
def near (n idx : Nat) : Nat × Nat :=
  if idx = 0 then (idx + 2, idx + 1) else if idx = n - 1 then (idx - 2, idx - 1) else (idx - 1, idx + 1)

/-- each of the three groups has two agents, so that one remains without the agent itself -/
def Groups (c : Cfg d K) (pb : K) : Prop := 2 ≤ id1 c pb ∧ id1 c pb + 2 ≤ id2 c pb ∧ id2 c pb + 2 ≤ c.popSize

/-- the body of the loop (`mealpy/human_based/GSKA.py:83-118`) -/
def share (p : Params K) (ep : Nat) (s : St c Unit Unit) (idx : Nat) : D c (Vec d K × Unit) := do
  let dd := (Num.ceil (♯c.popSize * (1 - ♯ep / ♯c.epoch) : K)).toNat
  let x ← nth s.pop idx
  let u ← uniform 0 1
  let pos ← (if idx < dd then
      (if u ≤ p.kr then do
        let r ← pickWithout c.popSize [(near c.popSize idx).1, idx, (near c.popSize idx).2]
        let ra ← nth s.pop r
        if compareTarget ra.tgt x.tgt c.P.mm then do
          let v ← uniformVec (fun _ => 0) (fun _ => 1)
          let pr ← nth s.pop (near c.popSize idx).1
          let ne ← nth s.pop (near c.popSize idx).2
          pure (fun j => x.sol j + v j * (pr.sol j - ne.sol j + ra.sol j - x.sol j))
        else do
          let v ← uniformVec (fun _ => 0) (fun _ => 1)
          pure (fun j => s.gbest.sol j + v j * (ra.sol j - x.sol j))
      else uniformVec c.P.lb c.P.ub)
    else
      (if u ≤ p.kr then do
        let rb ← pickRange 0 (id1 c p.pb) idx
        let rw ← pickRange (id2 c p.pb) c.popSize idx
        let rm ← pickRange (id1 c p.pb) (id2 c p.pb) idx
        let b ← nth s.pop rb
        let w ← nth s.pop rw
        let m ← nth s.pop rm
        let v ← uniformVec (fun _ => 0) (fun _ => 1)
        if compareTarget m.tgt x.tgt c.P.mm then
          pure (fun j => x.sol j + v j * (b.sol j - w.sol j + m.sol j - x.sol j))
        else
          pure (fun j => s.gbest.sol j + v j * (m.sol j - x.sol j))
      else uniformVec c.P.lb c.P.ub) : D c (Vec d K))
  let pos ← correct pos
  pure (pos, ())

/-- `DevGSKA.evolve` (`mealpy/human_based/GSKA.py:73-126`) -/
def evolve (p : Params K) (ep : Nat) : M c Unit Unit Unit := greedyLoop c.popSize (share p ep)

theorem near_lt {n idx : Nat} (h : 3 ≤ n) (hi : idx < n) : (near n idx).1 < n ∧ (near n idx).2 < n := by
  unfold near
  split
  · omega
  · split <;> constructor <;> simp only <;> omega

theorem dt_share (hE : c.E.Lawful) (hP : c.P.Lawful) {p : Params K} (hg : Groups c p.pb) {ep : Nat} {s : St c Unit Unit} {i : Nat} (hl : s.pop.length = c.popSize)
    (hi : i < c.popSize) : DT noErr (share p ep s i : D c _) (MkOk (FA c) c) := by
  obtain ⟨g1, g2, g3⟩ := hg
  have hn := near_lt (n := c.popSize) (by omega) hi
  unfold share
  refine DT.bind (DT.nth_mem (by omega)) fun x _ => DT.bind DT.uniform' fun u _ => ?_
  refine DT.bind (R := fun _ => True) ?_ fun pos _ => DT.bind (DT.correct hP) fun pos h => DT.pure ⟨h, h⟩
  refine DT.ite (fun _ => DT.ite (fun _ => ?_) fun _ => DT.uniformVec') fun _ => DT.ite (fun _ => ?_) fun _ => DT.uniformVec'
  · refine DT.bind (DT.pickWithout hE (by simp; omega)) fun r hr => DT.bind (DT.nth_mem (by omega)) fun ra _ => ?_
    refine DT.ite (fun _ => ?_) fun _ => DT.bind DT.uniformVec' fun v _ => DT.pure trivial
    exact DT.bind DT.uniformVec' fun v _ => DT.bind (DT.nth_mem (by omega)) fun pr _ => DT.bind (DT.nth_mem (by omega)) fun ne _ => DT.pure trivial
  · refine DT.bind (DT.pickRange hE (by omega)) fun rb h1 => DT.bind (DT.pickRange hE (by omega)) fun rw h2 => DT.bind (DT.pickRange hE (by omega)) fun rm h3 => ?_
    refine DT.bind (DT.nth_mem (by omega)) fun b _ => DT.bind (DT.nth_mem (by omega)) fun w _ => DT.bind (DT.nth_mem (by omega)) fun m _ => ?_
    exact DT.bind DT.uniformVec' fun v _ => DT.ite (fun _ => DT.pure trivial) fun _ => DT.pure trivial

/-- `DevGSKA` (`mealpy/human_based/GSKA.py:12-126`) -/
def algo (p : Params K) : Algo c Unit Unit := Algo.plain true (evolve p)

theorem ok (hE : c.E.Lawful) (hP : c.P.Lawful) (hc : Accepted c 5) (p : Params K) (hg : Groups c p.pb) :
    (algo p : Algo c Unit Unit).Ok (FA c) JT JT JT c.popSize c.popSize c.popSize := by
  plainalg hE hP hc evolve
  exact IT.pt (IT.greedyLoop hE fun s i hs hl hi => dt_share hE hP hg hl hi)

theorem framed (hE : c.E.Lawful) (p : Params K) (ep : Nat) : Framed true (evolve p ep : M c Unit Unit Unit) := by
  unfold evolve; framed

end DevGSKA

namespace OriginalGSKA

/-- the hyper-parameters (`mealpy/human_based/GSKA.py:192-195`) -/
structure Params (K : Type) where
  pb : K
  kf : K
  kr : K
  kg : Nat

/-- the senior phase in one dimension (`mealpy/human_based/GSKA.py:235-247`) -/
def senior (p : Params K) (s : St c Unit Unit) (x : Agent d K Unit) (idx : Nat) (j : Fin d) : D c K := do
  let rb ← pickRange 0 (DevGSKA.id1 c p.pb) idx
  let rw ← pickRange (DevGSKA.id2 c p.pb) c.popSize idx
  let rm ← pickRange (DevGSKA.id1 c p.pb) (DevGSKA.id2 c p.pb) idx
  let b ← nth s.pop rb
  let w ← nth s.pop rw
  let m ← nth s.pop rm
  if compareTarget m.tgt x.tgt c.P.mm then
    pure (x.sol j + p.kf * (b.sol j - w.sol j + m.sol j - x.sol j))
  else
    pure (x.sol j + p.kf * (b.sol j - w.sol j + x.sol j - m.sol j))

/-- the body of the loop (`mealpy/human_based/GSKA.py:209-248`) -/
def share (p : Params K) (ep : Nat) (s : St c Unit Unit) (idx : Nat) : D c (Vec d K × Unit) := do
  let dd := (Num.trunc (♯d * Num.pow (1 - ♯ep / ♯c.epoch) (♯p.kg) : K)).toNat
  let r ← pickWithout c.popSize [(DevGSKA.near c.popSize idx).1, idx, (DevGSKA.near c.popSize idx).2]
  let x ← nth s.pop idx
  let ra ← nth s.pop r
  let pr ← nth s.pop (DevGSKA.near c.popSize idx).1
  let ne ← nth s.pop (DevGSKA.near c.popSize idx).2
  let pos ← vecM (fun j => do
    let u ← uniform 0 1
    if u ≤ p.kr then
      (if j.val < dd then
        (if compareTarget ra.tgt x.tgt c.P.mm then
          pure (x.sol j + p.kf * (pr.sol j - ne.sol j + ra.sol j - x.sol j))
        else
          pure (x.sol j + p.kf * (pr.sol j - ne.sol j + x.sol j - ra.sol j)))
      else senior p s x idx j)
    else pure (x.sol j))
  let pos ← correct pos
  pure (pos, ())

/-- `OriginalGSKA.evolve` (`mealpy/human_based/GSKA.py:199-256`) -/
def evolve (p : Params K) (ep : Nat) : M c Unit Unit Unit := greedyLoop c.popSize (share p ep)

theorem dt_senior (hE : c.E.Lawful) {p : Params K} (hg : DevGSKA.Groups c p.pb) {s : St c Unit Unit} {x : Agent d K Unit} {i : Nat} {j : Fin d} (hl : s.pop.length = c.popSize) :
    DT noErr (senior p s x i j : D c K) (fun _ => True) := by
  obtain ⟨g1, g2, g3⟩ := hg
  unfold senior
  refine DT.bind (DT.pickRange hE (by omega)) fun rb h1 => DT.bind (DT.pickRange hE (by omega)) fun rw h2 => DT.bind (DT.pickRange hE (by omega)) fun rm h3 => ?_
  refine DT.bind (DT.nth_mem (by omega)) fun b _ => DT.bind (DT.nth_mem (by omega)) fun w _ => DT.bind (DT.nth_mem (by omega)) fun m _ => ?_
  exact DT.ite (fun _ => DT.pure trivial) fun _ => DT.pure trivial

theorem dt_share (hE : c.E.Lawful) (hP : c.P.Lawful) {p : Params K} (hg : DevGSKA.Groups c p.pb) {ep : Nat} {s : St c Unit Unit} {i : Nat} (hl : s.pop.length = c.popSize)
    (hi : i < c.popSize) : DT noErr (share p ep s i : D c _) (MkOk (FA c) c) := by
  have hg' := hg
  obtain ⟨g1, g2, g3⟩ := hg
  have hn := DevGSKA.near_lt (n := c.popSize) (by omega) hi
  unfold share
  refine DT.bind (DT.pickWithout hE (by simp; omega)) fun r hr => DT.bind (DT.nth_mem (by omega)) fun x _ => DT.bind (DT.nth_mem (by omega)) fun ra _ => ?_
  refine DT.bind (DT.nth_mem (by omega)) fun pr _ => DT.bind (DT.nth_mem (by omega)) fun ne _ => ?_
  refine DT.bind (DT.vecMT fun j => ?_) fun pos _ => DT.bind (DT.correct hP) fun pos h => DT.pure ⟨h, h⟩
  refine DT.bind DT.uniform' fun u _ => DT.ite (fun _ => ?_) fun _ => DT.pure trivial
  exact DT.ite (fun _ => DT.ite (fun _ => DT.pure trivial) fun _ => DT.pure trivial) fun _ => dt_senior hE hg' hl

/-- `OriginalGSKA` (`mealpy/human_based/GSKA.py:129-256`) -/
def algo (p : Params K) : Algo c Unit Unit := Algo.plain true (evolve p)

theorem ok (hE : c.E.Lawful) (hP : c.P.Lawful) (hc : Accepted c 5) (p : Params K) (hg : DevGSKA.Groups c p.pb) :
    (algo p : Algo c Unit Unit).Ok (FA c) JT JT JT c.popSize c.popSize c.popSize := by
  plainalg hE hP hc evolve
  exact IT.pt (IT.greedyLoop hE fun s i hs hl hi => dt_share hE hP hg hl hi)

theorem framed (hE : c.E.Lawful) (p : Params K) (ep : Nat) : Framed true (evolve p ep : M c Unit Unit Unit) := by
  unfold evolve; framed

end OriginalGSKA

namespace DevFBIO

/-- `probability__` (`mealpy/human_based/FBIO.py:56-59`) of the current population -/
def probs (pop : List (Agent d K Unit)) : List K :=
  let fits := pop.map (·.tgt.fitness)
  fits.map (fun f => (maxL fits - f) / (maxL fits - minL fits + Num.EPSILON))

/-- step A1 (`mealpy/human_based/FBIO.py:72-78`) -/
def stepA1 (s : St c Unit Unit) (idx : Nat) : D c (Vec d K × Unit) := do
  let k ← index d
  let q ← choose2Without c.popSize [idx]
  let x ← nth s.pop idx
  let a ← nth s.pop q.1
  let b ← nth s.pop q.2
  let u ← normal 0 1
  let pos ← correct (fun j => if j.val = k then x.sol j + u * (x.sol j - (a.sol j + b.sol j) / 2) else x.sol j)
  pure (pos, ())

/-- step A2 (`mealpy/human_based/FBIO.py:93-101`) -/
def stepA2 (probs : List K) (s : St c Unit Unit) (idx : Nat) : D c (Vec d K × Unit) := do
  let u ← random
  let pr ← nth probs idx
  let pos ← (if u > pr then do
      let q ← choose3Without c.popSize [idx]
      let x ← nth s.pop idx
      let r1 ← nth s.pop q.1
      let r2 ← nth s.pop q.2.1
      let r3 ← nth s.pop q.2.2
      let v ← uniform 0 1
      let m ← randomVec
      pure (fun j => if m j < 0.5 then s.gbest.sol j + r1.sol j + v * (r2.sol j - r3.sol j) else x.sol j)
    else genSolution : D c (Vec d K))
  let pos ← correct pos
  pure (pos, ())

/-- step B1 (`mealpy/human_based/FBIO.py:116-118`) -/
def stepB1 (s : St c Unit Unit) (idx : Nat) : D c (Vec d K × Unit) := do
  let x ← nth s.pop idx
  let u ← uniformVec (fun _ => 0) (fun _ => 1)
  let v ← uniformVec (fun _ => 0) (fun _ => 1)
  let pos ← correct (fun j => u j * x.sol j + v j * (s.gbest.sol j - x.sol j))
  pure (pos, ())

/-- the position of step B2 (`mealpy/human_based/FBIO.py:130-138`) -/
def posB2 (s : St c Unit Unit) (idx : Nat) : D c (Vec d K) := do
  let rr ← pickWithout c.popSize [idx]
  let x ← nth s.pop idx
  let r ← nth s.pop rr
  let u ← uniformVec (fun _ => 0) (fun _ => 1)
  let v ← uniform 0 1
  if compareTarget x.tgt r.tgt c.P.mm then
    pure (fun j => x.sol j + u j * (r.sol j - x.sol j) + v * (s.gbest.sol j - r.sol j))
  else
    pure (fun j => x.sol j + u j * (x.sol j - r.sol j) + v * (s.gbest.sol j - x.sol j))

/-- step B2 (`mealpy/human_based/FBIO.py:130-139`) -/
def stepB2 (s : St c Unit Unit) (idx : Nat) : D c (Vec d K × Unit) := do
  let pos ← posB2 s idx
  let pos ← correct pos
  pure (pos, ())

/-- `DevFBIO.evolve` (`mealpy/human_based/FBIO.py:61-147`) -/
def evolve (ep : Nat) : M c Unit Unit Unit := do
  greedyLoop c.popSize stepA1
  let s ← get
  greedyLoopS (stepA2 (probs s.pop))
  greedyLoop c.popSize stepB1
  greedyLoopS stepB2

theorem dt_posB2 (hE : c.E.Lawful) (h2 : 2 ≤ c.popSize) {s : St c Unit Unit} {i : Nat} (hl : s.pop.length = c.popSize) (hi : i < c.popSize) :
    DT noErr (posB2 s i : D c _) (fun _ => True) := by
  unfold posB2
  refine DT.bind (DT.pickWithout hE (by simp; omega)) fun rr hr => DT.bind (DT.nth_mem (by omega)) fun x _ => DT.bind (DT.nth_mem (by omega)) fun r _ => ?_
  exact DT.bind DT.uniformVec' fun u _ => DT.bind DT.uniform' fun v _ => DT.ite (fun _ => DT.pure trivial) fun _ => DT.pure trivial

theorem dt_stepB2 (hE : c.E.Lawful) (hP : c.P.Lawful) (h2 : 2 ≤ c.popSize) {s : St c Unit Unit} {i : Nat} (hl : s.pop.length = c.popSize) (hi : i < c.popSize) :
    DT noErr (stepB2 s i : D c _) (MkOk (FA c) c) := by
  unfold stepB2
  exact DT.bind (dt_posB2 hE h2 hl hi) fun pos _ => DT.bind (DT.correct hP) fun pos h => DT.pure ⟨h, h⟩

theorem dt_stepA1 (hE : c.E.Lawful) (hP : c.P.Lawful) (hd : 0 < d) (h2 : 3 ≤ c.popSize) {s : St c Unit Unit} {i : Nat} (hl : s.pop.length = c.popSize) (hi : i < c.popSize) :
    DT noErr (stepA1 s i : D c _) (MkOk (FA c) c) := by
  unfold stepA1
  dgo

theorem dt_stepA2 (hE : c.E.Lawful) (hP : c.P.Lawful) (h2 : 4 ≤ c.popSize) {pr : List K} (hpr : pr.length = c.popSize) {s : St c Unit Unit} {i : Nat} (hl : s.pop.length = c.popSize) (hi : i < c.popSize) :
    DT noErr (stepA2 pr s i : D c _) (MkOk (FA c) c) := by
  unfold stepA2
  dgo

theorem dt_stepB1 (hE : c.E.Lawful) (hP : c.P.Lawful) {s : St c Unit Unit} {i : Nat} (hl : s.pop.length = c.popSize) (hi : i < c.popSize) :
    DT noErr (stepB1 s i : D c _) (MkOk (FA c) c) := by
  unfold stepB1
  dgo

/-- `DevFBIO` (`mealpy/human_based/FBIO.py:12-147`) -/
def algo : Algo c Unit Unit := Algo.plain false evolve

theorem ok (hE : c.E.Lawful) (hP : c.P.Lawful) (hc : Accepted c 5) (hd : 0 < d) :
    (algo : Algo c Unit Unit).Ok (FA c) JT JT JT c.popSize (4 * c.popSize) (4 * c.popSize) := by
  plainalg hE hP hc evolve
  refine IT.pt (IT.bindS (IT.greedyLoop hE fun s i hs hl hi => dt_stepA1 hE hP hd (by omega) hl hi) (by omega) fun _ _ => IT.bind0 IT.get fun s hs => ?_)
  have hl : s.pop.length = c.popSize := hs.len
  refine IT.bindS (IT.greedyLoopS hE fun s' i hs' hl' hi => dt_stepA2 hE hP (by omega) (by simp [probs, hl]) hl' hi) (by omega) fun _ _ => ?_
  refine IT.bindS (IT.greedyLoop hE fun s i hs hl hi => dt_stepB1 hE hP hl hi) (by omega) fun _ _ => ?_
  exact IT.weaken (IT.greedyLoopS hE fun s i hs hl hi => dt_stepB2 hE hP (by omega) hl hi) (by omega) (by omega)

theorem framed (hE : c.E.Lawful) (ep : Nat) : Framed true (evolve ep : M c Unit Unit Unit) := by
  unfold evolve; framed

end DevFBIO

namespace OriginalFBIO

/-- step A1 (`mealpy/human_based/FBIO.py:216-223`) -/
def stepA1 (s : St c Unit Unit) (idx : Nat) : D c (Vec d K × Unit) := do
  let k ← index d
  let q ← choose2Without c.popSize [idx]
  let x ← nth s.pop idx
  let a ← nth s.pop q.1
  let b ← nth s.pop q.2
  let u ← uniform 0 1
  let pos ← correctWith amendRandom (fun j => if j.val = k then x.sol j + (u - 0.5) * 2 * (x.sol j - (a.sol j + b.sol j) / 2) else x.sol j)
  pure (pos, ())

/-- step A2 (`mealpy/human_based/FBIO.py:238-251`) -/
def stepA2 (probs : List K) (s : St c Unit Unit) (idx : Nat) : D c (Vec d K × Unit) := do
  let u ← uniform 0 1
  let pr ← nth probs idx
  let pos ← (if u > pr then do
      let q ← choose3Without c.popSize [idx]
      let x ← nth s.pop idx
      let r1 ← nth s.pop q.1
      let r2 ← nth s.pop q.2.1
      let r3 ← nth s.pop q.2.2
      let w ← uniform 0 1
      let rnd : Int := Num.floor (w * ♯d) + 1
      vecM (fun j => do
        let u1 ← uniform 0 1
        let u2 ← uniform 0 1
        if u1 < u2 ∨ rnd = j.val then do
          let v ← uniform 0 1
          pure (s.gbest.sol j + r1.sol j + v * (r2.sol j - r3.sol j))
        else pure (x.sol j))
    else uniformVec c.P.lb c.P.ub : D c (Vec d K))
  let pos ← correctWith amendRandom pos
  pure (pos, ())

/-- step B1 (`mealpy/human_based/FBIO.py:264-269`) -/
def stepB1 (s : St c Unit Unit) (idx : Nat) : D c (Vec d K × Unit) := do
  let x ← nth s.pop idx
  let pos ← vecM (fun j => do
    let u ← uniform 0 1
    let v ← uniform 0 1
    pure (u * x.sol j + v * (s.gbest.sol j - x.sol j)))
  let pos ← correctWith amendRandom pos
  pure (pos, ())

/-- step B2 (`mealpy/human_based/FBIO.py:281-290`) -/
def stepB2 (s : St c Unit Unit) (idx : Nat) : D c (Vec d K × Unit) := do
  let pos ← DevFBIO.posB2 s idx
  let pos ← correctWith amendRandom pos
  pure (pos, ())

/-- `OriginalFBIO.evolve` (`mealpy/human_based/FBIO.py:205-298`) -/
def evolve (ep : Nat) : M c Unit Unit Unit := do
  greedyLoop c.popSize stepA1
  let s ← get
  greedyLoopS (stepA2 (DevFBIO.probs s.pop))
  greedyLoop c.popSize stepB1
  greedyLoopS stepB2

theorem dt_stepB2 (hE : c.E.Lawful) (hP : c.P.Lawful) (h2 : 2 ≤ c.popSize) {s : St c Unit Unit} {i : Nat} (hl : s.pop.length = c.popSize) (hi : i < c.popSize) :
    DT noErr (stepB2 s i : D c _) (MkOk (FA c) c) := by
  unfold stepB2
  exact DT.bind (DevFBIO.dt_posB2 hE h2 hl hi) fun pos _ => DT.bind (DT.correctWith hP DT.amendRandom) fun pos h => DT.pure ⟨h, h⟩

theorem dt_stepA1 (hE : c.E.Lawful) (hP : c.P.Lawful) (hd : 0 < d) (h2 : 3 ≤ c.popSize) {s : St c Unit Unit} {i : Nat} (hl : s.pop.length = c.popSize) (hi : i < c.popSize) :
    DT noErr (stepA1 s i : D c _) (MkOk (FA c) c) := by
  unfold stepA1
  dgo

theorem dt_stepA2 (hE : c.E.Lawful) (hP : c.P.Lawful) (h2 : 4 ≤ c.popSize) {pr : List K} (hpr : pr.length = c.popSize) {s : St c Unit Unit} {i : Nat} (hl : s.pop.length = c.popSize) (hi : i < c.popSize) :
    DT noErr (stepA2 pr s i : D c _) (MkOk (FA c) c) := by
  unfold stepA2
  dgo

theorem dt_stepB1 (hE : c.E.Lawful) (hP : c.P.Lawful) {s : St c Unit Unit} {i : Nat} (hl : s.pop.length = c.popSize) (hi : i < c.popSize) :
    DT noErr (stepB1 s i : D c _) (MkOk (FA c) c) := by
  unfold stepB1
  dgo

/-- `OriginalFBIO` (`mealpy/human_based/FBIO.py:150-298`) -/
def algo : Algo c Unit Unit := Algo.plain false evolve

theorem ok (hE : c.E.Lawful) (hP : c.P.Lawful) (hc : Accepted c 5) (hd : 0 < d) :
    (algo : Algo c Unit Unit).Ok (FA c) JT JT JT c.popSize (4 * c.popSize) (4 * c.popSize) := by
  plainalg hE hP hc evolve
  refine IT.pt (IT.bindS (IT.greedyLoop hE fun s i hs hl hi => dt_stepA1 hE hP hd (by omega) hl hi) (by omega) fun _ _ => IT.bind0 IT.get fun s hs => ?_)
  have hl : s.pop.length = c.popSize := hs.len
  refine IT.bindS (IT.greedyLoopS hE fun s' i hs' hl' hi => dt_stepA2 hE hP (by omega) (by simp [DevFBIO.probs, hl]) hl' hi) (by omega) fun _ _ => ?_
  refine IT.bindS (IT.greedyLoop hE fun s i hs hl hi => dt_stepB1 hE hP hl hi) (by omega) fun _ _ => ?_
  exact IT.weaken (IT.greedyLoopS hE fun s i hs hl hi => dt_stepB2 hE hP (by omega) hl hi) (by omega) (by omega)

theorem framed (hE : c.E.Lawful) (ep : Nat) : Framed true (evolve ep : M c Unit Unit Unit) := by
  unfold evolve; framed

end OriginalFBIO

namespace OriginalMRFO

/-- the agent before, or the current target itself for the first one -/
def prev (s : St c Unit Unit) (target : Vec d K) (idx : Nat) : D c (Vec d K) :=
  if idx = 0 then pure target else do
    let a ← nth s.pop (idx - 1)
    pure a.sol

/-- cyclone and chain foraging (`mealpy/swarm_based/MRFO.py:76-106`) -/
def forage (ep : Nat) (s : St c Unit Unit) (idx : Nat) : D c (Vec d K × Unit) := do
  let x ← nth s.pop idx
  let q ← random
  let pos ← (if q < 0.5 then do
      let r1 ← uniform 0 1
      let beta : K := 2 * Num.exp (r1 * (♯c.epoch - ♯ep) / ♯c.epoch) * Num.sin (2 * Num.pi * r1)
      let v ← random
      if ♯(ep + 1) / ♯c.epoch < v then do
        let xr ← uniformVec c.P.lb c.P.ub
        let u ← uniform 0 1
        let b ← prev s xr idx
        pure (fun j => xr j + u * (b j - x.sol j) + beta * (xr j - x.sol j))
      else do
        let u ← uniform 0 1
        let b ← prev s s.gbest.sol idx
        pure (fun j => s.gbest.sol j + u * (b j - x.sol j) + beta * (s.gbest.sol j - x.sol j))
    else do
      let r ← uniform 0 1
      let alpha : K := 2 * r * Num.sqrt (Num.abs (Num.log r))
      let b ← prev s s.gbest.sol idx
      pure (fun j => x.sol j + r * (b j - x.sol j) + alpha * (s.gbest.sol j - x.sol j)) : D c (Vec d K))
  let pos ← correct pos
  pure (pos, ())

/-- somersault foraging (`mealpy/swarm_based/MRFO.py:118-121`) -/
def somersault (range : K) (g : Agent d K Unit) (s : St c Unit Unit) (idx : Nat) : D c (Vec d K × Unit) := do
  let x ← nth s.pop idx
  let u ← uniform 0 1
  let v ← uniform 0 1
  let pos ← correct (fun j => x.sol j + range * (u * g.sol j - v * x.sol j))
  pure (pos, ())

/-- `OriginalMRFO.evolve` (`mealpy/swarm_based/MRFO.py:67-129`) -/
def evolve (range : K) (ep : Nat) : M c Unit Unit Unit := do
  greedyLoopR c.popSize (forage ep)
  let s ← get
  let r ← updateGlobalBestNoSave s.pop
  greedyLoopR c.popSize (somersault range r.2)

theorem dt_prev {s : St c Unit Unit} {t : Vec d K} {i : Nat} (hl : s.pop.length = c.popSize) (hi : i < c.popSize) :
    DT noErr (prev s t i : D c _) (fun _ => True) := by
  unfold prev
  exact DT.ite (fun _ => DT.pure trivial) fun _ => DT.bind (DT.nth_mem (by omega)) fun _ _ => DT.pure trivial

macro_rules
  | `(tactic| dprim) => `(tactic| (at_head prev; exact OriginalMRFO.dt_prev (by assumption) (by assumption)))

theorem dt_forage (hP : c.P.Lawful) {ep : Nat} {s : St c Unit Unit} {i : Nat} (hl : s.pop.length = c.popSize) (hi : i < c.popSize) :
    DT noErr (forage ep s i : D c _) (Inv.std c Unit JT (Y := Unit)).Mk := by
  unfold forage
  dgo

theorem dt_somersault (hP : c.P.Lawful) {rg : K} {g : Agent d K Unit} {s : St c Unit Unit} {i : Nat} (hl : s.pop.length = c.popSize) (hi : i < c.popSize) :
    DT noErr (somersault rg g s i : D c _) (Inv.std c Unit JT (Y := Unit)).Mk := by
  unfold somersault
  dgo

/-- `OriginalMRFO` (`mealpy/swarm_based/MRFO.py:12-129`) -/
def algo (p : K) : Algo c Unit Unit := Algo.plain false (evolve p)

theorem wok (hE : c.E.Lawful) (hP : c.P.Lawful) (hc : Accepted c 5) (p : K) :
    (algo p : Algo c Unit Unit).WOk noErr (Inv.std c Unit JT) JT JT c.popSize c.popSize 0 0 (c.popSize + c.popSize) (c.popSize + c.popSize) := by
  wplainalg hE hP hc evolve
  refine WT.bindS (WT.greedyLoopR hE (fun _ h => h) fun s i hs hl hi => dt_forage hP hl hi) (by omega) fun _ _ => WT.bind0 WT.get fun s hs => ?_
  have hl := hs.len_std
  refine WT.bind0 (WT.updateNoSave hE (by omega) hs.pop) fun r hr => ?_
  exact WT.weaken (WT.greedyLoopR hE (fun _ h => h) fun s i hs hl hi => dt_somersault hP hl hi) (by omega) (by omega)

theorem framed (hE : c.E.Lawful) (p : K) (ep : Nat) : Framed false (evolve p ep : M c Unit Unit Unit) := by
  unfold evolve; framed

end OriginalMRFO

namespace WMQIMRFO

/-- the hyper-parameters (`mealpy/swarm_based/MRFO.py:185-186`) -/
structure Params (K : Type) where
  range : K
  pm : K

/-- the first phase (`mealpy/swarm_based/MRFO.py:199-245`) -/
def forage (p : Params K) (ep : Nat) (s : St c Unit Unit) (idx : Nat) : D c (Vec d K × Unit) := do
  let x ← nth s.pop idx
  let a : K := 2 * Num.pow (1 / 2) (1 - ♯ep / ♯c.epoch)
  let theta ← uniform (-2.5 * a) (2.5 * a)
  let w : K := Num.exp (-((theta / a) * (theta / a)) / 2) * Num.cos (5 * (theta / a))
  let xi : K := 1 / Num.sqrt a * w
  let q ← random
  let pos ← (if q < 0.5 then do
      let coef : K := Num.log (1 + (Num.exp 1 - 1) * ♯ep / ♯c.epoch)
      let r1 ← uniform 0 1
      let beta : K := 2 * Num.exp (r1 * (♯c.epoch - ♯ep) / ♯c.epoch) * Num.sin (2 * Num.pi * r1)
      let v ← random
      if coef < v then do
        let xr ← genSolution
        let b ← OriginalMRFO.prev s xr idx
        let m ← random
        if m < p.pm then do
          let u ← random
          pure (fun j => xr j + u * (b j - x.sol j) + beta * (xr j - x.sol j))
        else do
          let cond ← uniformVec (fun _ => 0) (fun _ => 1)
          let u1 ← randomVec
          let u2 ← randomVec
          pure (fun j => if cond j > 0.5 then xr j + u1 j * (b j - x.sol j) + beta * (xr j - x.sol j) + xi * (c.P.ub j - x.sol j)
            else xr j + u2 j * (b j - x.sol j) + beta * (xr j - x.sol j) + xi * (x.sol j - c.P.lb j))
      else do
        let u ← random
        let b ← OriginalMRFO.prev s s.gbest.sol idx
        pure (fun j => s.gbest.sol j + u * (b j - x.sol j) + beta * (s.gbest.sol j - x.sol j))
    else do
      let r ← random
      let alpha : K := 2 * r * Num.sqrt (Num.abs (Num.log r))
      let b ← OriginalMRFO.prev s s.gbest.sol idx
      pure (fun j => x.sol j + r * (b j - x.sol j) + alpha * (s.gbest.sol j - x.sol j)) : D c (Vec d K))
  let pos ← correct pos
  pure (pos, ())

/-- somersault foraging (`mealpy/swarm_based/MRFO.py:259-261`) -/
def somersault (p : Params K) (g : Agent d K Unit) (s : St c Unit Unit) (idx : Nat) : D c (Vec d K × Unit) := do
  let x ← nth s.pop idx
  let u ← random
  let v ← random
  let pos ← correct (fun j => x.sol j + p.range * (u * g.sol j - v * x.sol j))
  pure (pos, ())

/-- `idx2`, `idx3` (`mealpy/swarm_based/MRFO.py:275-279`) -/
def next (n idx : Nat) : Nat × Nat := if idx = n - 1 then (0, 1) else if idx = n - 2 then (idx + 1, 0) else (idx + 1, idx + 2)

/-- quadratic interpolation (`mealpy/swarm_based/MRFO.py:275-285`) -/
def interpolate (s : St c Unit Unit) (idx : Nat) : D c (Vec d K × Unit) := do
  let x1 ← nth s.pop idx
  let x2 ← nth s.pop (next c.popSize idx).1
  let x3 ← nth s.pop (next c.popSize idx).2
  let f1 := x1.tgt.fitness
  let f2 := x2.tgt.fitness
  let f3 := x3.tgt.fitness
  let pos ← correct (fun j =>
    let y1 := x1.sol j
    let y2 := x2.sol j
    let y3 := x3.sol j
    let a : K := f1 / ((y1 - y2) * (y1 - y3) + Num.EPSILON) + f2 / ((y2 - y1) * (y2 - y3) + Num.EPSILON) + f3 / ((y3 - y1) * (y3 - y2) + Num.EPSILON)
    let gx : K := ((y3 * y3 - y2 * y2) * f1 + (y1 * y1 - y3 * y3) * f2 + (y2 * y2 - y1 * y1) * f3) /
      (2 * ((y3 - y2) * f1 + (y1 - y3) * f2 + (y2 - y1) * f3) + Num.EPSILON)
    if a > 0 then gx else y1)
  pure (pos, ())

/-- `WMQIMRFO.evolve` (`mealpy/swarm_based/MRFO.py:190-293`) -/
def evolve (p : Params K) (ep : Nat) : M c Unit Unit Unit := do
  greedyLoopR c.popSize (forage p ep)
  let s ← get
  let r ← updateGlobalBestNoSave s.pop
  greedyLoopR c.popSize (somersault p r.2)
  let s ← get
  let r ← updateGlobalBestNoSave s.pop
  setPop r.1
  greedyLoopR c.popSize interpolate

theorem next_lt {n i : Nat} (h : 3 ≤ n) (hi : i < n) : (next n i).1 < n ∧ (next n i).2 < n := by
  unfold next
  split
  · simp only; omega
  · split <;> simp only <;> omega

theorem dt_forage (hP : c.P.Lawful) {p : Params K} {ep : Nat} {s : St c Unit Unit} {i : Nat} (hl : s.pop.length = c.popSize) (hi : i < c.popSize) :
    DT noErr (forage p ep s i : D c _) (Inv.std c Unit JT (Y := Unit)).Mk := by
  unfold forage
  dgo

theorem dt_somersault (hP : c.P.Lawful) {p : Params K} {g : Agent d K Unit} {s : St c Unit Unit} {i : Nat} (hl : s.pop.length = c.popSize) (hi : i < c.popSize) :
    DT noErr (somersault p g s i : D c _) (Inv.std c Unit JT (Y := Unit)).Mk := by
  unfold somersault
  dgo

theorem dt_interpolate (hP : c.P.Lawful) (h3 : 3 ≤ c.popSize) {s : St c Unit Unit} {i : Nat} (hl : s.pop.length = c.popSize) (hi : i < c.popSize) :
    DT noErr (interpolate s i : D c _) (Inv.std c Unit JT (Y := Unit)).Mk := by
  have hn := next_lt h3 hi
  unfold interpolate
  refine DT.bind (DT.nth_mem (by omega)) fun x1 _ => DT.bind (DT.nth_mem (by omega)) fun x2 _ => DT.bind (DT.nth_mem (by omega)) fun x3 _ => ?_
  exact DT.bind (DT.correct hP) fun pos h => DT.pure ⟨h, h⟩

/-- `WMQIMRFO` (`mealpy/swarm_based/MRFO.py:132-293`) -/
def algo (p : Params K) : Algo c Unit Unit := Algo.plain false (evolve p)

theorem wok (hE : c.E.Lawful) (hP : c.P.Lawful) (hc : Accepted c 5) (p : Params K) :
    (algo p : Algo c Unit Unit).WOk noErr (Inv.std c Unit JT) JT JT c.popSize c.popSize 0 0 (3 * c.popSize) (3 * c.popSize) := by
  wplainalg hE hP hc evolve
  refine WT.bindS (WT.greedyLoopR hE (fun _ h => h) fun s i hs hl hi => dt_forage hP hl hi) (by omega) fun _ _ => WT.bind0 WT.get fun s hs => ?_
  have hl := hs.len_std
  refine WT.bind0 (WT.updateNoSave hE (by omega) hs.pop) fun r hr => ?_
  refine WT.bindS (WT.greedyLoopR hE (fun _ h => h) fun s i hs hl hi => dt_somersault hP hl hi) (by omega) fun _ _ => WT.bind0 WT.get fun s2 hs2 => ?_
  have hl2 := hs2.len_std
  refine WT.bind0 (WT.updateNoSave hE (by omega) hs2.pop) fun r2 hr2 => ?_
  refine WT.bind0 (WT.setPop (by rw [hr2.1]; exact hl2) hr2.2.1) fun _ _ => ?_
  exact WT.weaken (WT.greedyLoopR hE (fun _ h => h) fun s i hs hl hi => dt_interpolate hP (by omega) hl hi) (by omega) (by omega)

theorem framed (hE : c.E.Lawful) (p : Params K) (ep : Nat) : Framed false (evolve p ep : M c Unit Unit Unit) := by
  unfold evolve; framed

end WMQIMRFO

namespace OriginalBA

/-- the hyper-parameters (`mealpy/swarm_based/BA.py:78-81`) -/
structure Params (K : Type) where
  loudness : K
  pulse : K
  pfMin : K
  pfMax : K

/-- the attributes `velocity` and `pulse_frequency` -/
abbrev Att (d : Nat) (K : Type) := Vec d K × K

/-- `generate_empty_agent` (`mealpy/swarm_based/BA.py:86-91`) -/
def mkExt (p : Params K) (_ : Vec d K) : D c (Att d K) := do
  let v ← uniformVec c.P.lb c.P.ub
  let u ← uniform 0 1
  pure (v, p.pfMin + (p.pfMax - p.pfMin) * u)

/-- a new position (`mealpy/swarm_based/BA.py:102-109`); `generator.normal(n_dims)` is one number, drawn around the dimension -/
def fly (p : Params K) (s : St c (Att d K) Unit) (idx : Nat) : D c (Vec d K × Att d K) := do
  let x ← nth s.pop idx
  let u ← random
  let pos ← (if u > p.pulse then do
      let n ← normal (♯d) 1
      pure (fun j => s.gbest.sol j + 0.001 * n)
    else pure (fun j => x.sol j + x.ext.1 j) : D c (Vec d K))
  let pos ← correct pos
  pure (pos, (fun j => x.ext.1 j + x.ext.2 * (x.sol j - s.gbest.sol j), x.ext.2))

/-- acceptance of a new position (`mealpy/swarm_based/BA.py:117-118`): position and target only, and only with probability
`loudness`; the random number is not drawn for a worse one -/
def accept (p : Params K) (new : List (Agent d K (Att d K))) (idx : Nat) : M c (Att d K) Unit Unit := do
  let a ← draw (nth new idx)
  let old ← popAt idx
  if compareTarget a.tgt old.tgt c.P.mm then do
    let u ← draw random
    if u < p.loudness then setAt idx ⟨a.sol, a.tgt, old.ext⟩ else pure ()
  else pure ()

/-- `OriginalBA.evolve` (`mealpy/swarm_based/BA.py:93-118`) -/
def evolve (p : Params K) (ep : Nat) : M c (Att d K) Unit Unit := do
  let new ← buildEval c.popSize (fly p)
  iter c.popSize (fun idx _ => accept p new idx) ()

theorem dt_mkExt {p : Params K} {x : Vec d K} {Er : Err → Prop} : DT Er (mkExt p x : D c _) (fun _ => True) := by
  unfold mkExt; dgo

macro_rules
  | `(tactic| dprim) => `(tactic| (at_head mkExt; exact OriginalBA.dt_mkExt))

theorem dt_fly (hP : c.P.Lawful) {p : Params K} {s : St c (Att d K) Unit} {i : Nat} (hl : s.pop.length = c.popSize) (hi : i < c.popSize) :
    DT noErr (fly p s i : D c _) (Inv.std c (Att d K) JT (Y := Unit)).Mk := by
  unfold fly
  dgo

theorem wt_accept {p : Params K} {new : List (Agent d K (Att d K))} (hl : new.length = c.popSize) (hn : ∀ a ∈ new, CF c a) {idx : Nat} (hi : idx < c.popSize) :
    WT noErr (Inv.std c (Att d K) JT) 0 0 (accept p new idx : M c (Att d K) Unit Unit) (fun _ => True) := by
  unfold accept
  refine WT.bind0 (WT.draw (DT.nth_mem (by omega))) fun a ha => WT.bind0 (WT.popAt (by wsz)) fun old _ => ?_
  refine WT.ite (fun _ => WT.bind0 (WT.draw DT.random') fun u _ => WT.ite (fun _ => ?_) fun _ => WT.pure trivial) fun _ => WT.pure trivial
  exact WT.setAt (by wsz) (Inv.std_ag ⟨(hn a ha).1, (hn a ha).2⟩)

theorem framed_accept {p : Params K} {new : List (Agent d K (Att d K))} {idx : Nat} : Framed true (accept p new idx : M c (Att d K) Unit Unit) := by
  unfold accept; framed

macro_rules
  | `(tactic| fprim) => `(tactic| (at_last OriginalBA.accept; exact OriginalBA.framed_accept))

/-- `OriginalBA` (`mealpy/swarm_based/BA.py:13-118`) -/
def algo (p : Params K) : Algo c (OriginalBA.Att d K) Unit := Algo.full false (mkExt p) (pure ()) (evolve p)

theorem wok (hE : c.E.Lawful) (hP : c.P.Lawful) (hc : Accepted c 5) (p : Params K) :
    (algo p : Algo c (OriginalBA.Att d K) Unit).WOk noErr (Inv.std c (OriginalBA.Att d K) JT) JT JT c.popSize c.popSize 0 0 c.popSize c.popSize := by
  wfullalg hE hP hc evolve
  refine WT.bindS (WT.buildEval hE fun s i hs hi => dt_fly hP hs.len_std hi) (by omega) fun new hnew => ?_
  exact WT.iterU 0 0 (by omega) (by omega) fun i hi => wt_accept hnew.1 hnew.2 hi

theorem framed (hE : c.E.Lawful) (p : Params K) (ep : Nat) : Framed true (evolve p ep : M c (OriginalBA.Att d K) Unit Unit) := by
  unfold evolve; framed

end OriginalBA

namespace AdaptiveBA

/-- the hyper-parameters (`mealpy/swarm_based/BA.py:175-180`) -/
structure Params (K : Type) where
  loudMin : K
  loudMax : K
  prMin : K
  prMax : K
  pfMin : K
  pfMax : K

/-- the attributes `velocity`, `loudness` and `pulse_rate` -/
structure Att (d : Nat) (K : Type) where
  vel : Vec d K
  loud : K
  rate : K

/-- `generate_empty_agent` (`mealpy/swarm_based/BA.py:185-191`) -/
def mkExt (p : Params K) (_ : Vec d K) : D c (Att d K) := do
  let v ← uniformVec c.P.lb c.P.ub
  let l ← uniform p.loudMin p.loudMax
  let r ← uniform p.prMin p.prMax
  pure ⟨v, l, r⟩

/-- a new position (`mealpy/swarm_based/BA.py:203-211`) -/
def fly (p : Params K) (mean : K) (s : St c (Att d K) Unit) (idx : Nat) : D c (Vec d K × Att d K) := do
  let x ← nth s.pop idx
  let f ← uniform p.pfMin p.pfMax
  let vel : Vec d K := fun j => x.ext.vel j + f * (x.sol j - s.gbest.sol j)
  let u ← random
  let pos ← (if u > x.ext.rate then do
      let n ← normal (-1) 1
      pure (fun j => s.gbest.sol j + mean * n)
    else pure (fun j => x.sol j + vel j) : D c (Vec d K))
  let pos ← correct pos
  pure (pos, ⟨vel, x.ext.loud, x.ext.rate⟩)

/-- acceptance (`mealpy/swarm_based/BA.py:219-222`); the velocity stays the old one -/
def accept (ep : Nat) (new : List (Agent d K (Att d K))) (idx : Nat) : M c (Att d K) Unit Unit := do
  let a ← draw (nth new idx)
  let old ← popAt idx
  if compareTarget a.tgt old.tgt c.P.mm then do
    let u ← draw random
    if u < a.ext.loud then setAt idx ⟨a.sol, a.tgt, ⟨old.ext.vel, 0.9 * a.ext.loud, a.ext.rate * (1 - Num.exp (-0.9 * ♯ep))⟩⟩ else pure ()
  else pure ()

/-- `AdaptiveBA.evolve` (`mealpy/swarm_based/BA.py:193-222`) -/
def evolve (p : Params K) (ep : Nat) : M c (Att d K) Unit Unit := do
  let s ← get
  let new ← buildEval c.popSize (fly p (meanL (s.pop.map (·.ext.loud))))
  iter c.popSize (fun idx _ => accept ep new idx) ()

theorem dt_mkExt {p : Params K} {x : Vec d K} {Er : Err → Prop} : DT Er (mkExt p x : D c _) (fun _ => True) := by
  unfold mkExt; dgo

macro_rules
  | `(tactic| dprim) => `(tactic| (at_head mkExt; exact AdaptiveBA.dt_mkExt))

theorem dt_fly (hP : c.P.Lawful) {p : Params K} {m : K} {s : St c (Att d K) Unit} {i : Nat} (hl : s.pop.length = c.popSize) (hi : i < c.popSize) :
    DT noErr (fly p m s i : D c _) (Inv.std c (Att d K) JT (Y := Unit)).Mk := by
  unfold fly
  dgo

theorem wt_accept {ep : Nat} {new : List (Agent d K (Att d K))} (hl : new.length = c.popSize) (hn : ∀ a ∈ new, CF c a) {idx : Nat} (hi : idx < c.popSize) :
    WT noErr (Inv.std c (Att d K) JT) 0 0 (accept ep new idx : M c (Att d K) Unit Unit) (fun _ => True) := by
  unfold accept
  refine WT.bind0 (WT.draw (DT.nth_mem (by omega))) fun a ha => WT.bind0 (WT.popAt (by wsz)) fun old _ => ?_
  refine WT.ite (fun _ => WT.bind0 (WT.draw DT.random') fun u _ => WT.ite (fun _ => ?_) fun _ => WT.pure trivial) fun _ => WT.pure trivial
  exact WT.setAt (by wsz) (Inv.std_ag ⟨(hn a ha).1, (hn a ha).2⟩)

theorem framed_accept {ep : Nat} {new : List (Agent d K (Att d K))} {idx : Nat} : Framed true (accept ep new idx : M c (Att d K) Unit Unit) := by
  unfold accept; framed

macro_rules
  | `(tactic| fprim) => `(tactic| (at_last AdaptiveBA.accept; exact AdaptiveBA.framed_accept))

/-- `AdaptiveBA` (`mealpy/swarm_based/BA.py:121-222`) -/
def algo (p : Params K) : Algo c (AdaptiveBA.Att d K) Unit := Algo.full false (mkExt p) (pure ()) (evolve p)

theorem wok (hE : c.E.Lawful) (hP : c.P.Lawful) (hc : Accepted c 5) (p : Params K) :
    (algo p : Algo c (AdaptiveBA.Att d K) Unit).WOk noErr (Inv.std c (AdaptiveBA.Att d K) JT) JT JT c.popSize c.popSize 0 0 c.popSize c.popSize := by
  wfullalg hE hP hc evolve
  refine WT.bind0 WT.get fun s hs => WT.bindS (WT.buildEval hE fun s i hs hi => dt_fly hP hs.len_std hi) (by omega) fun new hnew => ?_
  exact WT.iterU 0 0 (by omega) (by omega) fun i hi => wt_accept hnew.1 hnew.2 hi

theorem framed (hE : c.E.Lawful) (p : Params K) (ep : Nat) : Framed true (evolve p ep : M c (AdaptiveBA.Att d K) Unit Unit) := by
  unfold evolve; framed

end AdaptiveBA

namespace DevBA

/-- the hyper-parameters (`mealpy/swarm_based/BA.py:276-278`) -/
structure Params (K : Type) where
  pulse : K
  pfMin : K
  pfMax : K

/-- a new position (`mealpy/swarm_based/BA.py:295-298`).  Row `idx` of `dyn_list_velocity`, zero at first (`:283-284`), is
carried by the agent in slot `idx`: the population is never reordered, and slot `idx` is always refilled by agents made for it. -/
def fly (p : Params K) (s : St c (Vec d K) Unit) (idx : Nat) : D c (Vec d K × Vec d K) := do
  let x ← nth s.pop idx
  let u ← uniform 0 1
  let v ← uniform 0 1
  let vel : Vec d K := fun j => v * x.ext j + (s.gbest.sol j - x.sol j) * (p.pfMin + (p.pfMax - p.pfMin) * u)
  let pos ← correct (fun j => x.sol j + vel j)
  pure (pos, vel)

/-- a child for an agent that got no better (`mealpy/swarm_based/BA.py:307-317`).  The in-place update of the old agent
(`:308`) is without effect: the old population is dropped at the end (`:322`). -/
def child (p : Params K) (old new : List (Agent d K (Vec d K))) (s : St c (Vec d K) Unit) (idx : Nat) : D c (Option (Vec d K × Vec d K)) := do
  let o ← nth old idx
  let a ← nth new idx
  if compareTarget a.tgt o.tgt c.P.mm then pure none
  else do
    let u ← random
    if u > p.pulse then do
      let v ← uniformVec c.P.lb c.P.ub
      let pos ← correct (fun j => s.gbest.sol j + 0.01 * v j)
      pure (some (pos, a.ext))
    else pure none

/-- `DevBA.evolve` (`mealpy/swarm_based/BA.py:286-322`); the new population, already in place, takes the better children -/
def evolve (p : Params K) (ep : Nat) : M c (Vec d K) Unit Unit := do
  let s ← get
  let new ← buildEval c.popSize (fly p)
  setPop new
  greedySome c.popSize (child p s.pop new)

theorem dt_fly (hP : c.P.Lawful) {p : Params K} {s : St c (Vec d K) Unit} {i : Nat} (hl : s.pop.length = c.popSize) (hi : i < c.popSize) :
    DT noErr (fly p s i : D c _) (MkOk (FA c) c) := by
  unfold fly
  dgo

theorem dt_child (hE : c.E.Lawful) (hP : c.P.Lawful) {p : Params K} {old new : List (Agent d K (Vec d K))} (ho : old.length = c.popSize) (hn : new.length = c.popSize) {s : St c (Vec d K) Unit} {i : Nat}
    (hi : i < c.popSize) : DT noErr (child p old new s i : D c _) (OptOk (MkOk (FA c) c)) := by
  have hnone : OptOk (MkOk (FA c) c) (none : Option (Vec d K × Vec d K)) := fun _ h => by cases h
  unfold child
  refine DT.bind (DT.nth_mem (by omega)) fun o _ => DT.bind (DT.nth_mem (by omega)) fun a _ => DT.ite (fun _ => DT.pure hnone) fun _ => ?_
  refine DT.bind DT.random' fun u _ => DT.ite (fun _ => ?_) fun _ => DT.pure hnone
  refine DT.bind DT.uniformVec' fun v _ => DT.bind (DT.correct hP) fun pos h => DT.pure ?_
  rintro q hq
  cases hq
  exact ⟨h, h⟩

/-- `DevBA` (`mealpy/swarm_based/BA.py:225-322`) -/
def algo (p : Params K) : Algo c (Vec d K) Unit := Algo.full false (fun _ => pure (fun _ => 0)) (pure ()) (evolve p)

theorem ok (hE : c.E.Lawful) (hP : c.P.Lawful) (hc : Accepted c 5) (p : Params K) :
    (algo p : Algo c (Vec d K) Unit).Ok (FA c) JT JT JT c.popSize c.popSize (c.popSize + c.popSize) := by
  fullalg hE hP hc evolve
  refine PT.bind0 IT.get fun s hs => RT.pt ?_
  have hl : s.pop.length = c.popSize := hs.len
  refine RT.bindS (RJ.buildEval hE fun s i hs hl hi => dt_fly hP hl hi) (by omega) fun new hnew => ?_
  refine RT.thenIT (RT.setPop hnew.1 (fun a ha => ha) fun a ha => ⟨a, ha, NoWorse.rfl⟩) (by omega) fun _ _ => ?_
  exact IT.weaken (IT.greedySome hE (Nat.le_refl _) fun s' i _ _ hi => dt_child hE hP hl hnew.1 hi) (by omega) (by omega)

theorem framed (hE : c.E.Lawful) (p : Params K) (ep : Nat) : Framed true (evolve p ep : M c (Vec d K) Unit Unit) := by
  unfold evolve; framed

end DevBA

end Mealpy
