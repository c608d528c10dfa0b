import Verif.Alg.Kit13

/-! # Simple optimizers, part 13

`EFO.py`, `NWOA.py`, `LSO.py`, `DMOA.py`, `FLA.py`, `BRO.py`, `SFO.py`, `FFA.py` (`MLFA_GD`) -/

set_option linter.unusedSectionVars false
set_option linter.unusedVariables false

namespace Mealpy
open Spec

variable {d : Nat} {K : Type} [Num K] {c : Cfg d K}
/-- `np.dot(x, y)` -/
def dotV (x y : Vec d K) : K := sumL (List.ofFn (fun j => x j * y j))

namespace DevEFO

/-- the hyper-parameters (`mealpy/physics_based/EFO.py:73-76`) -/
structure Params (K : Type) where
  rRate : K
  psRate : K
  pField : K
  nField : K

/-- `int(self.pop_size * self.p_field)` (`mealpy/physics_based/EFO.py:90`) -/
def top (c : Cfg d K) (p : Params K) : Int := Num.trunc (♯c.popSize * p.pField)

/-- `int((self.pop_size * self.p_field) + 1)` (`mealpy/physics_based/EFO.py:92`) -/
def mid (c : Cfg d K) (p : Params K) : Int := Num.trunc (♯c.popSize * p.pField + 1)

/-- `int(self.pop_size * (1 - self.n_field))` (`mealpy/physics_based/EFO.py:91-92`) -/
def low (c : Cfg d K) (p : Params K) : Int := Num.trunc (♯c.popSize * (1 - p.nField))

/-- the golden ratio (`mealpy/physics_based/EFO.py:78`) -/
def phi : K := (1 + Num.sqrt 5) / 2

/-- the three fields are not empty and lie in the population -/
def Fields (c : Cfg d K) (p : Params K) : Prop :=
  0 < top c p ∧ top c p ≤ c.popSize ∧ 0 ≤ mid c p ∧ mid c p < low c p ∧ low c p < c.popSize

/-- the body of the loop (`mealpy/physics_based/EFO.py:90-104`) -/
def move (p : Params K) (s : St c Unit Unit) (idx : Nat) : D c (Vec d K × Unit) := do
  let i1 ← integers 0 (top c p)
  let i2 ← integers (low c p) c.popSize
  let i3 ← integers (mid c p) (low c p)
  let u ← random
  let pos ← (if u < p.psRate then do
      let a1 ← nth s.pop i1.toNat
      let a2 ← nth s.pop i2.toNat
      let a3 ← nth s.pop i3.toNat
      let v ← random
      let w ← random
      pure (fun j => a1.sol j + phi * v * (s.gbest.sol j - a3.sol j) + w * (s.gbest.sol j - a2.sol j))
    else genSolution : D c (Vec d K))
  let r ← random
  let pos ← (if r < p.rRate then do
      let ri ← index d
      let l ← nth (List.ofFn c.P.lb) ri
      let h ← nth (List.ofFn c.P.ub) ri
      let x ← uniform l h
      let k ← index d
      pure (fun j => if j.val = k then x else pos j)
    else pure pos : D c (Vec d K))
  let pos ← correct pos
  pure (pos, ())

/-- `DevEFO.evolve` (`mealpy/physics_based/EFO.py:81-112`) -/
def evolve (p : Params K) (ep : Nat) : M c Unit Unit Unit := greedyLoop c.popSize (move p)

theorem dt_move (hE : c.E.Lawful) (hP : c.P.Lawful) (hd : 0 < d) {p : Params K} (hf : Fields c p) {s : St c Unit Unit} {i : Nat} (hl : s.pop.length = c.popSize) :
    DT noErr (move p s i : D c _) (MkOk (FA c) c) := by
  obtain ⟨f1, f2, f3, f4, f5⟩ := hf
  unfold move
  refine DT.bind (DT.integers hE (by omega)) fun i1 h1 => DT.bind (DT.integers hE (by omega)) fun i2 h2 => DT.bind (DT.integers hE (by omega)) fun i3 h3 => ?_
  refine DT.bind DT.random' fun u _ => DT.bind (R := fun _ => True) (DT.ite (fun _ => ?_) fun _ => DT.genSolution') fun pos _ => ?_
  · exact DT.bind (DT.nth_mem (by omega)) fun a1 _ => DT.bind (DT.nth_mem (by omega)) fun a2 _ => DT.bind (DT.nth_mem (by omega)) fun a3 _ =>
      DT.bind DT.random' fun v _ => DT.bind DT.random' fun w _ => DT.pure trivial
  · refine DT.bind DT.random' fun r _ => DT.bind (R := fun _ => True) (DT.ite (fun _ => ?_) fun _ => DT.pure trivial) fun pos _ => DT.bind (DT.correct hP) fun x hx => DT.pure ⟨hx, hx⟩
    exact DT.bind (DT.index hE hd) fun ri hri => DT.bind (DT.nth_mem (by simpa using hri)) fun l _ => DT.bind (DT.nth_mem (by simpa using hri)) fun h _ =>
      DT.bind DT.uniform' fun x _ => DT.bind (DT.index hE hd) fun k _ => DT.pure trivial

/-- `DevEFO` (`mealpy/physics_based/EFO.py:12-112`) -/
def algo (p : Params K) : Algo c Unit Unit := Algo.plain true (evolve p)

theorem ok (hE : c.E.Lawful) (hP : c.P.Lawful) (hc : Accepted c 5) (p : Params K) (hd : 0 < d) (hf : Fields c p) :
    (algo p : Algo c Unit Unit).Ok (FA c) JT JT JT c.popSize c.popSize c.popSize := by
  plainalg hE hP hc evolve
  exact IT.pt (IT.greedyLoop hE fun s i hs hl hi => dt_move hE hP hd hf hl)

theorem framed (hE : c.E.Lawful) (p : Params K) (ep : Nat) : Framed true (evolve p ep : M c Unit Unit Unit) := by
  unfold evolve; framed

end DevEFO

namespace OriginalEFO

/-- the attributes (`mealpy/physics_based/EFO.py:191-205`): a row per dimension and a column per epoch -/
structure Vars (d : Nat) (K : Type) where
  index1 : Fin d → List Nat
  index2 : Fin d → List Nat
  index3 : Fin d → List Nat
  ps : Fin d → List K
  force : List K
  rp : List K
  rand : List K
  ri : Nat

/-- `self.generator.integers(lo, hi, (n_dims, epoch))` -/
def indexes (lo hi : Int) : D c (Fin d → List Nat) :=
  vecM (fun _ => repM c.epoch (fun _ => do
    let i ← integers lo hi
    pure i.toNat))

/-- the random arrays (`mealpy/physics_based/EFO.py:191-205`) -/
def arrays (p : DevEFO.Params K) : D c (Vars d K) := do
  let i1 ← indexes 0 (DevEFO.top c p)
  let i2 ← indexes (DevEFO.low c p) c.popSize
  let i3 ← indexes (DevEFO.mid c p) (DevEFO.low c p)
  let ps ← vecM (fun _ => repM c.epoch (fun _ => uniform 0 1))
  let f ← repM c.epoch (fun _ => uniform 0 1)
  let rp ← repM c.epoch (fun _ => uniform 0 1)
  let r ← repM c.epoch (fun _ => uniform 0 1)
  pure ⟨i1, i2, i3, ps, f, rp, r, 0⟩

/-- `initialization` (`mealpy/physics_based/EFO.py:186-205`) -/
def initialization (p : DevEFO.Params K) (_ : Vars d K) (pop : Option (List (Agent d K Unit))) : B c (List (Agent d K Unit) × Vars d K) := do
  let pop ← startPop (fun _ => pure ()) pop
  let y ← liftD (arrays p)
  pure (pop, y)

/-- the generated particle (`mealpy/physics_based/EFO.py:215-232`) -/
def move (p : DevEFO.Params K) (ep : Nat) (s : St c Unit (Vars d K)) : D c (Vec d K) := do
  let r ← nth s.ext.force (ep - 1)
  let x ← vecM (fun j => do
    let u ← nth (s.ext.ps j) (ep - 1)
    let k1 ← nth (s.ext.index1 j) (ep - 1)
    let a1 ← nth s.pop k1
    if u > p.psRate then do
      let k2 ← nth (s.ext.index2 j) (ep - 1)
      let k3 ← nth (s.ext.index3 j) (ep - 1)
      let a2 ← nth s.pop k2
      let a3 ← nth s.pop k3
      pure (a3.sol j + DevEFO.phi * r * (a1.sol j - a3.sol j) + r * (a3.sol j - a2.sol j))
    else pure (a1.sol j))
  let rp ← nth s.ext.rp (ep - 1)
  let x ← (if rp < p.rRate then do
      let _ ← nth (List.ofFn x) s.ext.ri
      let u ← nth s.ext.rand (ep - 1)
      pure (fun j => if j.val = s.ext.ri then c.P.lb j + (c.P.ub j - c.P.lb j) * u else x j)
    else pure x : D c (Vec d K))
  correctWith amendRandom x

/-- `OriginalEFO.evolve` (`mealpy/physics_based/EFO.py:208-236`). The incremented `RI` is a local variable: only a wrap to zero is
stored, so that `self.RI` never changes. -/
def evolve (p : DevEFO.Params K) (ep : Nat) : M c Unit (Vars d K) Unit := do
  let s ← get
  let x ← draw (move p ep s)
  let rp ← draw (nth s.ext.rp (ep - 1))
  (if rp < p.rRate ∧ d ≤ s.ext.ri + 1 then modExt (fun y => { y with ri := 0 }) else pure ())
  let a ← liftB (agentOf (fun _ => pure ()) x)
  reshape (fun pop => pop.set (pop.length - 1) a)

/-- the arrays have a column per epoch and point into the population -/
def Ok (c : Cfg d K) (y : Vars d K) : Prop :=
  ((∀ j, (y.index1 j).length = c.epoch ∧ ∀ i ∈ y.index1 j, i < c.popSize) ∧ (∀ j, (y.index2 j).length = c.epoch ∧ ∀ i ∈ y.index2 j, i < c.popSize) ∧
    (∀ j, (y.index3 j).length = c.epoch ∧ ∀ i ∈ y.index3 j, i < c.popSize) ∧ ∀ j, (y.ps j).length = c.epoch) ∧
  y.force.length = c.epoch ∧ y.rp.length = c.epoch ∧ y.rand.length = c.epoch ∧ y.ri = 0

theorem dt_indexes (hE : c.E.Lawful) {lo hi : Int} (h0 : 0 ≤ lo) (h1 : lo < hi) (h2 : hi ≤ c.popSize) :
    DT noErr (indexes lo hi : D c _) (fun f => ∀ j : Fin d, (f j).length = c.epoch ∧ ∀ i ∈ f j, i < c.popSize) := by
  unfold indexes
  exact DT.vecM fun j => DT.repM fun i hi => DT.bind (DT.integers hE h1) fun k hk => DT.pure (by omega)

theorem dt_arrays (hE : c.E.Lawful) {p : DevEFO.Params K} (hf : DevEFO.Fields c p) : DT noErr (arrays p : D c _) (Ok (d := d) c) := by
  obtain ⟨f1, f2, f3, f4, f5⟩ := hf
  unfold arrays
  refine DT.bind (dt_indexes hE (by omega) f1 f2) fun i1 h1 => DT.bind (dt_indexes hE (by omega) f5 (by omega)) fun i2 h2 => ?_
  refine DT.bind (dt_indexes hE f3 f4 (by omega)) fun i3 h3 => DT.bind (DT.vecM (Q := fun _ l => l.length = c.epoch) fun j => DT.repMT fun i hi => DT.uniform') fun ps h4 => ?_
  refine DT.bind (DT.repMT fun i hi => DT.uniform') fun f h5 => DT.bind (DT.repMT fun i hi => DT.uniform') fun rp h6 => ?_
  exact DT.bind (DT.repMT fun i hi => DT.uniform') fun r h7 => DT.pure ⟨⟨h1, h2, h3, h4⟩, h5, h6, h7, rfl⟩

theorem dt_move (hP : c.P.Lawful) (hd : 0 < d) {p : DevEFO.Params K} {ep : Nat} (h1 : 1 ≤ ep) (h2 : ep ≤ c.epoch) {s : St c Unit (Vars d K)} (hl : s.pop.length = c.popSize)
    (hy : Ok c s.ext) : DT noErr (move p ep s : D c _) (Feas c) := by
  obtain ⟨⟨g1, g2, g3, g4⟩, g5, g6, g7, g8⟩ := hy
  unfold move
  refine DT.bind (DT.nth_mem (by omega)) fun r _ => DT.bind (DT.vecMT fun j => ?_) fun x _ => DT.bind (DT.nth_mem (by omega)) fun rp _ => ?_
  · have e1 := g1 j
    have e2 := g2 j
    have e3 := g3 j
    have e4 := g4 j
    refine DT.bind (DT.nth_mem (by omega)) fun u _ => DT.bind (DT.nth_mem (by omega)) fun k1 hk1 => DT.bind (DT.nth_mem (by rw [hl]; exact e1.2 k1 hk1)) fun a1 _ => ?_
    refine DT.ite (fun _ => ?_) fun _ => DT.pure trivial
    refine DT.bind (DT.nth_mem (by omega)) fun k2 hk2 => DT.bind (DT.nth_mem (by omega)) fun k3 hk3 => ?_
    exact DT.bind (DT.nth_mem (by rw [hl]; exact e2.2 k2 hk2)) fun a2 _ => DT.bind (DT.nth_mem (by rw [hl]; exact e3.2 k3 hk3)) fun a3 _ => DT.pure trivial
  · refine DT.bind (R := fun _ => True) (DT.ite (fun _ => ?_) fun _ => DT.pure trivial) fun x _ => DT.correctWith hP DT.amendRandom
    exact DT.bind (DT.nth_mem (by rw [g8]; simpa using hd)) fun _ _ => DT.bind (DT.nth_mem (by omega)) fun u _ => DT.pure trivial

theorem bt_none (hE : c.E.Lawful) (hP : c.P.Lawful) {p : DevEFO.Params K} (hf : DevEFO.Fields c p) {y : Vars d K} :
    BT noErr c.popSize c.popSize (initialization p y none : B c _) (fun r => r.1.length = c.popSize ∧ (∀ a ∈ r.1, CF c a) ∧ Ok c r.2) := by
  unfold initialization startPop
  exact BT.bindS (BT.generatePopulation hE hP fun x _ => DT.pure trivial) (by omega) fun pop hpop =>
    BT.bindS (BT.liftD (dt_arrays hE hf)) (by omega) fun y hy => BT.weaken (BT.pure ⟨hpop.1, hpop.2, hy⟩) (by omega) (by omega)

theorem bt_some (hE : c.E.Lawful) {p : DevEFO.Params K} (hf : DevEFO.Fields c p) {y : Vars d K} {pop : List (Agent d K Unit)} (hl : pop.length = c.popSize)
    (hc : ∀ a ∈ pop, CF c a) : BT noErr (c.popSize - c.popSize) (c.popSize - c.popSize) (initialization p y (some pop) : B c _)
      (fun r => r.1.length = c.popSize ∧ (∀ a ∈ r.1, CF c a) ∧ Ok c r.2) := by
  unfold initialization startPop
  rw [pure_bind]
  exact BT.bindS (BT.liftD (dt_arrays hE hf)) (by omega) fun y hy => BT.weaken (BT.pure ⟨hl, hc, hy⟩) (by omega) (by omega)

/-- `OriginalEFO` (`mealpy/physics_based/EFO.py:115-236`) -/
def algo (p : DevEFO.Params K) : Algo c Unit (Vars d K) := Algo.custom true (fun _ => pure ()) (pure ⟨fun _ => [], fun _ => [], fun _ => [], fun _ => [], [], [], [], 0⟩) (initialization p) (evolve p)

theorem wok (hE : c.E.Lawful) (hP : c.P.Lawful) (hc : Accepted c 5) (p : DevEFO.Params K) (hd : 0 < d) (hf : DevEFO.Fields c p) :
    (algo p : Algo c Unit (Vars d K)).WOk noErr (Inv.std c Unit (Ok c)) JT (Ok c) c.popSize c.popSize 0 0 1 1 := by
  have hpop := hc.pop
  unfold algo
  refine Algo.custom_wok (J := (Ok c)) (J0 := JT) (by omega) (fun x hx => by dgo) (by dgo) (by omega) (fun y hy => bt_none hE hP hf) (fun y pop hy hl hp => bt_some hE hf hl hp) (fun ep hep1 hep2 => ?_)
  unfold evolve
  refine WT.bind0 WT.get fun s hs => WT.bind0 (WT.draw (dt_move hP hd hep1 hep2 hs.len hs.ext)) fun x hx => ?_
  have hy : Ok c s.ext := hs.ext
  refine WT.bind0 (WT.draw (DT.nth_mem (by have := hy.2.2.1; omega))) fun rp _ => WT.bind0 (R := fun _ => True) (WT.ite (fun _ => WT.modExt fun y hy => ⟨hy.1, hy.2.1, hy.2.2.1, hy.2.2.2.1, rfl⟩) fun _ => WT.pure trivial) fun _ _ => ?_
  refine WT.agentOf_std hx (DT.pure trivial) (by omega) fun a ha => WT.weaken (WT.reshape fun pop hl hp => ⟨?_, fun b hb => ?_⟩) (by omega) (by omega)
  · exact (List.length_set ..).trans hl
  · rcases List.mem_or_eq_of_mem_set hb with g | g
    · exact hp b g
    · rw [g]; exact Inv.std_ag ha

theorem framed (hE : c.E.Lawful) (p : DevEFO.Params K) (ep : Nat) : Framed true (evolve p ep : M c Unit (Vars d K) Unit) := by
  unfold evolve; framed

end OriginalEFO

namespace OriginalNWOA

/-- the hyper-parameters (`mealpy/swarm_based/NWOA.py:101-103`) -/
structure Params (K : Type) where
  amplitude : K
  delta : K
  lamda : K

/-- `cosine_similarity` (`mealpy/swarm_based/NWOA.py:112-128`) -/
def cosine (x g : Vec d K) : K :=
  if normV x = 0 ∨ normV g = 0 then 1 else 1 - dotV x g / (normV x * normV g)

/-- `wave_strength` (`mealpy/swarm_based/NWOA.py:130-143`) -/
def wave (p : Params K) (x g : Vec d K) (t : K) : K :=
  p.amplitude * Num.abs (Num.sin (2 * Num.pi * cosine x g - 2 * Num.pi * t)) * Num.exp (-p.delta * t)

/-- `get_exploration_ratio` (`mealpy/swarm_based/NWOA.py:145-160`) -/
def ratio (energy improvement : K) : K := if improvement < 0.01 then 0.7 else if energy < 0.3 then 0.3 else 0.7

/-- `abs(list_global_best_fit[-2] - list_global_best_fit[-1])` (`mealpy/swarm_based/NWOA.py:175-178`); from the third epoch on
the list has the two entries (`C29`), so that the default value is never used. -/
def improvement (ep : Nat) (fits : List K) : K :=
  if ep ≤ 2 then 1 else Num.abs (fits.dropLast.getLastD 0 - fits.getLastD 0)

/-- the body of the loop (`mealpy/swarm_based/NWOA.py:183-202`) -/
def move (p : Params K) (ep : Nat) (er : K) (s : St c Unit K) (idx : Nat) : D c (Vec d K × Unit) := do
  let a : K := 2 - 2 * ♯ep / ♯c.epoch
  let r1 ← random
  let x ← nth s.pop idx
  let w := wave p x.sol s.gbest.sol (♯ep)
  let pos ← (if r1 < er then do
      let u ← random
      let v ← random
      pure (fun j => x.sol j + (2 * a * u - a) * (s.gbest.sol j - x.sol j) + w * v)
    else do
      let r2 ← random
      let aa := a * r1 - a
      let cc := 2 * r2
      let dist := normV (fun j => s.gbest.sol j - x.sol j)
      let force := s.ext * s.ext / (1 + dist)
      let v ← random
      pure (fun j => x.sol j - aa * (s.gbest.sol j - x.sol j) + cc * force * w * v) : D c (Vec d K))
  let pos ← correct pos
  pure (pos, ())

/-- `OriginalNWOA.evolve` (`mealpy/swarm_based/NWOA.py:162-214`) -/
def evolve (p : Params K) (ep : Nat) : M c Unit K Unit := do
  modExt (fun e => max (e * Num.exp (-p.lamda * ♯ep)) 0)
  let s ← get
  greedyLoop c.popSize (move p ep (ratio s.ext (improvement ep s.hist.globalBestFit)))

theorem dt_move (hE : c.E.Lawful) (hP : c.P.Lawful) {p : Params K} {ep : Nat} {er : K} {s : St c Unit K} {i : Nat} (hl : s.pop.length = c.popSize) (hi : i < c.popSize) :
    DT noErr (move p ep er s i : D c _) (MkOk (FA c) c) := by
  unfold move
  dgo

/-- `OriginalNWOA` (`mealpy/swarm_based/NWOA.py:43-214`) -/
def algo (p : Params K) : Algo c Unit K := Algo.full false (fun _ => pure ()) (pure 1) (evolve p)

theorem ok (hE : c.E.Lawful) (hP : c.P.Lawful) (hc : Accepted c 5) (p : Params K) :
    (algo p : Algo c Unit K).Ok (FA c) JT JT JT c.popSize c.popSize c.popSize := by
  fullalg hE hP hc evolve
  exact IT.pt (IT.bind0 (IT.modExt fun _ _ => trivial) fun _ _ => IT.bind0 IT.get fun s hs => IT.greedyLoop hE fun s i hs hl hi => dt_move hE hP hl hi)

theorem framed (hE : c.E.Lawful) (p : Params K) (ep : Nat) : Framed true (evolve p ep : M c Unit K Unit) := by
  unfold evolve; framed

end OriginalNWOA

namespace OriginalNO

/-- the hyper-parameters (`mealpy/swarm_based/NWOA.py:270-271`) -/
structure Params (K : Type) where
  alpha : K
  sigma0 : K

/-- the body of the loop (`mealpy/swarm_based/NWOA.py:289-307`) -/
def move (p : Params K) (ep : Nat) (s : St c Unit Unit) (idx : Nat) : D c (Vec d K × Unit) := do
  let sig : K := p.sigma0 * (1 - ♯ep / ♯c.epoch)
  let x ← nth s.pop idx
  let dist := normV (fun j => x.sol j - s.gbest.sol j)
  let se : K := 0.1 / (1 + p.alpha * dist)
  let pr : K := if sig > Num.EPSILON then Num.exp (-(dist * dist) / (2 * (sig * sig))) else 0
  let r1 ← random
  let beta := r1 - 1 / (sig + 1)
  let pos ← correct (fun j => x.sol j + beta * Num.abs (se * pr * s.gbest.sol j - x.sol j))
  pure (pos, ())

/-- `OriginalNO.evolve` (`mealpy/swarm_based/NWOA.py:275-319`) -/
def evolve (p : Params K) (ep : Nat) : M c Unit Unit Unit := greedyLoop c.popSize (move p ep)

/-- `OriginalNO` (`mealpy/swarm_based/NWOA.py:217-319`) -/
def algo (p : Params K) : Algo c Unit Unit := Algo.plain false (evolve p)

theorem ok (hE : c.E.Lawful) (hP : c.P.Lawful) (hc : Accepted c 5) (p : Params K) :
    (algo p : Algo c Unit Unit).Ok (FA c) JT JT JT c.popSize c.popSize c.popSize := by
  plainalg hE hP hc evolve
  refine IT.pt (IT.greedyLoop hE fun s i hs hl hi => ?_)
  unfold move
  dgo

theorem framed (hE : c.E.Lawful) (p : Params K) (ep : Nat) : Framed true (evolve p ep : M c Unit Unit Unit) := by
  unfold evolve; framed

end OriginalNO

namespace OriginalLSO

/-- the hyper-parameters (`mealpy/physics_based/LSO.py:78-81`) -/
structure Params (K : Type) where
  ps : K
  pe : K
  ph : K
  b : K

/-- `_normalize_vector` (`mealpy/physics_based/LSO.py:89-102`) -/
def unit (x : Vec d K) : Vec d K := if normV x < Num.EPSILON then x else fun j => x j / normV x

/-- `amend_solution` (`mealpy/physics_based/LSO.py:104-114`): the masked uniform draws are those of the violating coordinates -/
def amend (ph : K) (x : Vec d K) : D c (Vec d K) := do
  let u ← random
  if u < ph then amendClip x
  else vecM (fun j => if x j < c.P.lb j ∨ c.P.ub j < x j then uniform (c.P.lb j) (c.P.ub j) else pure (x j))

/-- `GI` (`mealpy/physics_based/LSO.py:165-174`); `gammaincinv(1, a)` is a numerical primitive -/
def gi (a r : K) : K := a * (1 / max r Num.EPSILON) * Num.ufunc "gammaincinv(1, .)" (max a Num.EPSILON)

/-- the colourful dispersion (`mealpy/physics_based/LSO.py:130-192`); `x_bar` is the mean at the start of the epoch -/
def disperse (p : Params K) (ep : Nat) (bar : Vec d K) (s : St c Unit Unit) (idx : Nat) : D c (Vec d K × Unit) := do
  let ra ← sample1 c.popSize idx
  let xa ← nth s.pop ra
  let x ← nth s.pop idx
  let na := unit xa.sol
  let nb := unit x.sol
  let nc := unit s.gbest.sol
  let inc := unit bar
  let u ← random
  let k : K := 1.3318 + u * (1.3435 - 1.3318)
  let da := dotV na inc
  let t2 := Num.abs (1 - 1 / (k * k) + 1 / (k * k) * (da * da))
  let l1 : Vec d K := fun j => 1 / k * (inc j - na j * da) - na j * Num.sqrt t2
  let l2 : Vec d K := fun j => l1 j - 2 * nb j * dotV l1 nb
  let dc := dotV nc l2
  let t4 := Num.abs (1 - k * k + k * k * (dc * dc))
  let l3 : Vec d K := fun j => k * (l2 j - nc j * dc) + nc j * Num.sqrt t4
  let v ← random
  let a : K := v * (1 - ♯ep / ♯c.epoch)
  let r ← random
  let g := gi a r
  let eps ← normalVec 0 1
  let q ← sample2 c.popSize idx
  let x1 ← nth s.pop q.1
  let x2 ← nth s.pop q.2
  let pp ← random
  let qq ← random
  let w ← randomVec
  let pos : Vec d K := if pp ≤ qq then fun j => x.sol j + g * (a * eps j) * w j * (l1 j - l3 j) * (x1.sol j - x2.sol j)
    else fun j => x.sol j + g * (a * eps j) * w j * (l2 j - l3 j) * (x1.sol j - x2.sol j)
  let pos ← correctWith (amend p.ph) pos
  pure (pos, ())

/-- `F` (`mealpy/physics_based/LSO.py:208-212`) -/
def level (best worst f : K) : K := if Num.abs (best - worst) < Num.EPSILON then 0 else Num.abs ((f - best) / (best - worst))

/-- the condition `F < random or random < Ps` (`mealpy/physics_based/LSO.py:215`), with its short circuit -/
def wide (f ps : K) : D c Bool := do
  let u ← random
  if f < u then pure true else do
    let v ← random
    pure (decide (v < ps))

/-- the scattering (`mealpy/physics_based/LSO.py:208-236`) -/
def scatter (p : Params K) (best worst : K) (s : St c Unit Unit) (idx : Nat) : D c (Vec d K × Unit) := do
  let x ← nth s.pop idx
  let wd ← wide (level best worst x.tgt.fitness) p.ps
  let pos ← (if wd then do
      let u ← random
      if u < p.pe then do
        let q ← sample2 c.popSize idx
        let x1 ← nth s.pop q.1
        let x2 ← nth s.pop q.2
        let v ← random
        let ex ← (if v < p.b then do
            let w ← randomVec
            pure (fun j => w j * (s.gbest.sol j - x.sol j))
          else pure (fun _ => 0) : D c (Vec d K))
        let t ← random
        pure (fun j => x.sol j + t * (x1.sol j - x2.sol j) + ex j)
      else do
        let v ← random
        pure (fun j => 2 * Num.cos (v * 180 * Num.pi / 180) * (s.gbest.sol j * x.sol j))
    else do
      let m1 ← randomVec
      let m2 ← randomVec
      let q ← sample3 c.popSize idx
      let x1 ← nth s.pop q.1
      let x2 ← nth s.pop q.2.1
      let x3 ← nth s.pop q.2.2
      let n ← normal 0 1
      pure (fun j => if m2 j < m1 j then x1.sol j + Num.abs n * (x2.sol j - x3.sol j) else x.sol j) : D c (Vec d K))
  let pos ← correctWith (amend p.ph) pos
  pure (pos, ())

/-- `OriginalLSO.evolve` (`mealpy/physics_based/LSO.py:116-245`) -/
def evolve (p : Params K) (ep : Nat) : M c Unit Unit Unit := do
  let s ← get
  greedyLoop c.popSize (disperse p ep (meanPos (s.pop.map (·.sol))))
  let s ← get
  let b ← draw (bestAgent s.pop)
  let w ← draw (worstAgent s.pop)
  greedyLoop c.popSize (scatter p b.tgt.fitness w.tgt.fitness)

theorem dt_amend {ph : K} {x : Vec d K} : DT noErr (amend ph x : D c (Vec d K)) (fun _ => True) := by
  unfold amend
  exact DT.bind DT.random' fun u _ => DT.ite (fun _ => DT.amendClip) fun _ => DT.vecMT fun j => DT.ite (fun _ => DT.uniform') fun _ => DT.pure trivial

theorem dt_wide {f ps : K} : DT noErr (wide f ps : D c Bool) (fun _ => True) := by
  unfold wide
  exact DT.bind DT.random' fun u _ => DT.ite (fun _ => DT.pure trivial) fun _ => DT.bind DT.random' fun v _ => DT.pure trivial

theorem dt_disperse (hE : c.E.Lawful) (hP : c.P.Lawful) (h3 : 3 ≤ c.popSize) {p : Params K} {ep : Nat} {bar : Vec d K} {s : St c Unit Unit} {i : Nat}
    (hl : s.pop.length = c.popSize) (hi : i < c.popSize) : DT noErr (disperse p ep bar s i : D c _) (MkOk (FA c) c) := by
  unfold disperse
  refine DT.bind (DT.sample1 hE (by omega) hi) fun ra hra => DT.bind (DT.nth_mem (by omega)) fun xa _ => DT.bind (DT.nth_mem (by omega)) fun x _ => ?_
  refine DT.bind DT.random' fun u _ => DT.bind DT.random' fun v _ => DT.bind DT.random' fun r _ => DT.bind DT.normalVec fun eps _ => ?_
  refine DT.bind (DT.sample2 hE h3 hi) fun q hq => DT.bind (DT.nth_mem (by omega)) fun x1 _ => DT.bind (DT.nth_mem (by omega)) fun x2 _ => ?_
  exact DT.bind DT.random' fun pp _ => DT.bind DT.random' fun qq _ => DT.bind DT.randomVec fun w _ => DT.bind (DT.correctWith hP dt_amend) fun pos hp => DT.pure ⟨hp, hp⟩

theorem dt_scatter (hE : c.E.Lawful) (hP : c.P.Lawful) (h4 : 4 ≤ c.popSize) {p : Params K} {b w : K} {s : St c Unit Unit} {i : Nat}
    (hl : s.pop.length = c.popSize) (hi : i < c.popSize) : DT noErr (scatter p b w s i : D c _) (MkOk (FA c) c) := by
  unfold scatter
  refine DT.bind (DT.nth_mem (by omega)) fun x _ => DT.bind dt_wide fun wd _ => ?_
  refine DT.bind (R := fun _ => True) (DT.ite (fun _ => ?_) fun _ => ?_) fun pos _ => DT.bind (DT.correctWith hP dt_amend) fun pos hp => DT.pure ⟨hp, hp⟩
  · refine DT.bind DT.random' fun u _ => DT.ite (fun _ => ?_) fun _ => DT.bind DT.random' fun v _ => DT.pure trivial
    refine DT.bind (DT.sample2 hE (by omega) hi) fun q hq => DT.bind (DT.nth_mem (by omega)) fun x1 _ => DT.bind (DT.nth_mem (by omega)) fun x2 _ => ?_
    refine DT.bind DT.random' fun v _ => DT.bind (R := fun _ => True) (DT.ite (fun _ => DT.bind DT.randomVec fun w _ => DT.pure trivial) fun _ => DT.pure trivial) fun ex _ => ?_
    exact DT.bind DT.random' fun t _ => DT.pure trivial
  · refine DT.bind DT.randomVec fun m1 _ => DT.bind DT.randomVec fun m2 _ => DT.bind (DT.sample3 hE h4 hi) fun q hq => ?_
    exact DT.bind (DT.nth_mem (by omega)) fun x1 _ => DT.bind (DT.nth_mem (by omega)) fun x2 _ => DT.bind (DT.nth_mem (by omega)) fun x3 _ => DT.bind DT.normal fun n _ => DT.pure trivial

/-- `OriginalLSO` (`mealpy/physics_based/LSO.py:12-245`) -/
def algo (p : Params K) : Algo c Unit Unit := Algo.plain false (evolve p)

theorem ok (hE : c.E.Lawful) (hP : c.P.Lawful) (hc : Accepted c 5) (p : Params K) :
    (algo p : Algo c Unit Unit).Ok (FA c) JT JT JT c.popSize (c.popSize + c.popSize) (c.popSize + c.popSize) := by
  plainalg hE hP hc evolve
  refine IT.pt (IT.bind0 IT.get fun s hs => IT.bindS (IT.greedyLoop hE fun s i hs hl hi => dt_disperse hE hP (by omega) hl hi) (by omega) fun _ _ => IT.bind0 IT.get fun s hs => ?_)
  have hl : s.pop.length = c.popSize := hs.len
  refine IT.bind0 (IT.draw (DT.bestAgent' hE (by omega))) fun b _ => IT.bind0 (IT.draw (DT.worstAgent hE (by omega))) fun w _ => ?_
  exact IT.weaken (IT.greedyLoop hE fun s i hs hl hi => dt_scatter hE hP (by omega) hl hi) (by omega) (by omega)

theorem framed (hE : c.E.Lawful) (p : Params K) (ep : Nat) : Framed true (evolve p ep : M c Unit Unit Unit) := by
  unfold evolve; framed

end OriginalLSO

namespace DevLSO

/-- the hyper-parameters (`mealpy/physics_based/LSO.py:313-315`) -/
structure Params (K : Type) where
  ps : K
  pe : K
  b : K

/-- the dispersion (`mealpy/physics_based/LSO.py:339-363`) -/
def disperse (a : K) (bar : Vec d K) (s : St c Unit Unit) (idx : Nat) : D c (Vec d K × Unit) := do
  let u ← random
  let k : K := 1.3318 + u * (1.3435 - 1.3318)
  let x ← nth s.pop idx
  let nx : Vec d K := fun j => x.sol j / (normV x.sol + Num.EPSILON)
  let nb : Vec d K := fun j => s.gbest.sol j / (normV s.gbest.sol + Num.EPSILON)
  let nm : Vec d K := fun j => bar j / (normV bar + Num.EPSILON)
  let r ← random
  let g := OriginalLSO.gi a r
  let eps ← normalVec 0 1
  let q ← sample2 c.popSize idx
  let w ← randomVec
  let x1 ← nth s.pop q.1
  let x2 ← nth s.pop q.2
  let pos ← correct (fun j => x.sol j + g * (a * eps j) * w j * (1 / k * (nm j - nx j) - k * (nb j - nx j)) * (x1.sol j - x2.sol j))
  pure (pos, ())

/-- the scattering (`mealpy/physics_based/LSO.py:377-401`) -/
def scatter (p : Params K) (best worst : K) (s : St c Unit Unit) (idx : Nat) : D c (Vec d K × Unit) := do
  let x ← nth s.pop idx
  let wd ← OriginalLSO.wide (OriginalLSO.level best worst x.tgt.fitness) p.ps
  let pos ← (if wd then do
      let u ← random
      if u < p.pe then do
        let q ← sample2 c.popSize idx
        let t ← random
        let x1 ← nth s.pop q.1
        let x2 ← nth s.pop q.2
        let v ← random
        if v < p.b then do
          let w ← randomVec
          pure (fun j => x.sol j + t * (x1.sol j - x2.sol j) + w j * (s.gbest.sol j - x.sol j))
        else pure (fun j => x.sol j + t * (x1.sol j - x2.sol j))
      else do
        let v ← random
        pure (fun j => 2 * Num.cos (v * Num.pi) * s.gbest.sol j * x.sol j)
    else do
      let m ← randomVec
      let q ← sample3 c.popSize idx
      let x1 ← nth s.pop q.1
      let x2 ← nth s.pop q.2.1
      let x3 ← nth s.pop q.2.2
      let n ← normal 0 1
      pure (fun j => if 0.5 < m j then x1.sol j + Num.abs n * (x2.sol j - x3.sol j) else x.sol j) : D c (Vec d K))
  let pos ← correct pos
  pure (pos, ())

/-- `DevLSO.evolve` (`mealpy/physics_based/LSO.py:323-409`) -/
def evolve (p : Params K) (ep : Nat) : M c Unit Unit Unit := do
  let u ← draw random
  let s ← get
  greedyLoop c.popSize (disperse (u * (1 - ♯ep / ♯c.epoch)) (meanPos (s.pop.map (·.sol))))
  let s ← get
  let b ← draw (bestAgent s.pop)
  let w ← draw (worstAgent s.pop)
  greedyLoop c.popSize (scatter p b.tgt.fitness w.tgt.fitness)

theorem dt_disperse (hE : c.E.Lawful) (hP : c.P.Lawful) (h3 : 3 ≤ c.popSize) {a : K} {bar : Vec d K} {s : St c Unit Unit} {i : Nat}
    (hl : s.pop.length = c.popSize) (hi : i < c.popSize) : DT noErr (disperse a bar s i : D c _) (MkOk (FA c) c) := by
  unfold disperse
  refine DT.bind DT.random' fun u _ => DT.bind (DT.nth_mem (by omega)) fun x _ => DT.bind DT.random' fun r _ => DT.bind DT.normalVec fun eps _ => ?_
  refine DT.bind (DT.sample2 hE h3 hi) fun q hq => DT.bind DT.randomVec fun w _ => DT.bind (DT.nth_mem (by omega)) fun x1 _ => DT.bind (DT.nth_mem (by omega)) fun x2 _ => ?_
  exact DT.bind (DT.correct hP) fun pos hp => DT.pure ⟨hp, hp⟩

theorem dt_scatter (hE : c.E.Lawful) (hP : c.P.Lawful) (h4 : 4 ≤ c.popSize) {p : Params K} {b w : K} {s : St c Unit Unit} {i : Nat}
    (hl : s.pop.length = c.popSize) (hi : i < c.popSize) : DT noErr (scatter p b w s i : D c _) (MkOk (FA c) c) := by
  unfold scatter
  refine DT.bind (DT.nth_mem (by omega)) fun x _ => DT.bind OriginalLSO.dt_wide fun wd _ => ?_
  refine DT.bind (R := fun _ => True) (DT.ite (fun _ => ?_) fun _ => ?_) fun pos _ => DT.bind (DT.correct hP) fun pos hp => DT.pure ⟨hp, hp⟩
  · refine DT.bind DT.random' fun u _ => DT.ite (fun _ => ?_) fun _ => DT.bind DT.random' fun v _ => DT.pure trivial
    refine DT.bind (DT.sample2 hE (by omega) hi) fun q hq => DT.bind DT.random' fun t _ => DT.bind (DT.nth_mem (by omega)) fun x1 _ => DT.bind (DT.nth_mem (by omega)) fun x2 _ => ?_
    exact DT.bind DT.random' fun v _ => DT.ite (fun _ => DT.bind DT.randomVec fun w _ => DT.pure trivial) fun _ => DT.pure trivial
  · refine DT.bind DT.randomVec fun m1 _ => DT.bind (DT.sample3 hE h4 hi) fun q hq => ?_
    exact DT.bind (DT.nth_mem (by omega)) fun x1 _ => DT.bind (DT.nth_mem (by omega)) fun x2 _ => DT.bind (DT.nth_mem (by omega)) fun x3 _ => DT.bind DT.normal fun n _ => DT.pure trivial

/-- `DevLSO` (`mealpy/physics_based/LSO.py:248-409`) -/
def algo (p : Params K) : Algo c Unit Unit := Algo.plain false (evolve p)

theorem ok (hE : c.E.Lawful) (hP : c.P.Lawful) (hc : Accepted c 5) (p : Params K) :
    (algo p : Algo c Unit Unit).Ok (FA c) JT JT JT c.popSize (c.popSize + c.popSize) (c.popSize + c.popSize) := by
  plainalg hE hP hc evolve
  refine IT.pt (IT.bind0 (IT.draw DT.random') fun u _ => IT.bind0 IT.get fun s hs => IT.bindS (IT.greedyLoop hE fun s i hs hl hi => dt_disperse hE hP (by omega) hl hi) (by omega) fun _ _ => IT.bind0 IT.get fun s hs => ?_)
  have hl : s.pop.length = c.popSize := hs.len
  refine IT.bind0 (IT.draw (DT.bestAgent' hE (by omega))) fun b _ => IT.bind0 (IT.draw (DT.worstAgent hE (by omega))) fun w _ => ?_
  exact IT.weaken (IT.greedyLoop hE fun s i hs hl hi => dt_scatter hE hP (by omega) hl hi) (by omega) (by omega)

theorem framed (hE : c.E.Lawful) (p : Params K) (ep : Nat) : Framed true (evolve p ep : M c Unit Unit Unit) := by
  unfold evolve; framed

end DevLSO

namespace OriginalDMOA

/-- the hyper-parameters (`mealpy/swarm_based/DMOA.py:69-70`) -/
structure Params (K : Type) where
  sitters : Nat
  peep : K

/-- the attributes (`mealpy/swarm_based/DMOA.py:77-78`); `none` stands for minus infinity -/
structure Vars (K : Type) where
  cnt : List Nat
  tau : Option K

/-- `self.C[idx] += 1` (`mealpy/swarm_based/DMOA.py:104`) -/
def bump (l : List Nat) (i : Nat) : List Nat := l.set i (l.getD i 0 + 1)

/-- `fi` (`mealpy/swarm_based/DMOA.py:90-92`) -/
def weights (pop : List (Agent d K Unit)) : List K :=
  let fits := pop.map (·.tgt.fitness)
  fits.map (fun f => Num.exp (-f / meanL fits))

/-- a position next to the `a`-th mongoose, away from the `k`-th (`mealpy/swarm_based/DMOA.py:97-99`) -/
def near (peep : K) (s : St c Unit Y) (a k : Nat) : D c (Vec d K) := do
  let u ← uniformVec (fun _ => -1) (fun _ => 1)
  let x ← nth s.pop a
  let y ← nth s.pop k
  correct (fun j => x.sol j + peep / 2 * u j * (x.sol j - y.sol j))

/-- the foraging of a mongoose (`mealpy/swarm_based/DMOA.py:94-104`); the result says whether it has moved -/
def forage (peep : K) (fi : List K) (idx : Nat) : M c Unit Y Bool := do
  let al ← draw (rouletteIdx fi)
  let k ← draw (pickWithout c.popSize [idx, al])
  let s ← get
  let pos ← draw (near peep s al k)
  tryComp (fun _ => pure ()) idx pos

/-- the scouting of a mongoose (`mealpy/swarm_based/DMOA.py:107-116`): the sleeping mound value for a given divisor, and whether
it has moved -/
def scout (peep : K) (div : K → K) (idx : Nat) : M c Unit Y (K × Bool) := do
  let k ← draw (pickWithout c.popSize [idx])
  let s ← get
  let pos ← draw (near peep s idx k)
  let a ← liftB (agentOf (fun _ => pure ()) pos)
  let old ← popAt idx
  let sm := (a.tgt.fitness - old.tgt.fitness) / div (max a.tgt.fitness old.tgt.fitness)
  if compareTarget a.tgt old.tgt c.P.mm then do
    setAt idx a
    pure (sm, true)
  else pure (sm, false)

/-- a fresh mongoose at place `idx` (`mealpy/swarm_based/DMOA.py:122`) -/
def fresh (idx : Nat) : M c Unit Y Unit := do
  let x ← draw genSolution
  let a ← liftB (agentOf (fun _ => pure ()) x)
  setAt idx a

/-- the loop over the scouts (`mealpy/swarm_based/DMOA.py:105-118`) -/
def scouts (peep : K) (div : K → K) (cnt : Y → List Nat) (put : List Nat → Y → Y) : M c Unit Y (List K) :=
  iter c.popSize (fun idx acc => do
    let r ← scout peep div idx
    (if r.2 then pure () else modExt (fun y => put (bump (cnt y) idx) y))
    pure (acc ++ [r.1])) []

/-- the loop over the foraging mongooses (`mealpy/swarm_based/DMOA.py:93-104`) -/
def forages (peep : K) (fi : List K) (cnt : Y → List Nat) (put : List Nat → Y → Y) : M c Unit Y Unit :=
  iter c.popSize (fun idx _ => do
    let won ← forage peep fi idx
    (if won then pure () else modExt (fun y => put (bump (cnt y) idx) y))) ()

/-- the exchange of a baby sitter (`mealpy/swarm_based/DMOA.py:121-123`) -/
def exchange (limit : K) (cnt : Y → List Nat) (put : List Nat → Y → Y) (idx : Nat) : M c Unit Y Unit := do
  let s ← get
  let k ← draw (nth (cnt s.ext) idx)
  if limit ≤ ♯k then do
    fresh idx
    modExt (fun y => put ((cnt y).set idx 0) y)
  else pure ()

/-- the last move of a mongoose (`mealpy/swarm_based/DMOA.py:127-135`). From the second mongoose on `self.tau` is `new_tau`. -/
def last (p : Params K) (ep : Nat) (sm : List K) (idx : Nat) : M c Unit (Vars K) Unit := do
  let s ← get
  let cf : K := Num.pow (1 - ♯ep / ♯c.epoch) (2 * ♯ep / ♯c.epoch)
  let tau := meanL sm
  let up : Bool := match s.ext.tau with
    | none => true
    | some t => decide (t < tau)
  let x ← popAt idx
  let m ← draw (nth sm idx)
  let u ← draw (uniformVec (fun _ => -1) (fun _ => 1))
  let r ← draw random
  modExt (fun y => { y with tau := some tau })
  let pos ← draw (correct (if up then fun j => x.sol j - cf * (p.peep / 2 * u j) * r * (x.sol j - m * x.sol j / x.sol j)
    else fun j => x.sol j + cf * (p.peep / 2 * u j) * r * (x.sol j - m * x.sol j / x.sol j)))
  let a ← liftB (agentOf (fun _ => pure ()) pos)
  setAt idx a

/-- `OriginalDMOA.evolve` (`mealpy/swarm_based/DMOA.py:81-135`) -/
def evolve (p : Params K) (ep : Nat) : M c Unit (Vars K) Unit := do
  let s ← get
  forages p.peep (weights s.pop) (·.cnt) (fun l y => { y with cnt := l })
  let sm ← scouts p.peep id (·.cnt) (fun l y => { y with cnt := l })
  iter p.sitters (fun idx _ => exchange (Num.ufunc "round" (0.6 * ♯d * ♯p.sitters)) (·.cnt) (fun l y => { y with cnt := l }) idx) ()
  iter c.popSize (fun idx _ => last p ep sm idx) ()

/-- a counter per mongoose -/
def Ok (c : Cfg d K) (y : Vars K) : Prop := y.cnt.length = c.popSize

section
variable {Y : Type} {J : Y → Prop}

theorem dt_near (hP : c.P.Lawful) {peep : K} {s : St c Unit Y} {a k : Nat} (ha : a < s.pop.length) (hk : k < s.pop.length) :
    DT noErr (near peep s a k : D c _) (Feas c) := by
  unfold near
  exact DT.bind DT.uniformVec' fun u _ => DT.bind (DT.nth_mem ha) fun x _ => DT.bind (DT.nth_mem hk) fun y _ => DT.correct hP

theorem wt_forage (hE : c.E.Lawful) (hP : c.P.Lawful) (h3 : 3 ≤ c.popSize) {peep : K} {fi : List K} (hf : fi.length = c.popSize) {i : Nat} (hi : i < c.popSize) :
    WT noErr (Inv.std c Unit J) 1 1 (forage peep fi i : M c Unit Y Bool) (fun _ => True) := by
  unfold forage
  refine WT.bind0 (WT.draw (DT.rouletteIdx hE (by omega))) fun al hal => WT.bind0 (WT.draw (DT.pickWithout hE (by simp; omega))) fun k hk => ?_
  refine WT.bind0 WT.get fun s hs => ?_
  have hl : s.pop.length = c.popSize := hs.len
  exact WT.bind0 (WT.draw (dt_near hP (by omega) (by omega))) fun pos hp => WT.tryComp (by wsz) hp (DT.pure hp)

theorem wt_scout (hE : c.E.Lawful) (hP : c.P.Lawful) (h3 : 3 ≤ c.popSize) {peep : K} {div : K → K} {i : Nat} (hi : i < c.popSize) :
    WT noErr (Inv.std c Unit J) 1 1 (scout peep div i : M c Unit Y (K × Bool)) (fun _ => True) := by
  unfold scout
  refine WT.bind0 (WT.draw (DT.pickWithout hE (by simp; omega))) fun k hk => WT.bind0 WT.get fun s hs => ?_
  have hl : s.pop.length = c.popSize := hs.len
  refine WT.bind0 (WT.draw (dt_near hP (by omega) (by omega))) fun pos hp => WT.agentOf_std hp (DT.pure trivial) (by omega) fun a ha => ?_
  refine WT.bind0 (WT.popAt (by wsz)) fun old _ => WT.weaken (WT.ite (fun _ => WT.bind0 (WT.setAt (by wsz) (Inv.std_ag ha)) fun _ _ => WT.pure trivial) fun _ => WT.pure trivial) (by omega) (by omega)

theorem wt_forages (hE : c.E.Lawful) (hP : c.P.Lawful) (h3 : 3 ≤ c.popSize) {peep : K} {fi : List K} (hf : fi.length = c.popSize) {cnt : Y → List Nat} {put : List Nat → Y → Y}
    (hJ : ∀ y i, J y → J (put (bump (cnt y) i) y)) : WT noErr (Inv.std c Unit J) c.popSize c.popSize (forages peep fi cnt put : M c Unit Y Unit) (fun _ => True) := by
  unfold forages
  refine WT.iterU 1 1 (by omega) (by omega) fun i hi => WT.bindS (wt_forage hE hP h3 hf hi) (by omega) fun won _ => ?_
  exact WT.weaken (WT.ite (fun _ => WT.pure trivial) fun _ => WT.modExt fun y hy => hJ y i hy) (by omega) (by omega)

theorem wt_scouts (hE : c.E.Lawful) (hP : c.P.Lawful) (h3 : 3 ≤ c.popSize) {peep : K} {div : K → K} {cnt : Y → List Nat} {put : List Nat → Y → Y}
    (hJ : ∀ y i, J y → J (put (bump (cnt y) i) y)) : WT noErr (Inv.std c Unit J) c.popSize c.popSize (scouts peep div cnt put : M c Unit Y (List K)) (fun l => l.length = c.popSize) := by
  unfold scouts
  have h := WT.iter (Er := noErr) (I := Inv.std c Unit J) (lo := 1) (hi := 1) (f := fun idx (acc : List K) => do
    let r ← scout peep div idx
    (if r.2 then pure () else modExt (fun y => put (bump (cnt y) idx) y))
    pure (acc ++ [r.1])) (fun i (l : List K) => l.length = i) c.popSize (a := []) rfl fun i a hi ha => ?_
  · rw [Nat.mul_one] at h
    exact h
  · refine WT.bindS (wt_scout hE hP h3 hi) (by omega) fun r _ => ?_
    refine WT.bind0 (R := fun _ => True) (WT.ite (fun _ => WT.pure trivial) fun _ => WT.modExt fun y hy => hJ y i hy) fun _ _ => WT.weaken (WT.pure (by simp [ha])) (by omega) (by omega)

theorem wt_exchange (hP : c.P.Lawful) {limit : K} {cnt : Y → List Nat} {put : List Nat → Y → Y} {i : Nat} (hi : i < c.popSize) (hC : ∀ y, J y → (cnt y).length = c.popSize)
    (hJ : ∀ y i, J y → J (put ((cnt y).set i 0) y)) : WT noErr (Inv.std c Unit J) 0 1 (exchange limit cnt put i : M c Unit Y Unit) (fun _ => True) := by
  unfold exchange fresh
  refine WT.bind0 WT.get fun s hs => WT.bind0 (WT.draw (DT.nth_mem (by rw [hC _ hs.ext]; exact hi))) fun k _ => ?_
  refine WT.ite (fun _ => ?_) fun _ => WT.weaken (WT.pure trivial) (by omega) (by omega)
  refine WT.bindS (l1 := 0) (h1 := 1) (R := fun _ => True) ?_ (by omega) fun _ _ => WT.weaken (WT.modExt fun y hy => hJ y i hy) (by omega) (by omega)
  refine WT.bind0 (WT.draw (DT.genSolution hP)) fun x hx => WT.agentOf_std hx (DT.pure trivial) (by omega) fun a ha => ?_
  exact WT.weaken (WT.setAt (by wsz) (Inv.std_ag ha)) (by omega) (by omega)

theorem framed_forages {peep : K} {fi : List K} {cnt : Y → List Nat} {put : List Nat → Y → Y} : Framed true (forages peep fi cnt put : M c Unit Y Unit) := by
  unfold forages forage; framed

theorem framed_scouts {peep : K} {div : K → K} {cnt : Y → List Nat} {put : List Nat → Y → Y} : Framed true (scouts peep div cnt put : M c Unit Y (List K)) := by
  unfold scouts scout; framed

theorem framed_exchange {limit : K} {cnt : Y → List Nat} {put : List Nat → Y → Y} {i : Nat} : Framed true (exchange limit cnt put i : M c Unit Y Unit) := by
  unfold exchange fresh; framed

end

macro_rules
  | `(tactic| fprim) => `(tactic| (at_last OriginalDMOA.forages; exact OriginalDMOA.framed_forages))

macro_rules
  | `(tactic| fprim) => `(tactic| (at_last OriginalDMOA.scouts; exact OriginalDMOA.framed_scouts))

macro_rules
  | `(tactic| fprim) => `(tactic| (at_last OriginalDMOA.exchange; exact OriginalDMOA.framed_exchange))

theorem bump_length {l : List Nat} {i : Nat} : (bump l i).length = l.length := by simp [bump]

theorem wt_last (hP : c.P.Lawful) {p : Params K} {ep : Nat} {sm : List K} (hs : sm.length = c.popSize) {i : Nat} (hi : i < c.popSize) :
    WT noErr (Inv.std c Unit (Ok c)) 1 1 (last p ep sm i : M c Unit (Vars K) Unit) (fun _ => True) := by
  unfold last
  refine WT.bind0 WT.get fun s _ => WT.bind0 (WT.popAt (by wsz)) fun x _ => WT.bind0 (WT.draw (DT.nth_mem (by omega))) fun m _ => ?_
  refine WT.bind0 (WT.draw DT.uniformVec') fun u _ => WT.bind0 (WT.draw DT.random') fun r _ => WT.bind0 (WT.modExt fun y hy => hy) fun _ _ => ?_
  refine WT.bind0 (WT.draw (DT.correct hP)) fun pos hp => WT.agentOf_std hp (DT.pure trivial) (by omega) fun a ha => ?_
  exact WT.weaken (WT.setAt (by wsz) (Inv.std_ag ha)) (by omega) (by omega)

theorem framed_last {p : Params K} {ep : Nat} {sm : List K} {i : Nat} : Framed true (last p ep sm i : M c Unit (Vars K) Unit) := by
  unfold last; framed

macro_rules
  | `(tactic| fprim) => `(tactic| (at_last OriginalDMOA.last; exact OriginalDMOA.framed_last))

/-- `OriginalDMOA` (`mealpy/swarm_based/DMOA.py:12-135`) -/
def algo (p : Params K) : Algo c Unit (Vars K) := Algo.full false (fun _ => pure ()) (pure ⟨List.replicate c.popSize 0, none⟩) (evolve p)

theorem wok (hE : c.E.Lawful) (hP : c.P.Lawful) (hc : Accepted c 5) (p : Params K) (hn : p.sitters ≤ c.popSize) :
    (algo p : Algo c Unit (Vars K)).WOk noErr (Inv.std c Unit (Ok c)) (Ok c) (Ok c) c.popSize c.popSize 0 0 (c.popSize + c.popSize + c.popSize) (c.popSize + c.popSize + p.sitters + c.popSize) := by
  have hpop := hc.pop
  unfold algo
  refine Algo.full_wok hE hP (by omega) (fun x hx => by dgo) (J := (Ok c)) (by exact DT.pure (by simp [Ok])) (fun ep hep1 hep2 => ?_)
  unfold evolve
  refine WT.bind0 WT.get fun s hs => ?_
  have hl : s.pop.length = c.popSize := hs.len
  refine WT.bindS (wt_forages hE hP (by omega) (by simp [weights, hl]) fun y i hy => by simpa [Ok, bump_length] using hy) (by omega) fun _ _ => ?_
  refine WT.bindS (wt_scouts hE hP (by omega) fun y i hy => by simpa [Ok, bump_length] using hy) (by omega) fun sm hsm => ?_
  refine WT.bindS (l1 := 0) (h1 := p.sitters) (R := fun _ => True) (WT.iterU 0 1 (by omega) (by omega) fun i hi => wt_exchange hP (by omega) (fun y hy => hy) fun y i hy => by simpa [Ok] using hy) (by omega) fun _ _ => ?_
  exact WT.iterU 1 1 (by omega) (by omega) fun i hi => wt_last hP hsm hi

theorem framed (hE : c.E.Lawful) (p : Params K) (ep : Nat) : Framed true (evolve p ep : M c Unit (Vars K) Unit) := by
  unfold evolve; framed

end OriginalDMOA

namespace DevDMOA

/-- the last move of a mongoose (`mealpy/swarm_based/DMOA.py:243-251`) -/
def last (peep : K) (ep : Nat) (sm : List K) (idx : Nat) : M c Unit (List Nat) Unit := do
  let s ← get
  let cf : K := Num.pow (1 - ♯ep / ♯c.epoch) (2 * ♯ep / ♯c.epoch)
  let x ← popAt idx
  let m ← draw (nth sm idx)
  let u ← draw (uniformVec (fun _ => -1) (fun _ => 1))
  let pos ← draw (correct (if m < meanL sm then fun j => s.gbest.sol j - cf * (peep / 2 * u j) * (s.gbest.sol j - m * x.sol j)
    else fun j => x.sol j + cf * (peep / 2 * u j) * (s.gbest.sol j - m * x.sol j)))
  tryCompare (fun _ => pure ()) idx pos

/-- `DevDMOA.evolve` (`mealpy/swarm_based/DMOA.py:191-251`) -/
def evolve (p : K) (ep : Nat) : M c Unit (List Nat) Unit := do
  let s ← get
  OriginalDMOA.forages p (OriginalDMOA.weights s.pop) id (fun l _ => l)
  let sm ← OriginalDMOA.scouts p (fun x => x + Num.EPSILON) id (fun l _ => l)
  iter c.popSize (fun idx _ => OriginalDMOA.exchange (Num.ufunc "round" (0.6 * ♯c.epoch)) id (fun l _ => l) idx) ()
  iter c.popSize (fun idx _ => last p ep sm idx) ()

/-- a counter per mongoose -/
def Ok (c : Cfg d K) (y : List Nat) : Prop := y.length = c.popSize

theorem wt_last (hP : c.P.Lawful) {p : K} {ep : Nat} {sm : List K} (hs : sm.length = c.popSize) {i : Nat} (hi : i < c.popSize) :
    WT noErr (Inv.std c Unit (Ok c)) 1 1 (last p ep sm i : M c Unit (List Nat) Unit) (fun _ => True) := by
  unfold last
  refine WT.bind0 WT.get fun s _ => WT.bind0 (WT.popAt (by wsz)) fun x _ => WT.bind0 (WT.draw (DT.nth_mem (by omega))) fun m _ => ?_
  refine WT.bind0 (WT.draw DT.uniformVec') fun u _ => WT.bind0 (WT.draw (DT.correct hP)) fun pos hp => ?_
  exact WT.tryCompare (by wsz) hp (DT.pure hp)

theorem framed_last {p : K} {ep : Nat} {sm : List K} {i : Nat} : Framed true (last p ep sm i : M c Unit (List Nat) Unit) := by
  unfold last; framed

macro_rules
  | `(tactic| fprim) => `(tactic| (at_last DevDMOA.last; exact DevDMOA.framed_last))

/-- `DevDMOA` (`mealpy/swarm_based/DMOA.py:138-251`) -/
def algo (p : K) : Algo c Unit (List Nat) := Algo.full false (fun _ => pure ()) (pure (List.replicate c.popSize 0)) (evolve p)

theorem wok (hE : c.E.Lawful) (hP : c.P.Lawful) (hc : Accepted c 5) (p : K) :
    (algo p : Algo c Unit (List Nat)).WOk noErr (Inv.std c Unit (Ok c)) (Ok c) (Ok c) c.popSize c.popSize 0 0 (c.popSize + c.popSize + c.popSize) (c.popSize + c.popSize + c.popSize + c.popSize) := by
  have hpop := hc.pop
  unfold algo
  refine Algo.full_wok hE hP (by omega) (fun x hx => by dgo) (J := (Ok c)) (by exact DT.pure (by simp [Ok])) (fun ep hep1 hep2 => ?_)
  unfold evolve
  refine WT.bind0 WT.get fun s hs => ?_
  have hl : s.pop.length = c.popSize := hs.len
  refine WT.bindS (OriginalDMOA.wt_forages hE hP (by omega) (by simp [OriginalDMOA.weights, hl]) fun y i hy => by simpa [Ok, OriginalDMOA.bump_length] using hy) (by omega) fun _ _ => ?_
  refine WT.bindS (OriginalDMOA.wt_scouts hE hP (by omega) fun y i hy => by simpa [Ok, OriginalDMOA.bump_length] using hy) (by omega) fun sm hsm => ?_
  refine WT.bindS (l1 := 0) (h1 := c.popSize) (R := fun _ => True) (WT.iterU 0 1 (by omega) (by omega) fun i hi => OriginalDMOA.wt_exchange hP (by omega) (fun y hy => hy) fun y i hy => by simpa [Ok] using hy) (by omega) fun _ _ => ?_
  exact WT.iterU 1 1 (by omega) (by omega) fun i hi => wt_last hP hsm hi

theorem framed (hE : c.E.Lawful) (p : K) (ep : Nat) : Framed true (evolve p ep : M c Unit (List Nat) Unit) := by
  unfold evolve; framed

end DevDMOA

namespace OriginalFLA

/-- the hyper-parameters (`mealpy/physics_based/FLA.py:86-91`) -/
structure Params (K : Type) where
  c1 : K
  c2 : K
  c3 : K
  c4 : K
  c5 : K
  dd : K

/-- `int(np.round(pop_size / 2))` (`mealpy/physics_based/FLA.py:98`): numpy rounds a half to the even neighbour -/
def half (n : Nat) : Nat := if n % 4 = 3 then n / 2 + 1 else n / 2

/-- `int(np.round((m2n - m1n) * u + m1n))` with `m1n = a * n` and `m2n = b * n` (`mealpy/physics_based/FLA.py:128-129`) -/
def share (a b : K) (n : Nat) (u : K) : Int := Num.trunc (Num.ufunc "round" ((b * ♯n - a * ♯n) * u + a * ♯n))

/-- the number of molecules that change sides does not exceed the group -/
def Calm (c : Cfg d K) (p : Params K) : Prop :=
  (∀ u : K, 0 ≤ u → u < 1 → share p.c3 p.c4 (half c.popSize) u ≤ half c.popSize) ∧
  ∀ u : K, 0 ≤ u → u < 1 → share (0.1 : K) 0.2 (c.popSize - half c.popSize) u ≤ (c.popSize - half c.popSize : Nat)

/-- what the groups look like at the start of the epoch (`mealpy/physics_based/FLA.py:100-107,116-122,238-245`): the attributes
`pop1`, `pop2`, `best1`, `best2` and `fsss` are always those of the current population -/
structure Ctx (d : Nat) (K : Type) where
  pop1 : List (Agent d K Unit)
  pop2 : List (Agent d K Unit)
  best1 : Agent d K Unit
  best2 : Agent d K Unit
  fsss : K
  xm1 : Vec d K
  xm2 : Vec d K
  xm : Vec d K
  tf : K

/-- see `Ctx` -/
def context (p : Params K) (ep : Nat) (s : St c Unit Unit) : D c (Ctx d K) := do
  let pop1 := s.pop.take (half c.popSize)
  let pop2 := s.pop.drop (half c.popSize)
  let b1 ← bestAgent pop1
  let b2 ← bestAgent pop2
  pure ⟨pop1, pop2, b1, b2, if compareTarget b1.tgt b2.tgt c.P.mm then b1.tgt.fitness else b2.tgt.fitness,
    meanPos (pop1.map (·.sol)), meanPos (pop2.map (·.sol)), meanPos (s.pop.map (·.sol)), Num.pow (Num.ufunc "sinh" (♯ep / ♯c.epoch)) p.c1⟩

/-- the operator of the epoch: diffusion from the first or the second group (with the number of molecules that move, and `dof`),
equilibrium or steady state (`mealpy/physics_based/FLA.py:124-129,149-151,171-172,201`) -/
inductive Plan (K : Type) where
  | diffuse (first : Bool) (moving : Nat) (dof : K)
  | equilibrium
  | steady

/-- see `Plan`; a negative number of moving molecules counts as none -/
def plan (p : Params K) (tf : K) : D c (Plan K) :=
  if tf < 0.9 then do
    let u ← random
    let dof := Num.pow (Num.exp (-(p.c2 * tf - u))) p.c2
    let v ← random
    let w ← random
    if p.c5 * tf - v < w then do
      let r ← random
      pure (.diffuse true (share p.c3 p.c4 (half c.popSize) r).toNat dof)
    else do
      let r ← random
      pure (.diffuse false (share 0.1 0.2 (c.popSize - half c.popSize) r).toNat dof)
  else if tf ≤ 1 then pure .equilibrium else pure .steady

/-- a molecule that changes sides, with the best of the other side and the drift (`mealpy/physics_based/FLA.py:131-134,153-156`) -/
def cross (dd dof : K) (best : Agent d K Unit) (drift : Vec d K) (own : List (Agent d K Unit)) (i : Nat) : D c (Vec d K) := do
  let x ← nth own i
  let g ← integers 1 3
  let jj : Vec d K := fun j => -dd * drift j / (normV (fun k => best.sol k - x.sol k) + Num.EPSILON)
  let u ← randomVec
  pure (fun j => best.sol j + Num.ofInt g * dof * u j * (jj j * best.sol j - x.sol j))

/-- a molecule that stays (`mealpy/physics_based/FLA.py:138-141,160-163`) -/
def stay (dof : K) (best : Agent d K Unit) (own : List (Agent d K Unit)) (i : Nat) : D c (Vec d K) := do
  let x ← nth own i
  let u ← randomVec
  let pp ← randomVec
  pure (fun j => if pp j < 0.8 then best.sol j else if 0.9 ≤ pp j then x.sol j else x.sol j + dof * (u j * (c.P.ub j - c.P.lb j) + c.P.lb j))

/-- a molecule of the receiving group (`mealpy/physics_based/FLA.py:145-146,167-168`) -/
def receive (dof : K) (best : Agent d K Unit) : D c (Vec d K) := do
  let u ← randomVec
  pure (fun j => best.sol j + dof * (u j * (c.P.ub j - c.P.lb j) + c.P.lb j))

/-- equilibrium and steady state (`mealpy/physics_based/FLA.py:174-184,203-213`): `lead` attracts, `drift` is the direction, `f` the
fitness compared with and `pull` the scaled position -/
def settle (dd tf : K) (lead : Vec d K) (drift : Vec d K) (f : K) (pull : Vec d K) (own : List (Agent d K Unit)) (i : Nat) : D c (Vec d K) := do
  let g ← integers 1 3
  let x ← nth own i
  let t := normV (fun k => lead k - x.sol k)
  let jj : Vec d K := fun j => if t = 0 then 0 else -dd * drift j / t
  let ms := Num.exp (-f / (x.tgt.fitness + Num.EPSILON))
  let u ← randomVec
  let q : Vec d K := fun j => Num.ofInt g * Num.exp (-(jj j) / tf) * u j
  pure (fun j => lead j + q j * x.sol j + q j * (ms * pull j - x.sol j))

/-- the `i`-th new position, in the order in which they are appended (`mealpy/physics_based/FLA.py:130-229`) -/
def position (p : Params K) (k : Ctx d K) (g : Vec d K) (n1 n2 : Nat) (pl : Plan K) (i : Nat) : D c (Vec d K) :=
  match pl with
  | .diffuse true m dof =>
    if i < m then cross p.dd dof k.best2 (fun j => k.xm2 j - k.xm1 j) k.pop1 i
    else if i < n1 then stay dof k.best1 k.pop1 i
    else receive dof k.best2
  | .diffuse false m dof =>
    if i < m then cross p.dd dof k.best1 (fun j => k.xm1 j - k.xm2 j) k.pop2 i
    else if i < n2 then stay dof k.best2 k.pop2 i
    else receive dof k.best1
  | .equilibrium =>
    if i < n1 then settle p.dd k.tf k.best1.sol (fun j => k.best1.sol j - k.xm1 j) k.best1.tgt.fitness k.best1.sol k.pop1 i
    else settle p.dd k.tf k.best2.sol (fun j => k.best2.sol j - k.xm2 j) k.best2.tgt.fitness k.best2.sol k.pop2 (i - n1)
  | .steady =>
    if i < n1 then settle p.dd k.tf g (fun j => k.xm j - k.xm1 j) k.fsss k.best1.sol k.pop1 i
    else settle p.dd k.tf g (fun j => k.xm j - k.xm2 j) k.fsss g k.pop2 (i - n1)

/-- a new molecule (`mealpy/physics_based/FLA.py:130-229`) -/
def molecule (p : Params K) (k : Ctx d K) (pl : Plan K) (s : St c Unit Unit) (i : Nat) : D c (Vec d K × Unit) := do
  let pos ← position p k s.gbest.sol (half c.popSize) (c.popSize - half c.popSize) pl i
  let pos ← correct pos
  pure (pos, ())

/-- `OriginalFLA.evolve` (`mealpy/physics_based/FLA.py:109-245`). The slot-wise replacement by a better molecule is `zipBetter`. -/
def evolve (p : Params K) (ep : Nat) : M c Unit Unit Unit := do
  let s ← get
  let k ← draw (context p ep s)
  let pl ← draw (plan p k.tf)
  let new ← buildEval c.popSize (molecule p k pl)
  reshape (fun pop => zipBetter c.P.mm new pop)

/-- the groups have their sizes -/
def CtxOk (c : Cfg d K) (k : Ctx d K) : Prop := k.pop1.length = half c.popSize ∧ k.pop2.length = c.popSize - half c.popSize

/-- the moving molecules are in their group -/
def PlanOk (c : Cfg d K) : Plan K → Prop
  | .diffuse true m _ => m ≤ half c.popSize
  | .diffuse false m _ => m ≤ c.popSize - half c.popSize
  | _ => True

theorem half_bounds {n : Nat} (h : 5 ≤ n) : 0 < half n ∧ half n < n := by
  unfold half
  split <;> omega

theorem dt_context (hE : c.E.Lawful) (h5 : 5 ≤ c.popSize) {p : Params K} {ep : Nat} {s : St c Unit Unit} (hl : s.pop.length = c.popSize) :
    DT noErr (context p ep s : D c _) (CtxOk c) := by
  have hb := half_bounds h5
  unfold context
  refine DT.bind (DT.bestAgent' hE (by rw [List.length_take]; omega)) fun b1 _ => DT.bind (DT.bestAgent' hE (by rw [List.length_drop]; omega)) fun b2 _ => DT.pure ⟨?_, ?_⟩
  · simp only [List.length_take]; omega
  · simp only [List.length_drop]; omega

theorem dt_plan (hE : c.E.Lawful) {p : Params K} (hc : Calm c p) {tf : K} : DT noErr (plan p tf : D c _) (PlanOk c) := by
  unfold plan
  refine DT.ite (fun _ => ?_) fun _ => DT.ite (fun _ => DT.pure trivial) fun _ => DT.pure trivial
  refine DT.bind DT.random' fun u _ => DT.bind DT.random' fun v _ => DT.bind DT.random' fun w _ => DT.ite (fun _ => ?_) fun _ => ?_
  · exact DT.bind (DT.random hE) fun r hr => DT.pure (by have := hc.1 r hr.1 hr.2; simp only [PlanOk]; omega)
  · exact DT.bind (DT.random hE) fun r hr => DT.pure (by have := hc.2 r hr.1 hr.2; simp only [PlanOk]; omega)

theorem dt_settle (hE : c.E.Lawful) {dd tf f : K} {a b e : Vec d K} {own : List (Agent d K Unit)} {i : Nat} (h : i < own.length) :
    DT noErr (settle dd tf a b f e own i : D c (Vec d K)) (fun _ => True) := by
  unfold settle
  exact DT.bind (DT.integers hE (by omega)) fun g _ => DT.bind (DT.nth_mem h) fun x _ => DT.bind DT.randomVec fun u _ => DT.pure trivial

theorem dt_cross (hE : c.E.Lawful) {dd dof : K} {b : Agent d K Unit} {e : Vec d K} {own : List (Agent d K Unit)} {i : Nat} (h : i < own.length) :
    DT noErr (cross dd dof b e own i : D c (Vec d K)) (fun _ => True) := by
  unfold cross
  exact DT.bind (DT.nth_mem h) fun x _ => DT.bind (DT.integers hE (by omega)) fun g _ => DT.bind DT.randomVec fun u _ => DT.pure trivial

theorem dt_stay {dof : K} {b : Agent d K Unit} {own : List (Agent d K Unit)} {i : Nat} (h : i < own.length) :
    DT noErr (stay dof b own i : D c (Vec d K)) (fun _ => True) := by
  unfold stay
  exact DT.bind (DT.nth_mem h) fun x _ => DT.bind DT.randomVec fun g _ => DT.bind DT.randomVec fun u _ => DT.pure trivial

theorem dt_molecule (hE : c.E.Lawful) (hP : c.P.Lawful) {p : Params K} {k : Ctx d K} (hk : CtxOk c k) {pl : Plan K} (hpl : PlanOk c pl) {s : St c Unit Unit} {i : Nat}
    (hi : i < c.popSize) : DT noErr (molecule p k pl s i : D c _) (MkOk (FA c) c) := by
  obtain ⟨k1, k2⟩ := hk
  unfold molecule
  refine DT.bind (R := fun _ => True) ?_ fun pos _ => DT.bind (DT.correct hP) fun pos hp => DT.pure ⟨hp, hp⟩
  unfold position receive
  match pl, hpl with
  | .diffuse true m dof, h =>
    have h : m ≤ half c.popSize := h
    exact DT.ite (fun h => dt_cross hE (by omega)) fun _ => DT.ite (fun h => dt_stay (by omega)) fun _ => DT.bind DT.randomVec fun u _ => DT.pure trivial
  | .diffuse false m dof, h =>
    have h : m ≤ c.popSize - half c.popSize := h
    exact DT.ite (fun h => dt_cross hE (by omega)) fun _ => DT.ite (fun h => dt_stay (by omega)) fun _ => DT.bind DT.randomVec fun u _ => DT.pure trivial
  | .equilibrium, _ => exact DT.ite (fun h => dt_settle hE (by omega)) fun h => dt_settle hE (by omega)
  | .steady, _ => exact DT.ite (fun h => dt_settle hE (by omega)) fun h => dt_settle hE (by omega)

/-- `OriginalFLA` (`mealpy/physics_based/FLA.py:12-245`) -/
def algo (p : Params K) : Algo c Unit Unit := Algo.plain false (evolve p)

theorem ok (hE : c.E.Lawful) (hP : c.P.Lawful) (hc : Accepted c 5) (p : Params K) (hk : Calm c p) :
    (algo p : Algo c Unit Unit).Ok (FA c) JT JT JT c.popSize c.popSize c.popSize := by
  plainalg hE hP hc evolve
  refine IT.pt (IT.bind0 IT.get fun s hs => ?_)
  have hl : s.pop.length = c.popSize := hs.len
  refine IT.bind0 (IT.draw (dt_context hE (by omega) hl)) fun k hkk => IT.bind0 (IT.draw (dt_plan hE hk)) fun pl hpl => ?_
  refine HJ.it (HJ.bindS (HJ.buildEval hE fun s i _ _ hi => dt_molecule hE hP hkk hpl hi) (by omega) fun new hnew => HJ.weaken (HJ.reshape fun pop hpl => ?_) (by omega) (by omega))
  have hlen : new.length = c.popSize := hnew.1
  simp only [List.nil_append]
  refine ⟨by rw [zipBetter_length]; omega, zipBetter_all (p := fun a => a ∈ pop ∨ a ∈ new) (fun x hx => .inr hx) (fun x hx => .inl hx), ?_⟩
  rintro a (ha | ha)
  · exact zipBetter_right (by omega) a ha
  · exact zipBetter_left (by omega) a ha

theorem framed (hE : c.E.Lawful) (p : Params K) (ep : Nat) : Framed true (evolve p ep : M c Unit Unit Unit) := by
  unfold evolve; framed

end OriginalFLA

namespace DevBRO

/-- the attributes (`mealpy/human_based/BRO.py:74-77`); `none` stands for infinity, the value of `dyn_delta` for a run of one
epoch -/
structure Vars (d : Nat) (K : Type) where
  delta : Option K
  lb : Vec d K
  ub : Vec d K

/-- `initialize_variables` (`mealpy/human_based/BRO.py:73-77`) -/
def initVars : D c (Vars d K) :=
  pure ⟨if c.epoch = 1 then none else some (Num.ufunc "round" (♯c.epoch / Num.ofInt (Num.ceil (Num.ufunc "log10" (♯c.epoch : K))))), c.P.lb, c.P.ub⟩

/-- `find_idx_min_distance__` and `get_idx_min__` (`mealpy/human_based/BRO.py:85-99`) -/
def nearest (pop : List (Agent d K X)) (x : Vec d K) : D c Nat :=
  let ds := pop.map (fun a => normV (fun j => a.sol j - x j))
  if ∀ y ∈ ds, y = 0 then choice1 ds.length
  else pure (ds.findIdx (fun y => decide (y = minL (ds.filter (fun y => decide (y ≠ 0))))))

/-- the shrinking of the respawn box (`mealpy/human_based/BRO.py:142-149`) -/
def shrink (ep : Nat) (g : Vec d K) (pop : List (Agent d K Int)) (y : Vars d K) : Vars d K :=
  match y.delta with
  | none => y
  | some t =>
    if t ≤ ♯ep then
      let std : Vec d K := fun j => stdL (pop.map (fun a => a.sol j))
      let lb : Vec d K := fun j => clip (g j - std j) (y.lb j) (y.ub j)
      ⟨some (t + Num.ufunc "round" (t / 2)), lb, fun j => clip (g j + std j) (lb j) (y.ub j)⟩
    else y

/-- a new soldier at place `i` with the given damage (`mealpy/human_based/BRO.py:115-119`) -/
def place (i : Nat) (x : Vec d K) (dam : Int) : M c Int (Vars d K) Unit := do
  let x ← draw (correct x)
  let a ← liftB (agentOf (fun _ => pure dam) x)
  setAt i a

/-- the loser's fate (`mealpy/human_based/BRO.py:121-132`) -/
def lose (threshold : K) (jdx : Nat) : M c Int (Vars d K) Unit := do
  let s ← get
  let y ← popAt jdx
  if (Num.ofInt y.ext : K) < threshold then do
    let u ← draw (uniform 0 1)
    let t ← liftB (getTarget y.sol)
    setAt jdx { y with tgt := t }
    place jdx (fun j => u * (max (y.sol j) (s.gbest.sol j) - min (y.sol j) (s.gbest.sol j)) + max (y.sol j) (s.gbest.sol j)) (y.ext + 1)
  else do
    let x ← draw (uniformVec s.ext.lb s.ext.ub)
    place jdx x 0

/-- the winner's move and the loser's fate (`mealpy/human_based/BRO.py:113-132`) -/
def win (threshold : K) (idx jdx : Nat) : M c Int (Vars d K) Unit := do
  let s ← get
  let x ← popAt idx
  let u ← draw (normal 0 1)
  place idx (fun j => x.sol j + u * meanL [x.sol j, s.gbest.sol j]) (x.ext - 1)
  lose threshold jdx

/-- the case of a neighbour that is not worse (`mealpy/human_based/BRO.py:135-141`) -/
def follow (idx jdx : Nat) : M c Int (Vars d K) Unit := do
  let s ← get
  let y ← popAt jdx
  setAt idx y
  let u ← draw (uniform 0 1)
  place jdx (fun j => y.sol j + u * (s.gbest.sol j - y.sol j)) 0

/-- one soldier (`mealpy/human_based/BRO.py:110-141`) -/
def battle (threshold : K) (idx : Nat) : M c Int (Vars d K) Unit := do
  let s ← get
  let x ← popAt idx
  let jdx ← draw (nearest s.pop x.sol)
  let y ← popAt jdx
  if compareTarget x.tgt y.tgt c.P.mm then win threshold idx jdx else follow idx jdx

/-- `DevBRO.evolve` (`mealpy/human_based/BRO.py:101-149`) -/
def evolve (p : K) (ep : Nat) : M c Int (Vars d K) Unit := do
  iter c.popSize (fun idx _ => battle p idx) ()
  let s ← get
  modExt (shrink ep s.gbest.sol s.pop)

/-- the respawn box is not empty and lies in the search box -/
def Ok (c : Cfg d K) (y : Vars d K) : Prop := ∀ j, c.P.lb j ≤ y.lb j ∧ y.lb j ≤ y.ub j ∧ y.ub j ≤ c.P.ub j

theorem dt_init (hP : c.P.Lawful) : DT noErr (initVars : D c _) (Ok (d := d) c) := by
  intro g
  have hb : ∀ j, c.P.lb j ≤ c.P.ub j := fun j => le_trans (hP.generate_in g.2 j).1 (hP.generate_in g.2 j).2
  exact (DT.pure (Er := noErr) (Q := Ok (d := d) c) fun j => ⟨le_rfl, hb j, le_rfl⟩) g

theorem clip_bounds {x l u : K} (h : l ≤ u) : l ≤ clip x l u ∧ clip x l u ≤ u := ⟨le_min (le_max_right _ _) h, min_le_right _ _⟩

theorem ok_shrink {ep : Nat} {g : Vec d K} {pop : List (Agent d K Int)} {y : Vars d K} (h : Ok c y) : Ok c (shrink ep g pop y) := by
  unfold shrink
  split
  · exact h
  · split
    · intro j
      have h1 := h j
      have h2 := clip_bounds (x := g j - stdL (pop.map (fun a => a.sol j))) h1.2.1
      have h3 := clip_bounds (x := g j + stdL (pop.map (fun a => a.sol j))) h2.2
      exact ⟨le_trans h1.1 h2.1, h3.1, le_trans h3.2 h1.2.2⟩
    · exact h

theorem dt_nearest (hE : c.E.Lawful) {pop : List (Agent d K X)} {x : Vec d K} (h : 0 < pop.length) : DT noErr (nearest pop x : D c Nat) (fun i => i < pop.length) := by
  unfold nearest
  refine DT.ite (fun _ => DT.mono (DT.choice1 hE (by simpa using h)) fun i hi => by simpa using hi) fun hz => DT.pure ?_
  push Not at hz
  obtain ⟨y, hy, hy0⟩ := hz
  have hne : (pop.map (fun a => normV (fun j => a.sol j - x j))).filter (fun y => decide (y ≠ 0)) ≠ [] := by
    intro he
    have : y ∈ (pop.map (fun a => normV (fun j => a.sol j - x j))).filter (fun y => decide (y ≠ 0)) := List.mem_filter.2 ⟨hy, by simpa using hy0⟩
    rw [he] at this
    exact absurd this (by simp)
  have hm : minL ((pop.map (fun a => normV (fun j => a.sol j - x j))).filter (fun y => decide (y ≠ 0))) ∈ pop.map (fun a => normV (fun j => a.sol j - x j)) := by
    unfold minL
    cases hl : listMin ((pop.map (fun a => normV (fun j => a.sol j - x j))).filter (fun y => decide (y ≠ 0))) with
    | none =>
      cases hf : (pop.map (fun a => normV (fun j => a.sol j - x j))).filter (fun y => decide (y ≠ 0)) with
      | nil => exact absurd hf hne
      | cons a l => rw [hf] at hl; simp [listMin] at hl
    | some m => exact (List.mem_filter.1 (listMin_some hl).1).1
  have := List.findIdx_lt_length_of_exists (p := fun y => decide (y = minL ((pop.map (fun a => normV (fun j => a.sol j - x j))).filter (fun y => decide (y ≠ 0))))) (xs := pop.map (fun a => normV (fun j => a.sol j - x j))) ⟨_, hm, by simp⟩
  simpa using this

theorem wt_place (hP : c.P.Lawful) {i : Nat} (hi : i < c.popSize) {x : Vec d K} {dam : Int} :
    WT noErr (Inv.std c Int (Ok c)) 1 1 (place i x dam : M c Int (Vars d K) Unit) (fun _ => True) := by
  unfold place
  exact WT.bind0 (WT.draw (DT.correct hP)) fun x hx => WT.agentOf_std hx (DT.pure trivial) (by omega) fun a ha => WT.weaken (WT.setAt (by wsz) (Inv.std_ag ha)) (by omega) (by omega)

theorem wt_lose (hP : c.P.Lawful) {t : K} {i : Nat} (hi : i < c.popSize) : WT noErr (Inv.std c Int (Ok c)) 1 2 (lose t i : M c Int (Vars d K) Unit) (fun _ => True) := by
  unfold lose
  refine WT.bind0 WT.get fun s hs => WT.bind0 (WT.popAt (by wsz)) fun y hy => WT.ite (fun _ => ?_) fun _ => ?_
  · refine WT.bind0 (WT.draw DT.uniform') fun u _ => WT.getTarget_std hy.2 (by omega) ?_
    exact WT.bind0 (WT.setAt (by wsz) (Inv.std_ag ⟨rfl, hy.2⟩)) fun _ _ => WT.weaken (wt_place hP hi) (by omega) (by omega)
  · exact WT.bind0 (WT.draw DT.uniformVec') fun x _ => WT.weaken (wt_place hP hi) (by omega) (by omega)

theorem wt_battle (hE : c.E.Lawful) (hP : c.P.Lawful) {t : K} {i : Nat} (hi : i < c.popSize) : WT noErr (Inv.std c Int (Ok c)) 1 3 (battle t i : M c Int (Vars d K) Unit) (fun _ => True) := by
  unfold battle win follow
  refine WT.bind0 WT.get fun s hs => WT.bind0 (WT.popAt (by wsz)) fun x hx => ?_
  have hl : s.pop.length = c.popSize := hs.len
  refine WT.bind0 (WT.draw (dt_nearest hE (by omega))) fun jdx hj => ?_
  rw [hl] at hj
  refine WT.bind0 (WT.popAt (by wsz)) fun y hy => WT.ite (fun _ => ?_) fun _ => ?_
  · refine WT.bind0 WT.get fun s hs => WT.bind0 (WT.popAt (by wsz)) fun x hx => WT.bind0 (WT.draw DT.normal) fun u _ => ?_
    exact WT.bindS (wt_place hP hi) (by omega) fun _ _ => WT.weaken (wt_lose hP hj) (by omega) (by omega)
  · refine WT.bind0 WT.get fun s hs => WT.bind0 (WT.popAt (by wsz)) fun y hy => WT.bind0 (WT.setAt (by wsz) hy) fun _ _ => ?_
    exact WT.bind0 (WT.draw DT.uniform') fun u _ => WT.weaken (wt_place hP hj) (by omega) (by omega)

theorem framed_battle {t : K} {i : Nat} : Framed true (battle t i : M c Int (Vars d K) Unit) := by
  unfold battle win follow lose place; framed

macro_rules
  | `(tactic| fprim) => `(tactic| (at_last DevBRO.battle; exact DevBRO.framed_battle))

/-- `DevBRO` (`mealpy/human_based/BRO.py:14-149`) -/
def algo (p : K) : Algo c Int (Vars d K) := Algo.full false (fun _ => pure 0) initVars (evolve p)

theorem wok (hE : c.E.Lawful) (hP : c.P.Lawful) (hc : Accepted c 5) (p : K) :
    (algo p : Algo c Int (Vars d K)).WOk noErr (Inv.std c Int (Ok c)) (Ok c) (Ok c) c.popSize c.popSize 0 0 c.popSize (c.popSize * 3) := by
  have hpop := hc.pop
  unfold algo
  refine Algo.full_wok hE hP (by omega) (fun x hx => by dgo) (J := (Ok c)) (by exact dt_init hP) (fun ep hep1 hep2 => ?_)
  unfold evolve
  refine WT.bindS (l1 := c.popSize) (h1 := c.popSize * 3) (R := fun _ => True) (WT.iterU 1 3 (by omega) (by omega) fun i hi => wt_battle hE hP hi) (by omega) fun _ _ => ?_
  exact WT.bind0 WT.get fun s hs => WT.weaken (WT.modExt fun y hy => ok_shrink hy) (by omega) (by omega)

theorem framed (hE : c.E.Lawful) (p : K) (ep : Nat) : Framed true (evolve p ep : M c Int (Vars d K) Unit) := by
  unfold evolve; framed

end DevBRO

namespace OriginalBRO

/-- the loser `dam` moves or respawns (`mealpy/human_based/BRO.py:216-227`). The respawned position is not corrected. -/
def hurt (threshold : K) (dam vic : Nat) : M c Int (DevBRO.Vars d K) Unit := do
  let s ← get
  let y ← popAt dam
  if (Num.ofInt y.ext : K) < threshold then do
    let u ← draw (uniformVec (fun _ => 0) (fun _ => 1))
    DevBRO.place dam (fun j => u j * (max (y.sol j) (s.gbest.sol j) - min (y.sol j) (s.gbest.sol j)) + max (y.sol j) (s.gbest.sol j)) (y.ext + 1)
    let v ← popAt vic
    setAt vic { v with ext := 0 }
  else do
    let x ← draw (uniformVec s.ext.lb s.ext.ub)
    let a ← liftB (agentOf (fun _ => pure 0) x)
    setAt dam a

/-- one soldier (`mealpy/human_based/BRO.py:212-227`) -/
def battle (threshold : K) (idx : Nat) : M c Int (DevBRO.Vars d K) Unit := do
  let s ← get
  let x ← popAt idx
  let jdx ← draw (DevBRO.nearest s.pop x.sol)
  let y ← popAt jdx
  if compareTarget x.tgt y.tgt c.P.mm then hurt threshold jdx idx else hurt threshold idx jdx

/-- `OriginalBRO.evolve` (`mealpy/human_based/BRO.py:203-235`) -/
def evolve (p : K) (ep : Nat) : M c Int (DevBRO.Vars d K) Unit := do
  iter c.popSize (fun idx _ => battle p idx) ()
  let s ← get
  modExt (DevBRO.shrink ep s.gbest.sol s.pop)

theorem wt_hurt (hE : c.E.Lawful) (hP : c.P.Lawful) {t : K} {i j : Nat} (hi : i < c.popSize) (hj : j < c.popSize) :
    WT noErr (Inv.std c Int (DevBRO.Ok c)) 1 1 (hurt t i j : M c Int (DevBRO.Vars d K) Unit) (fun _ => True) := by
  unfold hurt
  refine WT.bind0 WT.get fun s hs => WT.bind0 (WT.popAt (by wsz)) fun y hy => WT.ite (fun _ => ?_) fun _ => ?_
  · refine WT.bind0 (WT.draw DT.uniformVec') fun u _ => WT.bindS (DevBRO.wt_place hP hi) (by omega) fun _ _ => ?_
    exact WT.bind0 (WT.popAt (by wsz)) fun v hv => WT.weaken (WT.setAt (by wsz) (Inv.std_ag ⟨hv.1, hv.2⟩)) (by omega) (by omega)
  · have hx : DevBRO.Ok c s.ext := hs.ext
    refine WT.bind0 (R := Feas c) (WT.draw (DT.mono (DT.vecM (Q := fun j x => s.ext.lb j ≤ x ∧ x ≤ s.ext.ub j) fun j => DT.uniform hE (hx j).2.1) ?_)) fun x hx => ?_
    · exact fun x h j => ⟨le_trans (hx j).1 (h j).1, le_trans (h j).2 (hx j).2.2⟩
    · exact WT.agentOf_std hx (DT.pure trivial) (by omega) fun a ha => WT.weaken (WT.setAt (by wsz) (Inv.std_ag ha)) (by omega) (by omega)

theorem wt_battle (hE : c.E.Lawful) (hP : c.P.Lawful) {t : K} {i : Nat} (hi : i < c.popSize) :
    WT noErr (Inv.std c Int (DevBRO.Ok c)) 1 1 (battle t i : M c Int (DevBRO.Vars d K) Unit) (fun _ => True) := by
  unfold battle
  refine WT.bind0 WT.get fun s hs => WT.bind0 (WT.popAt (by wsz)) fun x hx => ?_
  have hl : s.pop.length = c.popSize := hs.len
  refine WT.bind0 (WT.draw (DevBRO.dt_nearest hE (by omega))) fun jdx hj => ?_
  rw [hl] at hj
  exact WT.bind0 (WT.popAt (by wsz)) fun y hy => WT.ite (fun _ => wt_hurt hE hP hj hi) fun _ => wt_hurt hE hP hi hj

theorem framed_battle {t : K} {i : Nat} : Framed true (battle t i : M c Int (DevBRO.Vars d K) Unit) := by
  unfold battle hurt DevBRO.place; framed

macro_rules
  | `(tactic| fprim) => `(tactic| (at_last OriginalBRO.battle; exact OriginalBRO.framed_battle))

/-- `OriginalBRO` (`mealpy/human_based/BRO.py:152-235`) -/
def algo (p : K) : Algo c Int (DevBRO.Vars d K) := Algo.full false (fun _ => pure 0) DevBRO.initVars (evolve p)

theorem wok (hE : c.E.Lawful) (hP : c.P.Lawful) (hc : Accepted c 5) (p : K) :
    (algo p : Algo c Int (DevBRO.Vars d K)).WOk noErr (Inv.std c Int (DevBRO.Ok c)) (DevBRO.Ok c) (DevBRO.Ok c) c.popSize c.popSize 0 0 c.popSize c.popSize := by
  have hpop := hc.pop
  unfold algo
  refine Algo.full_wok hE hP (by omega) (fun x hx => by dgo) (J := (DevBRO.Ok c)) (by exact DevBRO.dt_init hP) (fun ep hep1 hep2 => ?_)
  unfold evolve
  refine WT.bindS (l1 := c.popSize) (h1 := c.popSize) (R := fun _ => True) (WT.iterU 1 1 (by omega) (by omega) fun i hi => wt_battle hE hP hi) (by omega) fun _ _ => ?_
  exact WT.bind0 WT.get fun s hs => WT.weaken (WT.modExt fun y hy => DevBRO.ok_shrink hy) (by omega) (by omega)

theorem framed (hE : c.E.Lawful) (p : K) (ep : Nat) : Framed true (evolve p ep : M c Int (DevBRO.Vars d K) Unit) := by
  unfold evolve; framed

end OriginalBRO

namespace OriginalSFO

/-- the hyper-parameters (`mealpy/swarm_based/SFO.py:69-71`) -/
structure Params (K : Type) where
  pp : K
  ap : K
  epsilon : K

/-- `int(self.pop_size / self.pp)` (`mealpy/swarm_based/SFO.py:74`) -/
def size (c : Cfg d K) (pp : K) : Nat := (Num.trunc (♯c.popSize / pp)).toNat

/-- the sardines `s_pop`; `s_gbest` is always the best of them at the end of the previous epoch -/
abbrev Sardines (d : Nat) (K : Type) := List (Agent d K Unit)

/-- `initialization` (`mealpy/swarm_based/SFO.py:76-80`) -/
def initialization (m : Nat) (_ : Sardines d K) (pop : Option (List (Agent d K Unit))) : B c (List (Agent d K Unit) × Sardines d K) := do
  let pop ← startPop (fun _ => pure ()) pop
  let sp ← generatePopulation (fun _ => pure ()) m
  pure (pop, sp)

/-- the sailfish (`mealpy/swarm_based/SFO.py:92-97`) -/
def fish (m : Nat) (sb : Agent d K Unit) (s : St c Unit (Sardines d K)) (idx : Nat) : D c (Vec d K × Unit) := do
  let pd : K := 1 - ♯c.popSize / (♯c.popSize + ♯m)
  let u ← uniform 0 1
  let lam := 2 * u * pd - pd
  let v ← uniform 0 1
  let x ← nth s.pop idx
  let pos ← correct (fun j => sb.sol j - lam * (v * (x.sol j + sb.sol j) / 2 - x.sol j))
  pure (pos, ())

/-- the sardines' move (`mealpy/swarm_based/SFO.py:113-134`), given each sardine's new position, if any. In the pool modes the
new positions are dropped and the sardines are evaluated again where they are. -/
def school (m : Nat) (mk : Agent d K Unit → Nat → D c (Option (Vec d K))) : M c Unit (Sardines d K) Unit :=
  if c.swarmLike then do
    let s ← get
    let _ ← draw (repM m (fun i => do
      let a ← nth s.ext i
      mk a i))
    let new ← evalAll (s.ext.map (fun a => (a.sol, ())))
    modExt (fun _ => new)
  else
    iter m (fun i _ => do
      let s ← get
      let a ← draw (nth s.ext i)
      let q ← draw (mk a i)
      match q with
      | none => pure ()
      | some x => do
        let b ← liftB (agentOf (fun _ => pure ()) x)
        modExt (fun y => y.set i b)) ()

/-- the energy `AP` (`mealpy/swarm_based/SFO.py:107`) -/
def energy (p : Params K) (ep : Nat) : K := p.ap * (1 - 2 * ♯ep * p.epsilon)

/-- `beta` (`mealpy/swarm_based/SFO.py:110`) -/
def beta (d : Nat) (p : Params K) (ep : Nat) : Nat := (Num.trunc (♯d * Num.abs (energy p ep))).toNat

/-- the new position of a sardine, when the energy is low and it is selected (`mealpy/swarm_based/SFO.py:114-119`) -/
def low (p : Params K) (ep : Nat) (sel : List Nat) (sb : Agent d K Unit) (a : Agent d K Unit) (i : Nat) : D c (Option (Vec d K)) :=
  if i ∈ sel then do
    let js ← choice d (beta d p ep) false
    let u ← uniformVec (fun _ => 0) (fun _ => 1)
    let x ← correct (fun j => if j.val ∈ js then u j * (sb.sol j - a.sol j + energy p ep) else a.sol j)
    pure (some x)
  else pure none

/-- the new position of a sardine, when the energy is high (`mealpy/swarm_based/SFO.py:127-128,248-249`) -/
def high (ap : K) (g : Vec d K) (a : Agent d K Unit) (_ : Nat) : D c (Option (Vec d K)) := do
  let u ← uniform 0 1
  let x ← correct (fun j => u * (g j - a.sol j + ap))
  pure (some x)

/-- the sardines replace worse sailfish (`mealpy/swarm_based/SFO.py:136-145`): because of the `break` only the first sardine is
compared with each sailfish. The result is the remaining school. -/
def hunt : M c Unit (Sardines d K) (Sardines d K) := do
  sortPop
  let s ← get
  let sp ← draw (sortedPop s.ext)
  iter c.popSize (fun i sp => do
    let x ← popAt i
    let y ← draw (nth sp 0)
    if compareTarget y.tgt x.tgt c.P.mm then do
      setAt i y
      pure sp.tail
    else pure sp) sp

/-- new sardines replace the eaten ones (`mealpy/swarm_based/SFO.py:146-150`) -/
def refill (m : Nat) (sp : Sardines d K) : M c Unit (Sardines d K) Unit :=
  if m - sp.length = 1 then do
    let x ← draw genSolution
    let a ← liftB (agentOf (fun _ => pure ()) x)
    modExt (fun _ => sp ++ [a])
  else do
    let l ← liftB (generatePopulation (fun _ => pure ()) (m - sp.length))
    modExt (fun _ => sp ++ l)

/-- the move of the sardines (`mealpy/swarm_based/SFO.py:107-134`) -/
def sardines (p : Params K) (ep : Nat) (sb : Agent d K Unit) : M c Unit (Sardines d K) Unit := do
  let s ← get
  if energy p ep < 0.5 then do
    let sel ← draw (choice (size c p.pp) (Num.trunc (♯(size c p.pp) * Num.abs (energy p ep))).toNat true)
    school (size c p.pp) (low p ep sel sb)
  else school (size c p.pp) (high (energy p ep) s.gbest.sol)

/-- `OriginalSFO.evolve` (`mealpy/swarm_based/SFO.py:82-151`) -/
def evolve (p : Params K) (ep : Nat) : M c Unit (Sardines d K) Unit := do
  let s ← get
  let sb ← draw (bestAgent s.ext)
  greedyLoopR c.popSize (fish (size c p.pp) sb)
  sardines p ep sb
  let sp ← hunt
  refill (size c p.pp) sp

/-- as many evaluated sardines as at the start -/
def Ok (c : Cfg d K) (m : Nat) (y : Sardines d K) : Prop := y.length = m ∧ ∀ a ∈ y, CF c a

/-- no more dimensions are selected than there are -/
def Narrow (c : Cfg d K) (p : Params K) : Prop := ∀ ep, ep ≤ c.epoch → energy p ep < 0.5 → beta d p ep ≤ d

section
variable {m : Nat}

theorem dt_fish (hP : c.P.Lawful) {sb : Agent d K Unit} {s : St c Unit (Sardines d K)} {i : Nat} (hi : i < s.pop.length) :
    DT noErr (fish m sb s i : D c _) (fun p => Feas c p.1) := by
  unfold fish
  exact DT.bind DT.uniform' fun u _ => DT.bind DT.uniform' fun v _ => DT.bind (DT.nth_mem hi) fun x _ => DT.bind (DT.correct hP) fun pos hp => DT.pure hp

theorem wt_school {Er : Err → Prop} (hE : c.E.Lawful) {lo : Nat} {mk : Agent d K Unit → Nat → D c (Option (Vec d K))} (hlo : lo ≤ 1)
    (hmk : ∀ a i, i < m → DT Er (mk a i) (fun q => (∀ x, q = some x → Feas c x) ∧ (lo = 1 → q ≠ none))) :
    WT Er (Inv.std c Unit (Ok c m)) (m * lo) m (school m mk : M c Unit (Sardines d K) Unit) (fun _ => True) := by
  unfold school
  refine WT.ite (fun _ => ?_) fun _ => WT.iterU lo 1 le_rfl (by omega) fun i hi => ?_
  · refine WT.bind0 WT.get fun s hs => ?_
    have hx : Ok c m s.ext := hs.ext
    refine WT.bind0 (R := fun _ => True) (WT.draw (DT.mono (DT.repMT fun i hi => DT.bind (DT.nth_mem (by rw [hx.1]; exact hi)) fun a _ => DT.mono (hmk a i hi) fun _ _ => trivial) fun _ _ => trivial)) fun _ _ => ?_
    have h1 : (s.ext.map (fun a => (a.sol, ()))).length = m := by rw [List.length_map, hx.1]
    have h2 := WT.evalAll (Er := Er) (I := Inv.std c Unit (Ok c m)) hE (pend := s.ext.map (fun a => (a.sol, ()))) fun p hp => by
      obtain ⟨q, hq, rfl⟩ := List.mem_map.1 hp
      exact Inv.std_mk (hx.2 q hq).2
    rw [h1] at h2
    have h3 : m * lo ≤ m := by calc m * lo ≤ m * 1 := Nat.mul_le_mul_left m hlo
                                 _ = m := Nat.mul_one m
    exact WT.bindS h2 le_rfl fun new hnew => WT.weaken (WT.modExt fun y hy => hnew) (by omega) (by omega)
  · refine WT.bind0 WT.get fun s hs => ?_
    have hx : Ok c m s.ext := hs.ext
    refine WT.bind0 (WT.draw (DT.nth_mem (by rw [hx.1]; exact hi))) fun a _ => WT.bind0 (WT.draw (hmk a i hi)) fun q hq => ?_
    match q, hq with
    | none, h => exact WT.weaken (WT.pure trivial) (by have : lo ≠ 1 := fun e => h.2 e rfl
                                                       omega) (by omega)
    | some x, h =>
      refine WT.agentOf_std (h.1 x rfl) (DT.pure trivial) (by omega) fun b hb => WT.weaken (WT.modExt fun y hy => ⟨(List.length_set ..).trans hy.1, fun e he => ?_⟩) (by omega) (by omega)
      rcases List.mem_or_eq_of_mem_set he with g | g
      · exact hy.2 e g
      · rw [g]; exact hb

theorem wt_hunt (hE : c.E.Lawful) (hm : c.popSize ≤ m) :
    WT noErr (Inv.std c Unit (Ok c m)) 0 0 (hunt : M c Unit (Sardines d K) _) (fun sp => (m - c.popSize ≤ sp.length ∧ sp.length ≤ m) ∧ ∀ a ∈ sp, CF c a) := by
  unfold hunt
  refine WT.bind0 (WT.sortPop hE) fun _ _ => WT.bind0 WT.get fun s hs => ?_
  have hx : Ok c m s.ext := hs.ext
  refine WT.bind0 (R := fun sp => sp.length = m ∧ ∀ a ∈ sp, CF c a) (WT.draw (DT.mono (DT.sortedPop' hE) fun sp h => ⟨?_, fun a ha => hx.2 a ?_⟩)) fun sp hsp => ?_
  · exact h.1.trans hx.1
  · exact (h.2.1 a).1 ha
  · have h := WT.iter (Er := noErr) (I := Inv.std c Unit (Ok c m)) (lo := 0) (hi := 0) (f := fun i (sp : Sardines d K) => do
      let x ← popAt i
      let y ← draw (nth sp 0)
      if compareTarget y.tgt x.tgt c.P.mm then do
        setAt i y
        pure sp.tail
      else pure sp) (fun i (sp : Sardines d K) => (m - i ≤ sp.length ∧ sp.length ≤ m) ∧ ∀ a ∈ sp, CF c a) c.popSize (a := sp) ⟨⟨by omega, by omega⟩, hsp.2⟩ fun i l hi hl => ?_
    · rw [Nat.mul_zero] at h
      exact h
    · refine WT.bind0 (WT.popAt (by wsz)) fun x _ => WT.bind0 (WT.draw (DT.nth_mem (by omega))) fun y hy => WT.ite (fun _ => ?_) fun _ => WT.pure ⟨⟨by omega, by omega⟩, hl.2⟩
      refine WT.bind0 (WT.setAt (by wsz) (Inv.std_ag (hl.2 y hy))) fun _ _ => WT.pure ⟨by rw [List.length_tail]; omega, fun a ha => hl.2 a (List.mem_of_mem_tail ha)⟩

theorem wt_refill (hE : c.E.Lawful) (hP : c.P.Lawful) {n : Nat} {sp : Sardines d K} (h1 : m - n ≤ sp.length) (h2 : sp.length ≤ m) (hs : ∀ a ∈ sp, CF c a) :
    WT noErr (Inv.std c Unit (Ok c m)) 0 n (refill m sp : M c Unit (Sardines d K) Unit) (fun _ => True) := by
  unfold refill
  refine WT.ite (fun h => ?_) fun _ => ?_
  · refine WT.bind0 (WT.draw (DT.genSolution hP)) fun x hx => WT.agentOf_std hx (DT.pure trivial) (by omega) fun a ha => WT.weaken (WT.modExt fun y hy => ⟨?_, fun b hb => ?_⟩) (by omega) (by omega)
    · rw [List.length_append, List.length_singleton]; omega
    · rcases List.mem_append.1 hb with g | g
      · exact hs b g
      · rw [List.mem_singleton.1 g]; exact ha
  · refine WT.generatePopulation_std hE hP (fun x _ => DT.pure trivial) (by omega) fun l hl => WT.weaken (WT.modExt fun y hy => ⟨?_, fun b hb => ?_⟩) (by omega) (by omega)
    · rw [List.length_append, hl.1]; omega
    · rcases List.mem_append.1 hb with g | g
      · exact hs b g
      · exact hl.2 b g

theorem bt_none (hE : c.E.Lawful) (hP : c.P.Lawful) {y : Sardines d K} :
    BT noErr (c.popSize + m) (c.popSize + m) (initialization m y none : B c _) (fun r => r.1.length = c.popSize ∧ (∀ a ∈ r.1, CF c a) ∧ Ok c m r.2) := by
  unfold initialization startPop
  exact BT.bind (BT.generatePopulation hE hP fun x _ => DT.pure trivial) fun pop hpop =>
    BT.bindS (BT.generatePopulation hE hP fun x _ => DT.pure trivial) le_rfl fun sp hsp => BT.weaken (BT.pure ⟨hpop.1, hpop.2, hsp⟩) (by omega) (by omega)

theorem bt_some (hE : c.E.Lawful) (hP : c.P.Lawful) {y : Sardines d K} {pop : List (Agent d K Unit)} (hl : pop.length = c.popSize) (hc : ∀ a ∈ pop, CF c a) :
    BT noErr (c.popSize + m - c.popSize) (c.popSize + m - c.popSize) (initialization m y (some pop) : B c _)
      (fun r => r.1.length = c.popSize ∧ (∀ a ∈ r.1, CF c a) ∧ Ok c m r.2) := by
  unfold initialization startPop
  rw [pure_bind]
  exact BT.bindS (BT.generatePopulation hE hP fun x _ => DT.pure trivial) (by omega) fun sp hsp => BT.weaken (BT.pure ⟨hl, hc, hsp⟩) (by omega) (by omega)

theorem framed_school (hE : c.E.Lawful) {mk : Agent d K Unit → Nat → D c (Option (Vec d K))} : Framed true (school m mk : M c Unit (Sardines d K) Unit) := by
  unfold school
  refine .ite ?_ (.iter fun i _ => .bind .get fun s => .bind .draw fun a => .bind .draw fun q => ?_)
  · framed
  · cases q <;> framed

theorem framed_hunt (hE : c.E.Lawful) : Framed true (hunt : M c Unit (Sardines d K) _) := by
  unfold hunt; framed

theorem framed_refill (hE : c.E.Lawful) {sp : Sardines d K} : Framed true (refill m sp : M c Unit (Sardines d K) Unit) := by
  unfold refill; framed

end

macro_rules
  | `(tactic| fprim) => `(tactic| (at_last OriginalSFO.school; exact OriginalSFO.framed_school (by assumption)))

macro_rules
  | `(tactic| fprim) => `(tactic| (at_last OriginalSFO.hunt; exact OriginalSFO.framed_hunt (by assumption)))

macro_rules
  | `(tactic| fprim) => `(tactic| (at_last OriginalSFO.refill; exact OriginalSFO.framed_refill (by assumption)))

theorem dt_high (hP : c.P.Lawful) {ap : K} {g : Vec d K} {a : Agent d K Unit} {i : Nat} :
    DT noErr (high ap g a i : D c _) (fun q => (∀ x, q = some x → Feas c x) ∧ (1 = 1 → q ≠ none)) := by
  unfold high
  exact DT.bind DT.uniform' fun u _ => DT.bind (DT.correct hP) fun x hx => DT.pure ⟨fun y hy => by cases hy; exact hx, fun _ => by simp⟩

theorem dt_low (hE : c.E.Lawful) (hP : c.P.Lawful) (hd : 0 < d) {p : Params K} {ep : Nat} (h : beta d p ep ≤ d) {sel : List Nat} {sb a : Agent d K Unit} {i : Nat} :
    DT noErr (low p ep sel sb a i : D c _) (fun q => (∀ x, q = some x → Feas c x) ∧ (0 = 1 → q ≠ none)) := by
  unfold low
  refine DT.ite (fun _ => ?_) fun _ => DT.pure ⟨by simp, by simp⟩
  exact DT.bind (DT.choice hE (choiceErr_false hd h)) fun js _ => DT.bind DT.uniformVec' fun u _ => DT.bind (DT.correct hP) fun x hx => DT.pure ⟨fun y hy => by cases hy; exact hx, by simp⟩

theorem wt_sardines (hE : c.E.Lawful) (hP : c.P.Lawful) (hd : 0 < d) {p : Params K} (hm : 0 < size c p.pp) {ep : Nat} (hep : ep ≤ c.epoch) (hn : Narrow c p) {sb : Agent d K Unit} :
    WT noErr (Inv.std c Unit (Ok c (size c p.pp))) 0 (size c p.pp) (sardines p ep sb : M c Unit (Sardines d K) Unit) (fun _ => True) := by
  unfold sardines
  refine WT.bind0 WT.get fun s hs => WT.ite (fun h => ?_) fun _ => ?_
  · refine WT.bind0 (WT.draw (DT.choice hE (by simp [choiceErr]; omega))) fun sel _ => ?_
    exact WT.weaken (wt_school hE (lo := 0) (by omega) fun a i hi => dt_low hE hP hd (hn ep hep h)) (by omega) (by omega)
  · exact WT.weaken (wt_school hE (lo := 1) (by omega) fun a i hi => dt_high hP) (by omega) (by omega)

theorem framed_sardines (hE : c.E.Lawful) {p : Params K} {ep : Nat} {sb : Agent d K Unit} : Framed true (sardines p ep sb : M c Unit (Sardines d K) Unit) := by
  unfold sardines; framed

macro_rules
  | `(tactic| fprim) => `(tactic| (at_last OriginalSFO.sardines; exact OriginalSFO.framed_sardines (by assumption)))

/-- `OriginalSFO` (`mealpy/swarm_based/SFO.py:12-151`) -/
def algo (p : Params K) : Algo c Unit (Sardines d K) := Algo.custom true (fun _ => pure ()) (pure []) (initialization (size c p.pp)) (evolve p)

theorem wok (hE : c.E.Lawful) (hP : c.P.Lawful) (hc : Accepted c 5) (p : Params K) (hd : 0 < d) (hm : c.popSize ≤ size c p.pp) (hn : Narrow c p) :
    (algo p : Algo c Unit (Sardines d K)).WOk noErr (Inv.std c Unit (Ok c (size c p.pp))) JT (Ok c (size c p.pp)) (c.popSize + OriginalSFO.size c p.pp) (c.popSize + OriginalSFO.size c p.pp) 0 0 c.popSize (c.popSize + OriginalSFO.size c p.pp + c.popSize) := by
  have hpop := hc.pop
  unfold algo
  refine Algo.custom_wok (J := (Ok c (size c p.pp))) (J0 := JT) (by omega) (fun x hx => by dgo) (by dgo) (by omega) (fun y hy => bt_none hE hP) (fun y pop hy hl hp => bt_some hE hP hl hp) (fun ep hep1 hep2 => ?_)
  unfold evolve
  refine WT.bind0 WT.get fun s hs => ?_
  have hx : Ok c (size c p.pp) s.ext := hs.ext
  refine WT.bind0 (WT.draw (DT.bestAgent' hE (by rw [hx.1]; omega))) fun sb _ => ?_
  refine WT.bindS (WT.greedyLoopR hE (fun _ h => h) fun s i hs hl hi => DT.mono (dt_fish hP (by omega)) fun p hp => Inv.std_mk hp) (by omega) fun _ _ => ?_
  refine WT.bindS (wt_sardines hE hP hd (by omega) hep2 hn) (by omega) fun _ _ => WT.bind0 (wt_hunt hE hm) fun sp hsp => ?_
  exact WT.weaken (wt_refill hE hP (n := c.popSize) hsp.1.1 hsp.1.2 hsp.2) (by omega) (by omega)

theorem framed (hE : c.E.Lawful) (p : Params K) (ep : Nat) : Framed true (evolve p ep : M c Unit (Sardines d K) Unit) := by
  unfold evolve; framed

end OriginalSFO

namespace ImprovedSFO

/-- the sailfish (`mealpy/swarm_based/SFO.py:220-224`); both populations have their initial sizes -/
def fish (m : Nat) (sb : Agent d K Unit) (s : St c Unit (OriginalSFO.Sardines d K)) (idx : Nat) : D c (Vec d K × Unit) := do
  let pd : K := 1 - ♯c.popSize / (♯c.popSize + ♯m)
  let u ← uniform 0 1
  let lam := 2 * u * pd - pd
  let v ← uniform 0 1
  let x ← nth s.pop idx
  let pos ← correct (fun j => sb.sol j - lam * (v * (s.gbest.sol j + sb.sol j) / 2 - x.sol j))
  pure (pos, ())

/-- the sardines' opposition move (`mealpy/swarm_based/SFO.py:238-240`) -/
def oppose (ap : K) (g : Vec d K) (a : Agent d K Unit) (_ : Nat) : D c (Option (Vec d K)) := do
  let u ← uniform 0 1
  let x ← correct (fun j => c.P.lb j + c.P.ub j - (g j + ap) / 2 + u * ((g j + ap) / 2 - a.sol j))
  pure (some x)

/-- the sardines' move (`mealpy/swarm_based/SFO.py:235-255`) -/
def sardines (p : K) (ep : Nat) : M c Unit (OriginalSFO.Sardines d K) Unit := do
  let s ← get
  if (1 - ♯ep * 1 / ♯c.epoch : K) < 0.5 then OriginalSFO.school (OriginalSFO.size c p) (oppose (1 - ♯ep * 1 / ♯c.epoch) s.gbest.sol)
  else OriginalSFO.school (OriginalSFO.size c p) (OriginalSFO.high (1 - ♯ep * 1 / ♯c.epoch) s.gbest.sol)

/-- new sardines replace the eaten ones (`mealpy/swarm_based/SFO.py:267`) -/
def refill (m : Nat) (sp : OriginalSFO.Sardines d K) : M c Unit (OriginalSFO.Sardines d K) Unit := do
  let l ← liftB (generatePopulation (fun _ => pure ()) (m - sp.length))
  modExt (fun _ => sp ++ l)

/-- `ImprovedSFO.evolve` (`mealpy/swarm_based/SFO.py:209-268`) -/
def evolve (p : K) (ep : Nat) : M c Unit (OriginalSFO.Sardines d K) Unit := do
  let s ← get
  let sb ← draw (bestAgent s.ext)
  greedyLoopR c.popSize (fish (OriginalSFO.size c p) sb)
  sardines p ep
  let sp ← OriginalSFO.hunt
  refill (OriginalSFO.size c p) sp

theorem dt_fish (hP : c.P.Lawful) {m : Nat} {sb : Agent d K Unit} {s : St c Unit (OriginalSFO.Sardines d K)} {i : Nat} (hi : i < s.pop.length) :
    DT noErr (fish m sb s i : D c _) (fun p => Feas c p.1) := by
  unfold fish
  exact DT.bind DT.uniform' fun u _ => DT.bind DT.uniform' fun v _ => DT.bind (DT.nth_mem hi) fun x _ => DT.bind (DT.correct hP) fun pos hp => DT.pure hp

theorem dt_oppose (hP : c.P.Lawful) {ap : K} {g : Vec d K} {a : Agent d K Unit} {i : Nat} :
    DT noErr (oppose ap g a i : D c _) (fun q => (∀ x, q = some x → Feas c x) ∧ (1 = 1 → q ≠ none)) := by
  unfold oppose
  exact DT.bind DT.uniform' fun u _ => DT.bind (DT.correct hP) fun x hx => DT.pure ⟨fun y hy => by cases hy; exact hx, fun _ => by simp⟩

theorem wt_sardines (hE : c.E.Lawful) (hP : c.P.Lawful) {p : K} {ep : Nat} :
    WT noErr (Inv.std c Unit (OriginalSFO.Ok c (OriginalSFO.size c p))) (OriginalSFO.size c p) (OriginalSFO.size c p) (sardines p ep : M c Unit (OriginalSFO.Sardines d K) Unit) (fun _ => True) := by
  unfold sardines
  refine WT.bind0 WT.get fun s hs => WT.ite (fun h => ?_) fun _ => ?_
  · exact WT.weaken (OriginalSFO.wt_school hE (lo := 1) (by omega) fun a i hi => dt_oppose hP) (by omega) (by omega)
  · exact WT.weaken (OriginalSFO.wt_school hE (lo := 1) (by omega) fun a i hi => OriginalSFO.dt_high hP) (by omega) (by omega)

theorem framed_sardines (hE : c.E.Lawful) {p : K} {ep : Nat} : Framed true (sardines p ep : M c Unit (OriginalSFO.Sardines d K) Unit) := by
  unfold sardines; framed

macro_rules
  | `(tactic| fprim) => `(tactic| (at_last ImprovedSFO.sardines; exact ImprovedSFO.framed_sardines (by assumption)))

theorem framed_refill (hE : c.E.Lawful) {m : Nat} {sp : OriginalSFO.Sardines d K} : Framed true (refill m sp : M c Unit (OriginalSFO.Sardines d K) Unit) := by
  unfold refill; framed

macro_rules
  | `(tactic| fprim) => `(tactic| (at_last ImprovedSFO.refill; exact ImprovedSFO.framed_refill (by assumption)))

/-- `ImprovedSFO` (`mealpy/swarm_based/SFO.py:154-268`) -/
def algo (p : K) : Algo c Unit (OriginalSFO.Sardines d K) := Algo.custom true (fun _ => pure ()) (pure []) (OriginalSFO.initialization (OriginalSFO.size c p)) (evolve p)

theorem wok (hE : c.E.Lawful) (hP : c.P.Lawful) (hc : Accepted c 5) (p : K) (hm : c.popSize ≤ OriginalSFO.size c p) :
    (algo p : Algo c Unit (OriginalSFO.Sardines d K)).WOk noErr (Inv.std c Unit (OriginalSFO.Ok c (OriginalSFO.size c p))) JT (OriginalSFO.Ok c (OriginalSFO.size c p)) (c.popSize + OriginalSFO.size c p) (c.popSize + OriginalSFO.size c p) 0 0 (c.popSize + OriginalSFO.size c p) (c.popSize + OriginalSFO.size c p + c.popSize) := by
  have hpop := hc.pop
  unfold algo
  refine Algo.custom_wok (J := (OriginalSFO.Ok c (OriginalSFO.size c p))) (J0 := JT) (by omega) (fun x hx => by dgo) (by dgo) (by omega) (fun y hy => OriginalSFO.bt_none hE hP) (fun y pop hy hl hp => OriginalSFO.bt_some hE hP hl hp) (fun ep hep1 hep2 => ?_)
  unfold evolve
  refine WT.bind0 WT.get fun s hs => ?_
  have hx : OriginalSFO.Ok c (OriginalSFO.size c p) s.ext := hs.ext
  refine WT.bind0 (WT.draw (DT.bestAgent' hE (by rw [hx.1]; omega))) fun sb _ => ?_
  refine WT.bindS (WT.greedyLoopR hE (fun _ h => h) fun s i hs hl hi => DT.mono (dt_fish hP (by omega)) fun p hp => Inv.std_mk hp) (by omega) fun _ _ => ?_
  refine WT.bindS (wt_sardines hE hP) (by omega) fun _ _ => WT.bind0 (OriginalSFO.wt_hunt hE hm) fun sp hsp => ?_
  unfold refill
  refine WT.generatePopulation_std hE hP (fun x _ => DT.pure trivial) (by omega) fun l hl => WT.weaken (WT.modExt fun y hy => ⟨?_, fun b hb => ?_⟩) (by omega) (by omega)
  · rw [List.length_append, hl.1]; omega
  · rcases List.mem_append.1 hb with g | g
    · exact hsp.2 b g
    · exact hl.2 b g

theorem framed (hE : c.E.Lawful) (p : K) (ep : Nat) : Framed true (evolve p ep : M c Unit (OriginalSFO.Sardines d K) Unit) := by
  unfold evolve; framed

end ImprovedSFO

namespace MLFA_GD

/-- the hyper-parameters that are used (`mealpy/swarm_based/FFA.py:197-201`) -/
structure Params (K : Type) where
  females : Nat
  beta0 : K
  gama : K
  rw : Nat

/-- `pop_size // 2` (`mealpy/swarm_based/FFA.py:204`) -/
def half (c : Cfg d K) : Nat := c.popSize / 2

/-- a male moves toward some females (`mealpy/swarm_based/FFA.py:229-242`); the males do not see each other's moves -/
def male (p : Params K) (s : St c Unit Unit) (idx : Nat) : D c (Vec d K × Unit) := do
  let fs ← choice (half c) p.females false
  let x ← nth s.pop idx
  let step ← fs.foldlM (fun (acc : Vec d K) k => do
    let f ← nth s.pop (half c + k)
    let r := normV (fun j => x.sol j - f.sol j)
    let b := p.beta0 * Num.exp (-p.gama * (r * r))
    let dk : K := if compareTarget f.tgt x.tgt c.P.mm then 1 else -1
    let l ← uniformVec (fun _ => 0) (fun _ => 1)
    pure (fun j => acc j + dk * b * l j * (f.sol j - x.sol j))) (fun _ => 0)
  let pos ← correct (fun j => x.sol j + step j)
  pure (pos, ())

/-- `y_gc` (`mealpy/swarm_based/FFA.py:250-258`); `males_pbest` has the same agents as `males` -/
def centre (males : List (Agent d K Unit)) : D c (Vec d K) := do
  let m := meanPos (males.map (·.sol))
  let ri ← index (half c)
  let r ← nth males ri
  let u ← vecM (fun _ => dist "standard_cauchy" [])
  pure (fun j => m j + u j * (r.sol j - m j))

/-- a female (`mealpy/swarm_based/FFA.py:262-267`); in the pool modes the last one of an odd population is evaluated unmoved -/
def female (p : Params K) (y : Vec d K) (t : Target K) (s : St c Unit Unit) (idx : Nat) : D c (Vec d K × Unit) := do
  let f ← nth s.pop (half c + idx)
  if idx < half c then do
    let pos ← (if compareTarget t f.tgt c.P.mm then
        let r := normV (fun j => f.sol j - y j)
        pure (fun j => f.sol j + p.beta0 * Num.exp (-p.gama * (r * r)) * (y j - f.sol j))
      else do
        let u ← vecM (fun _ => dist "standard_cauchy" [])
        pure (fun j => s.gbest.sol j + u j) : D c (Vec d K))
    let pos ← correct pos
    pure (pos, ())
  else pure (f.sol, ())

/-- the walk around the best agent (`mealpy/swarm_based/FFA.py:280-287`). The logistic map is never iterated, every row is the same.
The best agent of the walk goes to `self.g_best`, which the run overwrites before it is read again. -/
def walk (p : Params K) (ep : Nat) (g : Agent d K Unit) : M c Unit Unit Unit := do
  let e : K := (♯c.epoch - ♯ep + 1) / ♯c.epoch
  let v ← draw randomVec
  let ch : Vec d K := fun j => c.P.lb j + 4 * v j * (1 - v j) * (c.P.ub j - c.P.lb j)
  let _ ← iter p.rw (fun _ g => do
    let x ← draw (correct (fun j => (1 - e) * g.sol j + e * ch j))
    let a ← liftB (agentOf (fun _ => pure ()) x)
    pure (if compareTarget a.tgt g.tgt c.P.mm then a else g)) g
  pure ()

/-- how many females are evaluated (`mealpy/swarm_based/FFA.py:261-273`) -/
def evaluated (c : Cfg d K) : Nat := if c.swarmLike then c.popSize - half c else half c

/-- `MLFA_GD.evolve` (`mealpy/swarm_based/FFA.py:218-287`) -/
def evolve (p : Params K) (ep : Nat) : M c Unit Unit Unit := do
  let s ← get
  let males ← buildEval (half c) (male p)
  let y ← draw (centre males)
  let yc ← draw (correct y)
  let t ← liftB (getTarget yc)
  let fem ← buildEval (evaluated c) (female p y t)
  setPop (males ++ (fem ++ (s.pop.drop (half c)).drop (evaluated c)))
  let g ← draw (bestAgent (males ++ (fem ++ (s.pop.drop (half c)).drop (evaluated c)) ++ [s.gbest]))
  walk p ep g

theorem dt_male (hE : c.E.Lawful) (hP : c.P.Lawful) (h2 : 2 ≤ c.popSize) {p : Params K} (hf : p.females ≤ half c) {s : St c Unit Unit} {i : Nat} (hl : s.pop.length = c.popSize) (hi : i < half c) :
    DT noErr (male p s i : D c _) (fun q => Feas c q.1) := by
  have hh : half c = c.popSize / 2 := rfl
  unfold male
  refine DT.bind (DT.choice hE (choiceErr_false (by omega) hf)) fun fs hfs => DT.bind (DT.nth_mem (by omega)) fun x _ => ?_
  refine DT.bind (R := fun _ => True) ?_ fun st _ => DT.bind (DT.correct hP) fun pos hp => DT.pure hp
  have hmem := hfs.2.1
  clear hfs
  have hgen : ∀ (l : List Nat) (acc : Vec d K), (∀ i ∈ l, i < half c) → DT noErr (l.foldlM (fun (acc : Vec d K) k => do
      let f ← nth s.pop (half c + k)
      let r := normV (fun j => x.sol j - f.sol j)
      let b := p.beta0 * Num.exp (-p.gama * (r * r))
      let dk : K := if compareTarget f.tgt x.tgt c.P.mm then 1 else -1
      let l ← uniformVec (fun _ => 0) (fun _ => 1)
      pure (fun j => acc j + dk * b * l j * (f.sol j - x.sol j))) acc : D c _) (fun _ => True) := by
    intro l
    induction l with
    | nil => exact fun acc _ => DT.pure trivial
    | cons k l ih =>
      intro acc hm
      rw [List.foldlM_cons]
      have hk := hm k (by simp)
      refine DT.bind (R := fun _ => True) ?_ fun acc _ => ih acc (fun i hi => hm i (by simp [hi]))
      exact DT.bind (DT.nth_mem (by omega)) fun f _ => DT.bind DT.uniformVec' fun l _ => DT.pure trivial
  exact hgen fs _ hmem

theorem dt_centre (hE : c.E.Lawful) (h2 : 2 ≤ c.popSize) {males : List (Agent d K Unit)} (hm : males.length = half c) : DT noErr (centre males : D c _) (fun _ => True) := by
  have hh : half c = c.popSize / 2 := rfl
  unfold centre
  exact DT.bind (DT.index hE (by omega)) fun ri hri => DT.bind (DT.nth_mem (by omega)) fun r _ => DT.bind (DT.vecMT fun j => DT.dist) fun u _ => DT.pure trivial

theorem dt_female (hP : c.P.Lawful) {p : Params K} {y : Vec d K} {t : Target K} {s : St c Unit Unit} {i : Nat} (hs : WInv (Inv.std c Unit JT) s) (hi : i < evaluated c) :
    DT noErr (female p y t s i : D c _) (fun q => Feas c q.1) := by
  have hl : s.pop.length = c.popSize := hs.len
  have hh : half c = c.popSize / 2 := rfl
  have he : half c + i < c.popSize := by
    unfold evaluated at hi
    split at hi <;> omega
  unfold female
  refine DT.bind (DT.nth_mem (by omega)) fun f hf => DT.ite (fun _ => ?_) fun _ => DT.pure (hs.pop f hf).2
  refine DT.bind (R := fun _ => True) (DT.ite (fun _ => DT.pure trivial) fun _ => DT.bind (DT.vecMT fun j => DT.dist) fun u _ => DT.pure trivial) fun pos _ => ?_
  exact DT.bind (DT.correct hP) fun pos hp => DT.pure hp

theorem wt_walk (hP : c.P.Lawful) {p : Params K} {ep : Nat} {g : Agent d K Unit} : WT noErr (Inv.std c Unit JT) p.rw p.rw (walk p ep g : M c Unit Unit Unit) (fun _ => True) := by
  unfold walk
  refine WT.bind0 (WT.draw DT.randomVec) fun v _ => ?_
  have h := WT.iter (Er := noErr) (I := Inv.std c Unit (JT : Unit → Prop)) (lo := 1) (hi := 1) (f := fun (_ : Nat) (g : Agent d K Unit) => do
    let x ← draw (correct (fun j => (1 - (♯c.epoch - ♯ep + 1) / ♯c.epoch) * g.sol j + (♯c.epoch - ♯ep + 1) / ♯c.epoch * (c.P.lb j + 4 * v j * (1 - v j) * (c.P.ub j - c.P.lb j))))
    let a ← liftB (agentOf (fun _ => pure ()) x)
    pure (if compareTarget a.tgt g.tgt c.P.mm then a else g)) (fun _ _ => True) p.rw (a := g) trivial fun i a hi _ => ?_
  · rw [Nat.mul_one] at h
    exact WT.bindS h le_rfl fun _ _ => WT.weaken (WT.pure trivial) (by omega) (by omega)
  · exact WT.bind0 (WT.draw (DT.correct hP)) fun x hx => WT.agentOf_std hx (DT.pure trivial) (by omega) fun b _ => WT.pure trivial

theorem framed_walk {p : Params K} {ep : Nat} {g : Agent d K Unit} : Framed true (walk p ep g : M c Unit Unit Unit) := by
  unfold walk; framed

macro_rules
  | `(tactic| fprim) => `(tactic| (at_last MLFA_GD.walk; exact MLFA_GD.framed_walk))

/-- `MLFA_GD` (`mealpy/swarm_based/FFA.py:127-287`) -/
def algo (p : Params K) : Algo c Unit Unit := Algo.plain false (evolve p)

theorem wok (hE : c.E.Lawful) (hP : c.P.Lawful) (hc : Accepted c 5) (p : Params K) (hf : p.females ≤ half c) :
    (algo p : Algo c Unit Unit).WOk noErr (Inv.std c Unit JT) JT JT c.popSize c.popSize 0 0 (MLFA_GD.half c + 1 + MLFA_GD.evaluated c + p.rw) (MLFA_GD.half c + 1 + MLFA_GD.evaluated c + p.rw) := by
  wplainalg hE hP hc evolve
  refine WT.bind0 WT.get fun s hs => ?_
  have hl : s.pop.length = c.popSize := hs.len
  have hh : half c = c.popSize / 2 := rfl
  have he : evaluated c ≤ c.popSize - half c := by
    unfold evaluated
    split <;> omega
  refine WT.bindS (WT.buildEval hE fun s i hs hi => DT.mono (dt_male hE hP (by omega) hf hs.len hi) fun q hq => Inv.std_mk hq) (by omega) fun males hmales => ?_
  refine WT.bind0 (WT.draw (dt_centre hE (by omega) hmales.1)) fun y _ => WT.bind0 (WT.draw (DT.correct hP)) fun yc hyc => WT.getTarget_std hyc (by omega) ?_
  refine WT.bindS (WT.buildEval hE fun s i hs hi => DT.mono (dt_female hP hs hi) fun q hq => Inv.std_mk hq) (by omega) fun fem hfem => ?_
  have h1 := hmales.1
  have h2 := hfem.1
  refine WT.bind0 (WT.setPop ?_ fun a ha => ?_) fun _ _ => ?_
  · change (males ++ (fem ++ (s.pop.drop (half c)).drop (evaluated c))).length = c.popSize
    simp only [List.length_append, List.length_drop]; omega
  · rcases List.mem_append.1 ha with g | g
    · exact hmales.2 a g
    · rcases List.mem_append.1 g with g | g
      · exact hfem.2 a g
      · exact hs.pop a (List.mem_of_mem_drop (List.mem_of_mem_drop g))
  refine WT.bind0 (WT.draw (DT.bestAgent' hE (by simp))) fun g _ => WT.weaken (wt_walk hP) (by omega) (by omega)

theorem framed (hE : c.E.Lawful) (p : Params K) (ep : Nat) : Framed true (evolve p ep : M c Unit Unit Unit) := by
  unfold evolve; framed

end MLFA_GD

end Mealpy
