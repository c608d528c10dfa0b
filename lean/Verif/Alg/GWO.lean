import Verif.Alg.Rules
import Verif.Chaotic

/-! # Grey wolf optimizers (`mealpy/swarm_based/GWO.py`) -/

set_option linter.unusedSectionVars false
set_option linter.unusedVariables false

namespace Mealpy
open Spec

variable {d : Nat} {K : Type} [Num K] {c : Cfg d K}

/-- the six coefficient vectors `A1, A2, A3, C1, C2, C3` (`mealpy/swarm_based/GWO.py:80-85`) -/
structure Wolves (d : Nat) (K : Type) where
  A1 : Vec d K
  A2 : Vec d K
  A3 : Vec d K
  C1 : Vec d K
  C2 : Vec d K
  C3 : Vec d K

/-- `Ak = ak * (2 * random(n_dims) - 1)`, then `Ck = 2 * random(n_dims)`, `k = 1, 2, 3`
(`mealpy/swarm_based/GWO.py:80-85`) -/
def wolves (a1 a2 a3 : K) : D c (Wolves d K) := do
  let r1 ← randomVec
  let r2 ← randomVec
  let r3 ← randomVec
  let r4 ← randomVec
  let r5 ← randomVec
  let r6 ← randomVec
  pure { A1 := fun j => a1 * (2 * r1 j - 1)
         A2 := fun j => a2 * (2 * r2 j - 1)
         A3 := fun j => a3 * (2 * r3 j - 1)
         C1 := fun j => 2 * r4 j
         C2 := fun j => 2 * r5 j
         C3 := fun j => 2 * r6 j }

/-- `X = b - A * |C * b - x|` (`mealpy/swarm_based/GWO.py:86`) -/
def hunt (A C b x : Vec d K) : Vec d K := fun j => b j - A j * Num.abs (C j * b j - x j)

/-- `X1, X2, X3` around the three leaders (`mealpy/swarm_based/GWO.py:86-88`) -/
def hunt3 {X : Type} (w : Wolves d K) (best : Agent d K X × Agent d K X × Agent d K X) (x : Vec d K) :
    Vec d K × Vec d K × Vec d K :=
  (hunt w.A1 w.C1 best.1.sol x, hunt w.A2 w.C2 best.2.1.sol x, hunt w.A3 w.C3 best.2.2.sol x)

/-- `(X1 + X2 + X3) / 3.0` (`mealpy/swarm_based/GWO.py:89`) -/
def third (X : Vec d K × Vec d K × Vec d K) : Vec d K := fun j => (X.1 j + X.2.1 j + X.2.2 j) / 3

theorem DT.wolves {Er : Err → Prop} {a1 a2 a3 : K} : DT Er (Mealpy.wolves a1 a2 a3 : D c _) (fun _ => True) := by
  unfold Mealpy.wolves; dgo

macro_rules
  | `(tactic| dprim) => `(tactic| (at_head wolves; exact DT.wolves))

namespace OriginalGWO

/-- `OriginalGWO.evolve` (`mealpy/swarm_based/GWO.py:68-98`) -/
def evolve (ep : Nat) : M c Unit Unit Unit := do
  let a : K := 2 - 2 * Num.ofNat ep / Num.ofNat c.epoch
  let s ← get
  let best ← draw (best3 s.pop)
  greedyLoop c.popSize (fun s idx => do
    let w ← wolves a a a
    let x ← nth s.pop idx
    let pos ← correct (third (hunt3 w best x.sol))
    pure (pos, ()))

/-- `OriginalGWO` (`mealpy/swarm_based/GWO.py:14-98`) -/
def algo : Algo c Unit Unit := Algo.plain false evolve

theorem ok (hE : c.E.Lawful) (hP : c.P.Lawful) (hc : Accepted c 5) :
    (algo : Algo c Unit Unit).Ok (FA c) JT JT JT c.popSize c.popSize c.popSize := by
  plainalg hE hP hc evolve
  iauto

theorem framed (hE : c.E.Lawful) (ep : Nat) : Framed true (evolve ep : M c Unit Unit Unit) := by
  unfold evolve; framed

end OriginalGWO

namespace RW_GWO

/-- random walk of the leaders (`mealpy/swarm_based/GWO.py:165-170`) -/
def walk (a : K) (leaders : List (Agent d K Unit)) (_ : St c Unit Unit) (idx : Nat) : D c (Vec d K × Unit) := do
  let l ← nth leaders idx
  let r ← vecM (fun _ => dist "standard_cauchy" [])
  let pos ← correct (fun j => l.sol j + a * r j)
  pure (pos, ())

/-- `RW_GWO.evolve` (`mealpy/swarm_based/GWO.py:151-201`).  Each leader's walk starts from the leader
itself, so in `single` mode too the three new positions do not depend on each other. -/
def evolve (ep : Nat) : M c Unit Unit Unit := do
  let a : K := 2 - 2 * Num.ofNat ep / Num.ofNat c.epoch
  let s ← get
  let leaders ← draw (bestAgents s.pop 3)
  let new ← buildEval leaders.length (walk a leaders)
  let leaders := if c.swarmLike then List.zipWith (greedyPick c.P.mm) leaders new
    else List.zipWith (fun l n => getBetterAgent n l c.P.mm) leaders new
  greedyLoop c.popSize (fun s idx => do
    let w ← wolves a a a
    let x ← nth s.pop idx
    let l0 ← nth leaders 0
    let l1 ← nth leaders 1
    let l2 ← nth leaders 2
    let g := s.gbest.sol
    let X1 : Vec d K := fun j => l0.sol j - w.A1 j * Num.abs (w.C1 j * g j - x.sol j)
    let X2 : Vec d K := fun j => l1.sol j - w.A2 j * Num.abs (w.C2 j * g j - x.sol j)
    let X3 : Vec d K := fun j => l2.sol j - w.A3 j * Num.abs (w.C3 j * g j - x.sol j)
    let pos ← correct (third (X1, X2, X3))
    pure (pos, ()))
  mergeTrim c.popSize leaders

/-- `RW_GWO` (`mealpy/swarm_based/GWO.py:101-201`) -/
def algo : Algo c Unit Unit := Algo.plain false evolve

theorem ok (hE : c.E.Lawful) (hP : c.P.Lawful) (hc : Accepted c 5) :
    (algo : Algo c Unit Unit).Ok (FA c) JT JT JT c.popSize (3 + c.popSize) (3 + c.popSize) := by
  plainalg hE hP hc evolve
  refine IT.pt ?_
  intro s0 hs0
  have hlen0 := hs0.len
  refine Wp.bind (Wp.get ?_)
  refine Wp.bind (Wp.draw (DT.bestAgents hE) ?_)
  rintro leaders r v ⟨hl, hmem⟩
  have hl3 : leaders.length = 3 := by omega
  refine (?_ : ∀ s, Mid (FA c) JT s → (∀ a ∈ leaders, a ∈ s.pop) → Imp (FA c) JT 0 0 s0 s → Wp noErr _ s _)
    _ (hs0.reseed r v) hmem (Imp.refl hs0.toGoodPop r v)
  intro s hs hmem him
  refine Wp.bind (Wp.mono (buildEval_batch hE hs (fun s i hs hi => ?_)) ?_)
  · have : i < leaders.length := hi
    unfold walk; dgo
  rintro new s1 ⟨hn, hb⟩
  have h1 := ImpH.ofBatch hs.toGoodPop hb
  have hold : ∀ a ∈ leaders, Evald c s1.base.log a ∧ FA c a := fun a ha => by
    have h0 := hs.ev a (hmem a ha)
    exact ⟨hb.old h0, hs.feas a (hmem a ha)⟩
  have key : ∀ f : Agent d K Unit → Agent d K Unit → Agent d K Unit,
      (∀ o n, (f o n = o ∨ f o n = n) ∧ NoWorse c.P.mm (f o n).fit o.fit ∧ NoWorse c.P.mm (f o n).fit n.fit) →
      ImpH (FA c) JT 3 3 s s1 (List.zipWith f leaders new) := by
    intro f hf
    have hz := zip_better (c := c) f hf (H := new) (old := leaders) (by omega)
    rw [hn, hl3] at h1
    refine h1.swap hz.1 (fun a ha => ?_)
    rcases hz.2 a ha with h | h
    · exact hold a h
    · exact h1.held a h
  have h2 : ImpH (FA c) JT 3 3 s s1 (if c.swarmLike then List.zipWith (greedyPick c.P.mm) leaders new
      else List.zipWith (fun l n => getBetterAgent n l c.P.mm) leaders new) := by
    split
    · exact key _ (fun o n => ⟨(greedyPick_cases c.P.mm o n).1, (greedyPick_cases c.P.mm o n).2.1,
        (greedyPick_cases c.P.mm o n).2.2.1⟩)
    · exact key _ (fun o n => ⟨(getBetterAgent_cases n o c.P.mm).1.symm, (getBetterAgent_cases n o c.P.mm).2.2,
        (getBetterAgent_cases n o c.P.mm).2.1⟩)
  have hlen : (if c.swarmLike then List.zipWith (greedyPick c.P.mm) leaders new
      else List.zipWith (fun l n => getBetterAgent n l c.P.mm) leaders new).length = 3 := by
    split <;> simp [hn, hl3]
  generalize (if c.swarmLike then List.zipWith (greedyPick c.P.mm) leaders new
      else List.zipWith (fun l n => getBetterAgent n l c.P.mm) leaders new) = L at h2 hlen ⊢
  refine Wp.bind (Wp.mono (greedyLoop_imp hE (h2.mid hs) (fun s i hs hi => ?_)) ?_)
  · have := hs.len
    dgo
  intro _ s2 h3
  exact Wp.mono (ImpH.trim hE (by omega) (h2.trans_imp h3)) fun _ _ h =>
    ⟨(him.trans h).weaken (by omega) (by omega), trivial⟩

theorem framed (hE : c.E.Lawful) (ep : Nat) : Framed true (evolve ep : M c Unit Unit Unit) := by
  unfold evolve; framed

end RW_GWO

namespace GWO_WOA

/-- `GWO_WOA.evolve` (`mealpy/swarm_based/GWO.py:253-288`), `self.bb = 1.0` -/
def evolve (ep : Nat) : M c Unit Unit Unit := do
  let a : K := 2 - Num.ofNat ep / Num.ofNat c.epoch
  let s ← get
  let best ← draw (best3 s.pop)
  greedyLoop c.popSize (fun s idx => do
    let w ← wolves a a a
    let x ← nth s.pop idx
    let u ← random
    let f ← (if u < 0.5 then random else do
      let P ← random
      let L ← uniform (-1) 1
      pure (P * Num.exp (1 * L) * Num.cos (2 * Num.pi * L)))
    let X := hunt3 w best x.sol
    let X1 : Vec d K := fun j =>
      best.1.sol j - w.A1 j * (f * Num.abs (w.C1 j * best.1.sol j - x.sol j))
    let pos ← correct (third (X1, X.2.1, X.2.2))
    pure (pos, ()))

/-- `GWO_WOA` (`mealpy/swarm_based/GWO.py:204-288`) -/
def algo : Algo c Unit Unit := Algo.plain false evolve

theorem ok (hE : c.E.Lawful) (hP : c.P.Lawful) (hc : Accepted c 5) :
    (algo : Algo c Unit Unit).Ok (FA c) JT JT JT c.popSize c.popSize c.popSize := by
  plainalg hE hP hc evolve
  iauto

theorem framed (hE : c.E.Lawful) (ep : Nat) : Framed true (evolve ep : M c Unit Unit Unit) := by
  unfold evolve; framed

end GWO_WOA

namespace IGWO

/-- `a_min in (0.0, 1.6)`, `a_max in [1.0, 4.0]` (`mealpy/swarm_based/GWO.py:342-343`) -/
structure Params (K : Type) [Num K] where
  aMin : K
  aMax : K
  aMin_ok : (0 : K) < aMin ∧ aMin < 1.6
  aMax_ok : (1 : K) ≤ aMax ∧ aMax ≤ 4

/-- `IGWO.evolve` (`mealpy/swarm_based/GWO.py:348-380`), `growth_alpha = 2`, `growth_delta = 3` -/
def evolve (p : Params K) (ep : Nat) : M c Unit Unit Unit := do
  let s ← get
  let best ← draw (best3 s.pop)
  greedyLoop c.popSize (fun s idx => do
    let q : K := Num.ofNat ep / Num.ofNat c.epoch
    let aα : K := p.aMax * Num.exp (Num.pow q 2 * Num.log (p.aMin / p.aMax))
    let aδ : K := p.aMax * Num.exp (Num.pow q 3 * Num.log (p.aMin / p.aMax))
    let aβ : K := (aα + aδ) * 0.5
    let w ← wolves aα aβ aδ
    let x ← nth s.pop idx
    let pos ← correct (third (hunt3 w best x.sol))
    pure (pos, ()))

/-- `IGWO` (`mealpy/swarm_based/GWO.py:291-380`) -/
def algo (p : Params K) : Algo c Unit Unit := Algo.plain false (evolve p)

theorem ok (hE : c.E.Lawful) (hP : c.P.Lawful) (hc : Accepted c 5) (p : Params K) :
    (algo p : Algo c Unit Unit).Ok (FA c) JT JT JT c.popSize c.popSize c.popSize := by
  plainalg hE hP hc evolve
  iauto

theorem framed (hE : c.E.Lawful) (p : Params K) (ep : Nat) : Framed true (evolve p ep : M c Unit Unit Unit) := by
  unfold evolve; framed

end IGWO

namespace ChaoticGWO

/-- `initial_chaotic_value in [0.0, 1.0]`, `chaotic_name` one of ten (`mealpy/swarm_based/GWO.py:451-452`) -/
structure Params (K : Type) [Num K] where
  name : Chaotic.Name
  init : K
  init_ok : (0 : K) ≤ init ∧ init ≤ 1

/-- the value after `n` calls of `_update_chao_value` (`mealpy/swarm_based/GWO.py:460-464`) -/
def chao (name : Chaotic.Name) : Nat → K → K
  | 0, x => x
  | n + 1, x => Chaotic.update name (chao name n x)

/-- `ChaoticGWO.evolve` (`mealpy/swarm_based/GWO.py:466-497`).  `self.chao_value` is updated once per
index; the loop body for `idx` therefore sees the value after `idx + 1` updates. -/
def evolve (p : Params K) (ep : Nat) : M c Unit K Unit := do
  let a : K := 2 - 2 * Num.ofNat ep / Num.ofNat c.epoch
  let s0 ← get
  let best ← draw (best3 s0.pop)
  greedyLoop c.popSize (fun s idx => do
    let ch := chao p.name (idx + 1) s0.ext
    let r1 ← randomVec
    let r2 ← randomVec
    let r3 ← randomVec
    let r4 ← randomVec
    let r5 ← randomVec
    let r6 ← randomVec
    let w : Wolves d K :=
       { A1 := fun j => a * (2 * r1 j * ch - 1)
         A2 := fun j => a * (2 * r2 j * ch - 1)
         A3 := fun j => a * (2 * r3 j * ch - 1)
         C1 := fun j => 2 * r4 j * ch
         C2 := fun j => 2 * r5 j * ch
         C3 := fun j => 2 * r6 j * ch }
    let x ← nth s.pop idx
    let pos ← correct (third (hunt3 w best x.sol))
    pure (pos, ()))
  modify (fun s => { s with ext := chao p.name c.popSize s.ext })

/-- `ChaoticGWO` (`mealpy/swarm_based/GWO.py:383-497`); `ext` is `self.chao_value` -/
def algo (p : Params K) : Algo c Unit K := Algo.withState false (pure p.init) (evolve p)

theorem ok (hE : c.E.Lawful) (hP : c.P.Lawful) (hc : Accepted c 5) (p : Params K) :
    (algo p : Algo c Unit K).Ok (FA c) JT JT JT c.popSize c.popSize c.popSize := by
  have hpop := hc.pop
  refine Algo.withState_ok hE hP (DT.pure trivial) (fun ep h1 h2 => ?_)
  unfold evolve
  iauto

theorem framed (hE : c.E.Lawful) (p : Params K) (ep : Nat) : Framed true (evolve p ep : M c Unit K Unit) := by
  unfold evolve; framed

end ChaoticGWO

namespace FuzzyGWO

/-- `FuzzyGWO.evolve` (`mealpy/swarm_based/GWO.py:561-595`); `increase` is
`fuzzy_name == "increase"` (the other accepted name is `"decrease"`) -/
def evolve (increase : Bool) (ep : Nat) : M c Unit Unit Unit := do
  let a : K := 2 - 2 * Num.ofNat ep / Num.ofNat c.epoch
  let s ← get
  let best ← draw (best3 s.pop)
  greedyLoop c.popSize (fun s idx => do
    let w ← wolves a a a
    let x ← nth s.pop idx
    let X := hunt3 w best x.sol
    let fw := Fuzzy.weights increase (Num.ofNat ep / Num.ofNat c.epoch : K)
    let total := fw.1 + fw.2.1 + fw.2.2
    let pos ← correct (fun j => (X.1 j * fw.1 + X.2.1 j * fw.2.1 + X.2.2 j * fw.2.2) / total)
    pure (pos, ()))

/-- `FuzzyGWO` (`mealpy/swarm_based/GWO.py:500-595`) -/
def algo (increase : Bool) : Algo c Unit Unit := Algo.plain false (evolve increase)

theorem ok (hE : c.E.Lawful) (hP : c.P.Lawful) (hc : Accepted c 5) (increase : Bool) :
    (algo increase : Algo c Unit Unit).Ok (FA c) JT JT JT c.popSize c.popSize c.popSize := by
  plainalg hE hP hc evolve
  iauto

theorem framed (hE : c.E.Lawful) (b : Bool) (ep : Nat) : Framed true (evolve b ep : M c Unit Unit Unit) := by
  unfold evolve; framed

end FuzzyGWO

namespace IncrementalGWO

/-- `explore_factor in [0.0, 5.0]` (`mealpy/swarm_based/GWO.py:655`) -/
structure Params (K : Type) [Num K] where
  exploreFactor : K
  exploreFactor_ok : (0 : K) ≤ exploreFactor ∧ exploreFactor ≤ 5

/-- `IncrementalGWO.evolve` (`mealpy/swarm_based/GWO.py:659-690`) -/
def evolve (p : Params K) (ep : Nat) : M c Unit Unit Unit := do
  let a : K := 2 * (1 - Num.pow (Num.ofNat ep / Num.ofNat c.epoch) p.exploreFactor)
  let s ← get
  let sorted ← draw (sortedPop s.pop)
  let best ← draw (best3 s.pop)
  greedyLoop c.popSize (fun s idx => do
    if idx = 0 then
      let r1 ← randomVec
      let r2 ← randomVec
      let x ← nth s.pop idx
      let pos ← correct (hunt (fun j => a * (2 * r1 j - 1)) (fun j => 2 * r2 j) best.1.sol x.sol)
      pure (pos, ())
    else
      let rest := (rangeWithout sorted.length [idx]).filterMap (fun i => sorted[i]?)
      let pos ← correct (meanPos (rest.map Agent.sol))
      pure (pos, ()))

/-- `IncrementalGWO` (`mealpy/swarm_based/GWO.py:598-690`) -/
def algo (p : Params K) : Algo c Unit Unit := Algo.plain false (evolve p)

theorem ok (hE : c.E.Lawful) (hP : c.P.Lawful) (hc : Accepted c 5) (p : Params K) :
    (algo p : Algo c Unit Unit).Ok (FA c) JT JT JT c.popSize c.popSize c.popSize := by
  plainalg hE hP hc evolve
  iauto

theorem framed (hE : c.E.Lawful) (p : Params K) (ep : Nat) : Framed true (evolve p ep : M c Unit Unit Unit) := by
  unfold evolve; framed

end IncrementalGWO

namespace ExGWO

/-- the hunting step around one leader (`mealpy/swarm_based/GWO.py:757-759`) -/
def around (a : K) (b x : Vec d K) : D c (Vec d K) := do
  let r1 ← randomVec
  let r2 ← randomVec
  pure (hunt (fun j => a * (2 * r1 j - 1)) (fun j => 2 * r2 j) b x)

theorem DT.around {Er : Err → Prop} {a : K} {b x : Vec d K} :
    DT Er (around a b x : D c _) (fun _ => True) := by
  unfold ExGWO.around; dgo

macro_rules
  | `(tactic| dprim) => `(tactic| (at_head around; exact DT.around))

/-- `ExGWO.evolve` (`mealpy/swarm_based/GWO.py:744-780`) -/
def evolve (ep : Nat) : M c Unit Unit Unit := do
  let a : K := 2 * (1 - Num.ofNat ep / Num.ofNat c.epoch)
  let s ← get
  let sorted ← draw (sortedPop s.pop)
  let best ← draw (best3 s.pop)
  greedyLoop c.popSize (fun s idx => do
    let x ← nth s.pop idx
    let p ← (if idx = 0 then around a best.1.sol x.sol
      else if idx = 1 then around a best.2.1.sol x.sol
      else if idx = 2 then around a best.2.2.sol x.sol
      else pure (meanPos ((sorted.take idx).map Agent.sol)))
    let pos ← correct p
    pure (pos, ()))

/-- `ExGWO` (`mealpy/swarm_based/GWO.py:693-780`) -/
def algo : Algo c Unit Unit := Algo.plain false evolve

theorem ok (hE : c.E.Lawful) (hP : c.P.Lawful) (hc : Accepted c 5) :
    (algo : Algo c Unit Unit).Ok (FA c) JT JT JT c.popSize c.popSize c.popSize := by
  plainalg hE hP hc evolve
  iauto

theorem framed (hE : c.E.Lawful) (ep : Nat) : Framed true (evolve ep : M c Unit Unit Unit) := by
  unfold evolve; framed

end ExGWO

namespace ER_GWO

/-- the constructor's ranges (`mealpy/swarm_based/GWO.py:1215-1217`) -/
structure Params (K : Type) [Num K] where
  aInitial : K
  aFinal : K
  miu : K
  aInitial_ok : (0 : K) ≤ aInitial ∧ aInitial ≤ 10
  aFinal_ok : (0 : K) ≤ aFinal ∧ aFinal ≤ aInitial
  miu_ok : (1.0001 : K) ≤ miu ∧ miu ≤ 1.01

/-- `np.linalg.norm` of a position -/
def norm (x : Vec d K) : K := Num.sqrt (sumL (List.ofFn (fun j => x j * x j)))

/-- `ER_GWO.evolve` (`mealpy/swarm_based/GWO.py:1221-1260`) -/
def evolve (p : Params K) (ep : Nat) : M c Unit Unit Unit := do
  let a : K := p.aInitial - (p.aInitial - p.aFinal) * Num.pow p.miu (Num.ofNat ep)
  let s ← get
  let best ← draw (best3 s.pop)
  greedyLoop c.popSize (fun s idx => do
    let w ← wolves a a a
    let x ← nth s.pop idx
    let X := hunt3 w best x.sol
    let d1 := norm X.1
    let d2 := norm X.2.1
    let d3 := norm X.2.2
    let total := d1 + d2 + d3
    let pos ← correct (if total = 0 then third X
      else fun j => (X.1 j * d1 + X.2.1 j * d2 + X.2.2 j * d3) / total)
    pure (pos, ()))

/-- `ER_GWO` (`mealpy/swarm_based/GWO.py:1153-1260`) -/
def algo (p : Params K) : Algo c Unit Unit := Algo.plain false (evolve p)

theorem ok (hE : c.E.Lawful) (hP : c.P.Lawful) (hc : Accepted c 5) (p : Params K) :
    (algo p : Algo c Unit Unit).Ok (FA c) JT JT JT c.popSize c.popSize c.popSize := by
  plainalg hE hP hc evolve
  iauto

theorem framed (hE : c.E.Lawful) (p : Params K) (ep : Nat) : Framed true (evolve p ep : M c Unit Unit Unit) := by
  unfold evolve; framed

end ER_GWO

end Mealpy
