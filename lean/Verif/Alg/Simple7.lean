import Verif.Alg.Kit8

/-! # Simple optimizers, part 7

`PSO.py` -/

set_option linter.unusedSectionVars false
set_option linter.unusedVariables false

namespace Mealpy
open Spec

variable {d : Nat} {K : Type} [Num K] {c : Cfg d K}
namespace OriginalPSO

/-- the parameters (`mealpy/swarm_based/PSO.py:67-69`) -/
structure Params (K : Type) where
  c1 : K
  c2 : K
  w : K

/-- `OriginalPSO.evolve` (`mealpy/swarm_based/PSO.py:99-117`); positions outside the bounds are redrawn (93-96) -/
def evolve (p : Params K) (ep : Nat) : M c (Bird d K) Unit Unit :=
  iter c.popSize (fun idx _ => do
    let s ← get
    let q ← draw (do
      let x ← nth s.pop idx
      let r1 ← randomVec
      let r2 ← randomVec
      let v : Vec d K := fun j => p.w * x.ext.vel j + p.c1 * r1 j * (x.ext.lsol j - x.sol j) + p.c2 * r2 j * (s.gbest.sol j - x.sol j)
      let pos ← correctWith amendRandom (fun j => x.sol j + v j)
      pure (v, pos))
    Bird.move idx q.1 q.2) ()

/-- `OriginalPSO` (`mealpy/swarm_based/PSO.py:13-117`) -/
def algo (p : Params K) : Algo c (Bird d K) Unit := Algo.full false Bird.mk' (pure ()) (evolve p)

theorem ok (hE : c.E.Lawful) (hP : c.P.Lawful) (hc : Accepted c 5) (p : Params K) :
    (algo p : Algo c (Bird d K) Unit).Ok (FA c) JT JT JT c.popSize c.popSize c.popSize := by
  fullalg hE hP hc evolve
  refine IT.pt (IT.iterS 1 1 (by omega) (by omega) fun idx hi => ?_)
  refine IT.bind0 IT.get fun s hs => ?_
  have hlen := hs.toGoodPop.len
  refine IT.bind0 (IT.draw (R := fun q => Feas c q.2) ?_) fun q hq => Bird.it_move hi hq
  dgo

theorem framed (hE : c.E.Lawful) (p : Params K) (ep : Nat) : Framed true (evolve p ep : M c (Bird d K) Unit Unit) := by
  unfold evolve; framed

end OriginalPSO

namespace AIW_PSO

/-- the parameters (`mealpy/swarm_based/PSO.py:174-176`) -/
structure Params (K : Type) where
  c1 : K
  c2 : K
  alpha : K

/-- half the width of the box (`mealpy/swarm_based/PSO.py:182`) -/
def vmax (c : Cfg d K) : Vec d K := fun j => 0.5 * (c.P.ub j - c.P.lb j)

/-- `AIW_PSO.evolve` (`mealpy/swarm_based/PSO.py:207-230`) -/
def evolve (p : Params K) (ep : Nat) : M c (Bird d K) Unit Unit := do
  let s ← get
  let cb ← draw (bestAgent s.pop)
  iter c.popSize (fun idx _ => do
    let s ← get
    let q ← draw (do
      let x ← nth s.pop idx
      let w : Vec d K := fun j =>
        let den : K := Num.abs (x.ext.lsol j - cb.sol j)
        let isa : K := Num.abs (x.sol j - x.ext.lsol j) / (if den = 0 then 0.000001 else den)
        1 - p.alpha * (1 / (1 + Num.exp (-isa)))
      let r1 ← randomVec
      let r2 ← randomVec
      let v : Vec d K := fun j => clip (w j * x.ext.vel j + p.c1 * r1 j * (x.ext.lsol j - x.sol j) + p.c2 * r2 j * (s.gbest.sol j - x.sol j))
        (-vmax c j) (vmax c j)
      let pos ← correctWith amendRandom (fun j => x.sol j + v j)
      pure (v, pos))
    Bird.move idx q.1 q.2) ()

/-- `AIW_PSO` (`mealpy/swarm_based/PSO.py:120-230`) -/
def algo (p : Params K) : Algo c (Bird d K) Unit := Algo.full false Bird.mk' (pure ()) (evolve p)

theorem ok (hE : c.E.Lawful) (hP : c.P.Lawful) (hc : Accepted c 5) (p : Params K) :
    (algo p : Algo c (Bird d K) Unit).Ok (FA c) JT JT JT c.popSize c.popSize c.popSize := by
  fullalg hE hP hc evolve
  refine IT.pt (IT.bind0 IT.get fun s0 hs0 => ?_)
  have hlen0 := hs0.toGoodPop.len
  refine IT.bind0 (IT.draw (DT.bestAgent' hE (by omega))) fun cb _ => ?_
  refine IT.iterS 1 1 (by omega) (by omega) fun idx hi => ?_
  refine IT.bind0 IT.get fun s hs => ?_
  have hlen := hs.toGoodPop.len
  refine IT.bind0 (IT.draw (R := fun q => Feas c q.2) ?_) fun q hq => Bird.it_move hi hq
  dgo

theorem framed (hE : c.E.Lawful) (p : Params K) (ep : Nat) : Framed true (evolve p ep : M c (Bird d K) Unit Unit) := by
  unfold evolve; framed

end AIW_PSO

namespace LDW_PSO

/-- the parameters (`mealpy/swarm_based/PSO.py:290-293`) -/
structure Params (K : Type) where
  c1 : K
  c2 : K
  wMin : K
  wMax : K

/-- `LDW_PSO.evolve` (`mealpy/swarm_based/PSO.py:325-345`) -/
def evolve (p : Params K) (ep : Nat) : M c (Bird d K) Unit Unit :=
  let w : K := (♯c.epoch - ♯ep) / ♯c.epoch * (p.wMax - p.wMin) + p.wMin
  iter c.popSize (fun idx _ => do
    let s ← get
    let q ← draw (do
      let x ← nth s.pop idx
      let r1 ← randomVec
      let r2 ← randomVec
      let v : Vec d K := fun j => clip (w * x.ext.vel j + p.c1 * r1 j * (x.ext.lsol j - x.sol j) + p.c2 * r2 j * (s.gbest.sol j - x.sol j))
        (-(0.5 * (c.P.ub j - c.P.lb j))) (0.5 * (c.P.ub j - c.P.lb j))
      let pos ← correctWith amendRandom (fun j => x.sol j + v j)
      pure (v, pos))
    Bird.move idx q.1 q.2) ()

/-- `LDW_PSO` (`mealpy/swarm_based/PSO.py:233-345`) -/
def algo (p : Params K) : Algo c (Bird d K) Unit := Algo.full false Bird.mk' (pure ()) (evolve p)

theorem ok (hE : c.E.Lawful) (hP : c.P.Lawful) (hc : Accepted c 5) (p : Params K) :
    (algo p : Algo c (Bird d K) Unit).Ok (FA c) JT JT JT c.popSize c.popSize c.popSize := by
  fullalg hE hP hc evolve
  refine IT.pt (IT.iterS 1 1 (by omega) (by omega) fun idx hi => ?_)
  refine IT.bind0 IT.get fun s hs => ?_
  have hlen := hs.toGoodPop.len
  refine IT.bind0 (IT.draw (R := fun q => Feas c q.2) ?_) fun q hq => Bird.it_move hi hq
  dgo

theorem framed (hE : c.E.Lawful) (p : Params K) (ep : Nat) : Framed true (evolve p ep : M c (Bird d K) Unit Unit) := by
  unfold evolve; framed

end LDW_PSO

namespace P_PSO

/-- `initialize_variables` (`mealpy/swarm_based/PSO.py:397-399`): the speed limit and one angle per particle -/
def vars : D c (Vec d K × List K) := do
  let l ← repM c.popSize (fun _ => uniform 0 (2 * Num.pi))
  pure (fun j => 0.5 * (c.P.ub j - c.P.lb j), l)

/-- one angle per particle -/
def Angles (c : Cfg d K) (y : Vec d K × List K) : Prop := y.2.length = c.popSize

theorem dt_vars {Er : Err → Prop} : DT Er (vars : D c (Vec d K × List K)) (Angles c) := by
  unfold vars
  exact DT.bind (DT.repMT fun _ _ => DT.uniform') fun l hl => DT.pure hl

/-- one particle's velocity and position, and the new angle and speed limit (`mealpy/swarm_based/PSO.py:422-433`) -/
def step (s : St c (Bird d K) (Vec d K × List K)) (idx : Nat) : D c (Vec d K × Vec d K × Vec d K × K) := do
  let x ← nth s.pop idx
  let a ← nth s.ext.2 idx
  let aa : K := 2 * Num.sin a
  let bb : K := 2 * Num.cos a
  let ee : K := Num.pow (Num.abs (Num.cos a)) aa
  let tt : K := Num.pow (Num.abs (Num.sin a)) bb
  let v : Vec d K := fun j =>
    min (max (ee * (x.ext.lsol j - x.sol j) + tt * (s.gbest.sol j - x.sol j)) (-s.ext.1 j)) (s.ext.1 j)
  let pos ← correct (fun j => x.sol j + v j)
  let a' : K := a + Num.abs (aa + bb) * (2 * Num.pi)
  pure (v, pos, fun j => Num.pow (Num.abs (Num.cos a')) 2 * (c.P.ub j - c.P.lb j), a')

theorem dt_step {Er : Err → Prop} (hP : c.P.Lawful) {s : St c (Bird d K) (Vec d K × List K)} {idx : Nat} (h1 : idx < s.pop.length)
    (h2 : idx < s.ext.2.length) : DT Er (step s idx : D c _) (fun q => Feas c q.2.1) := by
  unfold step
  exact DT.bind (DT.nth_mem h1) fun x _ => DT.bind (DT.nth_mem h2) fun a _ => DT.bind (DT.correct hP) fun pos hp => DT.pure hp

/-- `P_PSO.evolve` (`mealpy/swarm_based/PSO.py:417-440`) -/
def evolve (ep : Nat) : M c (Bird d K) (Vec d K × List K) Unit :=
  iter c.popSize (fun idx _ => do
    let s ← get
    let q ← draw (step s idx)
    modExt (fun y => (q.2.2.1, y.2.set idx q.2.2.2))
    Bird.move idx q.1 q.2.1) ()

/-- `P_PSO` (`mealpy/swarm_based/PSO.py:348-440`) -/
def algo : Algo c (Bird d K) (Vec d K × List K) := Algo.full false Bird.mk' vars evolve

theorem ok (hE : c.E.Lawful) (hP : c.P.Lawful) (hc : Accepted c 5) :
    (algo : Algo c (Bird d K) (Vec d K × List K)).Ok (FA c) (Angles c) (Angles c) (Angles c) c.popSize c.popSize c.popSize := by
  have hpop := hc.pop
  unfold algo
  refine Algo.full_ok hE hP (fun x hx => by dgo) (J := (Angles c)) (by exact dt_vars) (fun ep hep1 hep2 => ?_)
  unfold evolve
  refine IT.pt (IT.iterS 1 1 (by omega) (by omega) fun idx hi => ?_)
  refine IT.bind0 IT.get fun s hs => ?_
  have hlen := hs.toGoodPop.len
  have hang : s.ext.2.length = c.popSize := hs.ext
  refine IT.bind0 (IT.draw (dt_step hP (by omega) (by omega))) fun q hq => ?_
  refine IT.bind0 (IT.modExt fun y hy => ?_) fun _ _ => Bird.it_move hi hq
  show (y.2.set idx q.2.2.2).length = c.popSize
  rw [List.length_set]; exact hy

theorem framed (hE : c.E.Lawful) (ep : Nat) : Framed true (evolve ep : M c (Bird d K) (Vec d K × List K) Unit) := by
  unfold evolve; framed

end P_PSO

namespace HPSO_TVAC

/-- the parameters (`mealpy/swarm_based/PSO.py:493-494`) -/
structure Params (K : Type) where
  ci : K
  cf : K

/-- one particle's velocity and position (`mealpy/swarm_based/PSO.py:508-526`); the redraws of a normal variate until it is away from one are
one draw of the conditioned variate -/
def step (p : Params K) (ep : Nat) (s : St c (Bird d K) (Vec d K × List K)) (idx : Nat) : D c (Vec d K × Vec d K) := do
  let cit : K := (p.cf - p.ci) * (♯ep / ♯c.epoch) + p.ci
  let k ← index c.popSize
  let w ← dist "normal away from 1" [0.01]
  let c1 : K := Num.pow (Num.abs w) (cit * w)
  let c2 : K := Num.pow (Num.abs (1 - w)) (cit / (1 - w))
  let x ← nth s.pop idx
  let y ← nth s.pop k
  let r1 ← uniformVec (fun _ => 0) (fun _ => 1)
  let r2 ← uniformVec (fun _ => 0) (fun _ => 1)
  let u1 ← uniform 0 1
  let u2 ← uniform 0 1
  let vm := s.ext.1
  let v : Vec d K := fun j =>
    let v0 : K := c1 * r1 j * (x.ext.lsol j - x.sol j) + c2 * r2 j * (s.gbest.sol j + y.ext.lsol j - 2 * x.sol j)
    let v1 : K := if v0 = 0 then Num.sign (0.5 - u1) * u2 * vm j else v0
    let v2 : K := Num.sign v1 * min (Num.abs v1) (vm j)
    min (max v2 (-vm j)) (vm j)
  let pos ← correct (fun j => x.sol j + v j)
  pure (v, pos)

/-- `HPSO_TVAC.evolve` (`mealpy/swarm_based/PSO.py:503-533`) -/
def evolve (p : Params K) (ep : Nat) : M c (Bird d K) (Vec d K × List K) Unit :=
  iter c.popSize (fun idx _ => do
    let s ← get
    let q ← draw (step p ep s idx)
    Bird.move idx q.1 q.2) ()

/-- `HPSO_TVAC` (`mealpy/swarm_based/PSO.py:443-533`) -/
def algo (p : Params K) : Algo c (Bird d K) (Vec d K × List K) := Algo.full false Bird.mk' P_PSO.vars (evolve p)

theorem ok (hE : c.E.Lawful) (hP : c.P.Lawful) (hc : Accepted c 5) (p : Params K) :
    (algo p : Algo c (Bird d K) (Vec d K × List K)).Ok (FA c) (P_PSO.Angles c) (P_PSO.Angles c) (P_PSO.Angles c) c.popSize c.popSize c.popSize := by
  have hpop := hc.pop
  unfold algo
  refine Algo.full_ok hE hP (fun x hx => by dgo) (J := (P_PSO.Angles c)) (by exact P_PSO.dt_vars) (fun ep hep1 hep2 => ?_)
  unfold evolve
  refine IT.pt (IT.iterS 1 1 (by omega) (by omega) fun idx hi => ?_)
  refine IT.bind0 IT.get fun s hs => ?_
  have hlen := hs.toGoodPop.len
  refine IT.bind0 (IT.draw (R := fun q => Feas c q.2) ?_) fun q hq => Bird.it_move hi hq
  unfold step; dgo

theorem framed (hE : c.E.Lawful) (p : Params K) (ep : Nat) : Framed true (evolve p ep : M c (Bird d K) (Vec d K × List K) Unit) := by
  unfold evolve; framed

end HPSO_TVAC

namespace C_PSO

/-- the parameters (`mealpy/swarm_based/PSO.py:590-593`) -/
structure Params (K : Type) where
  c1 : K
  c2 : K
  wMin : K
  wMax : K

/-- `get_weights__` (`mealpy/swarm_based/PSO.py:605-611`) -/
def weight (p : Params K) (fit avg mn : K) : K :=
  let t : K := p.wMin + (p.wMax - p.wMin) * (fit - mn) / (avg - mn)
  match c.P.mm with
  | .min => if fit ≤ avg then t else p.wMax
  | .max => if fit ≤ avg then p.wMax else t

/-- one particle's velocity and position (`mealpy/swarm_based/PSO.py:627-635`); `s.ext` holds the dynamic bounds -/
def step (p : Params K) (avg mn : K) (s : St c (Bird d K) (Vec d K × Vec d K)) (idx : Nat) : D c (Vec d K × Vec d K) := do
  let x ← nth s.pop idx
  let w := weight (c := c) p x.fit avg mn
  let r1 ← random
  let r2 ← random
  let v : Vec d K := fun j => clip (w * x.ext.vel j + p.c1 * r1 * (x.ext.lsol j - x.sol j) + p.c2 * r2 * (s.gbest.sol j - x.sol j))
    (-(0.5 * (c.P.ub j - c.P.lb j))) (0.5 * (c.P.ub j - c.P.lb j))
  let pos ← correct (fun j => clip (x.sol j + v j) (s.ext.1 j) (s.ext.2 j))
  pure (v, pos)

/-- `C_PSO.evolve` (`mealpy/swarm_based/PSO.py:622-664`). The chaotic candidate is evaluated (650) but only shapes the dynamic bounds; the
comparison ignores `minmax`. -/
def evolve (p : Params K) (ep : Nat) : M c (Bird d K) (Vec d K × Vec d K) Unit := do
  let s ← get
  let avg := meanL (s.pop.map Agent.fit)
  let mn := minL (s.pop.map Agent.fit)
  iter c.popSize (fun idx _ => do
    let s ← get
    let q ← draw (step p avg mn s idx)
    Bird.move idx q.1 q.2) ()
  let s ← get
  let g := s.gbest
  let xb ← draw (correct (fun j =>
    let c0 : K := (g.sol j - c.P.lb j) / (c.P.ub j - c.P.lb j)
    c.P.lb j + 4 * c0 * (1 - c0) * (c.P.ub j - c.P.lb j)))
  let t ← liftB (getTarget xb)
  let gs := if compareTarget t g.tgt .min then xb else g.sol
  let r ← draw random
  modExt (fun y =>
    let lb' : Vec d K := fun j => max (y.1 j) (gs j - r * (y.2 j - y.1 j))
    (lb', fun j => min (y.2 j) (gs j + r * (y.2 j - lb' j))))
  let new ← liftB (generatePopulation Bird.mk' (c.popSize - c.popSize / 5))
  reshape (fun pop => getSortedTrimmed c.E.argsort (pop ++ new) c.popSize c.P.mm)

/-- `C_PSO` (`mealpy/swarm_based/PSO.py:536-664`) -/
def algo (p : Params K) : Algo c (Bird d K) (Vec d K × Vec d K) := Algo.full false Bird.mk' (pure (c.P.lb, c.P.ub)) (evolve p)

theorem wok (hE : c.E.Lawful) (hP : c.P.Lawful) (hc : Accepted c 5) (p : Params K) :
    (algo p : Algo c (Bird d K) (Vec d K × Vec d K)).WOk noErr (Inv.std c (Bird d K) JT) JT JT c.popSize c.popSize 0 0 (c.popSize + 1 + (c.popSize - c.popSize / 5)) (c.popSize + 1 + (c.popSize - c.popSize / 5)) := by
  wfullalg hE hP hc evolve
  refine WT.bind0 WT.get fun s0 hs0 => ?_
  refine WT.iterS 1 1 (by omega) (fun idx hi => ?_) ?_
  · refine WT.bind0 WT.get fun s hs => ?_
    have hlen := hs.len
    refine WT.bind0 (WT.draw (R := fun q => Feas c q.2) ?_) fun q hq => Bird.wt_move hi hq
    unfold step; dgo
  · refine WT.bind0 WT.get fun s hs => WT.bind0 (WT.draw (DT.correct hP)) fun xb hx => WT.getTarget_std hx (by omega) ?_
    refine WT.bind0 (WT.draw DT.random') fun r _ => WT.bind0 (WT.modExt fun _ _ => trivial) fun _ _ => ?_
    refine WT.generatePopulation_std hE hP (fun x hx => Bird.dt_mk' fun _ => trivial) (by omega) fun new hn => ?_
    refine WT.weaken (WT.reshape fun pop hpl hpa => ⟨?_, fun a ha => ?_⟩) (by omega) (by omega)
    · show (getSortedTrimmed _ _ _ _).length = c.popSize
      have : pop.length = c.popSize := hpl
      rw [trimmed_length hE, List.length_append]; omega
    · rcases List.mem_append.1 (trimmed_mem hE ha) with h | h
      · exact hpa a h
      · exact Inv.std_ag (hn.2 a h)

theorem framed (hE : c.E.Lawful) (p : Params K) (ep : Nat) : Framed true (evolve p ep : M c (Bird d K) (Vec d K × Vec d K) Unit) := by
  unfold evolve; framed

end C_PSO

namespace CL_PSO

/-- the parameters (`mealpy/swarm_based/PSO.py:717-720`); `max_flag` only resets a counter that nothing reads -/
structure Params (K : Type) where
  cLocal : K
  wMin : K
  wMax : K

/-- one dimension of the velocity (`mealpy/swarm_based/PSO.py:760-772`) -/
def dimV (p : Params K) (wk pci : K) (s : St c (Bird d K) Unit) (idx : Nat) (x : Agent d K (Bird d K)) (j : Fin d) : D c K := do
  let r ← random
  if r > pci then do
    let r2 ← random
    pure (wk * x.ext.vel j + p.cLocal * r2 * (x.ext.lsol j - x.sol j))
  else do
    let (i1, i2) ← choose2Without c.popSize [idx]
    let a ← nth s.pop i1
    let b ← nth s.pop i2
    let r2 ← random
    let l := if compareTarget a.tgt b.tgt c.P.mm then a.ext.lsol else b.ext.lsol
    pure (wk * x.ext.vel j + p.cLocal * r2 * (l j - x.sol j))

/-- `CL_PSO.evolve` (`mealpy/swarm_based/PSO.py:754-808`). A new particle gets a fresh random velocity (731-736). An agent's own best target
equals its target throughout: both are replaced together, so the updates in 787-789 and 801-803 change nothing and are left out. -/
def evolve (p : Params K) (ep : Nat) : M c (Bird d K) Unit Unit :=
  let wk : K := p.wMax * (♯ep / ♯c.epoch) * (p.wMax - p.wMin)
  greedyLoopR c.popSize (fun s idx => do
    let pci : K := 0.05 + 0.45 * (Num.exp (10 * (♯idx + 1) / ♯c.popSize) - 1) / (Num.exp 10 - 1)
    let x ← nth s.pop idx
    let v ← vecM (dimV p wk pci s idx x)
    let pos ← correct (fun j => x.sol j + clip (v j) (-(0.5 * (c.P.ub j - c.P.lb j))) (0.5 * (c.P.ub j - c.P.lb j)))
    let pos ← correct pos
    let e ← Bird.mk' pos
    pure (pos, e))

/-- `CL_PSO` (`mealpy/swarm_based/PSO.py:667-808`) -/
def algo (p : Params K) : Algo c (Bird d K) Unit := Algo.full false Bird.mk' (pure ()) (evolve p)

theorem ok (hE : c.E.Lawful) (hP : c.P.Lawful) (hc : Accepted c 5) (p : Params K) :
    (algo p : Algo c (Bird d K) Unit).Ok (FA c) JT JT JT c.popSize c.popSize c.popSize := by
  fullalg hE hP hc evolve
  unfold dimV
  iauto

theorem framed (hE : c.E.Lawful) (p : Params K) (ep : Nat) : Framed true (evolve p ep : M c (Bird d K) Unit Unit) := by
  unfold evolve; framed

end CL_PSO

end Mealpy
