import Verif.Alg.Kit16

/-! # Simple optimizers, part 15

`AGTO.py`, `GTO.py`, `WSO.py`, `PSS.py`, `MSO.py`, `NRO.py`, `SquirrelSA.py` and `OriginalOrcaPA` of `ORCA.py` -/

set_option linter.unusedSectionVars false
set_option linter.unusedVariables false

namespace Mealpy
open Spec

variable {d : Nat} {K : Type} [Num K] {c : Cfg d K}
macro_rules
  | `(tactic| dprim) => `(tactic| (at_head dthrow; exact DT.throw rfl))
macro_rules
  | `(tactic| dprim) => `(tactic| (at_head normalS; exact DT.normalS_err (.head _)))

variable {Er : Err → Prop}

namespace OriginalAGTO

/-- the hyper-parameters (`mealpy/swarm_based/AGTO.py:64-66`) -/
structure Params (K : Type) where
  p1 : K
  p2 : K
  beta : K

/-- exploration (`mealpy/swarm_based/AGTO.py:82-93`) -/
def explore (p1 a cc : K) (s : St c Unit Unit) (idx : Nat) : D c (Vec d K × Unit) := do
  let x ← nth s.pop idx
  let r ← random
  let pos ← (if r < p1 then genSolution else do
      let q ← random
      if q ≥ 0.5 then do
        let z ← uniformVec (fun _ => -a) (fun _ => a)
        let k ← index c.popSize
        let y ← nth s.pop k
        let u ← random
        pure (fun j => (u - a) * y.sol j + cc * z j * x.sol j)
      else do
        let i ← choose2Without c.popSize [idx]
        let y ← nth s.pop i.1
        let z ← nth s.pop i.2
        let u ← random
        pure (fun j => x.sol j - cc * (cc * x.sol j - y.sol j) + u * (x.sol j - z.sol j)) : D c (Vec d K))
  let pos ← correct pos
  pure (pos, ())

/-- exploitation (`mealpy/swarm_based/AGTO.py:108-119`); `mean` is taken before the loop -/
def exploit (p : Params K) (a cc : K) (g : Agent d K Unit) (mean : Vec d K) (s : St c Unit Unit) (idx : Nat) : D c (Vec d K × Unit) := do
  let x ← nth s.pop idx
  let pos ← (if a ≥ p.p2 then do
      let e : K := Num.pow 2 cc
      pure (fun j => cc * Num.pow (Num.pow (Num.abs (mean j)) e) (1.0 / e) * (x.sol j - g.sol j) + x.sol j)
    else do
      let q ← random
      let h ← (if q ≥ 0.5 then normalVec 0 1 else do
        let h ← normal 0 1
        pure (fun _ => h) : D c (Vec d K))
      let r1 ← random
      pure (fun j => g.sol j - (2 * r1 - 1) * (g.sol j - x.sol j) * (p.beta * h j)) : D c (Vec d K))
  let pos ← correct pos
  pure (pos, ())

/-- `OriginalAGTO.evolve` (`mealpy/swarm_based/AGTO.py:70-127`) -/
def evolve (p : Params K) (ep : Nat) : M c Unit Unit Unit := do
  let u ← draw random
  let v ← draw random
  let a : K := (Num.cos (2 * u) + 1) * (1 - ♯ep / ♯c.epoch)
  let cc : K := a * (2 * v - 1)
  greedyLoop c.popSize (explore p.p1 a cc)
  let s ← get
  let r ← updateGlobalBestNoSave s.pop
  greedyLoop c.popSize (exploit p a cc r.2 (meanPos (s.pop.map (·.sol))))

theorem dt_explore (hE : c.E.Lawful) (hP : c.P.Lawful) (hn : 5 ≤ c.popSize) {p1 a cc : K} {s : St c Unit Unit} {i : Nat} (hl : s.pop.length = c.popSize) (hi : i < c.popSize) :
    DT noErr (explore p1 a cc s i : D c _) (Inv.std c Unit JT (Y := Unit)).Mk := by
  unfold explore
  dgo

theorem dt_exploit (hE : c.E.Lawful) (hP : c.P.Lawful) {p : Params K} {a cc : K} {g : Agent d K Unit} {m : Vec d K} {s : St c Unit Unit} {i : Nat} (hl : s.pop.length = c.popSize) (hi : i < c.popSize) :
    DT noErr (exploit p a cc g m s i : D c _) (Inv.std c Unit JT (Y := Unit)).Mk := by
  unfold exploit
  dgo

/-- `OriginalAGTO` (`mealpy/swarm_based/AGTO.py:12-127`) -/
def algo (p : Params K) : Algo c Unit Unit := Algo.plain false (evolve p)

theorem wok (hE : c.E.Lawful) (hP : c.P.Lawful) (hc : Accepted c 5) (p : Params K) :
    (algo p : Algo c Unit Unit).WOk noErr (Inv.std c Unit JT) JT JT c.popSize c.popSize 0 0 (c.popSize + c.popSize) (c.popSize + c.popSize) := by
  wplainalg hE hP hc evolve
  refine WT.bind0 (WT.draw DT.random') fun u _ => WT.bind0 (WT.draw DT.random') fun v _ => ?_
  refine WT.bindS (WT.greedyLoop hE (fun _ h => h) fun s i hs hl hi => dt_explore hE hP (by omega) hl hi) (by omega) fun _ _ => WT.bind0 WT.get fun s hs => ?_
  have hl := hs.len_std
  refine WT.bind0 (WT.updateNoSave hE (by omega) hs.pop) fun r hr => ?_
  exact WT.weaken (WT.greedyLoop hE (fun _ h => h) fun s i hs hl hi => dt_exploit hE hP hl hi) (by omega) (by omega)

theorem framed (hE : c.E.Lawful) (p : Params K) (ep : Nat) : Framed false (evolve p ep : M c Unit Unit Unit) := by
  unfold evolve; framed

end OriginalAGTO

namespace MGTO

/-- the elite opposition of the whole population (`mealpy/swarm_based/AGTO.py:202-207`) -/
def mirror (s : St c Unit Unit) (idx : Nat) : D c (Vec d K × Unit) := do
  let x ← nth s.pop idx
  let pos ← correctWith amendRandom (fun j => minL (s.pop.map (·.sol j)) + maxL (s.pop.map (·.sol j)) - x.sol j)
  pure (pos, ())

/-- exploration (`mealpy/swarm_based/AGTO.py:220-230`) -/
def explore (pp cc l : K) (s : St c Unit Unit) (idx : Nat) : D c (Vec d K × Unit) := do
  let x ← nth s.pop idx
  let r ← random
  let pos ← (if r < pp then genSolution else do
      let q ← random
      if q ≥ 0.5 then do
        let k ← index c.popSize
        let y ← nth s.pop k
        let u ← random
        let v ← uniform (-cc) cc
        pure (fun j => (u - cc) * y.sol j + l * v * x.sol j)
      else do
        let i ← choose2Without c.popSize [idx]
        let y ← nth s.pop i.1
        let z ← nth s.pop i.2
        let u ← random
        pure (fun j => x.sol j - l * (l * x.sol j - y.sol j) + u * (x.sol j - z.sol j)) : D c (Vec d K))
  let pos ← correctWith amendRandom pos
  pure (pos, ())

/-- exploitation (`mealpy/swarm_based/AGTO.py:245-255`) -/
def exploit (cc l : K) (gb : Agent d K Unit) (mean : Vec d K) (s : St c Unit Unit) (idx : Nat) : D c (Vec d K × Unit) := do
  let x ← nth s.pop idx
  let pos ← (if Num.abs cc ≥ 1 then do
      let g ← pick [(-0.5 : K), 2]
      let q ← uniformVec (fun _ => 0) (fun _ => 1)
      pure (fun j => l * Num.pow (Num.pow (Num.abs (mean j)) g) (1.0 / g) * (x.sol j - gb.sol j) * (0.01 * Num.tan (Num.pi * (q j - 0.5))))
    else do
      let u ← random
      let q : K := 2 * u - 1
      let v ← uniform 0 1
      pure (fun j => gb.sol j - q * (gb.sol j - x.sol j) * Num.tan (v * Num.pi / 2)) : D c (Vec d K))
  let pos ← correctWith amendRandom pos
  pure (pos, ())

/-- `MGTO.evolve` (`mealpy/swarm_based/AGTO.py:190-263`) -/
def evolve (pp : K) (ep : Nat) : M c Unit Unit Unit := do
  let u ← draw random
  let sg ← draw (pick [(-1 : K), 1])
  let cc : K := (1 + Num.cos (2 * u)) * (1 - ♯ep / ♯c.epoch)
  let l : K := cc * sg
  let new ← buildEval c.popSize mirror
  setPop new
  let s ← get
  let r ← updateGlobalBestNoSave s.pop
  greedyLoop c.popSize (explore pp cc l)
  let s ← get
  let r ← updateGlobalBestNoSave s.pop
  greedyLoop c.popSize (exploit cc l r.2 (meanPos (s.pop.map (·.sol))))

theorem dt_mirror (hP : c.P.Lawful) {s : St c Unit Unit} {i : Nat} (hl : s.pop.length = c.popSize) (hi : i < c.popSize) :
    DT noErr (mirror s i : D c _) (Inv.std c Unit JT (Y := Unit)).Mk := by
  unfold mirror
  dgo

theorem dt_explore (hE : c.E.Lawful) (hP : c.P.Lawful) (hn : 5 ≤ c.popSize) {p1 a cc : K} {s : St c Unit Unit} {i : Nat} (hl : s.pop.length = c.popSize) (hi : i < c.popSize) :
    DT noErr (explore p1 a cc s i : D c _) (Inv.std c Unit JT (Y := Unit)).Mk := by
  unfold explore
  dgo

theorem dt_exploit (hE : c.E.Lawful) (hP : c.P.Lawful) {a cc : K} {g : Agent d K Unit} {m : Vec d K} {s : St c Unit Unit} {i : Nat} (hl : s.pop.length = c.popSize) (hi : i < c.popSize) :
    DT noErr (exploit a cc g m s i : D c _) (Inv.std c Unit JT (Y := Unit)).Mk := by
  unfold exploit
  dgo

/-- `MGTO` (`mealpy/swarm_based/AGTO.py:130-263`) -/
def algo (p : K) : Algo c Unit Unit := Algo.plain false (evolve p)

theorem wok (hE : c.E.Lawful) (hP : c.P.Lawful) (hc : Accepted c 5) (p : K) :
    (algo p : Algo c Unit Unit).WOk noErr (Inv.std c Unit JT) JT JT c.popSize c.popSize 0 0 (c.popSize + c.popSize + c.popSize) (c.popSize + c.popSize + c.popSize) := by
  wplainalg hE hP hc evolve
  refine WT.bind0 (WT.draw DT.random') fun u _ => WT.bind0 (WT.draw (DT.pick hE (by simp))) fun sg _ => ?_
  refine WT.bindS (WT.buildEval hE fun s i hs hi => dt_mirror hP hs.len_std hi) (by omega) fun new hnew => ?_
  refine WT.bind0 (WT.setPop hnew.1 hnew.2) fun _ _ => WT.bind0 WT.get fun s hs => ?_
  have hl := hs.len_std
  refine WT.bind0 (WT.updateNoSave hE (by omega) hs.pop) fun r hr => ?_
  refine WT.bindS (WT.greedyLoop hE (fun _ h => h) fun s i hs hl hi => dt_explore hE hP (by omega) hl hi) (by omega) fun _ _ => WT.bind0 WT.get fun s hs => ?_
  have hl := hs.len_std
  refine WT.bind0 (WT.updateNoSave hE (by omega) hs.pop) fun r hr => ?_
  exact WT.weaken (WT.greedyLoop hE (fun _ h => h) fun s i hs hl hi => dt_exploit hE hP hl hi) (by omega) (by omega)

theorem framed (hE : c.E.Lawful) (p : K) (ep : Nat) : Framed false (evolve p ep : M c Unit Unit Unit) := by
  unfold evolve; framed

end MGTO

namespace OriginalGTO

/-- the hyper-parameters (`mealpy/swarm_based/GTO.py:76-77`) -/
structure Params (K : Type) where
  A : K
  H : K

/-- extensive search (`mealpy/swarm_based/GTO.py:92-94`); the scalar random factors multiply vectors -/
def roam (g : Agent d K Unit) (s : St c Unit Unit) (_ : Nat) : D c (Vec d K × Unit) := do
  let u ← random
  let v ← random
  let l ← levyVec 1.5 0.01 (-1)
  let pos ← correct (fun j => g.sol j * u + ((c.P.ub j - c.P.lb j) * v + c.P.lb j) * l j)
  pure (pos, ())

/-- choosing an area (`mealpy/swarm_based/GTO.py:110-112`) -/
def choose (A : K) (g : Agent d K Unit) (mean : Vec d K) (s : St c Unit Unit) (idx : Nat) : D c (Vec d K × Unit) := do
  let x ← nth s.pop idx
  let r3 ← random
  let pos ← correct (fun j => g.sol j * A * r3 + mean j - x.sol j * r3)
  pure (pos, ())

/-- attacking (`mealpy/swarm_based/GTO.py:128-134`); `q` is `1.33 / 1.00029`, in the other classes `1.3296` -/
def attack (q H : K) (g : Agent d K Unit) (s : St c Unit Unit) (idx : Nat) : D c (Vec d K × Unit) := do
  let x ← nth s.pop idx
  let dist : K := sumL ((List.finRange d).map (fun j => Num.abs (g.sol j - x.sol j)))
  let u ← random
  let theta2 : K := (360 - 0) * u + 0
  let theta1 : K := q * Num.sin (Num.ufunc "radians" theta2)
  let vd : K := Num.sin (Num.ufunc "radians" theta1) * dist
  let pos ← correct (fun j => x.sol j * Num.sin (Num.ufunc "radians" theta2) * x.tgt.fitness + vd + H)
  pure (pos, ())

/-- `OriginalGTO.evolve` (`mealpy/swarm_based/GTO.py:81-142`) -/
def evolve (p : Params K) (ep : Nat) : M c Unit Unit Unit := do
  let s ← get
  greedyLoop c.popSize (roam s.gbest)
  let s ← get
  let r ← updateGlobalBestNoSave s.pop
  setPop r.1
  greedyLoop c.popSize (choose p.A r.2 (meanPos (r.1.map (·.sol))))
  let s ← get
  let r ← updateGlobalBestNoSave s.pop
  let u ← draw random
  greedyLoop c.popSize (attack (1.33 / 1.00029) (u * p.H * (1 - ♯ep / ♯c.epoch)) r.2)

theorem dt_roam (hE : c.E.Lawful) (hP : c.P.Lawful) {g : Agent d K Unit} {s : St c Unit Unit} {i : Nat} :
    DT noErr (roam g s i : D c _) (Inv.std c Unit JT (Y := Unit)).Mk := by
  unfold roam
  dgo

theorem dt_choose (hE : c.E.Lawful) (hP : c.P.Lawful) {A : K} {g : Agent d K Unit} {m : Vec d K} {s : St c Unit Unit} {i : Nat} (hl : s.pop.length = c.popSize) (hi : i < c.popSize) :
    DT noErr (choose A g m s i : D c _) (Inv.std c Unit JT (Y := Unit)).Mk := by
  unfold choose
  dgo

theorem dt_attack (hE : c.E.Lawful) (hP : c.P.Lawful) {q H : K} {g : Agent d K Unit} {s : St c Unit Unit} {i : Nat} (hl : s.pop.length = c.popSize) (hi : i < c.popSize) :
    DT noErr (attack q H g s i : D c _) (Inv.std c Unit JT (Y := Unit)).Mk := by
  unfold attack
  dgo

/-- `OriginalGTO` (`mealpy/swarm_based/GTO.py:12-142`) -/
def algo (p : Params K) : Algo c Unit Unit := Algo.plain true (evolve p)

theorem wok (hE : c.E.Lawful) (hP : c.P.Lawful) (hc : Accepted c 5) (p : Params K) :
    (algo p : Algo c Unit Unit).WOk noErr (Inv.std c Unit JT) JT JT c.popSize c.popSize 0 0 (c.popSize + c.popSize + c.popSize) (c.popSize + c.popSize + c.popSize) := by
  wplainalg hE hP hc evolve
  refine WT.bind0 WT.get fun s _ => WT.bindS (WT.greedyLoop hE (fun _ h => h) fun s i hs hl hi => dt_roam hE hP) (by omega) fun _ _ => WT.bind0 WT.get fun s hs => ?_
  have hl := hs.len_std
  refine WT.bind0 (WT.updateNoSave hE (by omega) hs.pop) fun r hr => WT.bind0 (WT.setPop (hr.1.trans hl) hr.2.1) fun _ _ => ?_
  refine WT.bindS (WT.greedyLoop hE (fun _ h => h) fun s i hs hl hi => dt_choose hE hP hl hi) (by omega) fun _ _ => WT.bind0 WT.get fun s hs => ?_
  have hl := hs.len_std
  refine WT.bind0 (WT.updateNoSave hE (by omega) hs.pop) fun r hr => WT.bind0 (WT.draw DT.random') fun u _ => ?_
  exact WT.weaken (WT.greedyLoop hE (fun _ h => h) fun s i hs hl hi => dt_attack hE hP hl hi) (by omega) (by omega)

theorem framed (hE : c.E.Lawful) (p : Params K) (ep : Nat) : Framed false (evolve p ep : M c Unit Unit Unit) := by
  unfold evolve; framed

end OriginalGTO

namespace Matlab102GTO

/-- choosing an area (`mealpy/swarm_based/GTO.py:231-237`); the mean is that of the population as it is now -/
def choose (g : Agent d K Unit) (s : St c Unit Unit) (idx : Nat) : D c (Vec d K × Unit) :=
  OriginalGTO.choose 0.4 g (meanPos (s.pop.map (·.sol))) s idx

/-- `Matlab102GTO.evolve` (`mealpy/swarm_based/GTO.py:203-269`) -/
def evolve (ep : Nat) : M c Unit Unit Unit := do
  let s ← get
  greedyLoop c.popSize (OriginalGTO.roam s.gbest)
  let s ← get
  let r ← updateGlobalBestNoSave s.pop
  setPop r.1
  greedyLoop c.popSize (choose r.2)
  let s ← get
  let r ← updateGlobalBestNoSave s.pop
  setPop r.1
  let u ← draw random
  greedyLoop c.popSize (OriginalGTO.attack 1.3296 (u * 2 * (1 - ♯ep / ♯c.epoch)) r.2)

/-- `Matlab102GTO` (`mealpy/swarm_based/GTO.py:145-269`) -/
def algo : Algo c Unit Unit := Algo.plain true evolve

theorem wok (hE : c.E.Lawful) (hP : c.P.Lawful) (hc : Accepted c 5) :
    (algo : Algo c Unit Unit).WOk noErr (Inv.std c Unit JT) JT JT c.popSize c.popSize 0 0 (c.popSize + c.popSize + c.popSize) (c.popSize + c.popSize + c.popSize) := by
  wplainalg hE hP hc evolve
  refine WT.bind0 WT.get fun s _ => WT.bindS (WT.greedyLoop hE (fun _ h => h) fun s i hs hl hi => OriginalGTO.dt_roam hE hP) (by omega) fun _ _ => WT.bind0 WT.get fun s hs => ?_
  have hl := hs.len_std
  refine WT.bind0 (WT.updateNoSave hE (by omega) hs.pop) fun r hr => WT.bind0 (WT.setPop (hr.1.trans hl) hr.2.1) fun _ _ => ?_
  refine WT.bindS (WT.greedyLoop hE (fun _ h => h) fun s i hs hl hi => OriginalGTO.dt_choose hE hP hl hi) (by omega) fun _ _ => WT.bind0 WT.get fun s hs => ?_
  have hl := hs.len_std
  refine WT.bind0 (WT.updateNoSave hE (by omega) hs.pop) fun r hr => WT.bind0 (WT.setPop (hr.1.trans hl) hr.2.1) fun _ _ => WT.bind0 (WT.draw DT.random') fun u _ => ?_
  exact WT.weaken (WT.greedyLoop hE (fun _ h => h) fun s i hs hl hi => OriginalGTO.dt_attack hE hP hl hi) (by omega) (by omega)

theorem framed (hE : c.E.Lawful) (ep : Nat) : Framed false (evolve ep : M c Unit Unit Unit) := by
  unfold evolve; framed

end Matlab102GTO

namespace Matlab101GTO

/-- `n - 1` attempts for each agent, which becomes the best of them and itself (`mealpy/swarm_based/GTO.py:337-351` and `377-397`) -/
def swarm (mk : Nat → St c Unit Unit → Nat → D c (Vec d K × Unit)) : M c Unit Unit Unit :=
  iter c.popSize (fun i _ => do
    let new ← buildEval (c.popSize - 1) (mk i)
    let old ← popAt i
    let b ← draw (bestAgent (new ++ [old]))
    setAt i b) ()

/-- `Matlab101GTO.evolve` (`mealpy/swarm_based/GTO.py:329-397`) -/
def evolve (ep : Nat) : M c Unit Unit Unit := do
  let s ← get
  swarm (fun _ => OriginalGTO.roam s.gbest)
  let s ← get
  let r ← updateGlobalBestNoSave s.pop
  greedyLoop c.popSize (OriginalGTO.choose 0.4 r.2 (meanPos (s.pop.map (·.sol))))
  let s ← get
  let r ← updateGlobalBestNoSave s.pop
  let u ← draw random
  swarm (fun i s _ => OriginalGTO.attack 1.3296 (u * 2 * (1.0 - ♯ep / ♯c.epoch)) r.2 s i)

theorem wt_swarm (hE : c.E.Lawful) {mk : Nat → St c Unit Unit → Nat → D c (Vec d K × Unit)}
    (hmk : ∀ i s j, i < c.popSize → s.pop.length = c.popSize → DT noErr (mk i s j) (Inv.std c Unit JT (Y := Unit)).Mk) :
    WT noErr (Inv.std c Unit JT) (c.popSize * (c.popSize - 1)) (c.popSize * (c.popSize - 1)) (swarm mk : M c Unit Unit Unit) (fun _ => True) := by
  unfold swarm
  refine WT.iterU (c.popSize - 1) (c.popSize - 1) le_rfl le_rfl fun i hi => ?_
  refine WT.bindS (WT.buildEval hE fun s j hs hj => hmk i s j hi hs.len_std) le_rfl fun new hnew => ?_
  refine WT.bind0 (WT.popAt (by wsz)) fun old ho => WT.bind0 (WT.draw (DT.bestAgent' hE (by rw [List.length_append]; simp))) fun b hb => ?_
  refine WT.weaken (WT.setAt (by wsz) ?_) (by omega) (by omega)
  have hm : b ∈ new ++ [old] := by first | exact hb | exact hb.1
  rcases List.mem_append.1 hm with g | g
  · exact hnew.2 b g
  · rw [List.mem_singleton.1 g]; exact ho

theorem framed_swarm (hE : c.E.Lawful) {mk : Nat → St c Unit Unit → Nat → D c (Vec d K × Unit)} : Framed false (swarm mk : M c Unit Unit Unit) := by
  unfold swarm; framed

macro_rules
  | `(tactic| fprim) => `(tactic| (at_last Matlab101GTO.swarm; exact Matlab101GTO.framed_swarm (by assumption)))

/-- `Matlab101GTO` (`mealpy/swarm_based/GTO.py:272-397`) -/
def algo : Algo c Unit Unit := Algo.plain true evolve

theorem wok (hE : c.E.Lawful) (hP : c.P.Lawful) (hc : Accepted c 5) :
    (algo : Algo c Unit Unit).WOk noErr (Inv.std c Unit JT) JT JT c.popSize c.popSize 0 0 (c.popSize * (c.popSize - 1) + c.popSize + c.popSize * (c.popSize - 1)) (c.popSize * (c.popSize - 1) + c.popSize + c.popSize * (c.popSize - 1)) := by
  wplainalg hE hP hc evolve
  refine WT.bind0 WT.get fun s _ => WT.bindS (wt_swarm hE fun i s j hi hl => OriginalGTO.dt_roam hE hP) (by omega) fun _ _ => WT.bind0 WT.get fun s hs => ?_
  have hl := hs.len_std
  refine WT.bind0 (WT.updateNoSave hE (by omega) hs.pop) fun r hr => ?_
  refine WT.bindS (WT.greedyLoop hE (fun _ h => h) fun s i hs hl hi => OriginalGTO.dt_choose hE hP hl hi) (by omega) fun _ _ => WT.bind0 WT.get fun s hs => ?_
  have hl := hs.len_std
  refine WT.bind0 (WT.updateNoSave hE (by omega) hs.pop) fun r hr => WT.bind0 (WT.draw DT.random') fun u _ => ?_
  exact WT.weaken (wt_swarm hE fun i s j hi hl => OriginalGTO.dt_attack hE hP hl hi) (by omega) (by omega)

theorem framed (hE : c.E.Lawful) (ep : Nat) : Framed false (evolve ep : M c Unit Unit Unit) := by
  unfold evolve; framed

end Matlab101GTO

namespace OriginalWSO

/-- the hyper-parameters (`mealpy/swarm_based/WSO.py:93-100`) -/
structure Params (K : Type) where
  tau : K
  pMin : K
  pMax : K
  fMin : K
  fMax : K
  a0 : K
  a1 : K
  a2 : K

/-- `floor(pop_size * u)` is an index for every `u` in [0, 1). It is so for doubles. -/
def Indexes (c : Cfg d K) : Prop := ∀ u : K, 0 ≤ u → u < 1 → 0 ≤ Num.floor (♯c.popSize * u) ∧ Num.floor (♯c.popSize * u) < c.popSize

/-- the new positions before their correction (`mealpy/swarm_based/WSO.py:115-168`). The attribute `v` keeps the zeros it gets before the
first epoch: line 133 assigns a local variable. numpy computes `uniform(0, 1)` as
`random()`; the indices need it to be below 1. With `tau < 4` the real code computes NaN. -/
def moves (p : Params K) (ep : Nat) (s : St c Unit Unit) : D c (List (Vec d K)) := do
  let e : K := Num.exp (-((4.0 * ♯ep / ♯c.epoch) * (4.0 * ♯ep / ♯c.epoch)))
  let p1 : K := p.pMax + (p.pMax - p.pMin) * e
  let p2 : K := p.pMin + (p.pMax - p.pMin) * e
  let mv : K := 1.0 / (p.a0 + Num.exp ((♯c.epoch / 2.0 - ♯ep) / p.a1))
  let ss : K := Num.abs (1.0 - Num.exp (-p.a2 * ♯ep / ♯c.epoch))
  let mu : K := 2.0 / Num.abs (2.0 - p.tau - Num.sqrt (p.tau * p.tau - 4.0 * p.tau))
  let us ← repM c.popSize (fun _ => random)
  let c1 ← repM c.popSize (fun _ => uniformVec (fun _ => 0) (fun _ => 1))
  let c2 ← repM c.popSize (fun _ => uniformVec (fun _ => 0) (fun _ => 1))
  let fs ← repM c.popSize (fun _ => uniform 0 1)
  let rs ← repM c.popSize (fun _ => uniform 0 1)
  repM c.popSize (fun idx => do
    let x ← nth s.pop idx
    let u ← nth us idx
    let w ← nth s.pop (Num.floor (♯c.popSize * u)).toNat
    let a ← nth c1 idx
    let b ← nth c2 idx
    let f ← nth fs idx
    let r ← nth rs idx
    let new : Vec d K := if r < mv then
        (fun j =>
          let above : Bool := decide (x.sol j - c.P.ub j > 0)
          let below : Bool := decide (x.sol j - c.P.lb j < 0)
          (if xor above below then 0 else x.sol j) + (if above then c.P.ub j else 0) + (if below then c.P.lb j else 0))
      else (fun j => x.sol j + mu * (0 + p1 * (s.gbest.sol j - x.sol j) * a j + p2 * (w.sol j - x.sol j) * b j) / (p.fMin + (p.fMax - p.fMin) * f))
    let new : Vec d K := fun j => clip (new j) (c.P.lb j) (c.P.ub j)
    let q ← uniformVec (fun _ => 0) (fun _ => 1)
    let r1 ← uniformVec (fun _ => 0) (fun _ => 1)
    let r2 ← uniformVec (fun _ => 0) (fun _ => 1)
    if ♯idx < ss * ♯c.popSize then do
      let z ← uniformVec (fun _ => 0) (fun _ => 1)
      pure (fun j => (new j + (s.gbest.sol j + r1 j * Num.abs (q j * (s.gbest.sol j - new j)) * (if r2 j - 0.5 > 0 then 1 else -1))) / (2.0 * z j))
    else pure new)

/-- `OriginalWSO.evolve` (`mealpy/swarm_based/WSO.py:110-183`) -/
def evolve (p : Params K) (ep : Nat) : M c Unit Unit Unit := do
  let s ← get
  let w ← draw (moves p ep s)
  greedyLoop c.popSize (fun _ idx => do
    let x ← nth w idx
    let pos ← correct x
    pure (pos, ()))

theorem dt_moves (hE : c.E.Lawful) (hx : Indexes c) {p : Params K} {ep : Nat} {s : St c Unit Unit} (hl : s.pop.length = c.popSize) :
    DT noErr (moves p ep s : D c _) (fun l => l.length = c.popSize) := by
  unfold moves
  refine DT.bind (DT.repM fun i _ => DT.random hE) fun us hu => DT.bind (DT.repMT fun i _ => DT.uniformVec') fun c1 h1 => ?_
  refine DT.bind (DT.repMT fun i _ => DT.uniformVec') fun c2 h2 => DT.bind (DT.repMT fun i _ => DT.uniform') fun fs h3 => ?_
  refine DT.bind (DT.repMT fun i _ => DT.uniform') fun rs h4 => DT.repMT fun i hi => ?_
  refine DT.bind (DT.nth_mem (by omega)) fun x _ => DT.bind (DT.nth_mem (by omega)) fun u hum => ?_
  have h5 := hx u (hu.2 u hum).1 (hu.2 u hum).2
  refine DT.bind (DT.nth_mem (by omega)) fun w _ => ?_
  dgo

/-- `OriginalWSO` (`mealpy/swarm_based/WSO.py:12-183`) -/
def algo (p : Params K) : Algo c Unit Unit := Algo.plain false (evolve p)

theorem ok (hE : c.E.Lawful) (hP : c.P.Lawful) (hc : Accepted c 5) (p : Params K) (hx : Indexes c) :
    (algo p : Algo c Unit Unit).Ok (FA c) JT JT JT c.popSize c.popSize c.popSize := by
  plainalg hE hP hc evolve
  refine PT.bind0 IT.get fun s hs => PT.bind0 (IT.draw (dt_moves hE hx hs.len)) fun w hw => IT.pt (IT.greedyLoop hE fun s i hs hl hi => ?_)
  refine DT.bind (DT.nth_mem (by omega)) fun x _ => ?_
  dgo

theorem framed (hE : c.E.Lawful) (p : Params K) (ep : Nat) : Framed true (evolve p ep : M c Unit Unit Unit) := by
  unfold evolve; framed

end OriginalWSO

namespace OriginalPSS

/-- the hyper-parameters (`mealpy/math_based/PSS.py:66-67`); `mc` if `sampling_method` is "MC", otherwise it is "LHS" -/
structure Params (K : Type) where
  rate : K
  mc : Bool

/-- `create_population` (`mealpy/math_based/PSS.py:76-82`). `generator.random(pop_size, n_dims)` passes `n_dims` as the `dtype` and raises
`TypeError`. The Latin hypercube sampler does not use `self.generator` and is not seeded; the rows drawn here are arbitrary. -/
def samples (p : Params K) : D c (List (Vec d K)) :=
  if p.mc then dthrow .type else repM c.popSize (fun _ => randomVec)

/-- `round(x / steps) * steps` (`mealpy/math_based/PSS.py:72-73`, `89` and `125`) -/
def onGrid (x : K) : K := Num.ufunc "round" (x / 10e-10) * 10e-10

/-- `initialization` (`mealpy/math_based/PSS.py:84-94`): starting solutions are ignored, but they have been evaluated -/
def initialization (p : Params K) (y : Bool) (_ : Option (List (Agent d K Unit))) : B c (List (Agent d K Unit) × Bool) := do
  let rows ← liftD (samples p)
  let pop ← iter c.popSize (fun i acc => do
    let x ← liftD (do
      let r ← nth rows i
      correct (fun j => onGrid (c.P.lb j + r j * (c.P.ub j - c.P.lb j))))
    let t ← getTarget x
    pure (acc ++ [⟨x, t, ()⟩])) []
  pure (pop, y)

/-- a new position (`mealpy/math_based/PSS.py:106-127`). The whole vector is rounded after each of its coordinates is set, so coordinate
`j` is rounded `d - j` times. -/
def move (p : Params K) (ep : Nat) (rows : List (Vec d K)) (s : St c Unit Bool) (idx : Nat) : D c (Vec d K × Unit) := do
  let x ← nth s.pop idx
  let r ← nth rows idx
  let pos ← vecM (fun j => do
    let dev ← uniform (min 0 (s.gbest.sol j)) (max 0 (s.gbest.sol j))
    let dev : K := if s.ext then Num.abs (0.5 * (1 - p.rate) * (c.P.ub j - c.P.lb j)) * (1 - ♯ep / ♯c.epoch) else dev
    let lo : K := max (s.gbest.sol j - dev) (c.P.lb j)
    let up : K := min (lo + dev * 2) (c.P.ub j)
    let u ← random
    let v : K := if u ≤ p.rate then lo + r j * (up - lo) else c.P.lb j + r j * (c.P.ub j - c.P.lb j)
    pure (onGrid^[d - j.val] v))
  let pos ← correct pos
  pure (pos, ())

/-- `OriginalPSS.evolve` (`mealpy/math_based/PSS.py:96-137`) -/
def evolve (p : Params K) (ep : Nat) : M c Unit Bool Unit := do
  let rows ← draw (samples p)
  let new ← buildEval c.popSize (move p ep rows)
  setPop new
  let b ← draw (bestAgent new)
  let s ← get
  modExt (fun _ => compareTarget b.tgt s.gbest.tgt c.P.mm)

theorem dt_samples {p : Params K} (hm : p.mc = false) : DT noErr (samples p : D c _) (fun l => l.length = c.popSize) := by
  unfold samples
  rw [hm]
  exact DT.repMT fun i _ => DT.randomVec

theorem dt_move (hE : c.E.Lawful) (hP : c.P.Lawful) {p : Params K} {ep : Nat} {rows : List (Vec d K)} {s : St c Unit Bool} {i : Nat}
    (hr : rows.length = c.popSize) (hl : s.pop.length = c.popSize) (hi : i < c.popSize) :
    DT noErr (move p ep rows s i : D c _) (Inv.std c Unit (JT : Bool → Prop)).Mk := by
  unfold move
  dgo

theorem bt_init (hP : c.P.Lawful) {p : Params K} (hm : p.mc = false) {y : Bool} {q : Option (List (Agent d K Unit))} :
    BT noErr c.popSize c.popSize (initialization p y q : B c _) (fun r => r.1.length = c.popSize ∧ (∀ a ∈ r.1, CF c a) ∧ JT r.2) := by
  unfold initialization
  refine BT.bind0 (BT.liftD (dt_samples hm)) fun rows hr => ?_
  refine BT.bindS (BT.weaken (BT.iter (fun i (l : List (Agent d K Unit)) => l.length = i ∧ ∀ a ∈ l, CF c a) c.popSize (lo := 1) (hi := 1) ⟨rfl, by simp⟩ fun i l hi h => ?_)
    (lo' := c.popSize) (hi' := c.popSize) (by omega) (by omega)) le_rfl fun pop hpop => BT.weaken (BT.pure ⟨hpop.1, hpop.2, trivial⟩) (by omega) (by omega)
  refine BT.bind0 (BT.liftD (DT.bind (DT.nth_mem (by omega)) fun r _ => DT.correct hP)) fun x hx => ?_
  refine BT.bindS (BT.getTarget hx) le_rfl fun t ht => BT.pure ⟨by rw [List.length_append, h.1]; rfl, fun a ha => ?_⟩
  rcases List.mem_append.1 ha with g | g
  · exact h.2 a g
  · rw [List.mem_singleton.1 g]
    exact ⟨ht, hx⟩

/-- `OriginalPSS` (`mealpy/math_based/PSS.py:13-137`) -/
def algo (p : Params K) : Algo c Unit Bool := Algo.custom false (fun _ => pure ()) (pure true) (initialization p) (evolve p)

theorem wok (hE : c.E.Lawful) (hP : c.P.Lawful) (hc : Accepted c 5) (p : Params K) (hm : p.mc = false) :
    (algo p : Algo c Unit Bool).WOk noErr (Inv.std c Unit JT) JT JT c.popSize (c.popSize + c.popSize) 0 0 c.popSize c.popSize := by
  have hpop := hc.pop
  unfold algo
  refine Algo.custom_wok (J := JT) (J0 := JT) (by omega) (fun x hx => by dgo) (by dgo) (by omega) (fun y hy => BT.weaken (bt_init hP hm) (by omega) (by omega)) (fun y pop hy hl hp => BT.weaken (bt_init hP hm) (by omega) (by omega)) (fun ep hep1 hep2 => ?_)
  unfold evolve
  refine WT.bind0 (WT.draw (dt_samples hm)) fun rows hr => ?_
  refine WT.bindS (WT.buildEval hE fun s i hs hi => dt_move hE hP hr hs.len_std hi) (by omega) fun new hnew => ?_
  refine WT.bind0 (WT.setPop hnew.1 hnew.2) fun _ _ => WT.bind0 (WT.draw (DT.bestAgent' hE (by omega))) fun b _ => WT.bind0 WT.get fun s hs => ?_
  exact WT.weaken (WT.modExt fun y _ => trivial) (by omega) (by omega)

theorem framed (hE : c.E.Lawful) (p : Params K) (ep : Nat) : Framed true (evolve p ep : M c Unit Bool Unit) := by
  unfold evolve; framed

end OriginalPSS

namespace OriginalMSO

/-- `sind` (`mealpy/physics_based/MSO.py:64-65`) -/
def sind (x : K) : K := Num.sin (Num.ufunc "deg2rad" x)
/-- `cosd` (`mealpy/physics_based/MSO.py:67-68`) -/
def cosd (x : K) : K := Num.cos (Num.ufunc "deg2rad" x)
/-- what `tand` does to its argument, in place (`mealpy/physics_based/MSO.py:71-73`) -/
def unbad (x : K) : K := if Num.mod x 90 = 0 ∧ Num.mod x 180 ≠ 0 then x - Num.EPSILON else x
/-- `tand` of such an argument (`mealpy/physics_based/MSO.py:74`) -/
def tand (x : K) : K := Num.tan (Num.ufunc "deg2rad" x)
/-- `atand` (`mealpy/physics_based/MSO.py:76-77`) -/
def atand (x : K) : K := Num.ufunc "rad2deg" (Num.ufunc "arctan" x)
/-- `asind` (`mealpy/physics_based/MSO.py:79-82`) -/
def asind (x : K) : K := Num.ufunc "rad2deg" (Num.ufunc "arcsin" (clip x (-1) 1))
/-- `atanh` (`mealpy/physics_based/MSO.py:84-87`) -/
def atanh (x : K) : K := if Num.abs x ≥ 1 then 1 else Num.ufunc "arctanh" x

/-- the mirages of one angle each (`mealpy/physics_based/MSO.py:113-136`): `dx` -/
def bend (h : K) : D c K := do
  let zf ← pick [(-1 : K), 1]
  let u ← random
  let a : K := u * 20
  let v ← random
  let b : K := v * (45 - a / 2)
  let z ← integers 1 3
  let dx (A B C D : K) : K := sind B * h * sind C / (sind D * sind A)
  if z = 1 then
    let C : K := b + 90
    let D : K := 180 - C - a
    let B : K := 180 - 2 * D
    let A : K := 180 - B + a - 90
    pure (dx A B C D * zf)
  else if z = 2 ∧ a < b then
    let C : K := 90 - b
    let D : K := 90 + a - b
    let B : K := 180 - 2 * D
    let A : K := 180 - B - a - 90
    pure (dx A B C D * zf)
  else if z = 2 ∧ a > b then
    let C : K := 90 - b
    let D : K := 180 - C - a
    let B : K := 180 - 2 * D
    let A : K := 180 - B - 90 + a
    pure (dx A B C D * zf)
  else pure (dx 90 90 90 90 * 0)

/-- superior mirage (`mealpy/physics_based/MSO.py:104-139`); `s.base.nfe` is `self.nfe_counter` -/
def superior (ac : List Nat) (s : St c Unit Unit) (i : Nat) : D c (Vec d K × Unit) := do
  let idx ← nth ac i
  let x ← nth s.pop idx
  let pos ← vecM (fun j => do
    let u ← random
    let h : K := (s.gbest.sol j - x.sol j) * u
    let hmax : K := 5 * atanh (-(♯s.base.nfe / ♯c.epoch) + 1) + 1
    let h : K := if h > hmax then hmax else h
    let h : K := if h < 1 then 1 else h
    let dx ← bend h
    pure (x.sol j + dx))
  let pos ← correct pos
  pure (pos, ())

/-- inferior mirage (`mealpy/physics_based/MSO.py:147-160`) -/
def inferior (s : St c Unit Unit) (idx : Nat) : D c (Vec d K × Unit) := do
  let x ← nth s.pop idx
  let hh ← (if allclose 1.0e-6 s.gbest.sol x.sol then do
      let sg ← pick [(-1 : K), 1]
      pure (fun _ => 1 * 0.05 * sg)
    else pure (fun j => s.gbest.sol j - x.sol j) : D c (Vec d K))
  let r ← randomVec
  let g ← randomVec
  let gama : Vec d K := fun j => unbad (g j * 90 * ((♯c.epoch - ♯s.base.nfe * 0.99) / ♯c.epoch))
  let u ← random
  let v ← random
  let pos ← correct (fun j =>
    let zf : K := Num.sign (hh j)
    let hj : K := Num.abs (hh j * r j)
    let gj : K := gama j
    let amax : K := atand (1.0 / (2 * tand gj))
    let amin : K := atand (sind gj * cosd gj / (1 + sind gj * sind gj))
    let fai : K := (amax - amin) * u + amin
    let omg : K := asind (v * sind (fai + gj))
    let y : K := hj / tand gj - ((hj / sind gj - hj * sind fai / cosd (fai + gj)) * cosd omg) / cosd (omg - gj)
    x.sol j + y * zf)
  pure (pos, ())

/-- the agents chosen for the superior mirage (`mealpy/physics_based/MSO.py:97-103`) -/
def chosen (s : St c Unit Unit) (perm : List Nat) : List Nat :=
  sliceTo (perm.map (· + 1)) (Num.ceil ((♯c.popSize * (2 / 3 : K)) * ((♯c.epoch - ♯s.base.nfe + 1) / ♯c.epoch)))

theorem chosen_spec {s : St c Unit Unit} {perm : List Nat} {n : Nat} (h : perm.length = n ∧ ∀ i ∈ perm, i < n) :
    (chosen s perm).length ≤ n ∧ ∀ k ∈ chosen s perm, k < n + 1 := by
  unfold chosen
  refine ⟨?_, fun k hk => ?_⟩
  · refine le_trans (sliceTo_length _ _) ?_
    rw [List.length_map, h.1]
  · obtain ⟨i, hi, rfl⟩ := List.mem_map.1 (sliceTo_mem hk)
    have := h.2 i hi
    omega

/-- `OriginalMSO.evolve` (`mealpy/physics_based/MSO.py:89-163`). The number of superior mirages compares `nfe_counter` with the number of
epochs: once it is negative, the slice `ac[:cv]` counts from the end. The class is not parallelizable, so `solve` runs it in `single` mode
(`mealpy/optimizer.py:181-184`); the theorems hold for every mode. -/
def evolve (ep : Nat) : M c Unit Unit Unit := do
  let perm ← draw (permutation (c.popSize - 1))
  let s ← get
  let ac := chosen s perm
  let new ← buildEval ac.length (superior ac)
  mergeTrim c.popSize ([] ++ new)
  let new ← buildEval c.popSize inferior
  mergeTrim c.popSize ([] ++ new)

theorem dt_bend (hE : c.E.Lawful) {h : K} : DT noErr (bend h : D c K) (fun _ => True) := by
  unfold bend
  dgo

macro_rules
  | `(tactic| dprim) => `(tactic| (at_head OriginalMSO.bend; exact OriginalMSO.dt_bend (by assumption)))

/-- `OriginalMSO` (`mealpy/physics_based/MSO.py:12-163`) -/
def algo : Algo c Unit Unit := Algo.plain false evolve

theorem ok (hE : c.E.Lawful) (hP : c.P.Lawful) (hc : Accepted c 5) :
    (algo : Algo c Unit Unit).Ok (FA c) JT JT JT c.popSize c.popSize (c.popSize - 1 + c.popSize) := by
  plainalg hE hP hc evolve
  refine IT.pt (HJ.it ?_)
  refine HJ.bind0 (HJ.ofIT (IT.draw (DT.permutation' hE))) fun perm hperm => HJ.bind0 (HJ.ofIT IT.get) fun s hs => ?_
  obtain ⟨hacl, hacm⟩ := chosen_spec (s := s) hperm
  generalize chosen s perm = ac at hacl hacm ⊢
  refine HJ.bindS (HJ.buildEval hE fun s' i hs' hl' hi => ?_) (by omega) fun new hn => ?_
  · unfold superior
    refine DT.bind (DT.nth_mem hi) fun idx hidx => ?_
    have := hacm idx hidx
    dgo
  refine HJ.bind0 (HJ.mergeTrim hE (by omega)) fun _ _ => HJ.bindS (HJ.buildEval hE fun s' i hs' hl' hi => ?_) (by omega) fun new hn => ?_
  · unfold inferior
    dgo
  exact HJ.weaken (HJ.mergeTrim hE (by omega)) (by omega) (by omega)

theorem framed (hE : c.E.Lawful) (ep : Nat) : Framed true (evolve ep : M c Unit Unit Unit) := by
  unfold evolve; framed

end OriginalMSO

namespace OriginalOrcaPA

/-- the hyper-parameters (`mealpy/swarm_based/ORCA.py:176-178`) -/
structure Params (K : Type) where
  p1 : K
  p2 : K
  q : K

/-- driving and encircling (`mealpy/swarm_based/ORCA.py:196-213`); `s` is the population before -/
def chase (p : Params K) (ep : Nat) (s : St c Unit Unit) (idx : Nat) : D c (Vec d K × Unit) := do
  let mean : Vec d K := meanPos (s.pop.map (·.sol))
  let x ← nth s.pop idx
  let r ← random
  let pos ← (if r > p.p1 then do
      let r ← random
      if r > p.q then do
        let a ← random
        let b ← random
        let e ← random
        pure (fun j => x.sol j + a * (e * s.gbest.sol j - 2.0 * (b * mean j + (1.0 - b) * x.sol j)))
      else do
        let u ← uniform 0 2
        pure (fun j => x.sol j + (u * s.gbest.sol j - x.sol j))
    else do
      let i ← sample3 c.popSize idx
      let y1 ← nth s.pop i.1
      let y2 ← nth s.pop i.2.1
      let y3 ← nth s.pop i.2.2
      let v ← random
      pure (fun j => y1.sol j + 2 * (v - 0.5) * (1 - ♯ep / ♯c.epoch) * (y2.sol j - y3.sol j)) : D c (Vec d K))
  let pos ← correct pos
  pure (pos, ())

/-- attacking (`mealpy/swarm_based/ORCA.py:226-233`) -/
def attack (best chased : List (Agent d K Unit)) (s : St c Unit Unit) (idx : Nat) : D c (Vec d K × Unit) := do
  let i ← sample3 c.popSize idx
  let b0 ← nth best 0
  let b1 ← nth best 1
  let b2 ← nth best 2
  let b3 ← nth best 3
  let q ← nth chased idx
  let y1 ← nth chased i.1
  let y2 ← nth chased i.2.1
  let y3 ← nth chased i.2.2
  let x ← nth s.pop idx
  let g1 ← uniform 0 2
  let g2 ← uniform (-2.5) 2.5
  let pos ← correct (fun j => q.sol j + g1 * ((b0.sol j + b1.sol j + b2.sol j + b3.sol j) / 4.0 - q.sol j)
    + g2 * ((y1.sol j + y2.sol j + y3.sol j) / 3.0 - x.sol j))
  pure (pos, ())

/-- an agent is replaced by the attacker if that is better, otherwise it is flagged (`mealpy/swarm_based/ORCA.py:237-240`) -/
def replaceIf (idx : Nat) (a : Agent d K Unit) (flags : List Bool) : M c Unit Unit (List Bool) := do
  let old ← popAt idx
  if compareTarget a.tgt old.tgt c.P.mm then do
    setAt idx a
    pure (flags ++ [false])
  else pure (flags ++ [true])

/-- the flagged agents (`mealpy/swarm_based/ORCA.py:252-259`); the position mixes two points of the box and is not corrected -/
def settle (p2 : K) (chased : List (Agent d K Unit)) (flags : List Bool) (idx : Nat) : M c Unit Unit Unit := do
  let f ← draw (nth flags idx)
  if f then do
    let q ← draw (nth chased idx)
    let r ← draw random
    if r < p2 then do
      let cond ← draw randomVec
      let a ← liftB (agentOf (fun _ => pure ()) (fun j => if cond j < p2 then c.P.lb j else q.sol j))
      setAt idx a
    else setAt idx q
  else pure ()

/-- `OriginalOrcaPA.evolve` (`mealpy/swarm_based/ORCA.py:182-259`). In the pool modes every agent is compared with the last attacker
`pop_new[-1]` (lines 245-246). -/
def evolve (p : Params K) (ep : Nat) : M c Unit Unit Unit := do
  let s ← get
  let best ← draw (bestAgents s.pop 4)
  let new ← buildEval c.popSize (chase p ep)
  let chased := zipGreedy c.P.mm s.pop new
  let flags ← (if c.swarmLike then do
      let s ← get
      let new ← buildEval c.popSize (attack best chased)
      let last ← draw (nth new (c.popSize - 1))
      iter c.popSize (fun i flags => replaceIf i last flags) []
    else
      iter c.popSize (fun i flags => do
        let s ← get
        let x ← draw (attack best chased s i)
        let t ← liftB (getTarget x.1)
        replaceIf i ⟨x.1, t, ()⟩ flags) [] : M c Unit Unit (List Bool))
  iter c.popSize (fun i _ => settle p.p2 chased flags i) ()

theorem dt_chase (hE : c.E.Lawful) (hP : c.P.Lawful) (hn : 5 ≤ c.popSize) {p : Params K} {ep : Nat} {s : St c Unit Unit} {i : Nat}
    (hl : s.pop.length = c.popSize) (hi : i < c.popSize) : DT noErr (chase p ep s i : D c _) (Inv.std c Unit JT (Y := Unit)).Mk := by
  unfold chase
  dgo

theorem dt_attack (hE : c.E.Lawful) (hP : c.P.Lawful) (hn : 5 ≤ c.popSize) {best chased : List (Agent d K Unit)} (hb : best.length = 4)
    (hq : chased.length = c.popSize) {s : St c Unit Unit} {i : Nat}
    (hl : s.pop.length = c.popSize) (hi : i < c.popSize) : DT noErr (attack best chased s i : D c _) (Inv.std c Unit JT (Y := Unit)).Mk := by
  unfold attack
  dgo

theorem wt_replaceIf {i : Nat} (hi : i < c.popSize) {a : Agent d K Unit} (ha : CF c a) {flags : List Bool} (hl : flags.length = i) :
    WT noErr (Inv.std c Unit JT) 0 0 (replaceIf i a flags : M c Unit Unit _) (fun l => l.length = i + 1 ∧ ∀ b ∈ l, True) := by
  unfold replaceIf
  refine WT.bind0 (WT.popAt (by wsz)) fun old _ => WT.ite (fun _ => ?_) fun _ => WT.pure ⟨by simp [hl], fun _ _ => trivial⟩
  exact WT.bind0 (WT.setAt (by wsz) (Inv.std_ag ha)) fun _ _ => WT.pure ⟨by simp [hl], fun _ _ => trivial⟩

theorem wt_settle {p2 : K} {chased : List (Agent d K Unit)} {flags : List Bool} {i : Nat} (hi : i < c.popSize) (hf : flags.length = c.popSize)
    (hq : chased.length = c.popSize) (hc : ∀ a ∈ chased, CF c a) :
    WT noErr (Inv.std c Unit JT) 0 1 (settle p2 chased flags i : M c Unit Unit Unit) (fun _ => True) := by
  unfold settle
  refine WT.bind0 (WT.draw (DT.nth_mem (by omega))) fun f _ => WT.ite (fun _ => ?_) fun _ => WT.weaken (WT.pure trivial) (by omega) (by omega)
  refine WT.bind0 (WT.draw (DT.nth_mem (by omega))) fun q hq' => WT.bind0 (WT.draw DT.random') fun r _ => WT.ite (fun _ => ?_) fun _ => ?_
  · refine WT.bind0 (WT.draw DT.randomVec) fun cond _ => ?_
    refine WT.agentOf_std (fun j => ?_) (DT.pure trivial) le_rfl fun a ha => ?_
    · have := (hc q hq').2 j
      split
      · exact ⟨le_rfl, le_trans this.1 this.2⟩
      · exact this
    · exact WT.weaken (WT.setAt (by wsz) (Inv.std_ag ha)) (by omega) (by omega)
  · exact WT.weaken (WT.setAt (by wsz) (Inv.std_ag (hc q hq'))) (by omega) (by omega)

theorem framed_replaceIf {i : Nat} {a : Agent d K Unit} {flags : List Bool} : Framed true (replaceIf i a flags : M c Unit Unit _) := by
  unfold replaceIf; framed

theorem framed_settle {p2 : K} {chased : List (Agent d K Unit)} {flags : List Bool} {i : Nat} : Framed true (settle p2 chased flags i : M c Unit Unit _) := by
  unfold settle; framed

macro_rules
  | `(tactic| fprim) => `(tactic| (at_last OriginalOrcaPA.replaceIf; exact OriginalOrcaPA.framed_replaceIf))
macro_rules
  | `(tactic| fprim) => `(tactic| (at_last OriginalOrcaPA.settle; exact OriginalOrcaPA.framed_settle))

/-- `OriginalOrcaPA` (`mealpy/swarm_based/ORCA.py:116-259`) -/
def algo (p : Params K) : Algo c Unit Unit := Algo.plain false (evolve p)

theorem wok (hE : c.E.Lawful) (hP : c.P.Lawful) (hc : Accepted c 5) (p : Params K) :
    (algo p : Algo c Unit Unit).WOk noErr (Inv.std c Unit JT) JT JT c.popSize c.popSize 0 0 (c.popSize + c.popSize) (c.popSize + c.popSize + c.popSize) := by
  wplainalg hE hP hc evolve
  refine WT.bind0 WT.get fun s hs => ?_
  have hl := hs.len_std
  refine WT.bind0 (WT.draw (DT.bestAgents hE)) fun best hbest => ?_
  have hb4 : best.length = 4 := by rw [hbest.1]; omega
  refine WT.bindS (WT.buildEval hE fun s i hs hi => dt_chase hE hP (by omega) hs.len_std hi) (by omega) fun new hnew => ?_
  have hql : (zipGreedy c.P.mm s.pop new).length = c.popSize := by rw [zipGreedy_length, hnew.1, hl]; simp
  have hqc : ∀ a ∈ zipGreedy c.P.mm s.pop new, CF c a := zipGreedy_all (fun a ha => hs.pop a ha) (fun a ha => hnew.2 a ha)
  generalize zipGreedy c.P.mm s.pop new = chased at hql hqc
  refine WT.bindS (l1 := c.popSize) (h1 := c.popSize) (R := fun l : List Bool => l.length = c.popSize) (WT.ite (fun hm => ?_) fun hm => ?_) (by omega) fun flags hfl => ?_
  · refine WT.bind0 WT.get fun s' hs' => ?_
    refine WT.bindS (WT.buildEval hE fun s i hs hi => dt_attack hE hP (by omega) hb4 hql hs.len_std hi) (by omega) fun new hnew => ?_
    refine WT.bind0 (WT.draw (DT.nth_mem (by omega))) fun last hlast => ?_
    exact WT.mono (WT.iterL 0 0 (fun _ => True) (by omega) (by omega) fun i l hi hl _ => wt_replaceIf hi (hnew.2 last hlast) hl) fun l h => h.1
  · refine WT.mono (WT.iterL 1 1 (fun _ => True) (by omega) (by omega) fun i l hi hl _ => ?_) fun l h => h.1
    refine WT.bind0 WT.get fun s' hs' => WT.bind0 (WT.draw (dt_attack hE hP (by omega) hb4 hql hs'.len_std hi)) fun x hx => ?_
    refine WT.getTarget_std hx.1 le_rfl (WT.weaken (wt_replaceIf (a := ⟨x.1, c.P.target x.1, ()⟩) hi ⟨rfl, hx.1⟩ hl) (by omega) (by omega))
  · exact WT.iterU 0 1 (by omega) (by omega) fun i hi => wt_settle hi hfl hql hqc

theorem framed (hE : c.E.Lawful) (p : Params K) (ep : Nat) : Framed true (evolve p ep : M c Unit Unit Unit) := by
  unfold evolve; framed

end OriginalOrcaPA

namespace OriginalNRO

/-- the Gaussian walk (`mealpy/physics_based/NRO.py:90-91`): numpy raises `ValueError` for a negative scale -/
def walk (ep : Nat) (loc x g : Vec d K) : D c (Vec d K) :=
  vecM (fun j => normalS (loc j) (Num.log (♯ep) * 1.0 / ♯ep * Num.abs (x j - g j)))

/-- nuclear fission (`mealpy/physics_based/NRO.py:82-105`) -/
def fission (ep : Nat) (pb pfi : K) (s : St c Unit Unit) (idx : Nat) : D c (Vec d K × Unit) := do
  let x ← nth s.pop idx
  let i1 ← pickWithout c.popSize [idx]
  let y ← nth s.pop i1
  let nei : Vec d K := fun j => (x.sol j + y.sol j) / 2
  let r ← uniform 0 1
  let pos ← (if r ≤ pfi then do
      let r ← uniform 0 1
      if r ≤ pb then do
        let z ← walk ep s.gbest.sol x.sol s.gbest.sol
        let u ← uniform 0 1
        let v ← random
        pure (fun j => z j + u * s.gbest.sol j - Num.ufunc "round" (v + 1) * nei j)
      else do
        let i2 ← pickWithout c.popSize [idx]
        let w ← nth s.pop i2
        let z ← walk ep x.sol w.sol s.gbest.sol
        let u ← uniform 0 1
        let v ← random
        pure (fun j => z j + u * s.gbest.sol j - Num.ufunc "round" (v + 2) * nei j)
    else do
      let i3 ← pickWithout c.popSize [idx]
      let w ← nth s.pop i3
      walk ep x.sol w.sol s.gbest.sol : D c (Vec d K))
  let pos ← correctWith amendRandom pos
  pure (pos, ())

/-- `X_ion[j] = x + levy_b * w`: the whole vector `levy_b` is assigned to one coordinate, a `ValueError` unless there is one variable
(`mealpy/physics_based/NRO.py:127` and `140`) -/
def assign (levy : Vec d K) (j : Fin d) (x w : K) : D c K :=
  if d = 1 then pure (x + levy j * w) else dthrow .value

/-- ionization (`mealpy/physics_based/NRO.py:121-146`); `ranks` is `ranked_pop`, which holds positions, not ranks -/
def ionize (levy : Vec d K) (ranks : List Nat) (s : St c Unit Unit) (idx : Nat) : D c (Vec d K × Unit) := do
  let x ← nth s.pop idx
  let k ← nth ranks idx
  let r ← random
  let pos ← (if ♯k * 1.0 / ♯c.popSize < r then do
      let i ← choose2Without c.popSize [idx]
      let y ← nth s.pop i.1
      let z ← nth s.pop i.2
      vecM (fun j =>
        if z.sol j = x.sol j then assign levy j (x.sol j) (x.sol j - s.gbest.sol j)
        else do
          let q ← uniform 0 1
          let u ← uniform 0 1
          if q ≤ 0.5 then pure (y.sol j + u * (z.sol j - x.sol j)) else pure (y.sol j - u * (z.sol j - x.sol j)))
    else do
      let w ← worstAgent s.pop
      vecM (fun j =>
        if w.sol j = s.gbest.sol j then assign levy j (x.sol j) (c.P.ub j - c.P.lb j)
        else do
          let q ← uniform 0 1
          let u ← uniform 0 1
          pure (x.sol j + Num.ufunc "round" q * u * (w.sol j - s.gbest.sol j))) : D c (Vec d K))
  let pos ← correctWith amendRandom pos
  pure (pos, ())

/-- fusion (`mealpy/physics_based/NRO.py:161-181`) -/
def fuse (ep : Nat) (levy : Vec d K) (ranks : List Nat) (s : St c Unit Unit) (idx : Nat) : D c (Vec d K × Unit) := do
  let x ← nth s.pop idx
  let i ← choose2Without c.popSize [idx]
  let y ← nth s.pop i.1
  let z ← nth s.pop i.2
  let k ← nth ranks idx
  let r ← random
  let pos ← (if ♯k * 1.0 / ♯c.popSize < r then do
      let u1 ← uniform 0 1
      let u2 ← uniform 0 1
      pure (fun j => x.sol j + u1 * (y.sol j - s.gbest.sol j) + u2 * (z.sol j - s.gbest.sol j)
        - Num.exp (-normV (fun j => y.sol j - z.sol j)) * (y.sol j - z.sol j))
    else if allclose 1.0e-8 y.sol z.sol then
      pure (fun j => x.sol j + levy j * (x.sol j - s.gbest.sol j))
    else do
      let q ← uniform 0 1
      let w : K := Num.sin (2 * Num.pi * 0.05 * ♯ep + Num.pi)
      if q > 0.5 then pure (fun j => x.sol j - 0.5 * (w * (♯c.epoch - ♯ep) / ♯c.epoch + 1) * (y.sol j - z.sol j))
      else pure (fun j => x.sol j - 0.5 * (w * ♯ep / ♯c.epoch + 1) * (y.sol j - z.sol j)) : D c (Vec d K))
  let pos ← correctWith amendRandom pos
  pure (pos, ())

/-- `OriginalNRO.evolve` (`mealpy/physics_based/NRO.py:67-189`) -/
def evolve (ep : Nat) : M c Unit Unit Unit := do
  let levy ← draw (levyVec 1.5 0.01 (-1))
  let pb ← draw (uniform 0 1)
  let pfi ← draw (uniform 0 1)
  greedyLoop c.popSize (fission ep pb pfi)
  let s ← get
  greedyLoop c.popSize (ionize levy (c.E.argsort (s.pop.map (·.fit))))
  let s ← get
  greedyLoop c.popSize (fuse ep levy (c.E.argsort (s.pop.map (·.fit))))

theorem dt_walk {ep : Nat} {l x g : Vec d K} : DT (only [.value]) (walk ep l x g : D c _) (fun _ => True) := by
  unfold walk
  exact DT.vecMT fun j => DT.normalS_err (.head _)

macro_rules
  | `(tactic| dprim) => `(tactic| (at_head OriginalNRO.walk; exact OriginalNRO.dt_walk))

theorem dt_assign {levy : Vec d K} {j : Fin d} {x w : K} : DT (only [.value]) (assign levy j x w : D c K) (fun _ => True) := by
  unfold assign
  exact DT.ite (fun _ => DT.pure trivial) fun _ => DT.throw (.head _)

macro_rules
  | `(tactic| dprim) => `(tactic| (at_head OriginalNRO.assign; exact OriginalNRO.dt_assign))

theorem dt_fission (hE : c.E.Lawful) (hP : c.P.Lawful) (hn : 5 ≤ c.popSize) {ep : Nat} {pb pfi : K} {s : St c Unit Unit} {i : Nat}
    (hl : s.pop.length = c.popSize) (hi : i < c.popSize) : DT (only [.value]) (fission ep pb pfi s i : D c _) (Inv.std c Unit JT (Y := Unit)).Mk := by
  unfold fission
  dgo

theorem dt_ionize (hE : c.E.Lawful) (hP : c.P.Lawful) (hn : 5 ≤ c.popSize) {levy : Vec d K} {ranks : List Nat} (hr : ranks.length = c.popSize)
    {s : St c Unit Unit} {i : Nat} (hl : s.pop.length = c.popSize) (hi : i < c.popSize) :
    DT (only [.value]) (ionize levy ranks s i : D c _) (Inv.std c Unit JT (Y := Unit)).Mk := by
  unfold ionize
  dgo

theorem dt_fuse (hE : c.E.Lawful) (hP : c.P.Lawful) (hn : 5 ≤ c.popSize) {ep : Nat} {levy : Vec d K} {ranks : List Nat} (hr : ranks.length = c.popSize)
    {s : St c Unit Unit} {i : Nat} (hl : s.pop.length = c.popSize) (hi : i < c.popSize) :
    DT (only [.value]) (fuse ep levy ranks s i : D c _) (Inv.std c Unit JT (Y := Unit)).Mk := by
  unfold fuse
  dgo

/-- `OriginalNRO` (`mealpy/physics_based/NRO.py:12-189`) -/
def algo : Algo c Unit Unit := Algo.plain false evolve

theorem wok (hE : c.E.Lawful) (hP : c.P.Lawful) (hc : Accepted c 5) :
    (algo : Algo c Unit Unit).WOk (only [.value]) (Inv.std c Unit JT) JT JT c.popSize c.popSize 0 0 (c.popSize + c.popSize + c.popSize) (c.popSize + c.popSize + c.popSize) := by
  wplainalg hE hP hc evolve
  refine WT.bind0 (WT.draw DT.levyVec) fun levy _ => WT.bind0 (WT.draw DT.uniform') fun pb _ => WT.bind0 (WT.draw DT.uniform') fun pfi _ => ?_
  refine WT.bindS (WT.greedyLoop hE (fun _ h => h) fun s i hs hl hi => dt_fission hE hP (by omega) hl hi) (by omega) fun _ _ => WT.bind0 WT.get fun s hs => ?_
  have h1 : (c.E.argsort (s.pop.map (·.fit))).length = c.popSize := by rw [(hE.argsort_perm _).length_eq, List.length_range, List.length_map]; exact hs.len_std
  refine WT.bindS (WT.greedyLoop hE (fun _ h => h) fun s i hs hl hi => dt_ionize hE hP (by omega) h1 hl hi) (by omega) fun _ _ => WT.bind0 WT.get fun s hs => ?_
  have h2 : (c.E.argsort (s.pop.map (·.fit))).length = c.popSize := by rw [(hE.argsort_perm _).length_eq, List.length_range, List.length_map]; exact hs.len_std
  exact WT.weaken (WT.greedyLoop hE (fun _ h => h) fun s i hs hl hi => dt_fuse hE hP (by omega) h2 hl hi) (by omega) (by omega)

theorem framed (hE : c.E.Lawful) (ep : Nat) : Framed true (evolve ep : M c Unit Unit Unit) := by
  unfold evolve; framed

end OriginalNRO

namespace OriginalSquirrelSA

/-- the hyper-parameters (`mealpy/swarm_based/SquirrelSA.py:76-80`) -/
structure Params (K : Type) where
  food : Nat
  predator : K
  gliding : K
  scaling : K
  beta : K

/-- `calculate_gliding_distance` (`mealpy/swarm_based/SquirrelSA.py:93-110`) -/
def glide (scaling : K) : D c K := do
  let cl ← uniform 0.675 1.5
  let f : K := 0.5 * 1.204 * (5.25 * 5.25) * 154e-4
  let angle : K := Num.ufunc "arctan" (f * 0.60 / (f * cl))
  pure (8 / Num.tan angle / scaling)

/-- a squirrel glides towards `y`, or flees (`mealpy/swarm_based/SquirrelSA.py:123-131`) -/
def move (p : Params K) (x y : Vec d K) : D c (Vec d K) := do
  let dg ← glide p.scaling
  let r ← random
  let pos ← (if r ≥ p.predator then pure (fun j => x j + dg * p.gliding * (y j - x j)) else uniformVec c.P.lb c.P.ub : D c (Vec d K))
  correct pos

/-- the positions after the three cases and the seasonal check (`mealpy/swarm_based/SquirrelSA.py:120-187`). `len(pop_size - n_food_sources)`
at line 179 is the length of a number: as soon as the squirrels on the good trees are close together, `TypeError` is raised. With one food
source `integers(0, 0)` raises `ValueError`, as `integers(1, pop_size - n_food_sources - 1)` does for too small a population. -/
def glideAll (p : Params K) (ep : Nat) (s : St c Unit Unit) : D c (List (Vec d K)) := do
  let m := c.popSize - p.food
  let ps ← iter (p.food - 1) (fun i ps => do
    let x ← nth s.pop (i + 1)
    let pos ← move p x.sol s.gbest.sol
    pure (ps.set (i + 1) pos)) (s.pop.map (·.sol))
  let perm ← permutation m
  let cut ← integers 1 (c.popSize - p.food - 1 : Int)
  let ps ← iter (m - cut.toNat) (fun i ps => do
    let k ← nth perm (cut.toNat + i)
    let x ← nth s.pop (k + p.food)
    let t ← integers 0 (p.food - 1 : Int)
    let y ← nth s.pop (t.toNat + 1)
    let pos ← move p x.sol y.sol
    pure (ps.set (k + p.food) pos)) ps
  let ps ← iter cut.toNat (fun i ps => do
    let k ← nth perm i
    let x ← nth s.pop (k + p.food)
    let y ← nth s.pop 0
    let pos ← move p x.sol y.sol
    pure (ps.set (k + p.food) pos)) ps
  let best ← nth s.pop 0
  let sc : K := meanL (((s.pop.take p.food).drop 1).map (fun x => Num.sqrt (sumL ((List.finRange d).map (fun j => (x.sol j - best.sol j) * (x.sol j - best.sol j))))))
  let smin : K := 10e-6 / 365 * (♯ep / (♯c.epoch / 2.5))
  if sc < smin then dthrow .type else pure ps

/-- `OriginalSquirrelSA.evolve` (`mealpy/swarm_based/SquirrelSA.py:112-194`): everyone is evaluated again, the best one at its old position -/
def evolve (p : Params K) (ep : Nat) : M c Unit Unit Unit := do
  let s ← get
  let ps ← draw (glideAll p ep s)
  let new ← buildEval c.popSize (fun _ i => do
    let x ← nth ps i
    pure (x, ()))
  setPop new

theorem dt_glide {q : K} : DT Er (glide q : D c K) (fun _ => True) := by
  unfold glide
  exact DT.bind DT.uniform' fun _ _ => DT.pure trivial

theorem dt_move (hP : c.P.Lawful) {p : Params K} {x y : Vec d K} : DT Er (move p x y : D c _) (Feas c) := by
  unfold move
  refine DT.bind dt_glide fun dg _ => DT.bind DT.random' fun r _ => DT.bind (Q := Feas c) (R := fun _ => True) ?_ fun pos _ => DT.correct hP
  exact DT.ite (fun _ => DT.pure trivial) fun _ => DT.uniformVec'

/-- positions in the box, as many as agents -/
def Fit (c : Cfg d K) (ps : List (Vec d K)) : Prop := ps.length = c.popSize ∧ ∀ x ∈ ps, Feas c x

theorem Fit.set {ps : List (Vec d K)} (h : Fit c ps) {x : Vec d K} (hx : Feas c x) (k : Nat) : Fit c (ps.set k x) :=
  ⟨by rw [List.length_set]; exact h.1, fun y hy => (List.mem_or_eq_of_mem_set hy).elim (h.2 y) fun e => e ▸ hx⟩

theorem dt_glideAll (hE : c.E.Lawful) (hP : c.P.Lawful) {p : Params K} (hf : 2 ≤ p.food ∧ p.food + 3 ≤ c.popSize) {ep : Nat} {s : St c Unit Unit}
    (hl : s.pop.length = c.popSize) (hs : ∀ a ∈ s.pop, Feas c a.sol) : DT (only [.type]) (glideAll p ep s : D c _) (Fit c) := by
  unfold glideAll
  refine DT.bind (DT.iter (fun _ => Fit c) _ ⟨by rw [List.length_map]; exact hl, fun x hx => ?_⟩ fun i ps hi h => ?_) fun ps hps => ?_
  · obtain ⟨a, ha, rfl⟩ := List.mem_map.1 hx
    exact hs a ha
  · exact DT.bind (DT.nth_mem (by omega)) fun x _ => DT.bind (dt_move hP) fun pos hp => DT.pure (h.set hp _)
  refine DT.bind (DT.permutation' hE) fun perm hperm => DT.bind (DT.integers hE (by omega)) fun cut hcut => ?_
  refine DT.bind (DT.iter (fun _ => Fit c) _ hps fun i ps hi h => ?_) fun ps hps => ?_
  · refine DT.bind (DT.nth_mem (by omega)) fun k hk => ?_
    have := hperm.2 k hk
    refine DT.bind (DT.nth_mem (by omega)) fun x _ => DT.bind (DT.integers hE (by omega)) fun t ht => DT.bind (DT.nth_mem (by omega)) fun y _ => ?_
    exact DT.bind (dt_move hP) fun pos hp => DT.pure (h.set hp _)
  refine DT.bind (DT.iter (fun _ => Fit c) _ hps fun i ps hi h => ?_) fun ps hps => ?_
  · refine DT.bind (DT.nth_mem (by omega)) fun k hk => ?_
    have := hperm.2 k hk
    refine DT.bind (DT.nth_mem (by omega)) fun x _ => DT.bind (DT.nth_mem (by omega)) fun y _ => ?_
    exact DT.bind (dt_move hP) fun pos hp => DT.pure (h.set hp _)
  exact DT.bind (DT.nth_mem (by omega)) fun best _ => DT.ite (fun _ => DT.throw (.head _)) fun _ => DT.pure hps

/-- `OriginalSquirrelSA` (`mealpy/swarm_based/SquirrelSA.py:12-194`) -/
def algo (p : Params K) : Algo c Unit Unit := Algo.plain true (evolve p)

theorem wok (hE : c.E.Lawful) (hP : c.P.Lawful) (hc : Accepted c 5) (p : Params K) (hf : 2 ≤ p.food ∧ p.food + 3 ≤ c.popSize) :
    (algo p : Algo c Unit Unit).WOk (only [.type]) (Inv.std c Unit JT) JT JT c.popSize c.popSize 0 0 c.popSize c.popSize := by
  wplainalg hE hP hc evolve
  refine WT.bind0 WT.get fun s hs => WT.bind0 (WT.draw (dt_glideAll hE hP hf hs.len_std fun a ha => (hs.pop a ha).2)) fun ps hps => ?_
  refine WT.bindS (WT.buildEval hE fun s i hs hi => ?_) (by omega) fun new hnew => WT.weaken (WT.setPop hnew.1 hnew.2) (by omega) (by omega)
  exact DT.bind (DT.nth_mem (by rw [hps.1]; exact hi)) fun x hx => DT.pure (Inv.std_mk (hps.2 x hx))

theorem framed (hE : c.E.Lawful) (p : Params K) (ep : Nat) : Framed true (evolve p ep : M c Unit Unit Unit) := by
  unfold evolve; framed

end OriginalSquirrelSA

end Mealpy
