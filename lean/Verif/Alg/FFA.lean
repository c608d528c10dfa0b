import Verif.Alg.Kit15

/-! # Firefly Algorithm (`mealpy/swarm_based/FFA.py`)

`MLFA_GD` of the same file is in `Verif.Alg.Simple13`. -/

set_option linter.unusedSectionVars false
set_option linter.unusedVariables false

namespace Mealpy
open Spec

variable {d : Nat} {K : Type} [Num K] {c : Cfg d K} {X Y : Type}

/-- everything feasible, at least `pop_size` agents -/
def Inv.grown (c : Cfg d K) (X : Type) {Y : Type} (J : Y → Prop) : Inv c X Y :=
  ⟨Feas c, fun n => c.popSize ≤ n, FA c, J⟩

namespace OriginalFFA

/-- the hyper-parameters (`mealpy/swarm_based/FFA.py:79-84`) -/
structure Params (K : Type) where
  gamma : K
  betaBase : K
  alpha : K
  damp : K
  delta : K
  exponent : Nat

/-- the new position (`mealpy/swarm_based/FFA.py:108-115`) -/
def move (p : Params K) (dyn : K) (x y : Vec d K) : D c (Vec d K) := do
  let rij : K := normV (fun j => x j - y j) / Num.sqrt (♯d)
  let beta : K := p.betaBase * Num.exp (-p.gamma * Num.pow rij (♯p.exponent))
  let m ← uniformVec (fun _ => 0) (fun _ => 1)
  let rows ← repM d (fun _ => uniformVec (fun _ => 0) (fun _ => 1))
  correct (fun j => x j + dyn * (p.delta * m j) + beta * sumL (List.zipWith (fun i r => (y i - x i) * r j) (List.finRange d) rows))

/-- one comparison with a firefly behind (`mealpy/swarm_based/FFA.py:104-117`); `q` is `agent` and `pop_child` -/
def child (p : Params K) (idx k : Nat) (q : Agent d K Unit × List (Agent d K Unit)) : M c Unit K (Agent d K Unit × List (Agent d K Unit)) := do
  let b ← popAt (idx + 1 + k)
  if compareTarget b.tgt q.1.tgt c.P.mm then do
    let s ← get
    let pos ← draw (move p s.ext q.1.sol b.sol)
    let a ← liftB (agentOf (fun _ => pure ()) pos)
    pure (a, q.2 ++ [a])
  else pure q

/-- a firefly (`mealpy/swarm_based/FFA.py:101-123`) -/
def fly (p : Params K) (idx : Nat) : M c Unit K Unit := do
  let a ← popAt idx
  let q ← iter (c.popSize - (idx + 1)) (child p idx) (a, [])
  let more ← (if q.2.length < c.popSize then liftB (generatePopulation (fun _ => pure ()) (c.popSize - q.2.length)) else pure [] : M c Unit K (List (Agent d K Unit)))
  let b ← draw (bestAgent (q.2 ++ more))
  if compareTarget b.tgt q.1.tgt c.P.mm then setAt idx b else pure ()

/-- `OriginalFFA.evolve` (`mealpy/swarm_based/FFA.py:92-124`): each epoch adds the global best agent to the population. The class is not
parallelizable, so `solve` runs it in `single` mode (`mealpy/optimizer.py:181-184`); the theorems hold for every mode. -/
def evolve (p : Params K) (ep : Nat) : M c Unit K Unit := do
  iter c.popSize (fun i _ => fly p i) ()
  let s ← get
  reshape (fun pop => pop ++ [s.gbest])
  modExt (fun _ => p.damp * p.alpha)

/-- `OriginalFFA` (`mealpy/swarm_based/FFA.py:12-124`) -/
def algo (p : Params K) : Algo c Unit K := Algo.full false (fun _ => pure ()) (pure p.alpha) (evolve p)

theorem dt_move (hP : c.P.Lawful) {p : Params K} {dyn : K} {x y : Vec d K} : DT noErr (move p dyn x y : D c _) (Feas c) := by
  unfold move
  exact DT.bind DT.uniformVec' fun m _ => DT.bind (DT.repMT fun i _ => DT.uniformVec') fun rows _ => DT.correct hP

theorem wc_child (hP : c.P.Lawful) {p : Params K} {idx k : Nat} (hk : idx + 1 + k < c.popSize) {q : Agent d K Unit × List (Agent d K Unit)} (hq : ∀ a ∈ q.2, CF c a) :
    WC noErr (Inv.grown c Unit JT) (child p idx k q : M c Unit K _) (fun r n => r.2.length = q.2.length + n ∧ n ≤ 1 ∧ ∀ a ∈ r.2, CF c a) := by
  unfold child
  refine WC.bind0 (WT.popAt fun n hn => lt_of_lt_of_le hk hn) fun b _ => WC.ite (fun _ => ?_) fun _ => WC.pure ⟨rfl, by omega, hq⟩
  refine WC.bind0 WT.get fun s hs => WC.bind0 (WT.draw (dt_move hP)) fun pos hp => ?_
  refine WC.bind (WC.of (WT.agentOf (I := Inv.grown c Unit JT) hp (DT.pure hp))) fun a n ha => WC.pure ⟨?_, by omega, fun x hx => ?_⟩
  · rw [List.length_append, List.length_singleton, ha.1]
  · rcases List.mem_append.1 hx with g | g
    · exact hq x g
    · rw [List.mem_singleton.1 g]
      exact ⟨ha.2.1.1, ha.2.1.2⟩

theorem wt_fly (hE : c.E.Lawful) (hP : c.P.Lawful) {p : Params K} {idx : Nat} (hi : idx < c.popSize) :
    WT noErr (Inv.grown c Unit JT) c.popSize c.popSize (fly p idx : M c Unit K Unit) (fun _ => True) := by
  unfold fly
  refine WC.wt (WC.bind0 (WT.popAt fun n hn => lt_of_lt_of_le hi hn) fun a _ => ?_)
  refine WC.bind (WC.iter (fun i q n => q.2.length = n ∧ n ≤ i ∧ ∀ a ∈ q.2, CF c a) _ ⟨rfl, by omega, by simp⟩ fun i q n hi' h => ?_) fun q n h => ?_
  · refine WC.mono (wc_child hP (by omega) h.2.2) fun r k hr => ⟨by omega, by omega, hr.2.2⟩
  rw [if_pos (by omega)]
  refine WC.bind (WC.of (WT.generatePopulation (I := Inv.grown c Unit JT) hE hP fun x hx => ⟨hx, DT.pure hx⟩)) fun more k hk => ?_
  have h1 := h.1
  have h2 := h.2.1
  have h3 := hk.2.1
  refine WC.bind0 (WT.draw (DT.bestAgent' hE (by rw [List.length_append]; omega))) fun b hb => ?_
  have hbc : CF c b := by
    have hm : b ∈ q.2 ++ more := by first | exact hb | exact hb.1
    rcases List.mem_append.1 hm with g | g
    · exact h.2.2 b g
    · exact ⟨(hk.2.2 b g).1, (hk.2.2 b g).2⟩
  refine WC.ite (fun _ => WC.mono (WC.of (WT.setAt (fun n hn => lt_of_lt_of_le hi hn) ⟨hbc.1, hbc.2⟩)) fun _ m hm => ?_) fun _ => WC.pure ?_
  · have := hm.1
    have := hk.1
    exact ⟨by omega, by omega, trivial⟩
  · have := hk.1
    exact ⟨by omega, by omega, trivial⟩

theorem wok (hE : c.E.Lawful) (hP : c.P.Lawful) (hc : Accepted c 5) (p : Params K) :
    (algo p : Algo c Unit K).WOk noErr (Inv.grown c Unit JT) JT JT c.popSize c.popSize 0 0 (c.popSize * c.popSize) (c.popSize * c.popSize) := by
  have hpop := hc.pop
  unfold algo
  refine Algo.std_wok (I := Inv.grown c Unit JT) hE hP (by omega) (le_refl _) (fun n hn => by change c.popSize ≤ n at hn; omega) rfl rfl
    (fun x hx => ⟨hx, DT.pure hx⟩) (DT.pure trivial) (fun ep _ _ => ?_)
  unfold evolve
  refine WT.bindS (WT.iterU c.popSize c.popSize le_rfl le_rfl fun i hi => wt_fly hE hP hi) le_rfl fun _ _ => ?_
  refine WT.bind0 WT.get fun s hs => WT.bind0 (WT.reshape fun pop h1 h2 => ⟨?_, fun a ha => ?_⟩) fun _ _ => WT.weaken (WT.modExt fun y _ => trivial) (by omega) (by omega)
  · change c.popSize ≤ (pop ++ [s.gbest]).length
    change c.popSize ≤ pop.length at h1
    rw [List.length_append]
    omega
  · rcases List.mem_append.1 ha with g | g
    · exact h2 a g
    · rw [List.mem_singleton.1 g]
      exact hs.gbest

theorem framed_fly (hE : c.E.Lawful) {p : Params K} {idx : Nat} : Framed true (fly p idx : M c Unit K Unit) := by
  unfold fly child; framed

macro_rules
  | `(tactic| fprim) => `(tactic| (at_last OriginalFFA.fly; exact OriginalFFA.framed_fly (by assumption)))

theorem framed (hE : c.E.Lawful) (p : Params K) (ep : Nat) : Framed true (evolve p ep : M c Unit K Unit) := by
  unfold evolve; framed

end OriginalFFA

end Mealpy
