import Verif.Alg.Kit16

/-! # Orca Optimization Algorithm (`mealpy/swarm_based/ORCA.py`)

`OriginalOrcaPA` of the same file is in `Verif.Alg.Simple15`. -/

set_option linter.unusedSectionVars false
set_option linter.unusedVariables false

namespace Mealpy
open Spec

variable {d : Nat} {K : Type} [Num K] {c : Cfg d K} {X Y : Type}

/-- everything feasible; `pop_size` agents, or one less -/
def Inv.oneLess (c : Cfg d K) (X : Type) {Y : Type} (J : Y → Prop) : Inv c X Y :=
  ⟨Feas c, fun n => n = c.popSize ∨ n + 1 = c.popSize, FA c, J⟩

namespace OriginalOrcaOA

/-- the hyper-parameters (`mealpy/swarm_based/ORCA.py:59-60`); `removes` is `n_removes` (`mealpy/swarm_based/ORCA.py:64`) -/
structure Params (K : Type) where
  r0 : K
  removes : Nat

/-- `d_list` (`mealpy/swarm_based/ORCA.py:73-85`): of the length of the population, but of length `pop_size` if all energies are equal -/
def dists (s : St c Unit K) : List K :=
  let e : List K := s.pop.map (fun a => a.fit - s.gbest.fit)
  if maxL e = minL e then List.replicate c.popSize (0 * s.ext) else e.map (fun x => (x - minL e) / (maxL e - minL e) * s.ext)

theorem dists_length {s : St c Unit K} (h : c.popSize ≤ s.pop.length + 1) : c.popSize ≤ (dists s).length + 1 := by
  unfold dists
  dsimp only
  split
  · simp
  · simpa using h

/-- a new position (`mealpy/swarm_based/ORCA.py:90-103`); `s` is the population before -/
def move (p : Params K) (s : St c Unit K) (i : Nat) : D c (Vec d K × Unit) := do
  let idx := i + 1
  let pos ← (if idx < c.popSize - p.removes then do
      let dir ← normalVec 0 1
      let norm : K := normV dir
      let dir : Vec d K := if norm > 0 then (fun j => dir j / norm) else dir
      let di ← nth (dists s) idx
      let r ← uniform (s.ext - di) s.ext
      let best ← nth s.pop 0
      pure (fun j => best.sol j + r * dir j)
    else uniformVec c.P.lb c.P.ub : D c (Vec d K))
  let pos ← correct pos
  pure (pos, ())

/-- `OriginalOrcaOA.evolve` (`mealpy/swarm_based/ORCA.py:66-113`). The loop starts at 1 to "keep the best solution intact", but `pop_new` starts
empty: the best orca is dropped, and from the first epoch on there are `pop_size - 1` of them. -/
def evolve (p : Params K) (ep : Nat) : M c Unit K Unit := do
  let new ← buildEval (c.popSize - 1) (move p)
  setPop new
  modExt (fun _ => p.r0 * (1 - ♯ep / ♯c.epoch))

/-- `OriginalOrcaOA` (`mealpy/swarm_based/ORCA.py:12-113`) -/
def algo (p : Params K) : Algo c Unit K := Algo.full true (fun _ => pure ()) (pure p.r0) (evolve p)

theorem dt_move (hP : c.P.Lawful) (hn : 5 ≤ c.popSize) {p : Params K} (hp : 1 ≤ p.removes) {s : St c Unit K} {i : Nat}
    (hl : s.pop.length = c.popSize ∨ s.pop.length + 1 = c.popSize) : DT noErr (move p s i : D c _) (fun q => Feas c q.1) := by
  unfold move
  have hd := dists_length (s := s) (by omega)
  refine DT.bind (R := fun _ => True) (DT.ite (fun h => ?_) fun _ => DT.uniformVec') fun pos _ => DT.bind (DT.correct hP) fun x hx => DT.pure hx
  refine DT.bind DT.normalVec fun dir _ => DT.bind (DT.nth_mem (by omega)) fun di _ => DT.bind DT.uniform' fun r _ => ?_
  exact DT.bind (DT.nth_mem (by omega)) fun b _ => DT.pure trivial

theorem wok (hE : c.E.Lawful) (hP : c.P.Lawful) (hc : Accepted c 5) (p : Params K) (hp : 1 ≤ p.removes) :
    (algo p : Algo c Unit K).WOk noErr (Inv.oneLess c Unit JT) JT JT c.popSize c.popSize 0 0 (c.popSize - 1) (c.popSize - 1) := by
  have hpop := hc.pop
  unfold algo
  refine Algo.std_wok (I := Inv.oneLess c Unit JT) hE hP (by omega) (.inl rfl) (fun n hn => by change n = c.popSize ∨ n + 1 = c.popSize at hn; omega) rfl rfl
    (fun x hx => ⟨hx, DT.pure hx⟩) (DT.pure trivial) (fun ep _ _ => ?_)
  unfold evolve
  refine WT.bindS (WT.buildEval hE fun s i hs hi => DT.mono (dt_move hP (by omega) hp hs.len) fun q hq => ⟨hq, hq⟩) le_rfl fun new hnew => ?_
  refine WT.bind0 (WT.setPop ?_ hnew.2) fun _ _ => WT.weaken (WT.modExt fun y _ => trivial) (by omega) (by omega)
  exact Or.inr (by rw [hnew.1]; omega)

theorem framed (hE : c.E.Lawful) (p : Params K) (ep : Nat) : Framed true (evolve p ep : M c Unit K Unit) := by
  unfold evolve; framed

end OriginalOrcaOA

end Mealpy
