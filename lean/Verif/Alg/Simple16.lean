import Verif.Alg.Kit17
import Verif.Alg.DE

/-! # SHADE and evolution strategies -/

set_option linter.unusedSectionVars false
set_option linter.unusedVariables false

namespace Mealpy
open Spec

variable {d : Nat} {K : Type} [Num K] {c : Cfg d K}

namespace OriginalSHADE

/-- `miu_f, miu_cr in (0, 1)` (`mealpy/evolutionary_based/SHADE.py:68-70`) -/
structure Params (K : Type) where
  miuF : K
  miuCr : K

/-- `dyn_miu_f`, `dyn_miu_cr`, `dyn_pop_archive`, `k_counter` (`mealpy/evolutionary_based/SHADE.py:75-78`), `dyn_pop_size`
(`mealpy/evolutionary_based/SHADE.py:242`, of `L_SHADE` only), and the lists of the current epoch: for each success `f`, `cr`, the index and
the two fitness values -/
structure Attr (d : Nat) (K : Type) where
  f : List K
  cr : List K
  archive : List (Agent d K Unit)
  k : Nat
  dyn : Nat
  wins : List (K × K × Nat × K × K)

/-- both memories have `pop_size` entries and `k_counter` is one of their indexes -/
def Sized (c : Cfg d K) (y : Attr d K) : Prop :=
  y.f.length = c.popSize ∧ y.cr.length = c.popSize ∧ y.k < c.popSize ∧ 0 < y.dyn ∧ y.dyn ≤ c.popSize

/-- one trial position with its `f` and `cr` (`mealpy/evolutionary_based/SHADE.py:104-129`); `top` draws the number of agents `x_best` is
taken from. A negative Cauchy value is drawn again: see `JADE.cauchyF`; scipy's generator is not seeded. -/
def trial (top : D c Int) (sorted : List (Agent d K Unit)) (s : St c Unit (Attr d K)) (idx : Nat) : D c (Vec d K × K × K) := do
  let k ← index c.popSize
  let mcr ← nth s.ext.cr k
  let cr ← normal mcr 0.1
  let cr := clip cr 0 1
  let mf ← nth s.ext.f k
  let f ← JADE.cauchyF mf
  let n ← top
  let t ← integers 0 n
  let best ← nth sorted t.toNat
  let r1 ← pickWithout c.popSize [idx]
  let all := s.pop ++ s.ext.archive
  let r2 ← pickWithout all.length [idx, r1]
  let x1 ← nth s.pop r1
  let x2 ← nth all r2
  let x ← nth s.pop idx
  let new : Vec d K := fun j => x.sol j + f * (best.sol j - x.sol j) + f * (x1.sol j - x2.sol j)
  let pos ← binCross cr new x.sol
  let pos ← correct pos
  pure (pos, f, cr)

/-- what is recorded if the trial `new[idx]` beats `old`: the archive receives the new agent, not the old one
(`mealpy/evolutionary_based/SHADE.py:135-142`) -/
def record (trials : List (Vec d K × K × K)) (new : List (Agent d K Unit)) (idx : Nat) (old : Agent d K Unit) (y : Attr d K) : Attr d K :=
  match trials[idx]?, new[idx]? with
  | some t, some a => { y with archive := y.archive ++ [a], wins := y.wins ++ [(t.2.1, t.2.2, idx, old.fit, a.fit)] }
  | _, _ => y

/-- `top = int(pop_size * uniform(2 / pop_size, 0.2))` (`mealpy/evolutionary_based/SHADE.py:116-117`) -/
def top : D c Int := do
  let p ← uniform (2 / ♯c.popSize) 0.2
  pure (Num.trunc (♯c.popSize * p))

/-- the weighted means of the successes replace the entry `k_counter` of the memories (`mealpy/evolutionary_based/SHADE.py:154-173`).
If every successful `f` is 0, the Lehmer mean (`mealpy/evolutionary_based/SHADE.py:81-84`) is NaN in python; division is total here. -/
def learn (c : Cfg d K) (y : Attr d K) : Attr d K :=
  if y.wins.length = 0 then y else
    let diff : List K := y.wins.map (fun w => Num.abs (w.2.2.2.2 - w.2.2.2.1))
    let total : K := sumL diff
    let weights : List K := if total = 0 then diff.map (fun _ => 1.0 / ♯diff.length * 1) else diff.map (fun x => x / total)
    let fs : List K := y.wins.map (·.1)
    let crs : List K := y.wins.map (·.2.1)
    let cr : K := sumL (List.zipWith (fun w x => w * x) weights crs)
    let f : K := sumL (List.zipWith (fun w x => w * Num.pow x 2) weights fs) / sumL (List.zipWith (fun w x => w * x) weights fs)
    { y with cr := y.cr.set y.k cr, f := y.f.set y.k f, k := if y.k + 1 ≥ c.popSize then 0 else y.k + 1 }

/-- `OriginalSHADE.evolve` (`mealpy/evolutionary_based/SHADE.py:86-173`).  The population does not change while the trial positions are
built, so they are built first also in `single` mode. -/
def evolve (p : Params K) (ep : Nat) : M c Unit (Attr d K) Unit := do
  modExt (fun y => { y with wins := [] })
  let s ← get
  let sorted ← draw (sortedPop s.pop)
  let trials ← draw (buildPending c.popSize (trial top sorted s))
  let new ← buildEval c.popSize (fun _ idx => do
    let t ← nth trials idx
    pure (t.1, ()))
  compareLoop c.popSize new (record trials new)
  let s ← get
  let archive ← draw (JADE.cutArchive c.popSize s.ext.archive)
  modExt (fun y => learn c { y with archive := archive })

theorem dt_trial (hE : c.E.Lawful) (hP : c.P.Lawful) (hd : 0 < d) (hn : 5 ≤ c.popSize) {tp : D c Int}
    (ht : DT noErr tp (fun n => 0 < n ∧ n ≤ c.popSize))
    {sorted : List (Agent d K Unit)} {s : St c Unit (Attr d K)} {i : Nat} (hl : s.pop.length = c.popSize) (hs : Sized c s.ext)
    (hsl : sorted.length = c.popSize) (hi : i < c.popSize) :
    DT noErr (trial tp sorted s i) (fun t => Feas c t.1) := by
  have hal : (s.pop ++ s.ext.archive).length = s.pop.length + s.ext.archive.length := List.length_append
  obtain ⟨h1, h2, h3, h4⟩ := hs
  unfold trial JADE.cauchyF
  refine DT.bind (DT.index hE (by omega)) fun k hk => ?_
  refine DT.bind (DT.nth_mem (by omega)) fun mcr _ => DT.bind DT.normal fun cr _ => DT.bind (DT.nth_mem (by omega)) fun mf _ => ?_
  refine DT.bind (R := fun _ => True) (by dgo) fun f _ => DT.bind ht fun n hn' => ?_
  obtain ⟨g1, g2⟩ := hn'
  dgo

theorem record_sized {trials : List (Vec d K × K × K)} {new : List (Agent d K Unit)} {i : Nat} {old : Agent d K Unit} {y : Attr d K}
    (h : Sized c y) : Sized c (record trials new i old y) := by
  unfold record
  split <;> exact h

theorem learn_sized {y : Attr d K} (hn : 5 ≤ c.popSize) (h : Sized c y) : Sized c (learn c y) := by
  unfold learn
  split
  · exact h
  · obtain ⟨h1, h2, h3, h4⟩ := h
    refine ⟨by rw [List.length_set]; exact h1, by rw [List.length_set]; exact h2, ?_, h4⟩
    dsimp only
    split <;> omega

/-- `top` is a number of agents to choose from: with `pop_size >= 10` and exact arithmetic it is at least 2 and at most `pop_size / 5` -/
def Tops (c : Cfg d K) : Prop :=
  (2 / ♯c.popSize : K) ≤ 0.2 ∧ ∀ p : K, 2 / ♯c.popSize ≤ p → p ≤ 0.2 → 0 < Num.trunc (♯c.popSize * p) ∧ Num.trunc (♯c.popSize * p) ≤ c.popSize

theorem dt_top (hE : c.E.Lawful) (ht : Tops c) : DT noErr (top : D c Int) (fun n => 0 < n ∧ n ≤ c.popSize) := by
  unfold top
  exact DT.bind (DT.uniform hE ht.1) fun p hp => DT.pure (ht.2 p hp.1 hp.2)

/-- `OriginalSHADE` (`mealpy/evolutionary_based/SHADE.py:13-173`) -/
def algo (p : Params K) : Algo c Unit (Attr d K) := Algo.full false (fun _ => pure ()) (pure ⟨List.replicate c.popSize (p.miuF * 1), List.replicate c.popSize (p.miuCr * 1), [], 0, c.popSize, []⟩) (evolve p)

theorem ok (hE : c.E.Lawful) (hP : c.P.Lawful) (hc : Accepted c 5) (p : Params K) (hd : 0 < d) (ht : Tops c) :
    (algo p : Algo c Unit (Attr d K)).Ok (FA c) (Sized c) (Sized c) (Sized c) c.popSize c.popSize c.popSize := by
  have hpop := hc.pop
  unfold algo
  refine Algo.full_ok hE hP (fun x hx => by dgo) (J := (Sized c)) (by exact DT.pure ⟨by simp, by simp, by show 0 < c.popSize; omega, by show 0 < c.popSize; omega, le_rfl⟩) (fun ep hep1 hep2 => ?_)
  unfold evolve
  refine IT.pt (IT.bind0 (IT.modExt fun y hy => hy) fun _ _ => IT.bind0 IT.get fun s hs => ?_)
  refine IT.bind0 (IT.draw (DT.sortedPop hE)) fun sorted hso => ?_
  have hl := hs.len
  have hse := hs.ext
  refine IT.bind0 (IT.draw (buildPending_dt fun i hi => dt_trial hE hP hd (by omega) (dt_top hE ht) hl hse (by omega) hi)) fun trials htr => ?_
  refine IT.evalCompareNew (upd := record trials) (els := fun _ _ _ y => y) hE (fun s i _ _ hi => ?_) (fun _ _ _ _ _ h => record_sized h) (fun _ _ _ _ _ h => h) ?_
  · refine DT.bind (DT.nth_mem (by omega)) fun t ht => ?_
    exact DT.pure (FA.mkOk (htr.2 t ht))
  · refine IT.bind0 IT.get fun s hs => IT.bindD (JADE.cut_dt hE) fun l => ?_
    exact IT.modExt fun _ h => learn_sized (by omega) h

theorem framed (hE : c.E.Lawful) (p : Params K) (ep : Nat) : Framed true (evolve p ep : M c Unit (Attr d K) Unit) := by
  unfold evolve; framed

end OriginalSHADE

namespace L_SHADE
open OriginalSHADE (Params Attr Sized)

/-- `top = int(np.ceil(dyn_pop_size * uniform(0.15, 0.2)))` (`mealpy/evolutionary_based/SHADE.py:282-283`) -/
def top (dyn : Nat) : D c Int := do
  let p ← uniform 0.15 0.2
  pure (Num.ceil (♯dyn * p))

/-- the weighted means of the successes (`mealpy/evolutionary_based/SHADE.py:318-334`); only the first `dyn_pop_size` agents count for the
weights -/
def learn (y : Attr d K) : Attr d K :=
  if y.wins.length = 0 then y else
    let fits : List (K × K) := (y.wins.filter (fun w => w.2.2.1 < y.dyn)).map (fun w => w.2.2.2)
    let fits : List (K × K) := fits ++ List.replicate (y.wins.length - fits.length) (1, 1)
    let diff : List K := fits.map (fun w => Num.abs (w.2 - w.1))
    let total : K := sumL diff
    let weights : List K := if total = 0 then diff.map (fun _ => 0) else diff.map (fun x => x / total)
    let fs : List K := y.wins.map (·.1)
    let crs : List K := y.wins.map (·.2.1)
    let cr : K := sumL (List.zipWith (fun w x => w * x) weights crs)
    let up : K := sumL (List.zipWith (fun w x => w * Num.pow x 2) weights fs)
    let down : K := sumL (List.zipWith (fun w x => w * x) weights fs)
    { y with cr := y.cr.set y.k cr, f := y.f.set y.k (if down = 0 then 0.5 else up / down), k := if y.k + 1 ≥ y.dyn then 0 else y.k + 1 }

/-- `round(pop_size + epoch * ((n_min - pop_size) / self.epoch))` (`mealpy/evolutionary_based/SHADE.py:244` and `336`) -/
def shrink (c : Cfg d K) (ep : Nat) : Int :=
  Num.trunc (Num.ufunc "round" (♯c.popSize + ♯ep * (Num.ofInt (Num.trunc (♯c.popSize / 5 : K) - c.popSize) / ♯c.epoch) : K))

/-- `L_SHADE.evolve` (`mealpy/evolutionary_based/SHADE.py:252-336`). The population size is not reduced: only the number of
candidates for `x_best` and the part of the memory in use are. -/
def evolve (p : Params K) (ep : Nat) : M c Unit (Attr d K) Unit := do
  modExt (fun y => { y with wins := [] })
  let s ← get
  let sorted ← draw (sortedPop s.pop)
  let trials ← draw (buildPending c.popSize (OriginalSHADE.trial (top s.ext.dyn) sorted s))
  let new ← buildEval c.popSize (fun _ idx => do
    let t ← nth trials idx
    pure (t.1, ()))
  compareLoop c.popSize new (OriginalSHADE.record trials new)
  let s ← get
  let archive ← draw (JADE.cutArchive c.popSize s.ext.archive)
  modExt (fun y => { learn { y with archive := archive } with dyn := (shrink c ep).toNat })

/-- the numbers of candidates are between 1 and `pop_size`; in exact arithmetic they are -/
structure Tops (c : Cfg d K) : Prop where
  order : (0.15 : K) ≤ 0.2
  top : ∀ n : Nat, 0 < n → n ≤ c.popSize → ∀ p : K, 0.15 ≤ p → p ≤ 0.2 → 0 < Num.ceil (♯n * p) ∧ Num.ceil (♯n * p) ≤ c.popSize
  shrink : ∀ ep, 1 ≤ ep → ep ≤ c.epoch → 0 < shrink c ep ∧ shrink c ep ≤ c.popSize

theorem dt_top (hE : c.E.Lawful) (ht : Tops c) {n : Nat} (h0 : 0 < n) (h1 : n ≤ c.popSize) : DT noErr (top n : D c Int) (fun n => 0 < n ∧ n ≤ c.popSize) := by
  unfold top
  exact DT.bind (DT.uniform hE ht.order) fun p hp => DT.pure (ht.top n h0 h1 p hp.1 hp.2)

theorem learn_sized {y : Attr d K} (h : Sized c y) : Sized c (learn y) := by
  unfold learn
  split
  · exact h
  · obtain ⟨h1, h2, h3, h4, h5⟩ := h
    refine ⟨by rw [List.length_set]; exact h1, by rw [List.length_set]; exact h2, ?_, h4, h5⟩
    dsimp only
    split <;> omega

/-- `L_SHADE` (`mealpy/evolutionary_based/SHADE.py:176-336`) -/
def algo (p : Params K) : Algo c Unit (Attr d K) := Algo.full false (fun _ => pure ()) (pure ⟨List.replicate c.popSize (p.miuF * 1), List.replicate c.popSize (p.miuCr * 1), [], 0, c.popSize, []⟩) (evolve p)

theorem ok (hE : c.E.Lawful) (hP : c.P.Lawful) (hc : Accepted c 5) (p : Params K) (hd : 0 < d) (ht : Tops c) :
    (algo p : Algo c Unit (Attr d K)).Ok (FA c) (Sized c) (Sized c) (Sized c) c.popSize c.popSize c.popSize := by
  have hpop := hc.pop
  unfold algo
  refine Algo.full_ok hE hP (fun x hx => by dgo) (J := (Sized c)) (by exact DT.pure ⟨by simp, by simp, by show 0 < c.popSize; omega, by show 0 < c.popSize; omega, le_rfl⟩) (fun ep hep1 hep2 => ?_)
  unfold evolve
  refine IT.pt (IT.bind0 (IT.modExt fun y hy => hy) fun _ _ => IT.bind0 IT.get fun s hs => ?_)
  refine IT.bind0 (IT.draw (DT.sortedPop hE)) fun sorted hso => ?_
  have hl := hs.len
  have hse := hs.ext
  refine IT.bind0 (IT.draw (buildPending_dt fun i hi => OriginalSHADE.dt_trial hE hP hd (by omega) (dt_top hE ht hse.2.2.2.1 hse.2.2.2.2) hl hse (by omega) hi)) fun trials htr => ?_
  refine IT.evalCompareNew (upd := OriginalSHADE.record trials) (els := fun _ _ _ y => y) hE (fun s i _ _ hi => ?_) (fun _ _ _ _ _ h => OriginalSHADE.record_sized h) (fun _ _ _ _ _ h => h) ?_
  · refine DT.bind (DT.nth_mem (by omega)) fun t ht => ?_
    exact DT.pure (FA.mkOk (htr.2 t ht))
  · refine IT.bind0 IT.get fun s hs => IT.bindD (JADE.cut_dt hE) fun l => ?_
    refine IT.modExt fun y h => ?_
    have h' : Sized c { y with archive := l } := h
    obtain ⟨g1, g2, g3, g4⟩ := learn_sized h'
    have := ht.shrink ep hep1 hep2
    exact ⟨g1, g2, g3, by dsimp only; omega, by dsimp only; omega⟩

theorem framed (hE : c.E.Lawful) (p : Params K) (ep : Nat) : Framed true (evolve p ep : M c Unit (Attr d K) Unit) := by
  unfold evolve; framed

end L_SHADE

namespace OriginalES

/-- `n_child = int(lamda * pop_size)` with `lamda in (0, 1)` (`mealpy/evolutionary_based/ES.py:68-70`) -/
structure Params where
  child : Nat

/-- `strategy` of `generate_empty_agent` (`mealpy/evolutionary_based/ES.py:74` and `76-80`) -/
def strategy (_ : Vec d K) : D c (Vec d K) := uniformVec (fun _ => 0) (fun j => 0.05 * (c.P.ub j - c.P.lb j))

/-- `np.exp(tau_p * normal + tau * normal)` (`mealpy/evolutionary_based/ES.py:93-95`) -/
def mutated : D c (Vec d K) := do
  let tau : K := Num.pow (Num.sqrt (2.0 * ♯d)) (-1.0)
  let tau' : K := Num.pow (Num.sqrt (2.0 * Num.sqrt (♯d))) (-1.0)
  let u ← normalVec 0 1
  let v ← normalVec 0 1
  pure (fun j => Num.exp (tau' * u j + tau * v j))

/-- a child (`mealpy/evolutionary_based/ES.py:91-98`); the strategy drawn by `generate_empty_agent` is overwritten -/
def child (s : St c (Vec d K) Unit) (idx : Nat) : D c (Vec d K × Vec d K) := do
  let x ← nth s.pop idx
  let u ← normalVec 0 1
  let pos ← correct (fun j => x.sol j + x.ext j * u j)
  let e ← mutated
  let _ ← strategy pos
  pure (pos, e)

/-- `OriginalES.evolve` (`mealpy/evolutionary_based/ES.py:82-102`) -/
def evolve (p : Params) (ep : Nat) : M c (Vec d K) Unit Unit := do
  let new ← buildEval p.child child
  mergeFront c.popSize ([] ++ new)

theorem dt_strategy {x : Vec d K} : DT Er (strategy x : D c (Vec d K)) (fun _ => True) := DT.uniformVec'

theorem dt_mutated : DT Er (mutated : D c (Vec d K)) (fun _ => True) := by
  unfold mutated
  dgo

macro_rules
  | `(tactic| dprim) => `(tactic| (at_head OriginalES.mutated; exact OriginalES.dt_mutated))
macro_rules
  | `(tactic| dprim) => `(tactic| (at_head OriginalES.strategy; exact OriginalES.dt_strategy))

theorem dt_child (hE : c.E.Lawful) (hP : c.P.Lawful) {s : St c (Vec d K) Unit} {i : Nat} (hl : s.pop.length = c.popSize) (hi : i < c.popSize) :
    DT noErr (child s i : D c _) (MkOk (FA c) c) := by
  unfold child
  dgo

/-- `OriginalES` (`mealpy/evolutionary_based/ES.py:13-102`) -/
def algo (p : Params) : Algo c (Vec d K) Unit := Algo.full true strategy (pure ()) (evolve p)

theorem ok (hE : c.E.Lawful) (hP : c.P.Lawful) (hc : Accepted c 5) (p : Params) (hp : p.child ≤ c.popSize) :
    (algo p : Algo c (Vec d K) Unit).Ok (FA c) JT JT JT c.popSize p.child p.child := by
  fullalg hE hP hc evolve
  refine IT.pt (HJ.it (HJ.bindS (HJ.buildEval hE fun s i hs hl hi => dt_child hE hP hl (by omega)) le_rfl fun new hn => ?_))
  exact HJ.weaken (HJ.mergeFront hE (by omega)) (by omega) (by omega)

theorem framed (hE : c.E.Lawful) (p : Params) (ep : Nat) : Framed true (evolve p ep : M c (Vec d K) Unit Unit) := by
  unfold evolve; framed

end OriginalES

namespace LevyES

/-- a child by Lévy flight (`mealpy/evolutionary_based/ES.py:181-188`) -/
def flight (s : St c (Vec d K) Unit) (idx : Nat) : D c (Vec d K × Vec d K) := do
  let x ← nth s.pop idx
  let l ← levyVec 1.0 0.001 (-1)
  let pos ← correct (fun j => x.sol j + l j)
  let tau : K := Num.pow (Num.sqrt (2.0 * ♯d)) (-1.0)
  let tau' : K := Num.pow (Num.sqrt (2.0 * Num.sqrt (♯d))) (-1.0)
  let e ← vecM (fun _ => do
    let u ← normal 0 1
    let v ← normal 0 1
    pure (Num.exp (tau' * u + tau * v)))
  let _ ← OriginalES.strategy pos
  pure (pos, e)

/-- `LevyES.evolve` (`mealpy/evolutionary_based/ES.py:159-192`) -/
def evolve (p : OriginalES.Params) (ep : Nat) : M c (Vec d K) Unit Unit := do
  let new ← buildEval p.child OriginalES.child
  let far ← buildEval p.child flight
  mergeFront c.popSize ([] ++ new ++ far)

theorem dt_flight (hE : c.E.Lawful) (hP : c.P.Lawful) {s : St c (Vec d K) Unit} {i : Nat} (hl : s.pop.length = c.popSize) (hi : i < c.popSize) :
    DT noErr (flight s i : D c _) (MkOk (FA c) c) := by
  unfold flight
  dgo

/-- `LevyES` (`mealpy/evolutionary_based/ES.py:105-192`) -/
def algo (p : OriginalES.Params) : Algo c (Vec d K) Unit := Algo.full true OriginalES.strategy (pure ()) (evolve p)

theorem ok (hE : c.E.Lawful) (hP : c.P.Lawful) (hc : Accepted c 5) (p : OriginalES.Params) (hp : p.child ≤ c.popSize) :
    (algo p : Algo c (Vec d K) Unit).Ok (FA c) JT JT JT c.popSize (p.child + p.child) (p.child + p.child) := by
  fullalg hE hP hc evolve
  refine IT.pt (HJ.it (HJ.bindS (HJ.buildEval hE fun s i hs hl hi => OriginalES.dt_child hE hP hl (by omega)) (by omega) fun new hn => ?_))
  refine HJ.bindS (HJ.buildEval hE fun s i hs hl hi => dt_flight hE hP hl (by omega)) (by omega) fun far hf => ?_
  exact HJ.weaken (HJ.mergeFront hE (by omega)) (by omega) (by omega)

theorem framed (hE : c.E.Lawful) (p : OriginalES.Params) (ep : Nat) : Framed true (evolve p ep : M c (Vec d K) Unit Unit) := by
  unfold evolve; framed

end LevyES

namespace CMA_ES

/-- `np.round(n / 2)`: half to even (`mealpy/evolutionary_based/ES.py:253` and `379`) -/
def half (n : Nat) : Nat := if n % 2 = 0 then n / 2 else if n / 2 % 2 = 0 then n / 2 else n / 2 + 1

theorem half_le (n : Nat) : half n ≤ n := by
  unfold half
  split
  · omega
  · split <;> omega

/-- the attributes that change (`mealpy/evolutionary_based/ES.py:252-272`); the constants are computed where they are used -/
structure Vars (d : Nat) (K : Type) where
  ps : Vec d K
  pc : Vec d K
  cov : Fin d → Vec d K
  sigma : Vec d K
  mean : Vec d K

/-- `multivariate_normal(zeros, cov)`: the joint distribution of the coordinates is left to the environment -/
def mvn (cov : Fin d → Vec d K) : D c (Vec d K) := vecM (fun j => dist "multivariate_normal" [cov j j])

/-- `np.eye` -/
def eye : Fin d → Vec d K := fun i j => if i = j then 1 else 0

/-- `self.w` (`mealpy/evolutionary_based/ES.py:257-258`) -/
def weights (c : Cfg d K) : List K :=
  let w : List K := (List.range c.popSize).map (fun i => Num.log (♯c.popSize + 0.5) - Num.log (♯(i + 1)))
  w.map (fun x => x / sumL w)

/-- `self.mu_eff` (`mealpy/evolutionary_based/ES.py:259`) -/
def muEff (c : Cfg d K) : K := 1 / sumL ((weights c).map (fun x => x * x))
/-- `self.cs` (`mealpy/evolutionary_based/ES.py:262`) -/
def cs (c : Cfg d K) : K := (muEff c + 2) / (♯d + muEff c + 5)
/-- `self.ds` (`mealpy/evolutionary_based/ES.py:263`): `np.max(x, 0)` takes 0 for an axis, so nothing is cut off at 0 -/
def ds (c : Cfg d K) : K := 1 + cs c + 2 * (Num.sqrt ((muEff c - 1) / (♯d + 1)) - 1)
/-- `self.ENN` (`mealpy/evolutionary_based/ES.py:264`) -/
def enn (c : Cfg d K) : K := Num.sqrt (♯d) * (1 - 1.0 / (4 * ♯d) + 1.0 / (21 * Num.pow (♯d) 2))
/-- `self.cc` (`mealpy/evolutionary_based/ES.py:266`) -/
def cc (c : Cfg d K) : K := (4 + muEff c / ♯d) / (4 + ♯d + 2 * muEff c / ♯d)
/-- `self.c1` (`mealpy/evolutionary_based/ES.py:267`) -/
def c1 (c : Cfg d K) : K := 2 / (Num.pow (♯d + 1.3) 2 + muEff c)
/-- `self.cmu` (`mealpy/evolutionary_based/ES.py:268-269`) -/
def cmu (c : Cfg d K) : K := min (1 - c1 c) (2 * (muEff c - 2 + 1 / muEff c) / (Num.pow (♯d + 2) 2 + 2 * muEff c / 2))
/-- `self.hth` (`mealpy/evolutionary_based/ES.py:270`) -/
def hth (c : Cfg d K) : K := (1.4 + 2 / (♯d + 1)) * enn c

/-- `before_main_loop` (`mealpy/evolutionary_based/ES.py:252-272`) -/
def before (s : St c (Vec d K) (Vars d K)) : D c (Vars d K) :=
  pure ⟨fun _ => 0, fun _ => 0, eye, fun j => 0.1 * (c.P.ub j - c.P.lb j), meanPos ((s.pop.take (half c.popSize)).map (·.sol))⟩

/-- a new position (`mealpy/evolutionary_based/ES.py:288-290`); `generate_empty_agent` draws a step (`mealpy/evolutionary_based/ES.py:246-250`) -/
def move (s : St c (Vec d K) (Vars d K)) (idx : Nat) : D c (Vec d K × Vec d K) := do
  let x ← nth s.pop idx
  let pos ← correct (fun j => s.ext.mean j + s.ext.sigma j * x.ext j)
  let e ← mvn eye
  pure (pos, e)

/-- the adaptation of the distribution (`mealpy/evolutionary_based/ES.py:298-321`). Linear algebra is not modelled: the environment decides
whether `np.linalg.cholesky` or `np.linalg.inv` raises `LinAlgError` (a `ValueError`), what `x_step · inv(cholesky(C).T)` is, and, by the
sign of its answer, whether `C` has a negative eigenvalue, and what `V * E / V` is then. -/
def adapt (ep : Nat) (s : St c (Vec d K) (Vars d K)) : D c (Vars d K) := do
  let y := s.ext
  let top := List.zip (weights c) (s.pop.take (half c.popSize))
  let step : Vec d K := fun j => sumL (top.map (fun p => p.1 * p.2.ext j))
  let mean : Vec d K := fun j => y.mean j + y.sigma j * step j
  let bad ← dist "linalg.cholesky" []
  let t ← (if bad < 0 then dthrow .value else vecM (fun j => dist "linalg.inv" [step j]) : D c (Vec d K))
  let ps : Vec d K := fun j => (1 - cs c) * y.ps j + Num.sqrt (cs c * (2 - cs c) * muEff c) * t j
  let sigma : Vec d K := fun j => y.sigma j * Num.pow (Num.exp (cs c / ds c * (normV ps / enn c - 1))) 0.3
  let hs : K := if normV ps / Num.sqrt (1 - Num.pow (1 - cs c) (♯(2 * ep))) < hth c then 1 else 0
  let delta : K := (1 - hs) * cc c * (2 - cc c)
  let pc : Vec d K := fun j => (1 - cc c) * y.pc j + hs * Num.sqrt (cc c * (2 - cc c) * muEff c) * step j
  let cov : Fin d → Vec d K := fun i j => (1 - c1 c - cmu c) * y.cov i j + c1 c * (pc i * pc j) + delta * y.cov i j
  let cov : Fin d → Vec d K := fun i j => cov i j + sumL (top.map (fun p => cmu c * p.1 * (p.2.ext i * p.2.ext j)))
  let neg ← dist "linalg.eig" []
  let cov ← (if neg < 0 then vecM (fun i => vecM (fun j => dist "V * E / V" [cov i j])) else pure cov : D c (Fin d → Vec d K))
  pure ⟨ps, pc, cov, sigma, mean⟩

/-- `CMA_ES.evolve` (`mealpy/evolutionary_based/ES.py:279-321`) -/
def evolve (ep : Nat) : M c (Vec d K) (Vars d K) Unit := do
  let new ← buildEval c.popSize move
  setPop new
  sortPop
  let s ← get
  let steps ← draw (repM c.popSize (fun _ => mvn s.ext.cov))
  mapExt (fun i a => steps.getD i a.ext)
  let s ← get
  let y ← draw (adapt ep s)
  modExt (fun _ => y)

theorem dt_mvn {cov : Fin d → Vec d K} : DT Er (mvn cov : D c (Vec d K)) (fun _ => True) := DT.vecMT fun j => DT.dist

macro_rules
  | `(tactic| dprim) => `(tactic| (at_head CMA_ES.mvn; exact CMA_ES.dt_mvn))

theorem dt_adapt {ep : Nat} {s : St c (Vec d K) (Vars d K)} : DT (only [.value]) (adapt ep s : D c _) (fun _ => True) := by
  unfold adapt
  refine DT.bind DT.dist fun bad _ => DT.bind (R := fun _ => True) (DT.ite (fun _ => DT.throw (.head _)) fun _ => DT.vecMT fun j => DT.dist) fun t _ => ?_
  refine DT.bind DT.dist fun neg _ => DT.bind (R := fun _ => True) (DT.ite (fun _ => DT.vecMT fun i => DT.vecMT fun j => DT.dist) fun _ => DT.pure trivial) fun cov _ => ?_
  exact DT.pure trivial

/-- `CMA_ES` (`mealpy/evolutionary_based/ES.py:195-321`) -/
def algo : Algo c (Vec d K) (Vars d K) := Algo.pre true (fun _ => mvn eye) (pure ⟨fun _ => 0, fun _ => 0, eye, fun _ => 0, fun _ => 0⟩) before evolve

theorem wok (hE : c.E.Lawful) (hP : c.P.Lawful) (hc : Accepted c 5) :
    (algo : Algo c (Vec d K) (Vars d K)).WOk (only [.value]) (Inv.std c (Vec d K) JT) JT JT c.popSize c.popSize 0 0 c.popSize c.popSize := by
  have hpop := hc.pop
  unfold algo
  refine Algo.pre_wok (J := JT) hE hP (by omega) (fun x hx => by dgo) (by dgo) (by intro s hs; exact DT.pure trivial) (fun ep hep1 hep2 => ?_)
  unfold evolve
  refine WT.bindS (WT.buildEval hE fun s i hs hi => ?_) le_rfl fun new hn => ?_
  · have hl := hs.len_std
    unfold move
    dgo
  refine WT.bind0 (WT.setPop hn.1 hn.2) fun _ _ => WT.bind0 (WT.sortPop hE) fun _ _ => WT.bind0 WT.get fun s hs => ?_
  refine WT.bind0 (WT.draw (R := fun _ => True) (by dgo)) fun steps _ => WT.bind0 WT.mapExt fun _ _ => WT.bind0 WT.get fun s hs => ?_
  exact WT.bind0 (WT.draw dt_adapt) fun y _ => WT.weaken (WT.modExt fun _ _ => trivial) (by omega) (by omega)

theorem framed (hE : c.E.Lawful) (ep : Nat) : Framed true (evolve ep : M c (Vec d K) (Vars d K) Unit) := by
  unfold evolve; framed

end CMA_ES

namespace Simple_CMA_ES

/-- `Simple_CMA_ES.evolve` (`mealpy/evolutionary_based/ES.py:381-413`). `E @ diag(sqrt(w)) @ N` is left to the environment: `E` and `w`
come from `np.linalg.eigh` of the covariance of the population; that it may fail to converge is not modelled. -/
def evolve (ep : Nat) : M c Unit Unit Unit := do
  let s ← get
  let sorted ← draw (sortedPop s.pop)
  let m : Vec d K := meanPos ((sorted.take (CMA_ES.half c.popSize)).map (·.sol))
  let rows ← draw (repM c.popSize (fun _ => vecM (fun j => do
    let z ← dist "E @ diag(sqrt(w)) @ N" [m j]
    pure (m j + z))))
  greedyLoop c.popSize (fun _ idx => do
    let x ← nth rows idx
    let pos ← correct x
    pure (pos, ()))

/-- `Simple_CMA_ES` (`mealpy/evolutionary_based/ES.py:324-413`) -/
def algo : Algo c Unit Unit := Algo.plain false evolve

theorem ok (hE : c.E.Lawful) (hP : c.P.Lawful) (hc : Accepted c 5) :
    (algo : Algo c Unit Unit).Ok (FA c) JT JT JT c.popSize c.popSize c.popSize := by
  plainalg hE hP hc evolve
  refine IT.pt (IT.bind0 IT.get fun s hs => ?_)
  refine IT.bind0 (IT.draw (DT.sortedPop hE)) fun sorted hso => ?_
  refine IT.bind0 (IT.draw (DT.repMT fun i _ => DT.vecMT fun j => DT.bind DT.dist fun _ _ => DT.pure trivial)) fun rows hr => ?_
  exact IT.greedyLoop hE fun s i hs hl hi => DT.bind (DT.nth_mem (by omega)) fun x _ => DT.bind (DT.correct hP) fun pos hx => DT.pure (FA.mkOk hx)

theorem framed (hE : c.E.Lawful) (ep : Nat) : Framed true (evolve ep : M c Unit Unit Unit) := by
  unfold evolve; framed

end Simple_CMA_ES

end Mealpy
