import Verif.Alg.Kit19
import Verif.Alg.Simple13

/-! # Tabu search (`mealpy/math_based/TS.py`) and the adaptive bacterial foraging (`mealpy/swarm_based/BFO.py`)

Both resize their population, and both may raise. -/

set_option linter.unusedSectionVars false
set_option linter.unusedVariables false

namespace Mealpy
open Spec

variable {d : Nat} {K : Type} [Num K] {c : Cfg d K} {X Y : Type} {Er : Err → Prop}

/-- `self.pop[i]` when an `IndexError` is one of the tolerated exceptions -/
theorem WT.popAt_err {I : Inv c X Y} {i : Nat} (h : Er .index) :
    WT Er I 0 0 (Mealpy.popAt i : M c X Y _) (fun a => I.Ag a) := by
  intro s hs
  by_cases hi : i < s.pop.length
  · exact Wp.popAt hi ⟨WStep.base hs (.refl rfl), hs.pop _ (List.getElem_mem _)⟩
  · have : (Mealpy.popAt i : M c X Y _) s = .error .index := by
      unfold Mealpy.popAt
      rw [List.getElem?_eq_none (by omega)]
    exact Wp.of_err this h

theorem WT.setAt_err {I : Inv c X Y} {i : Nat} (h : Er .index) {a : Agent d K X} (ha : I.Ag a) :
    WT Er I 0 0 (Mealpy.setAt i a : M c X Y Unit) (fun _ => True) := by
  intro s hs
  by_cases hi : i < s.pop.length
  · refine Wp.setAt hi ⟨WStep.pop hs (by rw [List.length_set]; exact hs.len) ?_, trivial⟩
    intro b hb
    rcases mem_set_iff hb with rfl | hb
    · exact ha
    · exact hs.pop b hb
  · have : (Mealpy.setAt i a : M c X Y Unit) s = .error .index := by
      unfold Mealpy.setAt
      rw [if_neg hi]
    exact Wp.of_err this h

namespace OriginalTS

/-- the hyper-parameters (`mealpy/math_based/TS.py:76-78`) -/
structure Params (K : Type) where
  tabu : Nat
  neighbours : Nat
  scale : K

/-- the corrected candidates that are neither near the current point nor tabu (`mealpy/math_based/TS.py:95-105`); `np.allclose`
has the tolerances `rtol=1e-05, atol=1e-08` -/
def candidates (p : Params K) (x : Vec d K) (tabu : List (Vec d K)) : D c (List (Vec d K × Unit)) :=
  gather p.neighbours (fun _ => do
    let y ← vecM (fun j => normal (x j) p.scale)
    let pos ← correct y
    if allclose 1.0e-8 pos x = true then pure []
    else if pos ∈ tabu then pure []
    else pure [(pos, ())])

/-- what is left of a list when its first element is removed because the list is too long (`mealpy/math_based/TS.py:114-116`) -/
def forget {α : Type} (n : Nat) (l : List α) : List α := if n < l.length then l.drop 1 else l

/-- `OriginalTS.evolve` (`mealpy/math_based/TS.py:87-116`), with the attribute `x`.  `before_main_loop` empties the population
(`mealpy/math_based/TS.py:85`), which nothing reads until the first `evolve`; here it is emptied there.  The tabu list holds the
solutions of the population, so it is not a second list. -/
def evolve (p : Params K) (ep : Nat) : M c Unit (Vec d K) Unit := do
  let s ← get
  let pop := if ep = 1 then [] else s.pop
  let pend ← draw (candidates p s.ext (pop.map (·.sol)))
  let new ← evalAll pend
  let best ← draw (bestAgent new)
  setPop (forget p.tabu (pop ++ [best]))
  modExt (fun _ => best.sol)

/-- `OriginalTS` (`mealpy/math_based/TS.py:12-116`); `before_main_loop` (`:82-85`) sets `x` to the best position so far -/
def algo (p : Params K) : Algo c Unit (Vec d K) :=
  Algo.pre false (fun _ => pure ()) (pure (fun _ => 0)) (fun s => pure s.gbest.sol) (evolve p)

/-- at least one agent, at most as many as at first or as the tabu list holds -/
def Size (c : Cfg d K) (p : Params K) (n : Nat) : Prop := 1 ≤ n ∧ n ≤ max c.popSize p.tabu

/-- the invariant -/
abbrev I (c : Cfg d K) (p : Params K) : Inv c Unit (Vec d K) := ⟨Feas c, Size c p, fun x => FA c x ∧ True, JT⟩

theorem dt_candidates (hP : c.P.Lawful) {p : Params K} {x : Vec d K} {tabu : List (Vec d K)} :
    DT Er (candidates p x tabu : D c _) (fun l => l.length ≤ p.neighbours ∧ ∀ q ∈ l, Feas c q.1) := by
  unfold candidates
  refine DT.mono (DT.gather (k1 := 0) (k2 := 1) (Q := fun q => Feas c q.1) fun i _ => ?_) fun l h => ⟨by have := h.1.2; omega, h.2⟩
  refine DT.bind (DT.vecMT fun _ => DT.normal) fun y _ => DT.bind (DT.correct hP) fun pos hp => ?_
  refine DT.ite (fun _ => DT.pure ⟨by simp, by simp⟩) fun _ => DT.ite (fun _ => DT.pure ⟨by simp, by simp⟩) fun _ => DT.pure ⟨by simp, ?_⟩
  intro q hq
  rw [List.mem_singleton.1 hq]
  exact hp

theorem forget_mem {α : Type} {n : Nat} {l : List α} {a : α} (h : a ∈ forget n l) : a ∈ l := by
  unfold forget at h
  split at h
  · exact List.mem_of_mem_drop h
  · exact h

theorem forget_length {α : Type} {n m : Nat} {l : List α} (h1 : 1 ≤ n) (h : 1 ≤ l.length ∧ l.length ≤ max m n + 1) (hm : m ≤ n ∨ l.length ≤ m ∨ n < l.length) :
    1 ≤ (forget n l).length ∧ (forget n l).length ≤ max m n := by
  unfold forget
  split
  · rw [List.length_drop]; omega
  · omega

theorem wok (hE : c.E.Lawful) (hP : c.P.Lawful) (hc : Accepted c 2) (p : Params K) (ht : 2 ≤ p.tabu) :
    (algo p : Algo c Unit (Vec d K)).WOk (only [.index]) (I c p) JT JT c.popSize c.popSize 0 0 1 p.neighbours := by
  have hpop := hc.pop
  have hep := hc.epoch
  unfold algo
  refine Algo.before_wok (I := I c p) hE hP (by omega) (⟨by omega, le_max_left _ _⟩ : Size c p c.popSize) (fun n hn => by have := hn.1; omega) rfl
    (fun x hx => ⟨hx, DT.pure ⟨hx, trivial⟩⟩) (DT.pure trivial) ?_ (fun ep _ _ => ?_)
  · intro s hs
    have hb : DT (only [Err.index]) (pure s.gbest.sol : D c (Vec d K)) (fun _ => True) := DT.pure trivial
    refine Wp.bind (Wp.get (Wp.bind (Wp.draw hb fun y r v hy => Wp.modify ?_)))
    exact ⟨⟨hs.len, hs.pop, trivial, hs.gbest, hs.record, hs.worst, hs.cbest, hs.cworst⟩, .refl rfl, .rfl⟩
  show WT _ (I c p) 1 p.neighbours (evolve p ep) (fun _ => True)
  unfold evolve
  refine WT.bind0 WT.get fun s hs => ?_
  have hsz : Size c p s.pop.length := hs.len
  dsimp only
  have hp : (if ep = 1 then [] else s.pop).length ≤ max c.popSize p.tabu ∧ ∀ a ∈ (if ep = 1 then [] else s.pop), (I c p).Ag a := by
    split
    · simp
    · exact ⟨hsz.2, hs.pop⟩
  generalize (if ep = 1 then [] else s.pop) = pop at hp ⊢
  refine WT.bind0 (WT.draw (dt_candidates hP)) fun pend hpend => ?_
  have hev := WT.evalAll (I := I c p) (Er := only [Err.index]) hE (pend := pend) (fun q hq => ⟨hpend.2 q hq, hpend.2 q hq, trivial⟩)
  by_cases h0 : pend.length = 0
  · have hnil : pend = [] := List.eq_nil_of_length_eq_zero h0
    subst hnil
    refine WT.weaken (lo := 1) (hi := 0 + 0) (WT.bindS (lo := 1) hev (by simp) fun new hn => ?_) le_rfl (by omega)
    have hn0 : new = [] := List.eq_nil_of_length_eq_zero hn.1
    subst hn0
    exact WT.bind0 (WT.draw (R := fun _ => False) (DT.mono (DT.bestAgent_err hE (List.Mem.head _)) fun a ha => by simp at ha)) fun a ha => ha.elim
  refine WT.weaken (lo := pend.length) (hi := pend.length) (WT.bindS hev le_rfl fun new hn => ?_) (by omega) (by omega)
  refine WT.bind0 (WT.draw (DT.bestAgent_err hE (List.Mem.head _))) fun best hb => ?_
  refine WT.bind0 (WT.setPop ?_ fun a ha => ?_) fun _ _ => WT.weaken (WT.modExt fun y hy => trivial) (by omega) (by omega)
  · refine forget_length (by omega) ⟨by simp, by simpa using hp.1⟩ ?_
    have := hp.1
    rw [List.length_append, List.length_singleton]
    omega
  · rcases List.mem_append.1 (forget_mem ha) with h | h
    · exact hp.2 a h
    · rw [List.mem_singleton.1 h]
      exact hn.2 _ hb

theorem framed (hE : c.E.Lawful) (p : Params K) (ep : Nat) : Framed true (evolve p ep : M c Unit (Vec d K) Unit) := by
  unfold evolve; framed

end OriginalTS

namespace ABFO

/-- the hyper-parameters (`mealpy/swarm_based/BFO.py:241-246`) -/
structure Params (K : Type) where
  cs : K
  ce : K
  ped : K
  ns : Nat
  adapt : Nat
  split : Nat

/-- the attributes of a bacterium (`mealpy/swarm_based/BFO.py:258-265`) -/
structure Own (d : Nat) (K : Type) where
  nutrients : Int
  localSol : Vec d K
  localTgt : Target K

/-- the attributes `generate_agent` gives (`mealpy/swarm_based/BFO.py:255-266`) -/
def fresh (x : Vec d K) (t : Target K) : Own d K := ⟨0, x, t⟩

/-- a bacterium -/
abbrev Bac (d : Nat) (K : Type) := Agent d K (Own d K)

/-- `update_step_size__` (`mealpy/swarm_based/BFO.py:268-272`); `y` is `(C_s, C_e)` -/
def stepSize (y : Vec d K × Vec d K) (pop : List (Bac d K)) (a : Bac d K) : Vec d K := fun j =>
  let s := y.1 j - (y.1 j - y.2 j) * a.fit / sumL (pop.map (·.fit))
  if 0 < a.ext.nutrients then s / Num.ofInt a.ext.nutrients else s

/-- the direction and the new position (`mealpy/swarm_based/BFO.py:284-288`) -/
def move (best : Vec d K) (step : Vec d K) (a : Bac d K) : D c (Vec d K) := do
  let di : Vec d K := fun j => (best j - a.sol j) + (a.ext.localSol j - a.sol j)
  let delta : K := Num.sqrt (Num.abs (dotV di di))
  let u ← (if delta = 0 then uniformVec c.P.lb c.P.ub else pure (fun j => di j / delta) : D c (Vec d K))
  correct (fun j => a.sol j + step j * u j)

/-- the accepted bacterium (`mealpy/swarm_based/BFO.py:289-295`): its target is compared with its own local target -/
def accepted (mm : MinMax) (x : Vec d K) (t : Target K) : Bac d K :=
  let a : Bac d K := ⟨x, t, { fresh x t with nutrients := (fresh x t).nutrients + 1 }⟩
  if compareTarget a.tgt a.ext.localTgt mm then { a with ext := { a.ext with localSol := x, localTgt := t } } else a

/-- one swim (`mealpy/swarm_based/BFO.py:284-297`) -/
def swim (step : Vec d K) (idx : Nat) : M c (Own d K) (Vec d K × Vec d K) Unit := do
  let a ← popAt idx
  let s ← get
  let x ← draw (move s.gbest.sol step a)
  let t ← liftB (getTarget x)
  if compareTarget t a.tgt c.P.mm then setAt idx (accepted c.P.mm x t)
  else setAt idx { a with ext := { a.ext with nutrients := a.ext.nutrients - 1 } }

/-- `int(n + (len(self.pop) - self.pop_size) / N_adapt)` -/
def thr (n adapt len size : Nat) : Int := ((n * adapt : Int) + ((len : Int) - size)).tdiv adapt

/-- the daughter cell (`mealpy/swarm_based/BFO.py:299-302`) -/
def daughter (best x : Vec d K) : D c (Vec d K) := do
  let tt ← normalVec 0 1
  correct (fun j => tt j * x j + (1 - tt j) * (best j - x j))

/-- splitting (`mealpy/swarm_based/BFO.py:298-303`); `N_adapt` may be 0 -/
def splitting (p : Params K) (idx : Nat) : M c (Own d K) (Vec d K × Vec d K) Unit := do
  let a ← popAt idx
  let s ← get
  if p.adapt = 0 then mthrow .zeroDiv
  else if max (p.split : Int) (thr p.split p.adapt s.pop.length c.popSize) < a.ext.nutrients then do
    let x ← draw (daughter s.gbest.sol a.sol)
    let t ← liftB (getTarget x)
    reshape (fun pop => pop ++ [⟨x, t, fresh x t⟩])
  else pure ()

/-- death (`mealpy/swarm_based/BFO.py:304-306`); the second condition is evaluated only when the first fails -/
def death (p : Params K) (idx : Nat) : M c (Own d K) (Vec d K × Vec d K) Unit := do
  let a ← popAt idx
  let s ← get
  let dies ← (if a.ext.nutrients < min (p.adapt : Int) (thr p.adapt p.adapt s.pop.length c.popSize) then pure true
    else draw (do let u ← random; pure (decide (u < p.ped))) : M c (Own d K) (Vec d K × Vec d K) Bool)
  if dies then do
    let b ← liftB (generateAgent (fun x => pure (fresh x (c.P.target x))))
    setAt idx b
  else pure ()

/-- one bacterium (`mealpy/swarm_based/BFO.py:282-306`) -/
def live (p : Params K) (idx : Nat) : M c (Own d K) (Vec d K × Vec d K) Unit := do
  let a ← popAt idx
  let s ← get
  iter p.ns (fun _ _ => swim (stepSize s.ext s.pop a) idx) ()
  splitting p idx
  death p idx

/-- removing duplicates from the list being enumerated (`mealpy/swarm_based/BFO.py:308-313`): after a removal the enumeration skips one agent -/
def dedupe (seen : List (Vec d K)) : List (Bac d K) → List (Bac d K)
  | [] => []
  | [a] => if a.sol ∈ seen then [] else [a]
  | a :: b :: rest => if a.sol ∈ seen then b :: dedupe seen rest else a :: dedupe (a.sol :: seen) (b :: rest)

/-- balancing (`mealpy/swarm_based/BFO.py:315-326`): `range(0, n_agents)` is empty when `n_agents` is negative -/
def balance (n : Nat) (pop : List (Bac d K)) : D c (List (Bac d K)) :=
  if n < pop.length then do
    let out ← choice pop.length (pop.length - n) false
    pure ((rangeWithout pop.length out).filterMap (fun i => pop[i]?))
  else pure pop

/-- `ABFO.evolve` (`mealpy/swarm_based/BFO.py:274-326`) -/
def evolve (p : Params K) (ep : Nat) : M c (Own d K) (Vec d K × Vec d K) Unit := do
  iter c.popSize (fun i _ => live p i) ()
  let s ← get
  let pop ← draw (balance c.popSize (dedupe [] s.pop))
  setPop pop

/-- `ABFO` (`mealpy/swarm_based/BFO.py:173-326`) -/
def algo (p : Params K) : Algo c (Own d K) (Vec d K × Vec d K) :=
  Algo.full false (fun x => pure (fresh x (c.P.target x)))
    (pure (fun j => p.cs * (c.P.ub j - c.P.lb j), fun j => p.ce * (c.P.ub j - c.P.lb j))) (evolve p)

/-- at least one and at most `pop_size` agents -/
def Size (c : Cfg d K) (n : Nat) : Prop := 1 ≤ n ∧ n ≤ c.popSize

/-- the invariant: no bacterium ever has more than one nutrient -/
abbrev I (c : Cfg d K) : Inv c (Own d K) (Vec d K × Vec d K) := ⟨Feas c, Size c, fun x => FA c x ∧ x.ext.nutrients ≤ 1, JT⟩

/-- the exceptions -/
abbrev es : List Err := [.index, .zeroDiv]

theorem dt_move (hP : c.P.Lawful) {best step : Vec d K} {a : Bac d K} : DT Er (move best step a : D c _) (Feas c) := by
  unfold move
  exact DT.bind (R := fun _ => True) (DT.ite (fun _ => DT.uniformVec') fun _ => DT.pure trivial) fun u _ => DT.correct hP

theorem accepted_eq {mm : MinMax} {x : Vec d K} {t : Target K} : accepted mm x t = ⟨x, t, ⟨1, x, t⟩⟩ := by
  unfold accepted fresh
  dsimp only
  split <;> rfl

theorem wt_swim (hE : c.E.Lawful) (hP : c.P.Lawful) {step : Vec d K} {idx : Nat} :
    WT (only es) (I c) 1 1 (swim step idx : M c (Own d K) (Vec d K × Vec d K) Unit) (fun _ => True) := by
  unfold swim
  refine WT.bind0 (WT.popAt_err (List.Mem.head _)) fun a ha => WT.bind0 WT.get fun s hs => WT.bind0 (WT.draw (dt_move hP)) fun x hx => ?_
  refine WT.bindS (WT.getTarget hx) (by omega) fun t ht => WT.ite (fun _ => WT.setAt_err (List.Mem.head _) ?_) fun _ => WT.setAt_err (List.Mem.head _) ?_
  · rw [accepted_eq]
    exact ⟨ht, hx, le_rfl⟩
  · exact ⟨ha.1, ha.2.1, by have := ha.2.2; show a.ext.nutrients - 1 ≤ 1; omega⟩

theorem wt_splitting {p : Params K} (hs : 1 ≤ p.split) {idx : Nat} :
    WT (only es) (I c) 0 0 (splitting p idx : M c (Own d K) (Vec d K × Vec d K) Unit) (fun _ => True) := by
  unfold splitting
  refine WT.bind0 (WT.popAt_err (List.Mem.head _)) fun a ha => WT.bind0 WT.get fun s _ => WT.ite (fun _ => WT.throw (.tail _ (.head _))) fun _ => ?_
  have h1 : a.ext.nutrients ≤ 1 := ha.2.2
  have h2 : (1 : Int) ≤ p.split := by exact_mod_cast hs
  rw [if_neg (not_lt.2 (h1.trans (h2.trans (le_max_left _ _))))]
  exact WT.pure trivial

theorem wt_death (hE : c.E.Lawful) (hP : c.P.Lawful) {p : Params K} {idx : Nat} :
    WT (only es) (I c) 0 1 (death p idx : M c (Own d K) (Vec d K × Vec d K) Unit) (fun _ => True) := by
  unfold death
  refine WT.bind0 (WT.popAt_err (List.Mem.head _)) fun a ha => WT.bind0 WT.get fun s hs => ?_
  refine WT.bind0 (R := fun _ => True) (WT.ite (fun _ => WT.pure trivial) fun _ => WT.draw (DT.bind DT.random' fun _ _ => DT.pure trivial)) fun dies _ => ?_
  refine WT.ite (fun _ => WT.weaken (lo := 1) (hi := 1) ?_ (by omega) le_rfl) fun _ => WT.weaken (lo := 0) (hi := 0) (WT.pure trivial) le_rfl (by omega)
  exact WT.bindS (WT.generateAgent (I := I c) hP fun x hx => ⟨hx, DT.pure ⟨hx, by show (0 : Int) ≤ 1; omega⟩⟩) le_rfl fun b hb => WT.setAt_err (List.Mem.head _) hb

theorem wt_live (hE : c.E.Lawful) (hP : c.P.Lawful) {p : Params K} (hs : 1 ≤ p.split) {idx : Nat} :
    WT (only es) (I c) p.ns (p.ns + 1) (live p idx : M c (Own d K) (Vec d K × Vec d K) Unit) (fun _ => True) := by
  unfold live
  refine WT.bind0 (WT.popAt_err (List.Mem.head _)) fun a ha => WT.bind0 WT.get fun s _ => ?_
  refine WT.bindS (l1 := p.ns) (h1 := p.ns) (WT.iterU 1 1 (by omega) (by omega) fun i hi => wt_swim hE hP) (by omega) fun _ _ => WT.bind0 (wt_splitting hs) fun _ _ => ?_
  exact WT.weaken (wt_death hE hP) (by omega) (by omega)

theorem dedupe_spec : ∀ (seen : List (Vec d K)) (l : List (Bac d K)), (dedupe seen l).length ≤ l.length ∧ ∀ a ∈ dedupe seen l, a ∈ l
  | seen, [] => by simp [dedupe]
  | seen, [a] => by
    unfold dedupe
    split <;> simp
  | seen, a :: b :: rest => by
    unfold dedupe
    split
    · have := dedupe_spec seen rest
      refine ⟨by simp; omega, fun x hx => ?_⟩
      rcases List.mem_cons.1 hx with rfl | h
      · simp
      · exact List.mem_cons_of_mem _ (List.mem_cons_of_mem _ (this.2 x h))
    · have := dedupe_spec (a.sol :: seen) (b :: rest)
      refine ⟨by simp at this ⊢; omega, fun x hx => ?_⟩
      rcases List.mem_cons.1 hx with rfl | h
      · simp
      · exact List.mem_cons_of_mem _ (this.2 x h)

theorem dedupe_pos : ∀ {l : List (Bac d K)}, 0 < l.length → 0 < (dedupe [] l).length
  | [a], _ => by simp [dedupe]
  | a :: b :: rest, _ => by simp [dedupe]

theorem wok (hE : c.E.Lawful) (hP : c.P.Lawful) (hc : Accepted c 5) (p : Params K) (hs : 5 ≤ p.split) :
    (algo p : Algo c (Own d K) (Vec d K × Vec d K)).WOk (only es) (I c) JT JT c.popSize c.popSize 0 0 (c.popSize * p.ns) (c.popSize * (p.ns + 1)) := by
  have hpop := hc.pop
  unfold algo
  refine Algo.std_wok (I := I c) hE hP (by omega) ⟨by omega, le_rfl⟩ (fun n hn => by have := hn.1; omega) rfl rfl
    (fun x hx => ⟨hx, DT.pure ⟨hx, by show (0 : Int) ≤ 1; omega⟩⟩) (DT.pure trivial) (fun ep _ _ => ?_)
  show WT _ (I c) _ _ (evolve p ep) (fun _ => True)
  unfold evolve
  refine WT.bindS (WT.iterU p.ns (p.ns + 1) le_rfl le_rfl fun i hi => wt_live hE hP (by omega)) le_rfl fun _ _ => WT.bind0 WT.get fun s hs => ?_
  have hsz : Size c s.pop.length := hs.len
  have hd := dedupe_spec ([] : List (Vec d K)) s.pop
  have hd' := dedupe_pos (l := s.pop) hsz.1
  refine WT.bind0 (WT.draw (R := fun l => l = dedupe [] s.pop) ?_) fun pop hp => ?_
  · unfold balance
    rw [if_neg (by have := hsz.2; omega)]
    exact DT.pure rfl
  subst hp
  exact WT.weaken (WT.setPop ⟨hd', hd.1.trans hsz.2⟩ fun a ha => hs.pop a (hd.2 a ha)) (by omega) (by omega)

theorem framed_swim {step : Vec d K} {idx : Nat} : Framed true (swim step idx : M c (Own d K) (Vec d K × Vec d K) Unit) := by
  unfold swim; framed

macro_rules
  | `(tactic| fprim) => `(tactic| (at_last ABFO.swim; exact ABFO.framed_swim))

theorem framed_splitting {p : Params K} {idx : Nat} : Framed true (splitting p idx : M c (Own d K) (Vec d K × Vec d K) Unit) := by
  unfold splitting; framed

macro_rules
  | `(tactic| fprim) => `(tactic| (at_last ABFO.splitting; exact ABFO.framed_splitting))

theorem framed_death {p : Params K} {idx : Nat} : Framed true (death p idx : M c (Own d K) (Vec d K × Vec d K) Unit) := by
  unfold death; framed

macro_rules
  | `(tactic| fprim) => `(tactic| (at_last ABFO.death; exact ABFO.framed_death))

theorem framed (hE : c.E.Lawful) (p : Params K) (ep : Nat) : Framed true (evolve p ep : M c (Own d K) (Vec d K × Vec d K) Unit) := by
  unfold evolve live; framed

end ABFO

end Mealpy
