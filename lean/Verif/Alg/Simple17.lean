import Mathlib.Data.List.Sort
import Verif.Alg.Kit17

/-!
# Bees, mutualistic whales and coral reefs

`CleverBookBeesA`, `OriginalWOAmM`, `DevWOAmM`, `OriginalCRO` and `OCRO`.
-/

set_option linter.unusedSectionVars false
set_option linter.unusedVariables false

namespace Mealpy
open Spec

variable {d : Nat} {K : Type} [Num K] {c : Cfg d K}

namespace CleverBookBeesA

/-- the hyper-parameters (`mealpy/swarm_based/BeesA.py:83-88`); `patch_reduction` is never used -/
structure Params (K : Type) where
  elites : Nat
  others : Nat
  patch : K
  sites : Nat
  eliteSites : Nat

/-- one neighbour (`mealpy/swarm_based/BeesA.py:98-102`): the last coordinate is never changed -/
def neighbour (p : Params K) (x : Vec d K) : D c (Vec d K × Unit) := do
  let t ← integers 0 ((d : Int) - 1)
  let u ← uniform 0 1
  let v ← uniform 0 1
  let step : K := if u < 0.5 then v * p.patch else -(v * p.patch)
  let pos ← correct (fun j => if (j.val : Int) = t then x j + step else x j)
  pure (pos, ())

/-- the agent offered to slot `idx` (`mealpy/swarm_based/BeesA.py:120-127`): the best of `search_neighborhood` (`92-109`) or a new one -/
def scout (p : Params K) (idx : Nat) : M c Unit Unit (Agent d K Unit) :=
  if idx < p.sites then do
    let parent ← popAt idx
    let near ← buildEval (if idx < p.eliteSites then p.elites else p.others) (fun _ _ => neighbour p parent.sol)
    draw (bestAgent near)
  else liftB (generateAgent (fun _ => pure ()))

/-- `CleverBookBeesA.evolve` (`mealpy/swarm_based/BeesA.py:112-133`) -/
def evolve (p : Params K) (_ep : Nat) : M c Unit Unit Unit :=
  if c.swarmLike then do
    let new ← iter c.popSize (fun idx acc => do
      let a ← scout p idx
      pure (acc ++ [a])) []
    selectGreedy new
  else iter c.popSize (fun idx _ => do
    let a ← scout p idx
    let old ← popAt idx
    setAt idx (getBetterAgent a old c.P.mm)) ()

theorem dt_neighbour (hE : c.E.Lawful) (hP : c.P.Lawful) (hd : 2 ≤ d) {p : Params K} {x : Vec d K} : DT noErr (neighbour p x : D c _) (MkOk (FA c) c) := by
  unfold neighbour
  exact DT.bind (DT.integers hE (by omega)) fun t _ => DT.bind DT.uniform' fun u _ => DT.bind DT.uniform' fun v _ =>
    DT.bind (DT.correct hP) fun pos hp => DT.pure (FA.mkOk hp)

theorem framed_scout (hE : c.E.Lawful) {q : Bool} {p : Params K} {idx : Nat} : Framed q (scout p idx : M c Unit Unit _) := by
  unfold scout
  framed

macro_rules
  | `(tactic| fprim) => `(tactic| (at_last CleverBookBeesA.scout; exact CleverBookBeesA.framed_scout (by assumption)))

/-- the most evaluations a slot can cost -/
abbrev Params.most (p : Params K) : Nat := max 1 (max p.elites p.others)

theorem hj_scout (hE : c.E.Lawful) (hP : c.P.Lawful) (hd : 2 ≤ d) {p : Params K} (h1 : 1 ≤ p.elites) (h2 : 1 ≤ p.others) {idx : Nat} (hi : idx < c.popSize)
    {G : List (Agent d K Unit)} :
    HJ (FA c) JT 1 p.most G (scout p idx : M c Unit Unit _) (fun a => G ++ [a]) (fun a => True) := by
  unfold scout
  refine HJ.ite (fun _ => HJ.bind0 (HJ.ofIT (IT.popAt hi)) fun parent _ => ?_) fun _ =>
    HJ.weaken (HJ.post (HJ.generateAgent hP fun x hx => DT.pure hx) fun _ _ => trivial) le_rfl (le_max_left _ _)
  generalize hk : (if idx < p.eliteSites then p.elites else p.others) = k
  have hk1 : 1 ≤ k := by rw [← hk]; split <;> assumption
  have hk2 : k ≤ p.most := by rw [← hk]; unfold Params.most; split <;> omega
  refine HJ.bindS (HJ.buildEval hE fun s i hs hl hi => dt_neighbour hE hP hd) hk2 fun near hn => ?_
  refine HJ.weaken (HJ.post (HJ.swap (H' := fun a => G ++ [a]) (HJ.draw (DT.bestAgent' hE (by omega))) ?_ ?_) fun _ _ => trivial) (by omega) (by omega)
  · rintro v ⟨hv, hb⟩ a ha
    rcases List.mem_append.1 ha with ha | ha
    · exact ⟨a, List.mem_append_left _ ha, NoWorse.rfl⟩
    · exact ⟨v, by simp, hb a ha⟩
  · rintro v ⟨hv, hb⟩ a ha
    rcases List.mem_append.1 ha with ha | ha
    · exact List.mem_append_left _ ha
    · rw [List.mem_singleton] at ha
      exact List.mem_append_right _ (ha ▸ hv)

/-- `CleverBookBeesA` (`mealpy/swarm_based/BeesA.py:12-133`) -/
def algo (p : Params K) : Algo c Unit Unit := Algo.plain true (evolve p)

theorem ok (hE : c.E.Lawful) (hP : c.P.Lawful) (hc : Accepted c 5) (p : Params K) (hd : 2 ≤ d) (h1 : 1 ≤ p.elites) (h2 : 1 ≤ p.others) :
    (algo p : Algo c Unit Unit).Ok (FA c) JT JT JT c.popSize c.popSize (c.popSize * p.most) := by
  plainalg hE hP hc evolve
  refine IT.pt (HJ.it (HJ.ite (fun _ => ?_) fun _ => HJ.ofIT ?_))
  · refine HJ.bindS (l1 := c.popSize * 1) (h1 := c.popSize * p.most) (HJ.iter (fun l => l) (fun i l => l.length = i) c.popSize rfl fun i l hi hl => ?_) (by omega) fun new hn => HJ.weaken (HJ.selectGreedy hn) (by omega) (by omega)
    exact HJ.bindS (hj_scout hE hP hd h1 h2 hi) le_rfl fun a _ => HJ.weaken (HJ.pure rfl (by simp [hl])) (by omega) (by omega)
  · refine IT.weaken (IT.iter (lo := 1) (hi := p.most) (fun _ _ => True) c.popSize trivial fun i _ hi _ => ?_) (by omega) le_rfl
    refine IT.mono (HJ.it (HJ.bindS (hj_scout hE hP hd h1 h2 hi) le_rfl fun a _ => HJ.weaken (HJ.slotBetter hi (by simp) ?_ (by simp)) (by omega) (by omega))) fun _ _ => trivial
    intro b hb
    exact .inr (by simp at hb; rw [hb]; exact NoWorse.rfl)

theorem framed (hE : c.E.Lawful) (p : Params K) (ep : Nat) : Framed true (evolve p ep : M c Unit Unit Unit) := by
  unfold evolve; framed

end CleverBookBeesA

/-- the repairs `bound` selects (`mealpy/swarm_based/WOA.py:357`) -/
inductive Bound
  | clip | random | reflect

namespace OriginalWOAmM

/-- the hyper-parameters (`mealpy/swarm_based/WOA.py:354-357`) -/
structure Params (K : Type) where
  mutRand : Bool
  patience : Nat
  rate : K
  bound : Bound

/-- `initialize_variables` (`mealpy/swarm_based/WOA.py:362-364`) -/
structure Stall (K : Type) where
  count : Nat
  fit : Option K

/-- `before_main_loop` (`mealpy/swarm_based/WOA.py:366-368`): `g_best` is always set there -/
def before (s : St c Unit (Stall K)) : D c (Stall K) := pure { s.ext with fit := some s.gbest.fit }

/-- `n_restart` (`mealpy/swarm_based/WOA.py:371-372`) -/
def restarts (c : Cfg d K) (rate : K) : Nat :=
  (max 0 (min (Num.trunc (Num.ufunc "round" (♯c.popSize * rate))) ((c.popSize : Int) - 1))).toNat

/-- `for idx, agent in zip(worst_ids, new_agents): self.pop[idx] = agent` -/
def place : List (Nat × Agent d K Unit) → List (Agent d K Unit) → List (Agent d K Unit)
  | [], pop => pop
  | q :: l, pop => place l (pop.set q.1 q.2)

/-- `restart_population` (`mealpy/swarm_based/WOA.py:370-377`). With `n_restart = 0` the slice `indices[-0:]` is the whole list, but there
are no new agents to put. -/
def restart (rate : K) : M c Unit (Stall K) Unit := do
  let new ← liftB (generatePopulation (fun _ => pure ()) (restarts c rate))
  reshape (fun pop => place (((getSorted c.E.argsort pop c.P.mm).2.drop (pop.length - new.length)).zip new) pop)

/-- `restart_on_stagnation` (`mealpy/swarm_based/WOA.py:379-394`) -/
def stagnate (p : Params K) : M c Unit (Stall K) Unit :=
  if p.patience = 0 then pure () else do
    let s ← get
    let best ← draw (bestAgent s.pop)
    if (match s.ext.fit with | none => true | some f => compareFitness best.fit f c.P.mm) then
      modExt (fun _ => ⟨0, some best.fit⟩)
    else do
      modExt (fun y => { y with count := y.count + 1 })
      if s.ext.count + 1 ≥ p.patience then do
        modExt (fun y => { y with count := 0 })
        restart p.rate
        let s ← get
        let best ← draw (bestAgent s.pop)
        modExt (fun y => { y with fit := some best.fit })
      else pure ()

/-- `reflect_solution` (`mealpy/swarm_based/WOA.py:396-408`) -/
def reflect (x : Vec d K) : Vec d K := fun j =>
  let lb := c.P.lb j
  let span := c.P.ub j - lb
  if 0 < span then
    let offset := Num.mod (x j - lb) (2 * span)
    lb + (if span < offset then 2 * span - offset else offset)
  else lb

/-- `amend_solution` (`mealpy/swarm_based/WOA.py:417-422`); `"clip"` leaves the position to the variables -/
def amend (b : Bound) (x : Vec d K) : D c (Vec d K) :=
  match b with
  | .clip => pure x
  | .random => amendRandom x
  | .reflect => pure (reflect (c := c) x)

/-- the best of three agents: the first of equals (`mealpy/swarm_based/WOA.py:438-445`) -/
def top3 (mm : MinMax) (a b e : Agent d K Unit) : Agent d K Unit :=
  let first (x y : Agent d K Unit) : Agent d K Unit := match mm with
    | .min => if y.fit < x.fit then y else x
    | .max => if x.fit < y.fit then y else x
  first (first a b) e

/-- one step of the mutualism phase (`mealpy/swarm_based/WOA.py:435-471`), which reads the old population `base` -/
def pairUp (p : Params K) (base : List (Agent d K Unit)) (idx : Nat) : M c Unit (Stall K) Unit := do
  let r ← draw (choose2Without c.popSize [idx])
  let a ← draw (nth base idx)
  let m ← draw (nth base r.1)
  let n ← draw (nth base r.2)
  let best := top3 c.P.mm a m n
  let other := if compareTarget m.tgt n.tgt c.P.mm then r.2 else r.1
  let o ← draw (nth base other)
  let bf1 ← draw (integers 1 3)
  let bf2 ← draw (integers 1 3)
  let r1 ← draw (if p.mutRand then randomVec else do let r ← random; pure (fun _ => r))
  let r2 ← draw (if p.mutRand then randomVec else do let r ← random; pure (fun _ => r))
  let mv : Vec d K := fun j => (a.sol j + o.sol j) / 2
  let x ← draw (correctWith (amend p.bound) (fun j => a.sol j + r1 j * (best.sol j - mv j * Num.ofInt bf1)))
  let y ← draw (correctWith (amend p.bound) (fun j => o.sol j + r2 j * (best.sol j - mv j * Num.ofInt bf2)))
  tryPair (fun _ => pure ()) idx x other y

/-- the whale phase's new position (`mealpy/swarm_based/WOA.py:483-504`) -/
def hunt (p : Params K) (ep : Nat) (g : Vec d K) (s : St c Unit (Stall K)) (idx : Nat) : D c (Vec d K × Unit) := do
  let a : K := 2 - 2 * ♯ep / ♯c.epoch
  let a2 : K := 0 - 1 - ♯ep / ♯c.epoch
  let r1 ← randomVec
  let r2 ← randomVec
  let u ← random
  let ll : K := (a2 - 1) * u + 1
  let pp ← randomVec
  let x ← nth s.pop idx
  let pos ← vecM (fun j : Fin d => do
    let aj : K := 2 * a * r1 j - a
    let cj : K := 2 * r2 j
    if pp j < 0.5 then
      if 1 ≤ Num.abs aj then do
        let i ← pickWithout c.popSize [idx]
        let r ← nth s.pop i
        pure (r.sol j - aj * Num.abs (cj * r.sol j - x.sol j))
      else pure (g j - aj * Num.abs (cj * g j - x.sol j))
    else pure (Num.abs (g j - x.sol j) * Num.exp (1 * ll) * Num.cos (ll * 2 * Num.pi) + g j))
  let pos ← correctWith (amend p.bound) pos
  pure (pos, ())

/-- the mutualism phase, and the better of the best agent and `g_best` (`mealpy/swarm_based/WOA.py:432-476`). The assignment to
`self.g_best` is a local value here: `solve` assigns `self.g_best` again right after `evolve`. -/
def symbiosis (p : Params K) : M c Unit (Stall K) (Vec d K) := do
  let s ← get
  iter c.popSize (fun idx _ => pairUp p s.pop idx) ()
  let s' ← get
  let cur ← draw (bestAgent s'.pop)
  pure (getBetterAgent cur s.gbest c.P.mm).sol

/-- `OriginalWOAmM.evolve` (`mealpy/swarm_based/WOA.py:424-511`) -/
def evolve (p : Params K) (ep : Nat) : M c Unit (Stall K) Unit := do
  let g ← symbiosis p
  replaceLoop c.popSize (hunt p ep g)
  stagnate p

theorem dt_amend {Er : Err → Prop} {b : Bound} {x : Vec d K} : DT Er (amend b x : D c _) (fun _ => True) := by
  cases b
  · exact DT.pure trivial
  · exact DT.amendRandom
  · exact DT.pure trivial

theorem place_length : ∀ {l : List (Nat × Agent d K Unit)} {pop : List (Agent d K Unit)}, (place l pop).length = pop.length
  | [], _ => rfl
  | q :: l, pop => by rw [place, place_length, List.length_set]

theorem place_off : ∀ {l : List (Nat × Agent d K Unit)} {pop : List (Agent d K Unit)} {i : Nat}, i ∉ l.map (·.1) → (place l pop)[i]? = pop[i]?
  | [], _, _, _ => rfl
  | q :: l, pop, i, h => by
    rw [List.map_cons, List.mem_cons, not_or] at h
    rw [place, place_off h.2, List.getElem?_set_ne (Ne.symm h.1)]

theorem place_at : ∀ {l : List (Nat × Agent d K Unit)} {pop : List (Agent d K Unit)} {q : Nat × Agent d K Unit}, (l.map (·.1)).Nodup → q ∈ l →
    q.1 < pop.length → (place l pop)[q.1]? = some q.2
  | r :: l, pop, q, hn, hq, hlt => by
    rw [List.map_cons, List.nodup_cons] at hn
    rw [place]
    rcases List.mem_cons.1 hq with rfl | hq
    · rw [place_off hn.1, List.getElem?_set_self hlt]
    · exact place_at hn.2 hq (by rw [List.length_set]; exact hlt)

theorem place_mem : ∀ {l : List (Nat × Agent d K Unit)} {pop : List (Agent d K Unit)} {a : Agent d K Unit}, a ∈ place l pop → a ∈ pop ∨ a ∈ l.map (·.2)
  | [], _, _, h => .inl h
  | q :: l, pop, a, h => by
    rcases place_mem (l := l) h with h | h
    · rcases List.mem_or_eq_of_mem_set h with h | h
      · exact .inl h
      · exact .inr (by simp [h])
    · exact .inr (by rw [List.map_cons]; exact List.mem_cons_of_mem _ h)

theorem dt_hunt (hE : c.E.Lawful) (hP : c.P.Lawful) (hn : 2 ≤ c.popSize) {p : Params K} {ep : Nat} {g : Vec d K} {s : St c Unit (Stall K)} {i : Nat}
    (hl : s.pop.length = c.popSize) (hi : i < c.popSize) : DT noErr (hunt p ep g s i : D c _) (MkOk (FA c) c) := by
  unfold hunt
  refine DT.bind DT.randomVec fun r1 _ => DT.bind DT.randomVec fun r2 _ => DT.bind DT.random' fun u _ => DT.bind DT.randomVec fun pp _ =>
    DT.bind (DT.nth_mem (by omega)) fun x _ => DT.bind (R := fun _ => True) (DT.vecMT fun j => DT.ite (fun _ => DT.ite (fun _ => ?_) fun _ => DT.pure trivial) fun _ => DT.pure trivial) fun pos _ =>
    DT.bind (DT.correctWith hP dt_amend) fun pos hp => DT.pure (FA.mkOk hp)
  exact DT.bind (DT.pickWithout hE (by simp; omega)) fun i hi => DT.bind (DT.nth_mem (by omega)) fun r _ => DT.pure trivial

theorem it_pairUp (hE : c.E.Lawful) (hP : c.P.Lawful) (hn : 3 ≤ c.popSize) {p : Params K} {base : List (Agent d K Unit)} {i : Nat}
    (hl : base.length = c.popSize) (hi : i < c.popSize) : IT (FA c) JT 2 2 (pairUp p base i : M c Unit (Stall K) Unit) (fun _ => True) := by
  unfold pairUp
  refine IT.bind0 (IT.draw (DT.choose2Without hE (by simp; omega))) fun r hr => ?_
  refine IT.bind0 (IT.draw (DT.nth_mem (by omega))) fun a _ => IT.bind0 (IT.draw (DT.nth_mem (by omega))) fun m _ => IT.bind0 (IT.draw (DT.nth_mem (by omega))) fun n _ => ?_
  have ho : (if compareTarget m.tgt n.tgt c.P.mm then r.2 else r.1) < c.popSize := by split <;> omega
  refine IT.bind0 (IT.draw (DT.nth_mem (by omega))) fun o _ => IT.bind0 (IT.draw (DT.integers hE (by omega))) fun b1 _ => IT.bind0 (IT.draw (DT.integers hE (by omega))) fun b2 _ => ?_
  have hr : DT noErr (if p.mutRand = true then randomVec else do let r ← random; pure (fun _ => r) : D c (Vec d K)) (fun _ => True) :=
    DT.ite (fun _ => DT.randomVec) fun _ => DT.bind DT.random' fun _ _ => DT.pure trivial
  refine IT.bind0 (IT.draw hr) fun r1 _ => IT.bind0 (IT.draw hr) fun r2 _ => ?_
  refine IT.drawPos (DT.correctWith hP dt_amend) fun x hx => IT.drawPos (DT.correctWith hP dt_amend) fun y hy => ?_
  exact IT.tryPair hi ho hx hy fun x hx => DT.pure hx

theorem restarts_lt (hn : 0 < c.popSize) {rate : K} : restarts c rate < c.popSize := by
  unfold restarts
  omega

theorem order_perm (hE : c.E.Lawful) {pop : List (Agent d K Unit)} : ((getSorted c.E.argsort pop c.P.mm).2).Perm (List.range pop.length) :=
  sortedIdx_perm hE.argsortLaw pop c.P.mm

/-- the restart keeps the best agent and everything it makes -/
theorem restart_keeps (hE : c.E.Lawful) {pop new : List (Agent d K Unit)} (h : new.length < pop.length) :
    let r := place (((getSorted c.E.argsort pop c.P.mm).2.drop (pop.length - new.length)).zip new) pop
    r.length = pop.length ∧ (∀ a ∈ r, a ∈ pop ∨ a ∈ new) ∧ ∀ a, a ∈ pop ∨ a ∈ new → ∃ a' ∈ r, NoWorse c.P.mm a'.fit a.fit := by
  intro r
  have hp := order_perm hE (pop := pop)
  have hlen : (getSorted c.E.argsort pop c.P.mm).2.length = pop.length := by rw [hp.length_eq, List.length_range]
  have hnd : (getSorted c.E.argsort pop c.P.mm).2.Nodup := hp.nodup_iff.2 List.nodup_range
  have hids : ((((getSorted c.E.argsort pop c.P.mm).2.drop (pop.length - new.length)).zip new).map (·.1)) = (getSorted c.E.argsort pop c.P.mm).2.drop (pop.length - new.length) := by
    rw [← List.unzip_fst, List.unzip_zip_left]
    rw [List.length_drop, hlen]
    omega
  have hsnd : ((((getSorted c.E.argsort pop c.P.mm).2.drop (pop.length - new.length)).zip new).map (·.2)) = new := by
    rw [← List.unzip_snd, List.unzip_zip_right]
    rw [List.length_drop, hlen]
    omega
  have hndd : ((((getSorted c.E.argsort pop c.P.mm).2.drop (pop.length - new.length)).zip new).map (·.1)).Nodup := by
    rw [hids]
    exact hnd.sublist (List.drop_sublist _ _)
  refine ⟨place_length, fun a ha => ?_, fun a ha => ?_⟩
  · have := place_mem ha
    rwa [hsnd] at this
  · rcases ha with ha | ha
    · have hpw := sortedIdx_pairwise hE.argsortLaw pop c.P.mm
      have he : (getSorted c.E.argsort pop c.P.mm).2 = sortedIdx c.E.argsort pop c.P.mm := by rw [getSorted_eq]
      rw [← he] at hpw
      obtain ⟨j, hj, rfl⟩ := List.getElem_of_mem ha
      have hjm : j ∈ (getSorted c.E.argsort pop c.P.mm).2 := hp.mem_iff.2 (by simpa using hj)
      cases ho : (getSorted c.E.argsort pop c.P.mm).2 with
      | nil => rw [ho] at hjm; cases hjm
      | cons i0 rest =>
        rw [ho] at hpw hjm hnd
        have hi0 : i0 < pop.length := by
          have := hp.mem_iff.1 (ho ▸ List.mem_cons_self : i0 ∈ (getSorted c.E.argsort pop c.P.mm).2)
          simpa using this
        have hoff : i0 ∉ (((getSorted c.E.argsort pop c.P.mm).2.drop (pop.length - new.length)).zip new).map (·.1) := by
          rw [hids, ho]
          obtain ⟨k, hk⟩ : ∃ k, pop.length - new.length = k + 1 := ⟨pop.length - new.length - 1, by omega⟩
          rw [hk, List.drop_succ_cons]
          exact fun hm => (List.nodup_cons.1 hnd).1 (List.mem_of_mem_drop hm)
        have hkeep := place_off (pop := pop) hoff
        rw [List.getElem?_eq_getElem hi0] at hkeep
        refine ⟨_, List.mem_of_getElem? hkeep, ?_⟩
        rcases List.mem_cons.1 hjm with rfl | hjm
        · exact NoWorse.rfl
        · exact (List.pairwise_cons.1 hpw).1 j hjm _ (List.getElem?_eq_getElem hi0) _ (List.getElem?_eq_getElem hj)
    · rw [← hsnd] at ha
      obtain ⟨q, hq, rfl⟩ := List.mem_map.1 ha
      have hq1 : q.1 < pop.length := by
        have : q.1 ∈ (getSorted c.E.argsort pop c.P.mm).2 := by
          have := List.mem_map_of_mem (f := (·.1)) hq
          rw [hids] at this
          exact List.mem_of_mem_drop this
        have := hp.mem_iff.1 this
        simpa using this
      exact ⟨q.2, List.mem_of_getElem? (place_at hndd hq hq1), NoWorse.rfl⟩

/-- `generate_population` when it runs in this process: every evaluation is counted -/
theorem hj_generate (hE : c.E.Lawful) (hP : c.P.Lawful) (hm : c.mode = .single) {n : Nat} {G : List (Agent d K Unit)} :
    HJ (FA c) JT n n G (liftB (generatePopulation (fun _ => pure ()) n) : M c Unit (Stall K) _) (fun new => G ++ new) (fun new => new.length = n) := by
  intro s0 s l h hs0 hs
  refine Wp.liftB (Wp.mono (generatePopulation_spec hE hP n (F := FA c) fun x hx => DT.pure hx) ?_)
  rintro new b' ⟨h1, h2, h3, h4, _⟩
  have hb : Batch (FA c) s new { s with base := b' } :=
    ⟨fun a ha => ⟨(h2 a ha).1, (h2 a ha).2.2, (h2 a ha).2.1⟩, h3, by rw [h1]; exact h4 (.inl hm), rfl, rfl, rfl, rfl⟩
  have := hs.trans (ImpH.ofBatch hs.good hb)
  rw [h1] at this
  exact ⟨this, h1⟩

theorem hj_restart (hE : c.E.Lawful) (hP : c.P.Lawful) (hm : c.mode = .single) (hn : 0 < c.popSize) {rate : K} :
    HJ (FA c) JT (restarts c rate) (restarts c rate) [] (restart rate : M c Unit (Stall K) Unit) (fun _ => []) (fun _ => True) := by
  unfold restart
  refine HJ.bindS (hj_generate hE hP hm) le_rfl fun new hnew => HJ.weaken (HJ.reshape fun pop hl => ?_) (by omega) (by omega)
  have hlt := restarts_lt hn (rate := rate)
  obtain ⟨h1, h2, h3⟩ := restart_keeps hE (pop := pop) (new := new) (by omega)
  exact ⟨h1.trans hl, by simpa using h2, by simpa using h3⟩

theorem it_stagnate (hE : c.E.Lawful) (hP : c.P.Lawful) (hm : c.mode = .single) (hn : 0 < c.popSize) {p : Params K} :
    IT (FA c) JT 0 (restarts c p.rate) (stagnate p : M c Unit (Stall K) Unit) (fun _ => True) := by
  unfold stagnate
  refine HJ.it (HJ.ite (fun _ => HJ.ofIT (IT.weaken (IT.pure trivial) le_rfl (Nat.zero_le _))) fun _ => ?_)
  refine HJ.bind0 (HJ.ofIT IT.get) fun s hs => HJ.bind0 (HJ.draw (DT.bestAgent' hE (by rw [hs.len]; exact hn))) fun best _ => ?_
  refine HJ.ite (fun _ => HJ.ofIT (IT.weaken (IT.modExt fun _ _ => trivial) le_rfl (Nat.zero_le _))) fun _ => ?_
  refine HJ.bind0 (HJ.ofIT (IT.modExt fun _ _ => trivial)) fun _ _ => HJ.ite (fun _ => ?_) fun _ => HJ.ofIT (IT.weaken (IT.pure trivial) le_rfl (Nat.zero_le _))
  refine HJ.bind0 (HJ.ofIT (IT.modExt fun _ _ => trivial)) fun _ _ => HJ.bindS (hj_restart hE hP hm hn) le_rfl fun _ _ => ?_
  refine HJ.bind0 (HJ.ofIT IT.get) fun s hs => HJ.bind0 (HJ.draw (DT.bestAgent' hE (by rw [hs.len]; exact hn))) fun best _ => ?_
  exact HJ.weaken (HJ.ofIT (IT.modExt fun _ _ => trivial)) (by omega) (by omega)

theorem it_symbiosis (hE : c.E.Lawful) (hP : c.P.Lawful) (hn : 3 ≤ c.popSize) {p : Params K} :
    IT (FA c) JT (c.popSize * 2) (c.popSize * 2) (symbiosis p : M c Unit (Stall K) (Vec d K)) (fun _ => True) := by
  unfold symbiosis
  refine IT.bind0 IT.get fun s hs => IT.iterB 2 2 le_rfl (fun i hi => it_pairUp hE hP hn hs.len hi) ?_
  refine IT.bind0 IT.get fun s' hs' => IT.bind0 (IT.draw (DT.bestAgent' hE (by rw [hs'.len]; omega))) fun cur _ => ?_
  exact IT.weaken (IT.pure trivial) (by omega) (by omega)

theorem framed_restart (hE : c.E.Lawful) {rate : K} {q : Bool} : Framed q (restart rate : M c Unit (Stall K) Unit) := by
  unfold restart; framed

macro_rules
  | `(tactic| fprim) => `(tactic| (at_last OriginalWOAmM.restart; exact OriginalWOAmM.framed_restart (by assumption)))

theorem framed_stagnate (hE : c.E.Lawful) {p : Params K} {q : Bool} : Framed q (stagnate p : M c Unit (Stall K) Unit) := by
  unfold stagnate; framed

theorem framed_pairUp {p : Params K} {base : List (Agent d K Unit)} {i : Nat} {q : Bool} : Framed q (pairUp p base i : M c Unit (Stall K) Unit) := by
  unfold pairUp; framed

macro_rules
  | `(tactic| fprim) => `(tactic| (at_last OriginalWOAmM.pairUp; exact OriginalWOAmM.framed_pairUp))

theorem framed_symbiosis {p : Params K} {q : Bool} : Framed q (symbiosis p : M c Unit (Stall K) (Vec d K)) := by
  unfold symbiosis; framed

macro_rules
  | `(tactic| fprim) => `(tactic| (at_last OriginalWOAmM.stagnate; exact OriginalWOAmM.framed_stagnate (by assumption)))

macro_rules
  | `(tactic| fprim) => `(tactic| (at_last OriginalWOAmM.symbiosis; exact OriginalWOAmM.framed_symbiosis))

theorem wt_pairUp (hE : c.E.Lawful) (hP : c.P.Lawful) (hn : 3 ≤ c.popSize) {p : Params K} {base : List (Agent d K Unit)} {i : Nat}
    (hl : base.length = c.popSize) (hi : i < c.popSize) : WT noErr (Inv.std c Unit JT) 2 2 (pairUp p base i : M c Unit (Stall K) Unit) (fun _ => True) := by
  unfold pairUp
  refine WT.bind0 (WT.draw (DT.choose2Without hE (by simp; omega))) fun r hr => ?_
  refine WT.bind0 (WT.draw (DT.nth_mem (by omega))) fun a _ => WT.bind0 (WT.draw (DT.nth_mem (by omega))) fun m _ => WT.bind0 (WT.draw (DT.nth_mem (by omega))) fun n _ => ?_
  have ho : (if compareTarget m.tgt n.tgt c.P.mm then r.2 else r.1) < c.popSize := by split <;> omega
  refine WT.bind0 (WT.draw (DT.nth_mem (by omega))) fun o _ => WT.bind0 (WT.draw (DT.integers hE (by omega))) fun b1 _ => WT.bind0 (WT.draw (DT.integers hE (by omega))) fun b2 _ => ?_
  have hr : DT noErr (if p.mutRand = true then randomVec else do let r ← random; pure (fun _ => r) : D c (Vec d K)) (fun _ => True) :=
    DT.ite (fun _ => DT.randomVec) fun _ => DT.bind DT.random' fun _ _ => DT.pure trivial
  refine WT.bind0 (WT.draw hr) fun r1 _ => WT.bind0 (WT.draw hr) fun r2 _ => ?_
  refine WT.drawPos (DT.correctWith hP dt_amend) fun x hx => WT.drawPos (DT.correctWith hP dt_amend) fun y hy => ?_
  exact WT.tryPair (fun n hn => by rw [hn]; exact hi) (fun n hn => by rw [hn]; exact ho) hx hy fun x hx => DT.pure (Inv.std_ag (J := JT (Y := Stall K)) (a := ⟨x, c.P.target x, ()⟩) ⟨rfl, hx⟩).2

theorem wt_symbiosis (hE : c.E.Lawful) (hP : c.P.Lawful) (hn : 3 ≤ c.popSize) {p : Params K} :
    WT noErr (Inv.std c Unit JT) (c.popSize * 2) (c.popSize * 2) (symbiosis p : M c Unit (Stall K) (Vec d K)) (fun _ => True) := by
  unfold symbiosis
  refine WT.bind0 WT.get fun s hs => WT.iterS 2 2 le_rfl (fun i hi => wt_pairUp hE hP hn hs.len hi) ?_
  refine WT.bind0 WT.get fun s' hs' => WT.bind0 (WT.draw (DT.bestAgent' hE (by rw [hs'.len_std]; omega))) fun cur _ => ?_
  exact WT.weaken (WT.pure trivial) (by omega) (by omega)

theorem wt_stagnate (hE : c.E.Lawful) (hP : c.P.Lawful) (hn : 0 < c.popSize) {p : Params K} :
    WT noErr (Inv.std c Unit JT) 0 (restarts c p.rate) (stagnate p : M c Unit (Stall K) Unit) (fun _ => True) := by
  unfold stagnate restart
  refine WT.ite (fun _ => WT.weaken (WT.pure trivial) le_rfl (Nat.zero_le _)) fun _ => ?_
  refine WT.bind0 WT.get fun s hs => WT.bind0 (WT.draw (DT.bestAgent' hE (by rw [hs.len_std]; exact hn))) fun best _ => ?_
  refine WT.ite (fun _ => WT.weaken (WT.modExt fun _ _ => trivial) le_rfl (Nat.zero_le _)) fun _ => ?_
  refine WT.bind0 (WT.modExt fun _ _ => trivial) fun _ _ => WT.ite (fun _ => ?_) fun _ => WT.weaken (WT.pure trivial) le_rfl (Nat.zero_le _)
  refine WT.bind0 (WT.modExt fun _ _ => trivial) fun _ _ => WT.bindS (l1 := 0) (h1 := restarts c p.rate) (R := fun _ => True) ?_ le_rfl fun _ _ => ?_
  · refine WT.generatePopulation_std hE hP (fun x _ => DT.pure trivial) le_rfl fun new hnew => WT.weaken (WT.reshape fun pop hl hp => ?_) (by omega) (by omega)
    have hl' : pop.length = c.popSize := hl
    have hlt := restarts_lt hn (rate := p.rate)
    obtain ⟨h1, h2, h3⟩ := restart_keeps hE (pop := pop) (new := new) (by omega)
    exact ⟨h1.trans hl, fun a ha => (h2 a ha).elim (hp a) fun h => Inv.std_ag (hnew.2 a h)⟩
  · refine WT.bind0 WT.get fun s hs => WT.bind0 (WT.draw (DT.bestAgent' hE (by rw [hs.len_std]; exact hn))) fun best _ => ?_
    exact WT.weaken (WT.modExt fun _ _ => trivial) (by omega) (by omega)

/-- `OriginalWOAmM` (`mealpy/swarm_based/WOA.py:292-511`) -/
def algo (p : Params K) : Algo c Unit (Stall K) := Algo.pre false (fun _ => pure ()) (pure ⟨0, none⟩) before (evolve p)

theorem wok (hE : c.E.Lawful) (hP : c.P.Lawful) (hc : Accepted c 5) (p : Params K) :
    (algo p : Algo c Unit (Stall K)).WOk noErr (Inv.std c Unit JT) JT JT c.popSize c.popSize 0 0 (c.popSize * 3) (c.popSize * 3 + OriginalWOAmM.restarts c p.rate) := by
  have hpop := hc.pop
  unfold algo
  refine Algo.pre_wok (J := JT) hE hP (by omega) (fun x hx => by dgo) (by dgo) (by intro s hs; exact DT.pure trivial) (fun ep hep1 hep2 => ?_)
  unfold evolve
  refine WT.bindS (wt_symbiosis hE hP (by omega)) (by omega) fun g _ => WT.bindS (WT.replaceLoop hE (fun m => Iff.rfl) Inv.std_upd fun s i hs hl hi => DT.mono (dt_hunt hE hP (by omega) hl hi) fun p hp => Inv.std_mk hp.1) (by omega) fun _ _ => ?_
  exact WT.weaken (wt_stagnate hE hP (by omega)) (by omega) (by omega)

theorem framed (hE : c.E.Lawful) (p : Params K) (ep : Nat) : Framed true (evolve p ep : M c Unit (Stall K) Unit) := by
  unfold evolve; framed

end OriginalWOAmM

namespace DevWOAmM

/-- `before_main_loop` (`mealpy/swarm_based/WOA.py:366-368`) is inherited -/
def before (s : St c Unit (OriginalWOAmM.Stall K)) : D c (OriginalWOAmM.Stall K) := OriginalWOAmM.before s

/-- `DevWOAmM.evolve` (`mealpy/swarm_based/WOA.py:559-649`): as `OriginalWOAmM`, but a whale only moves to a better place.
`is_parallelizable` is False (`mealpy/swarm_based/WOA.py:359`), so `solve` always runs it in mode single (`mealpy/optimizer.py:181-184`) -/
def evolve (p : OriginalWOAmM.Params K) (ep : Nat) : M c Unit (OriginalWOAmM.Stall K) Unit := do
  let g ← OriginalWOAmM.symbiosis p
  greedyLoop c.popSize (OriginalWOAmM.hunt p ep g)
  OriginalWOAmM.stagnate p

/-- `DevWOAmM` (`mealpy/swarm_based/WOA.py:514-649`) -/
def algo (p : OriginalWOAmM.Params K) : Algo c Unit (OriginalWOAmM.Stall K) := Algo.pre false (fun _ => pure ()) (pure ⟨0, none⟩) before (evolve p)

theorem ok (hE : c.E.Lawful) (hP : c.P.Lawful) (hc : Accepted c 5) (p : OriginalWOAmM.Params K) (hm : c.mode = .single) :
    (algo p : Algo c Unit (OriginalWOAmM.Stall K)).Ok (FA c) JT JT JT c.popSize (c.popSize * 3) (c.popSize * 3 + OriginalWOAmM.restarts c p.rate) := by
  have hpop := hc.pop
  unfold algo
  refine Algo.pre_ok (J := JT) hE hP (fun x hx => by dgo) (by dgo) (by intro s hs; exact DT.pure trivial) (fun ep hep1 hep2 => ?_)
  unfold evolve
  refine IT.pt (IT.bindS (OriginalWOAmM.it_symbiosis hE hP (by omega)) (by omega) fun g _ => IT.bindS (IT.greedyLoop hE fun s i hs hl hi => OriginalWOAmM.dt_hunt hE hP (by omega) hl hi) (by omega) fun _ _ => ?_)
  exact IT.weaken (OriginalWOAmM.it_stagnate hE hP hm (by omega)) (by omega) (by omega)

theorem framed (hE : c.E.Lawful) (p : OriginalWOAmM.Params K) (ep : Nat) : Framed true (evolve p ep : M c Unit (OriginalWOAmM.Stall K) Unit) := by
  unfold evolve; framed

end DevWOAmM

namespace OriginalCRO

/-- the hyper-parameters (`mealpy/evolutionary_based/CRO.py:88-96`) -/
structure Params (K : Type) where
  po : K
  fb : K
  fa : K
  fd : K
  pd : K
  gcr : K
  gmin : K
  gmax : K
  trials : Nat

/-- the attributes (`mealpy/evolutionary_based/CRO.py:105-112`). `occ` is `occupied_idx_list`; `occupied_list[i]` is 1 exactly for its
members. `reset` is `reset_count`, which only `OCRO` has. -/
structure Reef (K : Type) where
  occ : List Nat
  g1 : K
  dpd : K
  reset : Nat

/-- `int(n * r)`; the rates are between 0 and 1 -/
def part (n : Nat) (r : K) : Nat := (Num.trunc (♯n * r)).toNat

/-- `num_occupied` (`mealpy/evolutionary_based/CRO.py:108`) -/
def settled (c : Cfg d K) (p : Params K) : Nat := (Num.trunc (♯c.popSize / (1 + p.po))).toNat

/-- `initialization` (`mealpy/evolutionary_based/CRO.py:100-112`) -/
def initialization (p : Params K) (y : Reef K) (pop : Option (List (Agent d K Unit))) : B c (List (Agent d K Unit) × Reef K) := do
  let pop ← startPop (fun _ => pure ()) pop
  let occ ← liftD (choice c.popSize (settled c p) false)
  pure (pop, ⟨occ, p.gmax, 0, y.reset⟩)

/-- `gaussian_mutation__` (`mealpy/evolutionary_based/CRO.py:114-118`) -/
def mutate (p : Params K) (g1 : K) (x : Vec d K) : D c (Vec d K × Unit) := do
  let n ← normalVec 0 1
  let u ← randomVec
  let pos ← correct (fun j => if u j < p.gcr then x j + g1 * (c.P.ub j - c.P.lb j) * n j else x j)
  pure (pos, ())

/-- `multi_point_cross__` (`mealpy/evolutionary_based/CRO.py:121-125`) -/
def cross (x y : Vec d K) : D c (Vec d K × Unit) := do
  let q ← choose2 d
  let pos ← correct (fun j => if min q.1 q.2 ≤ j.val ∧ j.val < max q.1 q.2 then y j else x j)
  pure (pos, ())

/-- the crossings (`mealpy/evolutionary_based/CRO.py:159-166`): each takes two of the selected corals away -/
def crossings (s : St c Unit (Reef K)) (sel : List Nat) : D c (List (Vec d K × Unit) × List Nat) :=
  iter (sel.length / 2) (fun _ r => do
    let q ← choose2 r.2.length
    let i ← nth r.2 q.1
    let j ← nth r.2 q.2
    let a ← nth s.pop i
    let b ← nth s.pop j
    let x ← cross a.sol b.sol
    pure (r.1 ++ [x], (r.2.eraseIdx (max q.1 q.2)).eraseIdx (min q.1 q.2))) ([], sel)

/-- the larvae of `broadcast_spawning_brooding__` (`mealpy/evolutionary_based/CRO.py:147-167`), not yet evaluated -/
def larvae (p : Params K) (s : St c Unit (Reef K)) : D c (List (Vec d K × Unit)) := do
  let occ := s.ext.occ
  let ks ← choice occ.length (part occ.length p.fb) false
  let sel := ks.filterMap (fun k => occ[k]?)
  let rest := occ.filter (fun i => decide (i ∉ sel))
  let muts ← buildPending rest.length (fun k => do
    let i ← nth rest k
    let a ← nth s.pop i
    mutate p s.ext.g1 a.sol)
  let cs ← crossings s sel
  pure (muts ++ cs.1)

/-- position `i` is taken -/
def take (i : Nat) (y : Reef K) : Reef K := if i ∈ y.occ then y else { y with occ := y.occ ++ [i] }

/-- `larvae_setting__` (`mealpy/evolutionary_based/CRO.py:127-140`) -/
def settle (p : Params K) (ls : List (Agent d K Unit)) : M c Unit (Reef K) Unit :=
  iter ls.length (fun k _ => do
    let larva ← draw (nth ls k)
    let _ ← iter p.trials (fun _ done => if done then pure true else do
      let i ← draw (index (c.popSize - 1))
      let s ← get
      if i ∈ s.ext.occ then do
        let old ← popAt i
        if compareTarget larva.tgt old.tgt c.P.mm then do
          setAt i larva
          pure true
        else pure false
      else do
        setAt i larva
        modExt (take i)
        pure true) false
    pure ()) ()

/-- the corals taken by depredation (`mealpy/evolutionary_based/CRO.py:186-188`): the end of the list sorted by fitness, upwards in both
directions of the problem, and the whole list when `num__depredation__` is 0 -/
def prey (p : Params K) (s : St c Unit (Reef K)) : List Nat :=
  let occ := s.ext.occ
  let sorted := (c.E.argsort (occ.filterMap (fun i => (s.pop[i]?).map (·.fit)))).filterMap (fun k => occ[k]?)
  let n := part occ.length p.fd
  if n = 0 then sorted else sorted.drop (sorted.length - n)

/-- the best corals, which try to settle again (`mealpy/evolutionary_based/CRO.py:180-182`) -/
def bests (p : Params K) (s : St c Unit (Reef K)) : List (Agent d K Unit) :=
  getSortedTrimmed c.E.argsort (s.ext.occ.filterMap (fun i => s.pop[i]?)) (part s.ext.occ.length p.fa) c.P.mm

/-- the schedule of the two rates (`mealpy/evolutionary_based/CRO.py:192-195`) -/
def decay (c : Cfg d K) (p : Params K) (y : Reef K) : Reef K :=
  { y with dpd := if y.dpd ≤ p.pd then y.dpd + 10 * p.pd / ♯c.epoch else y.dpd,
           g1 := if p.gmin ≤ y.g1 then y.g1 - 10 * (p.gmax - p.gmin) / ♯c.epoch else y.g1 }

/-- `OriginalCRO.evolve` (`mealpy/evolutionary_based/CRO.py:169-195`) -/
def evolve (p : Params K) (_ep : Nat) : M c Unit (Reef K) Unit := do
  let s ← get
  let pend ← draw (larvae p s)
  let ls ← evalAll pend
  settle p ls
  let s ← get
  settle p (bests p s)
  let u ← draw random
  let s ← get
  (if u < s.ext.dpd then
    modExt (fun y => { y with occ := (y.occ.filter (fun i => decide (i ∉ prey p s))).insertionSort (· ≤ ·) })
  else pure () : M c Unit (Reef K) Unit)
  modExt (decay c p)

/-- the occupied positions exist and are listed once -/
structure Ok (c : Cfg d K) (y : Reef K) : Prop where
  nodup : y.occ.Nodup
  lt : ∀ i ∈ y.occ, i < c.popSize

/-- the rates are rates: a part of `n` corals is at most `n`; in exact arithmetic it is, for `Fb` and `po` as the constructor requires -/
structure Rates (c : Cfg d K) (p : Params K) : Prop where
  fb : ∀ n, n ≤ c.popSize → part n p.fb ≤ n
  po : settled c p ≤ c.popSize

theorem choice_ok {n k : Nat} (h : k ≤ n) : choiceErr n k false = false := by
  simp [choiceErr]; omega

theorem Ok.length {y : Reef K} (h : Ok c y) : y.occ.length ≤ c.popSize := by
  have := (List.subperm_of_subset h.nodup (fun i hi => List.mem_range.2 (h.lt i hi) : y.occ ⊆ List.range c.popSize)).length_le
  simpa using this

theorem Ok.take {y : Reef K} (h : Ok c y) {i : Nat} (hi : i < c.popSize) : Ok c (take i y) := by
  unfold OriginalCRO.take
  split
  · exact h
  · rename_i hn
    refine ⟨List.nodup_append.2 ⟨h.nodup, List.nodup_singleton _, ?_⟩, fun j hj => ?_⟩
    · rintro a ha b hb rfl
      exact hn (List.mem_singleton.1 hb ▸ ha)
    · rcases List.mem_append.1 hj with hj | hj
      · exact h.lt j hj
      · rw [List.mem_singleton.1 hj]; exact hi

theorem dt_mutate (hP : c.P.Lawful) {Er : Err → Prop} {p : Params K} {g1 : K} {x : Vec d K} : DT Er (mutate p g1 x : D c _) (fun q => Feas c q.1) := by
  unfold mutate
  exact DT.bind DT.normalVec fun n _ => DT.bind DT.randomVec fun u _ => DT.bind (DT.correct hP) fun pos hp => DT.pure hp

theorem dt_cross (hE : c.E.Lawful) (hP : c.P.Lawful) (hd : 2 ≤ d) {x y : Vec d K} : DT noErr (cross x y : D c _) (fun q => Feas c q.1) := by
  unfold cross
  exact DT.bind (DT.choose2 hE hd) fun q _ => DT.bind (DT.correct hP) fun pos hp => DT.pure hp

theorem dt_crossings (hE : c.E.Lawful) {Er : Err → Prop} (hx : ∀ x y, DT Er (cross x y : D c _) (fun q => Feas c q.1)) {s : St c Unit (Reef K)} {sel : List Nat} (hl : s.pop.length = c.popSize)
    (hs : ∀ i ∈ sel, i < c.popSize) : DT Er (crossings s sel : D c _) (fun r => r.1.length = sel.length / 2 ∧ ∀ q ∈ r.1, Feas c q.1) := by
  unfold crossings
  refine DT.mono (DT.iter (fun k (r : List (Vec d K × Unit) × List Nat) => (r.1.length = k ∧ ∀ q ∈ r.1, Feas c q.1) ∧ r.2.length + 2 * k = sel.length ∧ ∀ i ∈ r.2, i < c.popSize)
    (sel.length / 2) ⟨⟨rfl, by simp⟩, by simp, hs⟩ ?_) fun r hr => hr.1
  rintro k r hk ⟨⟨h1, h2⟩, h3, h4⟩
  refine DT.bind (DT.choose2 hE (by omega)) fun q hq => ?_
  refine DT.bind (DT.nth_mem (by omega)) fun i hi => DT.bind (DT.nth_mem (by omega)) fun j hj => ?_
  have hi' := h4 i hi
  have hj' := h4 j hj
  refine DT.bind (DT.nth_mem (by omega)) fun a _ => DT.bind (DT.nth_mem (by omega)) fun b _ => DT.bind (hx _ _) fun x hx => DT.pure ⟨⟨by simp [h1], fun y hy => ?_⟩, ?_, fun i hi => ?_⟩
  · rcases List.mem_append.1 hy with hy | hy
    · exact h2 y hy
    · rw [List.mem_singleton.1 hy]; exact hx
  · show ((r.2.eraseIdx (max q.1 q.2)).eraseIdx (min q.1 q.2)).length + 2 * (k + 1) = sel.length
    rw [List.length_eraseIdx, List.length_eraseIdx]
    have : max q.1 q.2 < r.2.length := by omega
    rw [if_pos this, if_pos (by omega)]
    omega
  · exact h4 i (List.mem_of_mem_eraseIdx (List.mem_of_mem_eraseIdx hi))

theorem dt_larvae (hE : c.E.Lawful) (hP : c.P.Lawful) {Er : Err → Prop} (hx : ∀ x y, DT Er (cross x y : D c _) (fun q => Feas c q.1)) {p : Params K} (hr : Rates c p) {s : St c Unit (Reef K)} (hl : s.pop.length = c.popSize) (hy : Ok c s.ext) :
    DT Er (larvae p s : D c _) (fun l => l.length ≤ c.popSize ∧ ∀ q ∈ l, Feas c q.1) := by
  unfold larvae
  have hlen := hy.length
  have hb := hr.fb _ hlen
  refine DT.bind (DT.choice hE (choice_ok (by omega))) ?_
  rintro ks ⟨h1, h2, h3⟩
  have hsel : ∀ i ∈ ks.filterMap (fun k => s.ext.occ[k]?), i ∈ s.ext.occ := by
    intro i hi
    obtain ⟨k, _, hk⟩ := List.mem_filterMap.1 hi
    exact List.mem_of_getElem? hk
  have hnd : (ks.filterMap (fun k => s.ext.occ[k]?)).Nodup := by
    refine List.Nodup.filterMap ?_ (h3 rfl)
    intro a b x ha hb
    have ha' : s.ext.occ[a]? = some x := ha
    have hb' : s.ext.occ[b]? = some x := hb
    obtain ⟨hla, ea⟩ := List.getElem?_eq_some_iff.1 ha'
    obtain ⟨hlb, eb⟩ := List.getElem?_eq_some_iff.1 hb'
    exact (List.Nodup.getElem_inj_iff hy.nodup).1 (ea.trans eb.symm)
  dsimp only
  generalize ks.filterMap (fun k => s.ext.occ[k]?) = sel at hsel hnd ⊢
  have hsum : (s.ext.occ.filter (fun i => decide (i ∉ sel))).length + sel.length ≤ s.ext.occ.length := by
    have hd : (s.ext.occ.filter (fun i => decide (i ∉ sel)) ++ sel).Nodup := by
      refine List.nodup_append.2 ⟨hy.nodup.filter _, hnd, ?_⟩
      rintro a ha b hb rfl
      simp at ha
      exact ha.2 hb
    have := (List.subperm_of_subset hd (fun i hi => ?_ : _ ⊆ s.ext.occ)).length_le
    · rwa [List.length_append] at this
    · rcases List.mem_append.1 hi with hi | hi
      · exact (List.mem_filter.1 hi).1
      · exact hsel i hi
  have hrest : ∀ i ∈ s.ext.occ.filter (fun i => decide (i ∉ sel)), i < s.pop.length := fun i hi => by
    rw [hl]; exact hy.lt i (List.mem_filter.1 hi).1
  generalize s.ext.occ.filter (fun i => decide (i ∉ sel)) = rest at hsum hrest ⊢
  refine DT.bind (buildPending_dt (Q := fun q => Feas c q.1) fun k hk => ?_) fun muts hm => ?_
  · exact DT.bind (DT.nth_mem hk) fun i hi => DT.bind (DT.nth_mem (hrest i hi)) fun a _ => dt_mutate hP
  · refine DT.bind (dt_crossings hE hx hl fun i hi => hy.lt i (hsel i hi)) fun cs hcs => DT.pure ⟨?_, fun q hq => ?_⟩
    · rw [List.length_append]; omega
    · exact (List.mem_append.1 hq).elim (hm.2 q) (hcs.2 q)

theorem wt_settle (hE : c.E.Lawful) (hn : 2 ≤ c.popSize) {p : Params K} {ls : List (Agent d K Unit)} (hl : ∀ a ∈ ls, CF c a) :
    WT noErr (Inv.std c Unit (Ok c)) 0 0 (settle p ls : M c Unit (Reef K) Unit) (fun _ => True) := by
  unfold settle
  refine WT.iterU 0 0 (by omega) (by omega) fun k hk => ?_
  refine WT.bind0 (WT.draw (DT.nth_mem hk)) fun larva hlarva => WT.bind0 (R := fun _ => True) ?_ fun _ _ => WT.pure trivial
  refine WT.weaken (WT.iter (lo := 0) (hi := 0) (fun _ _ => True) p.trials trivial fun j done hj _ => ?_) (by omega) (by omega)
  refine WT.ite (fun _ => WT.pure trivial) fun _ => WT.bind0 (WT.draw (DT.index hE (by omega))) fun i hi => WT.bind0 WT.get fun s hs => ?_
  have hi' : ∀ n, (Inv.std c Unit (Ok (K := K) c)).size n → i < n := fun n hn => by
    have : n = c.popSize := hn
    omega
  refine WT.ite (fun _ => WT.bind0 (WT.popAt hi') fun old _ => WT.ite (fun _ => ?_) fun _ => WT.pure trivial) fun _ => ?_
  · exact WT.bind0 (WT.setAt hi' (Inv.std_ag (hl _ hlarva))) fun _ _ => WT.pure trivial
  · exact WT.bind0 (WT.setAt hi' (Inv.std_ag (hl _ hlarva))) fun _ _ => WT.bind0 (WT.modExt fun y hy => Ok.take hy (by omega)) fun _ _ => WT.pure trivial

theorem bests_mem (hE : c.E.Lawful) {p : Params K} {s : St c Unit (Reef K)} (h : ∀ a ∈ s.pop, CF c a) : ∀ a ∈ bests p s, CF c a := by
  intro a ha
  obtain ⟨i, _, hi⟩ := List.mem_filterMap.1 (trimmed_mem hE ha)
  exact h a (List.mem_of_getElem? hi)

theorem bests_length (hE : c.E.Lawful) {p : Params K} {s : St c Unit (Reef K)} (hy : Ok c s.ext) : (bests p s).length ≤ c.popSize := by
  unfold bests
  rw [trimmed_length hE]
  have h1 := hy.length
  have h2 := List.length_filterMap_le (fun i => s.pop[i]?) s.ext.occ
  omega

theorem ok_decay {p : Params K} {y : Reef K} (h : Ok c y) : Ok c (decay c p y) := ⟨h.nodup, h.lt⟩

theorem ok_prey {y : Reef K} (h : Ok c y) {l : List Nat} : Ok c { y with occ := (y.occ.filter (fun i => decide (i ∉ l))).insertionSort (· ≤ ·) } where
  nodup := (List.perm_insertionSort _ _).nodup_iff.2 (h.nodup.filter _)
  lt i hi := h.lt i (List.mem_filter.1 ((List.perm_insertionSort _ _).mem_iff.1 hi)).1

theorem dt_init (hE : c.E.Lawful) {p : Params K} (hr : Rates c p) : DT noErr (choice c.popSize (settled c p) false : D c _) (fun l => l.Nodup ∧ ∀ i ∈ l, i < c.popSize) := by
  have := hr.po
  exact DT.mono (DT.choice hE (choice_ok (by omega))) fun l h => ⟨h.2.2 rfl, h.2.1⟩

theorem bt_none (hE : c.E.Lawful) (hP : c.P.Lawful) {p : Params K} (hr : Rates c p) {y : Reef K} :
    BT noErr c.popSize c.popSize (initialization p y none : B c _) (fun r => r.1.length = c.popSize ∧ (∀ a ∈ r.1, CF c a) ∧ Ok c r.2) := by
  unfold initialization startPop
  exact BT.bindS (BT.generatePopulation hE hP fun x _ => DT.pure trivial) le_rfl fun pop hpop =>
    BT.bind0 (BT.liftD (dt_init hE hr)) fun l hl => BT.weaken (BT.pure ⟨hpop.1, hpop.2, hl.1, hl.2⟩) (by omega) (by omega)

theorem bt_some (hE : c.E.Lawful) {p : Params K} (hr : Rates c p) {y : Reef K} {pop : List (Agent d K Unit)} (hl : pop.length = c.popSize) (hc : ∀ a ∈ pop, CF c a) :
    BT noErr (c.popSize - c.popSize) (c.popSize - c.popSize) (initialization p y (some pop) : B c _)
      (fun r => r.1.length = c.popSize ∧ (∀ a ∈ r.1, CF c a) ∧ Ok c r.2) := by
  unfold initialization startPop
  rw [pure_bind]
  exact BT.bind0 (BT.liftD (dt_init hE hr)) fun l hl' => BT.weaken (BT.pure ⟨hl, hc, hl'.1, hl'.2⟩) (by omega) (by omega)

theorem framed_settle {p : Params K} {ls : List (Agent d K Unit)} {q : Bool} : Framed q (settle p ls : M c Unit (Reef K) Unit) := by
  unfold settle; framed

macro_rules
  | `(tactic| fprim) => `(tactic| (at_last OriginalCRO.settle; exact OriginalCRO.framed_settle))

/-- `OriginalCRO` (`mealpy/evolutionary_based/CRO.py:12-195`) -/
def algo (p : Params K) : Algo c Unit (Reef K) := Algo.custom false (fun _ => pure ()) (pure ⟨[], 0, 0, 0⟩) (initialization p) (evolve p)

theorem wok (hE : c.E.Lawful) (hP : c.P.Lawful) (hc : Accepted c 5) (p : Params K) (hd : 2 ≤ d) (hr : Rates c p) :
    (algo p : Algo c Unit (Reef K)).WOk noErr (Inv.std c Unit (Ok c)) JT (Ok c) c.popSize c.popSize 0 0 0 c.popSize := by
  have hpop := hc.pop
  unfold algo
  refine Algo.custom_wok (J := (Ok c)) (J0 := JT) (by omega) (fun x hx => by dgo) (by dgo) (by omega) (fun y hy => bt_none hE hP hr) (fun y pop hy hl hp => bt_some hE hr hl hp) (fun ep hep1 hep2 => ?_)
  unfold evolve
  refine WT.bind0 WT.get fun s hs => WT.bind0 (WT.draw (dt_larvae hE hP (fun _ _ => dt_cross hE hP hd) hr hs.len hs.ext)) fun pend hp => ?_
  refine WT.bindS (WT.evalAll hE fun q hq => Inv.std_mk (hp.2 q hq)) (by omega) fun ls hls => WT.bind0 (wt_settle hE (by omega) fun a ha => ?_) fun _ _ => ?_
  · exact hls.2 a ha
  refine WT.bind0 WT.get fun s hs => WT.bind0 (wt_settle hE (by omega) (bests_mem hE fun a ha => hs.pop a ha)) fun _ _ => ?_
  refine WT.bind0 (WT.draw DT.random') fun u _ => WT.bind0 WT.get fun s hs => WT.bind0 (R := fun _ => True) (WT.ite (fun _ => WT.modExt fun y hy => ok_prey hy) fun _ => WT.pure trivial) fun _ _ => ?_
  exact WT.weaken (WT.modExt fun y hy => ok_decay hy) (by omega) (by omega)

theorem framed (hE : c.E.Lawful) (p : Params K) (ep : Nat) : Framed true (evolve p ep : M c Unit (Reef K) Unit) := by
  unfold evolve; framed

end OriginalCRO

namespace OCRO

open OriginalCRO (Reef Ok Rates)

/-- the hyper-parameters (`mealpy/evolutionary_based/CRO.py:275-276`) -/
structure Params (K : Type) where
  base : OriginalCRO.Params K
  restart : Nat

/-- a new position of `local_search__` (`mealpy/evolutionary_based/CRO.py:286-289`) -/
def search (s : St c Unit (Reef K)) : D c (Vec d K × Unit) := do
  let r ← uniformVec c.P.lb c.P.ub
  let u ← randomVec
  let pos ← correct (fun j => if u j < 0.5 then s.gbest.sol j else r j)
  pure (pos, ())

/-- the corals preyed on try the opposite place before they go (`mealpy/evolutionary_based/CRO.py:317-325`) -/
def resist (ids : List Nat) : M c Unit (Reef K) Unit :=
  iter ids.length (fun k _ => do
    let i ← draw (nth ids k)
    let s ← get
    let a ← popAt i
    let pos ← draw (oppositionSol a.sol s.gbest.sol)
    let new ← liftB (agentOf (fun _ => pure ()) pos)
    if compareTarget new.tgt a.tgt c.P.mm then setAt i new
    else modExt (fun y => { y with occ := y.occ.filter (fun j => decide (j ≠ i)) })) ()

/-- the restart (`mealpy/evolutionary_based/CRO.py:335-339`) -/
def restart (p : Params K) : M c Unit (Reef K) Unit := do
  let pop ← liftB (generatePopulation (fun _ => pure ()) c.popSize)
  setPop pop
  let occ ← draw (choice c.popSize (OriginalCRO.settled c p.base) false)
  modExt (fun y => { y with occ := occ, reset := 0 })

/-- `OCRO.evolve` (`mealpy/evolutionary_based/CRO.py:296-339`) -/
def evolve (p : Params K) (_ep : Nat) : M c Unit (Reef K) Unit := do
  let s ← get
  let pend ← draw (OriginalCRO.larvae p.base s)
  let ls ← evalAll pend
  OriginalCRO.settle p.base ls
  let s ← get
  let near ← buildEval (OriginalCRO.bests p.base s).length (fun s _ => search s)
  OriginalCRO.settle p.base near
  let u ← draw random
  let s ← get
  (if u < s.ext.dpd then resist (OriginalCRO.prey p.base s) else pure () : M c Unit (Reef K) Unit)
  modExt (fun y => { OriginalCRO.decay c p.base y with reset := y.reset + 1 })
  let s ← get
  let best ← draw (bestAgent s.pop)
  (if compareTarget best.tgt s.gbest.tgt c.P.mm then modExt (fun y => { y with reset := 0 }) else pure () : M c Unit (Reef K) Unit)
  let s ← get
  if s.ext.reset = p.restart then restart p else pure ()

theorem prey_mem {p : OriginalCRO.Params K} {s : St c Unit (Reef K)} : ∀ i ∈ OriginalCRO.prey p s, i ∈ s.ext.occ := by
  intro i hi
  have key : ∀ i ∈ (c.E.argsort (s.ext.occ.filterMap (fun i => (s.pop[i]?).map (·.fit)))).filterMap (fun k => s.ext.occ[k]?), i ∈ s.ext.occ := by
    intro i hi
    obtain ⟨k, _, hk⟩ := List.mem_filterMap.1 hi
    exact List.mem_of_getElem? hk
  unfold OriginalCRO.prey at hi
  dsimp only at hi
  split at hi
  · exact key i hi
  · exact key i (List.mem_of_mem_drop hi)

theorem prey_length (hE : c.E.Lawful) {p : OriginalCRO.Params K} {s : St c Unit (Reef K)} (hy : Ok c s.ext) : (OriginalCRO.prey p s).length ≤ c.popSize := by
  have key : ((c.E.argsort (s.ext.occ.filterMap (fun i => (s.pop[i]?).map (·.fit)))).filterMap (fun k => s.ext.occ[k]?)).length ≤ c.popSize := by
    refine (List.length_filterMap_le _ _).trans ?_
    rw [(hE.argsort_perm _).length_eq, List.length_range]
    exact (List.length_filterMap_le _ _).trans hy.length
  unfold OriginalCRO.prey
  dsimp only
  split
  · exact key
  · rw [List.length_drop]; omega

theorem wt_resist (hE : c.E.Lawful) (hP : c.P.Lawful) {ids : List Nat} (h : ∀ i ∈ ids, i < c.popSize) :
    WT noErr (Inv.std c Unit (Ok c)) 0 ids.length (resist ids : M c Unit (Reef K) Unit) (fun _ => True) := by
  unfold resist
  refine WT.iterU 1 1 (by omega) (by omega) fun k hk => WT.bind0 (WT.draw (DT.nth_mem hk)) fun i hi => WT.bind0 WT.get fun s hs => ?_
  have hi' : ∀ n, (Inv.std c Unit (Ok (K := K) c)).size n → i < n := fun n hn => by
    have : n = c.popSize := hn
    rw [this]; exact h i hi
  refine WT.bind0 (WT.popAt hi') fun a _ => WT.drawPos (DT.oppositionSol hP) fun pos hp => WT.agentOf_std hp (DT.pure trivial) le_rfl fun new hnew => ?_
  refine WT.ite (fun _ => WT.weaken (WT.setAt hi' (Inv.std_ag hnew)) (by omega) (by omega)) fun _ => WT.weaken (WT.modExt fun y hy => ?_) (by omega) (by omega)
  exact ⟨hy.nodup.filter _, fun j hj => hy.lt j (List.mem_filter.1 hj).1⟩

theorem wt_restart (hE : c.E.Lawful) (hP : c.P.Lawful) {p : Params K} (hr : Rates c p.base) :
    WT noErr (Inv.std c Unit (Ok c)) 0 c.popSize (restart p : M c Unit (Reef K) Unit) (fun _ => True) := by
  unfold restart
  refine WT.generatePopulation_std hE hP (fun x _ => DT.pure trivial) le_rfl fun pop hpop => WT.bind0 (WT.setPop hpop.1 fun a ha => Inv.std_ag (hpop.2 a ha)) fun _ _ => ?_
  exact WT.bind0 (WT.draw (OriginalCRO.dt_init hE hr)) fun occ ho => WT.weaken (WT.modExt fun y hy => ⟨ho.1, ho.2⟩) (by omega) (by omega)

theorem framed_resist {ids : List Nat} {q : Bool} : Framed q (resist ids : M c Unit (Reef K) Unit) := by
  unfold resist; framed

theorem framed_restart (hE : c.E.Lawful) {p : Params K} {q : Bool} : Framed q (restart p : M c Unit (Reef K) Unit) := by
  unfold restart; framed

macro_rules
  | `(tactic| fprim) => `(tactic| (at_last OCRO.resist; exact OCRO.framed_resist))

macro_rules
  | `(tactic| fprim) => `(tactic| (at_last OCRO.restart; exact OCRO.framed_restart (by assumption)))

/-- `OCRO` (`mealpy/evolutionary_based/CRO.py:198-339`) -/
def algo (p : Params K) : Algo c Unit (Reef K) := Algo.custom false (fun _ => pure ()) (pure ⟨[], 0, 0, 0⟩) (OriginalCRO.initialization p.base) (evolve p)

theorem wok (hE : c.E.Lawful) (hP : c.P.Lawful) (hc : Accepted c 5) (p : Params K) (hd : 2 ≤ d) (hr : Rates c p.base) :
    (algo p : Algo c Unit (Reef K)).WOk noErr (Inv.std c Unit (Ok c)) JT (Ok c) c.popSize c.popSize 0 0 0 (c.popSize + c.popSize + c.popSize + c.popSize) := by
  have hpop := hc.pop
  unfold algo
  refine Algo.custom_wok (J := (Ok c)) (J0 := JT) (by omega) (fun x hx => by dgo) (by dgo) (by omega) (fun y hy => OriginalCRO.bt_none hE hP hr) (fun y pop hy hl hp => OriginalCRO.bt_some hE hr hl hp) (fun ep hep1 hep2 => ?_)
  unfold evolve
  refine WT.bind0 WT.get fun s hs => WT.bind0 (WT.draw (OriginalCRO.dt_larvae hE hP (fun _ _ => OriginalCRO.dt_cross hE hP hd) hr hs.len hs.ext)) fun pend hp => ?_
  refine WT.bindS (WT.evalAll hE fun q hq => Inv.std_mk (hp.2 q hq)) (by omega) fun ls hls => WT.bind0 (OriginalCRO.wt_settle hE (by omega) fun a ha => hls.2 a ha) fun _ _ => ?_
  refine WT.bind0 WT.get fun s hs => ?_
  have hb := OriginalCRO.bests_length hE (p := p.base) hs.ext
  refine WT.bindS (WT.buildEval hE fun s i hs hi => ?_) (by omega) fun near hnear => ?_
  · unfold search
    exact DT.bind DT.uniformVec' fun r _ => DT.bind DT.randomVec fun u _ => DT.bind (DT.correct hP) fun pos hp => DT.pure (Inv.std_mk hp)
  refine WT.bind0 (OriginalCRO.wt_settle hE (by omega) fun a ha => hnear.2 a ha) fun _ _ => WT.bind0 (WT.draw DT.random') fun u _ => WT.bind0 WT.get fun s hs => ?_
  have hq := prey_length hE (p := p.base) hs.ext
  refine WT.bindS (l1 := 0) (h1 := c.popSize) (R := fun _ => True) (WT.ite (fun _ => WT.weaken (wt_resist hE hP fun i hi => hs.ext.lt i (prey_mem i hi)) le_rfl hq) fun _ => WT.weaken (WT.pure trivial) le_rfl (by omega)) (by omega) fun _ _ => ?_
  refine WT.bind0 (WT.modExt fun y hy => ⟨hy.nodup, hy.lt⟩) fun _ _ => WT.bind0 WT.get fun s hs => WT.bind0 (WT.draw (DT.bestAgent' hE (by rw [hs.len_std]; omega))) fun best _ => ?_
  refine WT.bind0 (R := fun _ => True) (WT.ite (fun _ => WT.modExt fun y hy => ⟨hy.nodup, hy.lt⟩) fun _ => WT.pure trivial) fun _ _ => WT.bind0 WT.get fun s hs => ?_
  exact WT.ite (fun _ => WT.weaken (wt_restart hE hP hr) (by omega) (by omega)) fun _ => WT.weaken (WT.pure trivial) (by omega) (by omega)

theorem framed (hE : c.E.Lawful) (p : Params K) (ep : Nat) : Framed true (evolve p ep : M c Unit (Reef K) Unit) := by
  unfold evolve; framed

end OCRO

end Mealpy
