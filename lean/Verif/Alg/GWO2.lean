import Verif.Alg.GWO
import Verif.Alg.Weak

/-! # Further grey wolf optimizers (`mealpy/swarm_based/GWO.py`) -/

set_option linter.unusedSectionVars false
set_option linter.unusedVariables false

namespace Mealpy
open Spec

variable {d : Nat} {K : Type} [Num K] {c : Cfg d K}

/-- `self.problem.lb + self.problem.ub - x` (`mealpy/swarm_based/GWO.py:1101`) -/
def mirror (c : Cfg d K) (x : Vec d K) : Vec d K := fun j => c.P.lb j + c.P.ub j - x j

/-- The number system mirrors the box into itself.  True in exact arithmetic
(`mirror_exact` in `Verif.Props.Algorithms`); rounding can break it, which is why `OGWO` and `IOBL_GWO`, which do
not correct mirrored positions, need it. -/
def MirrorsBox (c : Cfg d K) : Prop := ∀ x, Feas c x → Feas c (mirror c x)

/-- the exploration step shared by `IOBL_GWO` and `CG_GWO` (`mealpy/swarm_based/GWO.py:982-994,1368-1378`) -/
def exploreWolf (alpha : Vec d K) (s : St c Unit Unit) (idx : Nat) : D c (Vec d K) := do
  let r1 ← random
  let r2 ← random
  let r3 ← random
  let r4 ← random
  let r5 ← random
  let x ← nth s.pop idx
  let p ← (if (0.5 : K) ≤ r5 then do
      let jdx ← pickWithout c.popSize [idx]
      let xr ← nth s.pop jdx
      pure (fun j => xr.sol j - r1 * Num.abs (xr.sol j - 2 * r2 * x.sol j) : Vec d K)
    else do
      let avg := meanPos (s.pop.map Agent.sol)
      pure (fun j => (alpha j - avg j) - r3 * (c.P.lb j + r4 * (c.P.ub j - c.P.lb j))))
  correct p

/-- the grey wolf step around three leaders (`mealpy/swarm_based/GWO.py:1004-1014,1383-1393`) -/
def wolfStep (a : K) (best : Agent d K Unit × Agent d K Unit × Agent d K Unit) (s : St c Unit Unit) (idx : Nat) :
    D c (Vec d K) := do
  let w ← wolves a a a
  let x ← nth s.pop idx
  correct (third (hunt3 w best x.sol))

theorem DT.exploreWolf (hE : c.E.Lawful) (hP : c.P.Lawful) {al : Vec d K} {s : St c Unit Unit} {i : Nat}
    (hp : 5 ≤ c.popSize) (hlen : s.pop.length = c.popSize) (hi : i < c.popSize) :
    DT noErr (Mealpy.exploreWolf al s i : D c _) (Feas c) := by
  unfold Mealpy.exploreWolf; dgo

theorem DT.wolfStep (hP : c.P.Lawful) {a : K} {b : Agent d K Unit × Agent d K Unit × Agent d K Unit}
    {s : St c Unit Unit} {i : Nat} (hi : i < s.pop.length) :
    DT noErr (Mealpy.wolfStep a b s i : D c _) (Feas c) := by
  unfold Mealpy.wolfStep; dgo

macro_rules
  | `(tactic| dprim) => `(tactic| (at_head exploreWolf; exact DT.exploreWolf (by assumption) (by assumption) (by omega) (by omega) (by omega)))
macro_rules
  | `(tactic| dprim) => `(tactic| (at_head wolfStep; exact DT.wolfStep (by assumption) (by omega)))

namespace CG_GWO

/-- `cauchy_gaussian_mutation` (`mealpy/swarm_based/GWO.py:1314-1333`) -/
def mutate (best leader : Agent d K Unit) (ep : Nat) : D c (Vec d K) := do
  let eps2 : K := Num.pow (Num.ofNat ep / Num.ofNat c.epoch) 2
  let eps1 : K := 1 - eps2
  let sigma : K := if Num.abs best.fit > 1e-10 then Num.exp ((leader.fit - best.fit) / Num.abs best.fit) else 1
  let cr ← vecM (fun _ => dist "standard_cauchy" [])
  let gr ← normalVec 0 (Num.pow sigma 2)
  pure (fun j => leader.sol j * (1 + eps1 * (cr j * Num.pow sigma 2 + 0) + eps2 * gr j))

theorem DT.mutate {Er : Err → Prop} {b l : Agent d K Unit} {ep : Nat} :
    DT Er (mutate b l ep : D c _) (fun _ => True) := by
  unfold CG_GWO.mutate; dgo

macro_rules
  | `(tactic| dprim) => `(tactic| (at_head mutate; exact DT.mutate))

/-- one mutated leader, evaluated (`mealpy/swarm_based/GWO.py:1347-1349`) -/
def mutant (best leader : Agent d K Unit) (ep : Nat) : M c Unit Unit (Agent d K Unit) := do
  let p ← draw (do let p ← mutate best leader ep; correct p)
  liftB (agentOf (fun _ => pure ()) p)

/-- the loop body for one wolf (`mealpy/swarm_based/GWO.py:1368-1398`) -/
def wolf (a : K) (best : Agent d K Unit × Agent d K Unit × Agent d K Unit) (idx : Nat) : M c Unit Unit Unit := do
  let s ← get
  let p ← draw (exploreWolf best.1.sol s idx)
  let ag ← liftB (agentOf (fun _ => pure ()) p)
  let old ← popAt idx
  if compareTarget old.tgt ag.tgt c.P.mm then do
    let q ← draw (wolfStep a best s idx)
    tryCompare (fun _ => pure ()) idx q
  else if compareTarget ag.tgt old.tgt c.P.mm then setAt idx ag
  else pure ()

/-- `CG_GWO.evolve` (`mealpy/swarm_based/GWO.py:1335-1398`).  The mutated leaders are evaluated and
used as `list_best`, but never enter the population. -/
def evolve (ep : Nat) : M c Unit Unit Unit := do
  let a : K := 2 - 2 * Num.ofNat ep / Num.ofNat c.epoch
  let s ← get
  let b ← draw (best3 s.pop)
  let alpha ← mutant b.1 b.1 ep
  let beta ← mutant b.1 b.2.1 ep
  let delta ← mutant b.1 b.2.2 ep
  let best := (greedyPick c.P.mm b.1 alpha, greedyPick c.P.mm b.2.1 beta, greedyPick c.P.mm b.2.2 delta)
  iter c.popSize (fun idx _ => wolf a best idx) ()

/-- `CG_GWO` (`mealpy/swarm_based/GWO.py:1263-1398`) -/
def algo : Algo c Unit Unit := Algo.plain false evolve

theorem mutant_wt (hP : c.P.Lawful) {b l : Agent d K Unit} {ep : Nat} :
    WT noErr (Inv.std c Unit JT) 1 1 (mutant b l ep : M c Unit Unit _) (CF c) := by
  unfold mutant
  refine WT.bind0 (WT.draw (R := Feas c) (by dgo)) fun p hp => ?_
  exact WT.mono (WT.agentOf hp (DT.pure hp)) fun a h => h.1

theorem wok (hE : c.E.Lawful) (hP : c.P.Lawful) (hc : Accepted c 5) :
    (algo : Algo c Unit Unit).WOk noErr (Inv.std c Unit JT) JT JT c.popSize c.popSize 0 0
      (3 + c.popSize) (3 + 2 * c.popSize) := by
  have hpop := hc.pop
  refine Algo.plain_wok hE hP (by omega) (fun ep _ _ => ?_)
  unfold evolve
  wstep
  wstep
  refine WT.bindS (mutant_wt hP) (by omega) fun _ _ => ?_
  refine WT.bindS (mutant_wt hP) (by omega) fun _ _ => ?_
  refine WT.bindS (mutant_wt hP) (by omega) fun _ _ => ?_
  refine WT.iterU 1 2 (by omega) (by omega) fun i hi => ?_
  unfold wolf
  wstep
  wstep
  refine WT.bindS (WT.agentOf (by assumption) (DT.pure (by assumption))) (by omega) fun ag hag => ?_
  wstep
  refine WT.ite (fun _ => ?_) fun _ => WT.ite (fun _ => ?_) fun _ => ?_
  · wwalk
  · exact WT.weaken (WT.setAt (by wsz) hag.1) (by omega) (by omega)
  · wwalk

theorem framed (hE : c.E.Lawful) (ep : Nat) : Framed true (evolve ep : M c Unit Unit Unit) := by
  unfold evolve mutant wolf; framed

end CG_GWO

namespace OGWO

/-- the constructor's ranges (`mealpy/swarm_based/GWO.py:1088-1089`) -/
structure Params (K : Type) [Num K] where
  miu : K
  jump : K
  miu_ok : (0 : K) ≤ miu ∧ miu ≤ 10
  jump_ok : (0 : K) ≤ jump ∧ jump ≤ 1

/-- opposite agents, evaluated one by one in every mode (`mealpy/swarm_based/GWO.py:1099-1104,1143-1148`) -/
def opposites (pop : List (Agent d K Unit)) : B c (List (Agent d K Unit)) :=
  agentsOf (fun _ => pure ()) (pop.map (fun a => mirror c a.sol))

/-- `OGWO.initialization` (`mealpy/swarm_based/GWO.py:1093-1106`) -/
def init (y : Unit) (p : Option (List (Agent d K Unit))) : B c (List (Agent d K Unit) × Unit) := do
  let pop ← (match p with
    | some pop => pure pop
    | none => generatePopulation (fun _ => pure ()) c.popSize)
  let opp ← opposites pop
  pure (getSortedTrimmed c.E.argsort (pop ++ opp) c.popSize c.P.mm, y)

/-- `OGWO.evolve` (`mealpy/swarm_based/GWO.py:1108-1150`) -/
def evolve (p : Params K) (ep : Nat) : M c Unit Unit Unit := do
  let a : K := 2 * (1 - Num.pow (Num.ofNat ep / Num.ofNat c.epoch) p.miu)
  let s ← get
  let best ← draw (best3 s.pop)
  greedyLoop c.popSize (fun s idx => do
    let pos ← wolfStep a best s idx
    pure (pos, ()))
  let r ← draw random
  if r < p.jump then do
    let s ← get
    let opp ← liftB (opposites s.pop)
    mergeTrim c.popSize opp
  else pure ()

/-- `OGWO` (`mealpy/swarm_based/GWO.py:1034-1150`) -/
def algo (p : Params K) : Algo c Unit Unit where
  sortFlag := false
  mkExt := fun _ => pure ()
  initVars := pure ()
  initialization := init
  beforeMain := pure ()
  evolve := evolve p

theorem opposites_ok (hM : MirrorsBox c) {pop : List (Agent d K Unit)} (hp : ∀ a ∈ pop, FA c a) (b : Base c) :
    Wp noErr (opposites pop : B c _) b (fun r b' => r.length = pop.length ∧
      (∀ a ∈ r, FA c a ∧ a.tgt = c.P.target a.sol) ∧ b'.log = b.log ++ r.map Agent.sol ∧ b'.nfe = b.nfe + r.length) := by
  unfold opposites
  refine Wp.mono (agentsOf_spec (F := FA c) _ b ?_) ?_
  · intro x hx
    obtain ⟨a, ha, rfl⟩ := List.mem_map.1 hx
    exact DT.pure (hM _ (hp a ha))
  · rintro r b' ⟨h1, h2, h3, h4⟩
    have hl : r.length = pop.length := by
      have := congrArg List.length h1
      simpa using this
    exact ⟨hl, fun a ha => ⟨(h2 a ha).2, (h2 a ha).1⟩, by rw [h3, h1], by rw [h4, hl, List.length_map]⟩

theorem opposites_trim (hE : c.E.Lawful) (hM : MirrorsBox c) (hpos : 0 < c.popSize) :
    IT (FA c) JT c.popSize c.popSize (do
      let s ← get
      let opp ← liftB (opposites s.pop)
      mergeTrim c.popSize opp : M c Unit Unit Unit) (fun _ => True) := by
  intro s hs
  refine Wp.bind (Wp.get ?_)
  refine Wp.bind (Wp.liftB (Wp.mono (opposites_ok hM hs.feas s.base) ?_))
  rintro opp b' ⟨h1, h2, h3, h4⟩
  have hb : Batch (FA c) s opp { s with base := b' } :=
    ⟨fun a ha => ⟨(h2 a ha).1, (h2 a ha).1, (h2 a ha).2⟩, ⟨_, h3, List.Perm.refl _⟩, h4, rfl, rfl, rfl, rfl⟩
  refine Wp.mono (mergeTrim_imp hE hs.toGoodPop hpos hb) ?_
  intro _ s' h
  rw [h1, hs.len] at h
  exact ⟨h, trivial⟩

theorem init_ok (hE : c.E.Lawful) (hP : c.P.Lawful) (hM : MirrorsBox c) (hpos : 0 < c.popSize) (y : Unit)
    (p : Option (List (Agent d K Unit))) (b : Base c)
    (hp : ∀ pop, p = some pop → pop.length = c.popSize ∧ ∀ a ∈ pop, Evald c b.log a ∧ FA c a) :
    Wp noErr (init y p : B c _) b (fun r b' => InitPost (FA c) JT (2 * c.popSize) p b r b') := by
  unfold init
  refine Wp.bind (Wp.mono (Q := fun pop b' => InitPost (FA c) JT c.popSize p b (pop, y) b') ?_ ?_)
  · have := defaultInit_spec (F := FA c) (J := JT) (mkExt := fun _ => Pure.pure ()) hE hP (fun x hx => DT.pure hx) y p b trivial hp
    unfold defaultInit at this
    cases p with
    | some pop => exact Wp.pure (Wp.elim this rfl)
    | none =>
      unfold Wp at this ⊢
      simp only [bind, StateT.bind, Except.bind, pure, StateT.pure, Except.pure] at this ⊢
      revert this
      cases generatePopulation (fun _ => (StateT.pure () : D c Unit)) c.popSize b with
      | error e => exact id
      | ok q => exact id
  intro pop b1 h0
  refine Wp.bind (Wp.mono (opposites_ok hM (pop := pop) h0.feas b1) ?_)
  rintro opp b2 ⟨h1, h2, h3, h4⟩
  have hl0 : pop.length = c.popSize := h0.len
  obtain ⟨new, e1, e2, e3, e4⟩ := h0.evals
  have hcov : ∀ a ∈ pop ++ opp, ∃ a' ∈ getSortedTrimmed c.E.argsort (pop ++ opp) c.popSize c.P.mm, NoWorse c.P.mm a'.fit a.fit :=
    fun a ha => trimmed_cover hE hpos ha
  refine Wp.pure ⟨?_, ?_, ?_, trivial, ⟨new ++ opp.map Agent.sol, ?_, ?_, ?_, ?_⟩, ?_⟩
  · show (getSortedTrimmed c.E.argsort (pop ++ opp) c.popSize c.P.mm).length = _
    rw [trimmed_length hE, List.length_append]; omega
  · intro a ha
    rcases List.mem_append.1 (trimmed_mem hE ha) with h | h
    · exact (h0.ev a h).mono fun x hx => by rw [h3]; exact List.mem_append_left _ hx
    · exact ⟨(h2 a h).2, by rw [h3]; exact List.mem_append_right _ (List.mem_map_of_mem h)⟩
  · intro a ha
    rcases List.mem_append.1 (trimmed_mem hE ha) with h | h
    · exact h0.feas a h
    · exact (h2 a h).1
  · rw [h3, e1, List.append_assoc]
  · intro x hx
    rcases List.mem_append.1 hx with hx | hx
    · obtain ⟨f, a, ha, hn⟩ := e2 x hx
      obtain ⟨a', ha', hn'⟩ := hcov a (List.mem_append_left _ ha)
      exact ⟨f, a', ha', hn'.trans hn⟩
    · obtain ⟨a, ha, rfl⟩ := List.mem_map.1 hx
      obtain ⟨a', ha', hn'⟩ := hcov a (List.mem_append_right _ ha)
      refine ⟨(h2 a ha).1, a', ha', ?_⟩
      rw [← (h2 a ha).2]
      exact hn'
  · rw [List.length_append, List.length_map]; omega
  · intro hm
    rw [h4, e4 hm, List.length_append, List.length_map]; omega
  · intro pop' hpop' a ha
    obtain ⟨a1, ha1, hn1⟩ := h0.keep pop' hpop' a ha
    obtain ⟨a2, ha2, hn2⟩ := hcov a1 (List.mem_append_left _ ha1)
    exact ⟨a2, ha2, hn2.trans hn1⟩

theorem ok (hE : c.E.Lawful) (hP : c.P.Lawful) (hc : Accepted c 5) (hM : MirrorsBox c) (p : Params K) :
    (algo p : Algo c Unit Unit).Ok (FA c) JT JT JT (2 * c.popSize) c.popSize (2 * c.popSize) where
  mkExt := fun x hx => DT.pure hx
  initVars := DT.pure trivial
  init := fun y q b _ hp => init_ok hE hP hM (by have := hc.pop; omega) y q b hp
  before := (Algo.plain_ok' (sf := false) (ev := fun _ => Pure.pure ()) hE hP (lo := 0) (hi := 0)
    (fun _ _ _ => IT.pt (IT.pure trivial))).before
  evolve := by
    have hpop := hc.pop
    intro ep s h1 h2 hs
    have : ∀ ep, 1 ≤ ep → ep ≤ c.epoch → PT (FA c) JT c.popSize (2 * c.popSize) (evolve p ep : M c Unit Unit Unit) (fun _ => True) := by
      intro ep _ _
      unfold evolve
      refine IT.pt ?_
      istep
      istep
      refine IT.bindS (IT.greedyLoop hE ?_) (by omega) (fun _ _ => ?_)
      · mkgo
      istep
      refine IT.iteS (fun _ => ?_) fun _ => ?_
      · exact IT.weaken (opposites_trim hE hM (by omega)) (by omega) (by omega)
      · exact IT.weaken (IT.pure trivial) (by omega) (by omega)
    exact (Algo.plain_ok' (sf := false) (ev := evolve p) hE hP this).evolve ep s h1 h2 hs

theorem framed (hE : c.E.Lawful) (p : Params K) (ep : Nat) : Framed true (evolve p ep : M c Unit Unit Unit) := by
  unfold evolve opposites; framed

end OGWO

namespace IOBL_GWO

/-- the loop body for one wolf (`mealpy/swarm_based/GWO.py:980-1019`) -/
def wolf (a : K) (best : Agent d K Unit × Agent d K Unit × Agent d K Unit) (idx : Nat) : M c Unit Unit Unit := do
  let s ← get
  let p ← draw (exploreWolf best.1.sol s idx)
  let t ← liftB (getTarget p)
  let old ← popAt idx
  if compareTarget t old.tgt c.P.mm then setAt idx ⟨p, t, ()⟩
  else do
    let q ← draw (wolfStep a best s idx)
    tryCompare (fun _ => pure ()) idx q

/-- one opposite leader: `generate_agent(lb + ub - sorted[k].solution)`, not corrected
(`mealpy/swarm_based/GWO.py:1024-1026`) -/
def opposite (sorted : List (Agent d K Unit)) (k : Nat) : M c Unit Unit (Agent d K Unit) := do
  let l ← draw (nth sorted k)
  liftB (agentOf (fun _ => pure ()) (mirror c l.sol))

/-- `if compare_target(obl_pop[k].target, self.pop[indices[-3+k]].target): self.pop[k] = obl_pop[k]`
(`mealpy/swarm_based/GWO.py:1030-1031`): the comparison is with one of the three worst wolves, the
replaced wolf is number `k`, whatever it holds. -/
def replace (idxs : List Nat) (k : Nat) (o : Agent d K Unit) : M c Unit Unit Unit := do
  let w ← draw (nth idxs (idxs.length - 3 + k))
  let old ← popAt w
  if compareTarget o.tgt old.tgt c.P.mm then setAt k o else pure ()

/-- `IOBL_GWO.evolve` (`mealpy/swarm_based/GWO.py:969-1031`) -/
def evolve (ep : Nat) : M c Unit Unit Unit := do
  let a : K := 2 - 2 * Num.ofNat ep / Num.ofNat c.epoch
  let s ← get
  let best ← draw (best3 s.pop)
  iter c.popSize (fun idx _ => wolf a best idx) ()
  let s ← get
  let sorted ← draw (sortedPop s.pop)
  let idxs := (getSorted c.E.argsort s.pop c.P.mm).2
  let o0 ← opposite sorted 0
  let o1 ← opposite sorted 1
  let o2 ← opposite sorted 2
  replace idxs 0 o0
  replace idxs 1 o1
  replace idxs 2 o2

/-- `IOBL_GWO` (`mealpy/swarm_based/GWO.py:911-1031`) -/
def algo : Algo c Unit Unit := Algo.plain false evolve

theorem wok (hE : c.E.Lawful) (hP : c.P.Lawful) (hc : Accepted c 5) (hM : MirrorsBox c) :
    (algo : Algo c Unit Unit).WOk noErr (Inv.std c Unit JT) JT JT c.popSize c.popSize 0 0
      (3 + c.popSize) (3 + 2 * c.popSize) := by
  have hpop := hc.pop
  have hopp : ∀ (l : List (Agent d K Unit)) (k : Nat), k < l.length → (∀ a ∈ l, CF c a) →
      WT noErr (Inv.std c Unit JT) 1 1 (opposite l k : M c Unit Unit _) (CF c) := by
    intro l k hk hl
    unfold opposite
    refine WT.bind0 (WT.draw (DT.nth_mem hk)) fun a ha => ?_
    have hf := hM _ (hl a ha).2
    exact WT.mono (WT.agentOf hf (DT.pure hf)) fun a h => h.1
  have hrep : ∀ (l : List Nat) (k : Nat) (o : Agent d K Unit), l.length = c.popSize → k < 3 → (∀ i ∈ l, i < c.popSize) →
      CF c o → WT noErr (Inv.std c Unit JT) 0 0 (replace l k o : M c Unit Unit _) (fun _ => True) := by
    intro l k o hl hk hi ho
    unfold replace
    refine WT.bind0 (WT.draw (DT.nth_mem (by omega))) fun w hw => ?_
    have := hi w hw
    wstep
    refine WT.ite (fun _ => ?_) fun _ => WT.pure trivial
    exact WT.setAt (by wsz) ho
  refine Algo.plain_wok hE hP (by omega) (fun ep _ _ => ?_)
  unfold evolve
  wstep
  wstep
  refine WT.bindS (l1 := c.popSize) (h1 := 2 * c.popSize) (WT.iterU 1 2 (by omega) (by omega) fun i hi => ?_) (by omega) fun _ _ => ?_
  · unfold wolf
    wstep
    wstep
    refine WT.bindS (WT.getTarget (by assumption)) (by omega) fun t ht => ?_
    wstep
    refine WT.ite (fun _ => ?_) fun _ => ?_
    · exact WT.weaken (WT.setAt (by wsz) ⟨ht, by assumption⟩) (by omega) (by omega)
    · wwalk
  refine WT.bind0 WT.get fun s hs => ?_
  have hlen := hs.len_std
  refine WT.bind0 (WT.draw (R := fun l => l.length = s.pop.length ∧ ∀ a ∈ l, a ∈ s.pop) ?_) fun sorted hsort => ?_
  · exact DT.pure ⟨getSorted_length hE.argsortLaw _ _, fun a ha => (getSorted_mem hE.argsortLaw).1 ha⟩
  have hcf : ∀ a ∈ sorted, CF c a := fun a ha => hs.pop a (hsort.2 a ha)
  have hidx : (getSorted c.E.argsort s.pop c.P.mm).2.Perm (List.range s.pop.length) := by
    rw [getSorted_eq]
    exact sortedIdx_perm hE.argsortLaw _ _
  have hil : (getSorted c.E.argsort s.pop c.P.mm).2.length = c.popSize := by rw [hidx.length_eq]; simp [hlen]
  have hii : ∀ i ∈ (getSorted c.E.argsort s.pop c.P.mm).2, i < c.popSize := fun i hi => by
    have := hidx.mem_iff.1 hi
    rw [List.mem_range] at this
    omega
  refine WT.bindS (hopp _ 0 (by omega) hcf) (by omega) fun o0 h0 => ?_
  refine WT.bindS (hopp _ 1 (by omega) hcf) (by omega) fun o1 h1 => ?_
  refine WT.bindS (hopp _ 2 (by omega) hcf) (by omega) fun o2 h2 => ?_
  refine WT.bind0 (hrep _ 0 o0 hil (by omega) hii h0) fun _ _ => ?_
  refine WT.bind0 (hrep _ 1 o1 hil (by omega) hii h1) fun _ _ => ?_
  exact WT.weaken (hrep _ 2 o2 hil (by omega) hii h2) (by omega) (by omega)

theorem framed (hE : c.E.Lawful) (ep : Nat) : Framed true (evolve ep : M c Unit Unit Unit) := by
  unfold evolve wolf opposite replace; framed

end IOBL_GWO

namespace DS_GWO

/-- the constructor's ranges (`mealpy/swarm_based/GWO.py:843-845`) -/
structure Params (K : Type) [Num K] where
  exploreRatio : K
  nGroups : Nat
  exploreRatio_ok : (0 : K) ≤ exploreRatio ∧ exploreRatio ≤ 1
  nGroups_ok : 5 ≤ nGroups ∧ nGroups ≤ 100

/-- the loop body of `group_stage_competition` (`mealpy/swarm_based/GWO.py:888-898`): the best wolf of group `idx` -/
def groupBest (p : Params K) (pop : List (Agent d K Unit)) (idx : Nat) (acc : List (Agent d K Unit)) :
    D c (List (Agent d K Unit)) := do
  let size := c.popSize / p.nGroups
  let start := idx * size
  let stop := if idx + 1 = p.nGroups then c.popSize else (idx + 1) * size
  let sorted ← sortedPop ((pop.take stop).drop start)
  let a ← nth sorted 0
  pure (acc ++ [a])

/-- `group_stage_competition` (`mealpy/swarm_based/GWO.py:875-898`).
What it computes afterwards (`self.alpha`, `self.beta`, lines 901-908) is never used. -/
def groupStage (p : Params K) (pop : List (Agent d K Unit)) : D c (List (Agent d K Unit)) :=
  iter p.nGroups (groupBest p pop) []

/-- `DS_GWO.before_main_loop` (`mealpy/swarm_based/GWO.py:855-859`) -/
def beforeMain (p : Params K) : M c Unit Unit Unit := do
  let s ← get
  let _ ← draw (groupStage p s.pop)
  pure ()

/-- `DS_GWO` (`mealpy/swarm_based/GWO.py:783-908`): the class defines no `evolve`, so the inherited
`Optimizer.evolve` (`mealpy/optimizer.py:160-161`, `pass`) runs. -/
def algo (p : Params K) : Algo c Unit Unit where
  sortFlag := false
  mkExt := fun _ => pure ()
  initVars := pure ()
  initialization := defaultInit (fun _ => pure ())
  beforeMain := beforeMain p
  evolve := fun _ => pure ()

theorem groupStage_ok (hE : c.E.Lawful) (p : Params K) (hg : p.nGroups ≤ c.popSize) {pop : List (Agent d K Unit)}
    (hl : pop.length = c.popSize) : DT noErr (groupStage p pop : D c _) (fun _ => True) := by
  unfold groupStage
  have hn := p.nGroups_ok
  have hdiv : 1 ≤ c.popSize / p.nGroups := (Nat.le_div_iff_mul_le (by omega)).2 (by omega)
  have hmul : p.nGroups * (c.popSize / p.nGroups) ≤ c.popSize := Nat.mul_div_le _ _
  refine DT.mono (DT.iter (fun _ _ => True) p.nGroups trivial fun i acc hi _ => ?_) fun _ _ => trivial
  unfold groupBest
  generalize c.popSize / p.nGroups = q at hdiv hmul
  have h1 : (i + 1) * q ≤ p.nGroups * q := Nat.mul_le_mul_right q hi
  have h2 : (i + 1) * q = i * q + q := Nat.succ_mul i q
  have hne : 0 < ((pop.take (if i + 1 = p.nGroups then c.popSize else (i + 1) * q)).drop (i * q)).length := by
    rw [List.length_drop, List.length_take]
    split <;> omega
  refine DT.bind (R := fun l => 0 < l.length) ?_ fun l hl => ?_
  · exact DT.pure (by rw [getSorted_length hE.argsortLaw]; exact hne)
  · exact DT.bind (DT.nth_mem hl) fun a _ => DT.pure trivial

theorem wok (hE : c.E.Lawful) (hP : c.P.Lawful) (hc : Accepted c 10) (p : Params K) (hg : p.nGroups ≤ c.popSize) :
    (algo p : Algo c Unit Unit).WOk noErr (Inv.std c Unit JT) JT JT c.popSize c.popSize 0 0 0 0 := by
  have hpop := hc.pop
  have h0 := Algo.plain_wok (Er := noErr) (sf := false) hE hP (by omega) (ev := fun _ => Pure.pure ()) (lo := 0) (hi := 0)
    (fun ep _ _ => WT.pure trivial)
  refine ⟨h0.box, h0.nonempty, h0.mkExt, h0.initVars, h0.init, fun s hs => ?_, h0.evolve⟩
  have : WT noErr (Inv.std c Unit JT) 0 0 (beforeMain p : M c Unit Unit Unit) (fun _ => True) := by
    unfold beforeMain
    refine WT.bind0 WT.get fun s hs => ?_
    exact WT.bindD (groupStage_ok hE p hg hs.len_std) fun _ => WT.pure trivial
  exact Wp.mono (this s hs) fun _ _ h => h.1

/-- With more groups than wolves the competition indexes an empty group. -/
theorem groupStage_raises (hE : c.E.Lawful) (p : Params K) (hg : c.popSize < p.nGroups) (pop : List (Agent d K Unit))
    (g : c.E.σ × c.P.S) : groupStage p pop g = .error .index := by
  unfold groupStage
  have hn := p.nGroups_ok
  have hdiv : c.popSize / p.nGroups = 0 := Nat.div_eq_of_lt hg
  obtain ⟨m, hm⟩ : ∃ m, p.nGroups = m + 1 := ⟨p.nGroups - 1, by omega⟩
  have hm1 : 1 ≤ m := by omega
  rw [hm]
  have h0 : groupBest p pop 0 [] g = .error .index := by
    unfold groupBest
    simp only [hdiv, Nat.mul_zero]
    rw [if_neg (by omega)]
    have : (getSorted c.E.argsort (([] : List (Agent d K Unit))) c.P.mm).1 = [] :=
      List.eq_nil_of_length_eq_zero (getSorted_length hE.argsortLaw ([] : List (Agent d K Unit)) c.P.mm)
    unfold sortedPop
    simp only [List.take_zero, List.drop_nil, this, pure_bind]
    rfl
  have hfail : ∀ k, Mealpy.iter (k + 1) (groupBest p pop) [] g = .error .index := by
    intro k
    induction k with
    | zero => exact h0
    | succ k ih =>
      have : Mealpy.iter (k + 1 + 1) (groupBest (c := c) p pop) [] =
        Mealpy.iter (k + 1) (groupBest p pop) [] >>= groupBest p pop (k + 1) := rfl
      rw [this]
      simp only [bind, StateT.bind, Except.bind]
      rw [ih]
  exact hfail m

theorem framed (hE : c.E.Lawful) (p : Params K) (ep : Nat) : Framed true ((algo p).evolve ep : M c Unit Unit Unit) := Framed.pure

theorem framed_before (hE : c.E.Lawful) (p : Params K) : Framed true (beforeMain p : M c Unit Unit Unit) := by
  unfold beforeMain; framed

end DS_GWO

end Mealpy
