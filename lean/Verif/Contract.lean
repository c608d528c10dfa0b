import Verif.SolveLemmas

/-!
# What an algorithm has to do for `solve` to be well behaved

`Algo.Ok` is proved once per algorithm (in `Verif/Alg/`); `Algo.Ok.solve` turns it into statements
about whole runs.
-/

set_option linter.unusedSectionVars false
set_option linter.unusedVariables false

namespace Mealpy
open Spec

variable {d : Nat} {K : Type} [Num K] {c : Cfg d K} {X Y : Type}

/-- no error is allowed -/
def noErr : Err → Prop := fun _ => False

/-- `x` lies in the problem's box -/
def Feas (c : Cfg d K) (x : Vec d K) : Prop := InBox c.P.lb c.P.ub x

/-- agent `a` is evaluated: its target is the objective at its solution, and that call was made -/
def Evald (c : Cfg d K) (log : List (Vec d K)) (a : Agent d K X) : Prop :=
  a.tgt = c.P.target a.sol ∧ a.sol ∈ log

/-- invariant of the population -/
structure GoodPop (F : Agent d K X → Prop) (J : Y → Prop) (s : St c X Y) : Prop where
  len : s.pop.length = c.popSize
  ev : ∀ a ∈ s.pop, Evald c s.base.log a
  feas : ∀ a ∈ s.pop, F a
  ext : J s.ext

/-- invariant at the beginning of an epoch -/
structure Good (F : Agent d K X → Prop) (J : Y → Prop) (s : St c X Y) : Prop extends GoodPop F J s where
  gev : Evald c s.base.log s.gbest
  gfeas : F s.gbest
  record : s.hist.globalBest.getLast? = some s.gbest
  worst : s.hist.globalWorst ≠ []

/-- some agent still held (in the record of global bests, or in the population) is at least as good
as the point `x` -/
def Covered (s : St c X Y) (x : Vec d K) : Prop :=
  (∃ g, s.hist.globalBest.getLast? = some g ∧ NoWorse c.P.mm g.fit (c.P.target x).fitness) ∨
  ∃ a ∈ s.pop, NoWorse c.P.mm a.fit (c.P.target x).fitness

/-- what happened between `s` and `s'`: between `lo` and `hi` evaluations, all feasible, counted, and
none of them forgotten -/
structure Post (F : Agent d K X → Prop) (J : Y → Prop) (lo hi : Nat) (s s' : St c X Y) : Prop where
  good : GoodPop F J s'
  hist : s'.hist = s.hist
  evals : ∃ new, s'.base.log = s.base.log ++ new ∧ lo ≤ new.length ∧ new.length ≤ hi ∧
    s'.base.nfe = s.base.nfe + new.length ∧ ∀ x ∈ new, Feas c x ∧ Covered s' x

/-- `Post`, and `g_best` was left alone -/
structure Step (F : Agent d K X → Prop) (J : Y → Prop) (lo hi : Nat) (s s' : St c X Y) : Prop
    extends Post F J lo hi s s' where
  gbest : s'.gbest = s.gbest

/-- a `Step` after which nothing in the population has been lost: every old agent is matched by one
at least as good -/
structure Imp (F : Agent d K X → Prop) (J : Y → Prop) (lo hi : Nat) (s s' : St c X Y) : Prop
    extends Step F J lo hi s s' where
  keep : ∀ a ∈ s.pop, ∃ a' ∈ s'.pop, NoWorse c.P.mm a'.fit a.fit

theorem Evald.mono {log log' : List (Vec d K)} {a : Agent d K X} (h : Evald c log a)
    (hl : ∀ x ∈ log, x ∈ log') : Evald c log' a := ⟨h.1, hl _ h.2⟩

theorem Post.log_sub {F : Agent d K X → Prop} {J : Y → Prop} {lo hi : Nat} {s s' : St c X Y}
    (h : Post F J lo hi s s') : ∀ x ∈ s.base.log, x ∈ s'.base.log := by
  obtain ⟨new, h1, -⟩ := h.evals
  intro x hx
  rw [h1]
  exact List.mem_append_left _ hx

theorem Step.good' {F : Agent d K X → Prop} {J J' : Y → Prop} {lo hi : Nat} {s s' : St c X Y}
    (h : Step F J lo hi s s') (hs : Good F J' s) : Good F J s' where
  toGoodPop := h.good
  gev := by rw [h.gbest]; exact hs.gev.mono h.toPost.log_sub
  gfeas := by rw [h.gbest]; exact hs.gfeas
  record := by rw [h.gbest, h.hist]; exact hs.record
  worst := by rw [h.hist]; exact hs.worst

theorem Covered.imp {F : Agent d K X → Prop} {J : Y → Prop} {lo hi : Nat} {s s' : St c X Y}
    (h : Imp F J lo hi s s') {x : Vec d K} (hx : Covered s x) : Covered s' x := by
  rcases hx with ⟨g, hg, hn⟩ | ⟨a, ha, hn⟩
  · exact Or.inl ⟨g, by rw [h.hist]; exact hg, hn⟩
  · obtain ⟨a', ha', hn'⟩ := h.keep a ha
    exact Or.inr ⟨a', ha', hn'.trans hn⟩

/-- a step followed by an improving step -/
theorem Step.trans {F : Agent d K X → Prop} {J J' : Y → Prop} {lo hi lo' hi' : Nat} {s s' s'' : St c X Y}
    (h : Step F J' lo hi s s') (h' : Imp F J lo' hi' s' s'') : Step F J (lo + lo') (hi + hi') s s'' where
  good := h'.good
  hist := by rw [h'.hist, h.hist]
  gbest := by rw [h'.gbest, h.gbest]
  evals := by
    obtain ⟨n1, a1, a2, a3, a4, a5⟩ := h.evals
    obtain ⟨n2, b1, b2, b3, b4, b5⟩ := h'.evals
    refine ⟨n1 ++ n2, by rw [b1, a1, List.append_assoc], by simp; omega, by simp; omega,
      by simp; omega, ?_⟩
    intro x hx
    rcases List.mem_append.1 hx with hx | hx
    · exact ⟨(a5 x hx).1, (a5 x hx).2.imp h'⟩
    · exact b5 x hx

theorem Imp.trans {F : Agent d K X → Prop} {J J' : Y → Prop} {lo hi lo' hi' : Nat} {s s' s'' : St c X Y}
    (h : Imp F J' lo hi s s') (h' : Imp F J lo' hi' s' s'') : Imp F J (lo + lo') (hi + hi') s s'' where
  toStep := h.toStep.trans h'
  keep := by
    intro a ha
    obtain ⟨a', ha', hn⟩ := h.keep a ha
    obtain ⟨a'', ha'', hn'⟩ := h'.keep a' ha'
    exact ⟨a'', ha'', hn'.trans hn⟩

/-- only the generators moved -/
theorem Imp.refl {F : Agent d K X → Prop} {J : Y → Prop} {s : St c X Y} (h : GoodPop F J s)
    (r : c.E.σ) (v : c.P.S) :
    Imp F J 0 0 s { s with base := { s.base with rng := r, vg := v } } where
  good := ⟨h.len, h.ev, h.feas, h.ext⟩
  hist := rfl
  gbest := rfl
  evals := ⟨[], by simp, by simp, by simp, by simp, by simp⟩
  keep := fun a ha => ⟨a, ha, NoWorse.rfl⟩

theorem Post.weaken {F : Agent d K X → Prop} {J : Y → Prop} {lo hi lo' hi' : Nat} {s s' : St c X Y}
    (h : Post F J lo hi s s') (h1 : lo' ≤ lo) (h2 : hi ≤ hi') : Post F J lo' hi' s s' where
  good := h.good
  hist := h.hist
  evals := by
    obtain ⟨n1, a1, a2, a3, a4, a5⟩ := h.evals
    exact ⟨n1, a1, by omega, by omega, a4, a5⟩

theorem Step.weaken {F : Agent d K X → Prop} {J : Y → Prop} {lo hi lo' hi' : Nat} {s s' : St c X Y}
    (h : Step F J lo hi s s') (h1 : lo' ≤ lo) (h2 : hi ≤ hi') : Step F J lo' hi' s s' where
  toPost := h.toPost.weaken h1 h2
  gbest := h.gbest

theorem Imp.weaken {F : Agent d K X → Prop} {J : Y → Prop} {lo hi lo' hi' : Nat} {s s' : St c X Y}
    (h : Imp F J lo hi s s') (h1 : lo' ≤ lo) (h2 : hi ≤ hi') : Imp F J lo' hi' s s' where
  toStep := h.toStep.weaken h1 h2
  keep := h.keep

/-- `starting_solutions` is absent, or a full set of feasible rows -/
def FeasibleStart (c : Cfg d K) : Starting K → Prop
  | .none => True
  | .rows l => l.length = c.popSize ∧ ∀ r ∈ l, ∃ x, rowVec (d := d) r = some x ∧ Feas c x
  | _ => False

/-- result of an initialization that may start from given agents `p` -/
structure InitPost (F : Agent d K X → Prop) (J : Y → Prop) (n0 : Nat) (p : Option (List (Agent d K X)))
    (b : Base c) (r : List (Agent d K X) × Y) (b' : Base c) : Prop where
  len : r.1.length = c.popSize
  ev : ∀ a ∈ r.1, Evald c b'.log a
  feas : ∀ a ∈ r.1, F a
  ext : J r.2
  evals : ∃ new, b'.log = b.log ++ new ∧ (∀ x ∈ new, Feas c x ∧ ∃ a ∈ r.1, NoWorse c.P.mm a.fit (c.P.target x).fitness) ∧
    new.length + (p.getD []).length = n0 ∧
    (c.mode = .single ∨ c.mode = .swarm → b'.nfe = b.nfe + new.length)
  keep : ∀ pop, p = some pop → ∀ a ∈ pop, ∃ a' ∈ r.1, NoWorse c.P.mm a'.fit a.fit

/-- The contract of an algorithm: `n0` evaluations before the main loop, between `lo` and `hi` per
epoch. -/
structure Algo.Ok (A : Algo c X Y) (F : Agent d K X → Prop) (J0 J1 J : Y → Prop) (n0 lo hi : Nat) : Prop where
  mkExt : ∀ x, Feas c x → DT noErr (A.mkExt x) (fun e => F ⟨x, c.P.target x, e⟩)
  initVars : DT noErr A.initVars J0
  init : ∀ y p b, J0 y → (∀ pop, p = some pop → pop.length = c.popSize ∧
      ∀ a ∈ pop, Evald c b.log a ∧ F a) →
    Wp noErr (A.initialization y p) b (fun r b' => InitPost F J1 n0 p b r b')
  before : ∀ s, Good F J1 s → Wp noErr A.beforeMain s (fun _ s' => Step F J 0 0 s s')
  evolve : ∀ ep s, 1 ≤ ep → ep ≤ c.epoch → Good F J s →
    Wp noErr (A.evolve ep) s (fun _ s' => Post F J lo hi s s')

/-- Outcome of a whole run (empty log before). -/
structure RunOk (F : Agent d K X → Prop) (J : Y → Prop) (n0 lo hi : Nat) (o : RunOpts K) (b : Base c)
    (s : St c X Y) (h : FinalHist d K X) : Prop where
  feasible : ∀ x ∈ s.base.log, Feas c x
  gev : Evald c s.base.log s.gbest
  gfeas : F s.gbest
  pop : GoodPop F J s
  best : ∀ x ∈ s.base.log, NoWorse c.P.mm s.gbest.fit (c.P.target x).fitness
  budget_lo : n0 + h.epoch * lo ≤ s.base.log.length
  budget_hi : s.base.log.length ≤ n0 + h.epoch * hi
  epochs : 1 ≤ h.epoch ∧ h.epoch ≤ c.epoch
  sizes : ∀ pop ∈ h.population, pop.length = c.popSize
  counter : (c.mode = .single ∨ c.mode = .swarm) →
    s.base.nfe = (if o.term.isSome then 0 else b.nfe) + s.base.log.length

theorem mapM_rowVec {l : List (List K)} (h : ∀ r ∈ l, ∃ x, rowVec (d := d) r = some x ∧ Feas c x) :
    ∃ xs : List (Vec d K), l.mapM (rowVec (d := d)) = some xs ∧ xs.length = l.length ∧
      List.Forall₂ (fun r x => rowVec r = some x) l xs ∧ ∀ x ∈ xs, Feas c x := by
  induction l with
  | nil => exact ⟨[], rfl, rfl, .nil, by simp⟩
  | cons r l ih =>
    obtain ⟨x, hx, hf⟩ := h r (by simp)
    obtain ⟨xs, h1, h2, h3, h4⟩ := ih (fun r hr => h r (by simp [hr]))
    refine ⟨x :: xs, ?_, by simp [h2], .cons hx h3, ?_⟩
    · rw [List.mapM_cons, hx, h1]; rfl
    · intro y hy
      rcases List.mem_cons.1 hy with rfl | hy
      · exact hf
      · exact h4 y hy

/-- evaluating given positions one by one -/
theorem agentsOf_spec {F : Agent d K X → Prop} {mkExt : Vec d K → D c X} {Er : Err → Prop} :
    ∀ (xs : List (Vec d K)) (b : Base c),
    (∀ x ∈ xs, DT Er (mkExt x) (fun e => F ⟨x, c.P.target x, e⟩)) →
    Wp Er (agentsOf mkExt xs) b (fun pop b' => pop.map Agent.sol = xs ∧
      (∀ a ∈ pop, a.tgt = c.P.target a.sol ∧ F a) ∧ b'.log = b.log ++ xs ∧ b'.nfe = b.nfe + xs.length)
  | [], b, _ => by
    unfold agentsOf
    rw [List.mapM_nil]
    exact Wp.pure ⟨rfl, by simp, by simp, by simp⟩
  | x :: xs, b, h => by
    unfold agentsOf
    rw [List.mapM_cons]
    refine Wp.bind (Wp.mono (agentOf_spec (h x (by simp))) ?_)
    rintro a b' ⟨h1, h2, h3, h4, h5⟩
    refine Wp.bind (Wp.mono (agentsOf_spec xs b' (fun y hy => h y (by simp [hy]))) ?_)
    rintro pop b'' ⟨g1, g2, g3, g4⟩
    refine Wp.pure ⟨by simp [h1, g1], ?_, by rw [g3, h4]; simp, by simp; omega⟩
    intro a' ha'
    rcases List.mem_cons.1 ha' with rfl | ha'
    · exact ⟨by rw [h1]; exact h2, h3⟩
    · exact g2 a' ha'

theorem forall₂_sol {F : Agent d K X → Prop} {xs : List (Vec d K)} {pend : List (Vec d K × X)}
    (h : List.Forall₂ (fun x p => p.1 = x ∧ F ⟨x, c.P.target x, p.2⟩) xs pend) :
    pend.map (·.1) = xs ∧ ∀ p ∈ pend, F ⟨p.1, c.P.target p.1, p.2⟩ := by
  induction h with
  | nil => simp
  | cons h _ ih =>
    obtain ⟨rfl, hF⟩ := h
    refine ⟨by simp [ih.1], ?_⟩
    intro p hp
    rcases List.mem_cons.1 hp with rfl | hp
    · exact hF
    · exact ih.2 p hp

/-- C38's content: rows of the right shape become the initial agents, in order -/
theorem beforeInit_rows {Er : Err → Prop} (hE : c.E.Lawful) {F : Agent d K X → Prop} {mkExt : Vec d K → D c X}
    {l : List (List K)} {xs : List (Vec d K)} (hl : l.length = c.popSize) (hpos : 0 < c.popSize)
    (hxs : l.mapM (rowVec (d := d)) = some xs) (hxl : xs.length = l.length)
    (hr : List.Forall₂ (fun r x => rowVec r = some x) l xs)
    (hmk : ∀ x ∈ xs, DT Er (mkExt x) (fun e => F ⟨x, c.P.target x, e⟩)) (b : Base c) :
    Wp Er (beforeInit mkExt (.rows l)) b (fun p b' => ∃ pop, p = some pop ∧ pop.map Agent.sol = xs ∧
      (∀ a ∈ pop, a.tgt = c.P.target a.sol ∧ F a) ∧
      (∃ new, b'.log = b.log ++ new ∧ new.Perm xs) ∧ b'.nfe = b.nfe + xs.length) := by
  unfold beforeInit
  simp only
  rw [if_neg (by simpa using hl)]
  cases l with
  | nil => simp at hl; omega
  | cons r l =>
  simp only
  have hrow : r.length = d := by
    cases hr with
    | cons h _ =>
      unfold rowVec at h
      split at h
      · assumption
      · cases h
  rw [if_neg (by simpa using hrow), hxs]
  simp only
  by_cases hm : c.swarmLike = true
  · rw [if_pos hm]
    refine Wp.bind (Wp.liftD (R := fun pend => List.Forall₂
        (fun x (p : Vec d K × X) => p.1 = x ∧ F ⟨x, c.P.target x, p.2⟩) xs pend) ?_ ?_)
    · unfold pendingOf
      refine DT.mapM' fun x hx => ?_
      exact DT.bind (hmk x hx) fun e he => DT.pure ⟨rfl, he⟩
    · intro pend r v hp
      obtain ⟨hp1, hp2⟩ := forall₂_sol hp
      refine Wp.bind (Wp.mono (updateTargets_spec hE hm pend _) ?_)
      rintro pop b' ⟨rfl, new, h1, h2, h3⟩
      refine Wp.pure ⟨evaluated c pend, rfl, ?_, ?_, ⟨new, h2, hp1 ▸ h1⟩, ?_⟩
      · simp [evaluated, ← hp1, Function.comp_def]
      · intro a ha
        obtain ⟨p, hpm, rfl⟩ := List.mem_map.1 ha
        exact ⟨rfl, hp2 p hpm⟩
      · rw [h3, ← hp1]; simp
  · rw [if_neg hm]
    refine Wp.bind (Wp.mono (agentsOf_spec xs b hmk) ?_)
    rintro pop b' ⟨h1, h2, h3, h4⟩
    exact Wp.pure ⟨pop, rfl, h1, h2, ⟨xs, h3, List.Perm.refl _⟩, h4⟩

/-- the default `initialization` -/
theorem defaultInit_spec (hE : c.E.Lawful) (hP : c.P.Lawful) {F : Agent d K X → Prop} {J : Y → Prop}
    {mkExt : Vec d K → D c X} (hmk : ∀ x, Feas c x → DT noErr (mkExt x) (fun e => F ⟨x, c.P.target x, e⟩))
    (y : Y) (p : Option (List (Agent d K X))) (b : Base c) (hy : J y)
    (hp : ∀ pop, p = some pop → pop.length = c.popSize ∧ ∀ a ∈ pop, Evald c b.log a ∧ F a) :
    Wp noErr (defaultInit mkExt y p) b (fun r b' => InitPost F J c.popSize p b r b') := by
  unfold defaultInit
  cases p with
  | some pop =>
    obtain ⟨h1, h2⟩ := hp pop rfl
    refine Wp.pure ⟨h1, fun a ha => (h2 a ha).1, fun a ha => (h2 a ha).2, hy,
      ⟨[], by simp, by simp, by simpa using h1, fun _ => rfl⟩, ?_⟩
    rintro pop' h a ha
    injection h with h
    subst h
    exact ⟨a, ha, NoWorse.rfl⟩
  | none =>
    refine Wp.bind (Wp.mono (generatePopulation_spec hE hP c.popSize hmk) ?_)
    rintro pop b' ⟨h1, h2, ⟨new, h3, h3'⟩, h4, h5, h6⟩
    refine Wp.pure ⟨h1, ?_, fun a ha => (h2 a ha).2.2, hy, ⟨new, h3, ?_, ?_, ?_⟩, by simp⟩
    · intro a ha
      refine ⟨(h2 a ha).2.1, ?_⟩
      rw [h3]
      exact List.mem_append_right _ (h3'.mem_iff.2 (List.mem_map.2 ⟨a, ha, rfl⟩))
    · intro x hx
      obtain ⟨a, ha, rfl⟩ := List.mem_map.1 (h3'.mem_iff.1 hx)
      refine ⟨(h2 a ha).1, a, ha, ?_⟩
      show NoWorse _ a.tgt.fitness _
      rw [(h2 a ha).2.1]
      exact NoWorse.rfl
    · rw [h3'.length_eq]; simp [h1]
    · intro hm
      rw [h4 hm, h3'.length_eq]; simp [h1]

theorem Algo.Ok.solve {A : Algo c X Y} {F : Agent d K X → Prop} {J0 J1 J : Y → Prop} {n0 lo hi : Nat}
    (hA : A.Ok F J0 J1 J n0 lo hi) (hE : c.E.Lawful) (hP : c.P.Lawful) (hpos : 0 < c.popSize)
    (hep : 0 < c.epoch) (o : RunOpts K) (hst : FeasibleStart c o.starting) (b : Base c) (hb : b.log = []) :
    ∃ s h, Mealpy.solve A o b = .ok (s, h) ∧ RunOk F J n0 lo hi o b s h := by
  obtain ⟨o', b1, ho, hos, hosp, hlog, hnone, hsome⟩ := startTermination_ok o b
  have hnfe1 : b1.nfe = if o.term.isSome then 0 else b.nfe := by
    cases ht : o.term with
    | none => rw [(hnone ht).2]; rfl
    | some t => exact (hsome (by simp [ht])).1
  -- initial population
  have hinit : Wp noErr (initialPop A o') b1 (fun r b2 => r.1.length = c.popSize ∧
      (∀ a ∈ r.1, Evald c b2.log a) ∧ (∀ a ∈ r.1, F a) ∧ J1 r.2 ∧
      (∀ x ∈ b2.log, Feas c x ∧ ∃ a ∈ r.1, NoWorse c.P.mm a.fit (c.P.target x).fitness) ∧
      b2.log.length = n0 ∧ (c.mode = .single ∨ c.mode = .swarm → b2.nfe = b1.nfe + b2.log.length)) := by
    unfold initialPop
    refine Wp.bind (Wp.liftD hA.initVars ?_)
    intro y r v hy
    have hl1 : b1.log = [] := by rw [hlog, hb]
    rw [hos]
    cases hstart : o.starting with
    | notArray => rw [hstart] at hst; exact hst.elim
    | flat n => rw [hstart] at hst; exact hst.elim
    | none =>
      refine Wp.bind (Wp.pure ?_)
      refine Wp.mono (hA.init y none _ hy (by simp)) ?_
      rintro r b2 ⟨h1, h2, h3, h4, ⟨new, g1, g2, g3, g4⟩, -⟩
      have g1 : b2.log = new := by rw [g1]; show b1.log ++ new = new; rw [hl1]; rfl
      refine ⟨h1, h2, h3, h4, ?_, ?_, ?_⟩
      · rw [g1]; exact g2
      · rw [g1]; simpa using g3
      · rw [g1]; exact g4
    | rows l =>
      rw [hstart] at hst
      obtain ⟨hl, hrows⟩ := hst
      obtain ⟨xs, hx1, hx2, hx3, hx4⟩ := mapM_rowVec hrows
      refine Wp.bind (Wp.mono (beforeInit_rows hE hl hpos hx1 hx2 hx3
        (fun x hx => hA.mkExt x (hx4 x hx)) _) ?_)
      rintro p b2 ⟨pop, rfl, hp1, hp2, ⟨new0, hn1, hn2⟩, hp4⟩
      have hn1 : b2.log = new0 := by rw [hn1]; show b1.log ++ _ = _; rw [hl1]; rfl
      have hpl : pop.length = xs.length := by rw [← hp1]; simp
      have hev : ∀ a ∈ pop, Evald c b2.log a := by
        intro a ha
        refine ⟨(hp2 a ha).1, ?_⟩
        rw [hn1, hn2.mem_iff, ← hp1]
        exact List.mem_map.2 ⟨a, ha, rfl⟩
      refine Wp.mono (hA.init y (some pop) _ hy ?_) ?_
      · rintro pop' h
        injection h with h
        subst h
        exact ⟨by omega, fun a ha => ⟨hev a ha, (hp2 a ha).2⟩⟩
      · rintro r b3 ⟨h1, h2, h3, h4, ⟨new, g1, g2, g3, g4⟩, hk⟩
        refine ⟨h1, h2, h3, h4, ?_, ?_, ?_⟩
        · rw [g1]
          intro x hx
          rcases List.mem_append.1 hx with hx | hx
          · rw [hn1, hn2.mem_iff] at hx
            refine ⟨hx4 x hx, ?_⟩
            rw [← hp1] at hx
            obtain ⟨a, ha, rfl⟩ := List.mem_map.1 hx
            obtain ⟨a', ha', hle⟩ := hk pop rfl a ha
            refine ⟨a', ha', ?_⟩
            rw [← (hp2 a ha).1]
            exact hle
          · exact g2 x hx
        · rw [g1, hn1]
          simp only [Option.getD_some] at g3
          simp only [List.length_append, hn2.length_eq]
          omega
        · intro hm
          have hp4 : b2.nfe = b1.nfe + xs.length := hp4
          rw [g1, hn1, g4 hm, hp4]
          simp only [List.length_append, hn2.length_eq]
          omega
  obtain ⟨⟨pop0, y⟩, b2, hi1, hp1, hp2, hp3, hp4, hp5, hp6, hp7⟩ := hinit.ok
  dsimp only at hp1 hp2 hp3 hp4 hp5
  obtain ⟨s0, hs0⟩ := afterInit_total (sf := A.sortFlag) (y := y) (b := b2) hE
    (pop := pop0) (by intro h; rw [h] at hp1; simp at hp1; omega)
  obtain ⟨best, worst, hbest, hworst, hs0e⟩ := afterInit_ok hE hs0
  -- the population of `s0` is `pop0` up to order
  have hmem : ∀ a, a ∈ s0.pop ↔ a ∈ pop0 := by
    intro a
    rw [hs0e]
    dsimp only
    split
    · exact getSorted_mem hE.argsortLaw
    · rfl
  have hgood0 : Good F J1 s0 := by
    refine ⟨⟨?_, ?_, ?_, ?_⟩, ?_, ?_, ?_, ?_⟩
    · rw [hs0e]
      dsimp only
      split
      · rw [getSorted_length hE.argsortLaw]; exact hp1
      · exact hp1
    · intro a ha
      rw [hs0e]
      exact hp2 a ((hmem a).1 ha)
    · intro a ha; exact hp3 a ((hmem a).1 ha)
    · rw [hs0e]; exact hp4
    · rw [hs0e]; exact hp2 _ hbest.1
    · rw [hs0e]; exact hp3 _ hbest.1
    · rw [hs0e]; rfl
    · rw [hs0e]; simp
  have hlog0 : s0.base = b2 := by rw [hs0e]
  have hcov0 : ∀ x ∈ s0.base.log, NoWorse c.P.mm s0.gbest.fit (c.P.target x).fitness := by
    intro x hx
    rw [hlog0] at hx
    obtain ⟨-, a, ha, hle⟩ := hp5 x hx
    rw [hs0e]
    exact (hbest.2 a ha).trans hle
  obtain ⟨⟨⟩, s1, hbm, hst1⟩ := (hA.before s0 hgood0).ok
  have hgood1 : Good F J s1 := hst1.good' hgood0
  obtain ⟨nw, e1, e2, e3, e4, e5⟩ := hst1.evals
  have hnw : nw = [] := List.length_eq_zero_iff.1 (by omega)
  subst hnw
  have hlog1 : s1.base.log = s0.base.log := by rw [e1]; simp
  have hnfe1' : s1.base.nfe = s0.base.nfe := by rw [e4]; rfl
  -- the main loop
  have hhist1 : s1.hist.diversity = [] ∧ s1.hist.population = [] := by
    rw [hst1.hist, hs0e]; exact ⟨rfl, rfl⟩
  have hloop := mainLoop_wp (Er := noErr) (A := A) (o := o') (fun k s => Good F J s ∧
      (∀ x ∈ s.base.log, Feas c x ∧ NoWorse c.P.mm s.gbest.fit (c.P.target x).fitness) ∧
      n0 + k * lo ≤ s.base.log.length ∧ s.base.log.length ≤ n0 + k * hi ∧
      s.hist.diversity.length = k ∧ (∀ pop ∈ s.hist.population, pop.length = c.popSize) ∧
      (c.mode = .single ∨ c.mode = .swarm → s.base.nfe = b1.nfe + s.base.log.length)) (by
    rintro k s ⟨hg, hc, hl1, hl2, hd, hps, hn⟩ hk
    refine Wp.mono (epochStep_wp (R := fun s1 => Post F J lo hi s s1) hE ?_ ?_) ?_
    · intro r v
      have hg' : Good F J { s with base := { s.base with rng := r, vg := v } } :=
        (Imp.refl hg.toGoodPop r v).toStep.good' hg
      refine Wp.mono (hA.evolve (k + 1) _ (by omega) (by omega) hg') ?_
      rintro _ s1 h
      exact ⟨h.good, h.hist, h.evals⟩
    · refine Or.inr ?_
      intro s1 h
      refine ⟨?_, ?_, ?_⟩
      · intro hnil
        have := h.good.len
        rw [hnil] at this
        simp at this; omega
      · rw [h.hist]
        intro hnil
        have := hg.record
        rw [hnil] at this
        simp at this
      · rw [h.hist]; exact hg.worst
    · rintro f s' ⟨s1, hpost, hend, -⟩
      obtain ⟨cb, cw, gb, gw, tm, hcb, hcw, hgb, hgw, hgbest, hhist⟩ := hend.hist
      obtain ⟨new, n1, n2, n3, n4, n5⟩ := hpost.evals
      have hgb' : gb = s.gbest := by
        rw [hpost.hist, hg.record] at hgb
        exact (Option.some.inj hgb).symm
      subst hgb'
      have hbc := getBetterAgent_cases cb s.gbest c.P.mm
      have hmem' : ∀ a, a ∈ s'.pop ↔ a ∈ s1.pop := by
        intro a
        rw [hend.pop]
        split
        · exact getSorted_mem hE.argsortLaw
        · rfl
      have hgp : GoodPop F J s' := by
        refine ⟨?_, ?_, ?_, ?_⟩
        · rw [hend.pop]
          split
          · rw [getSorted_length hE.argsortLaw]; exact hpost.good.len
          · exact hpost.good.len
        · intro a ha; rw [hend.log]; exact hpost.good.ev a ((hmem' a).1 ha)
        · intro a ha; exact hpost.good.feas a ((hmem' a).1 ha)
        · rw [hend.ext]; exact hpost.good.ext
      refine ⟨⟨hgp, ?_, ?_, ?_, ?_⟩, ?_, ?_, ?_, ?_, ?_, ?_⟩
      · rw [hend.log, hgbest]
        rcases hbc.1 with h | h
        · rw [h]; exact hpost.good.ev cb hcb.1
        · rw [h]; exact hg.gev.mono hpost.log_sub
      · rw [hgbest]
        rcases hbc.1 with h | h
        · rw [h]; exact hpost.good.feas cb hcb.1
        · rw [h]; exact hg.gfeas
      · rw [hhist, hgbest]; simp
      · rw [hhist]; simp
      · intro x hx
        rw [hend.log, n1] at hx
        have hbb := hbc.2.1
        have hbg := hbc.2.2
        rw [← hgbest] at hbb hbg
        rcases List.mem_append.1 hx with hx | hx
        · exact ⟨(hc x hx).1, hbg.trans (hc x hx).2⟩
        · refine ⟨(n5 x hx).1, ?_⟩
          rcases (n5 x hx).2 with ⟨g, hgl, hle⟩ | ⟨a, ha, hle⟩
          · rw [hpost.hist, hg.record] at hgl
            rw [← Option.some.inj hgl] at hle
            exact hbg.trans hle
          · exact (hbb.trans (hcb.2 a ha)).trans hle
      · rw [hend.log, n1]; simp only [List.length_append]
        rw [Nat.add_mul]; omega
      · rw [hend.log, n1]; simp only [List.length_append]
        rw [Nat.add_mul]; omega
      · rw [hhist]
        simp only [List.length_append, List.length_singleton]
        rw [hpost.hist, hd]
      · rw [hhist]
        dsimp only
        rw [hpost.hist]
        intro pop hpop
        split at hpop
        · rcases List.mem_append.1 hpop with hpop | hpop
          · exact hps pop hpop
          · rw [List.mem_singleton.1 hpop]
            exact hgp.len
        · exact hps pop hpop
      · intro hm
        rw [hend.nfe, hend.log, n1, n4, hn hm]
        simp only [List.length_append]
        omega) c.epoch 0 s1 (by
      refine ⟨hgood1, ?_, ?_, ?_, ?_, ?_, ?_⟩
      · intro x hx
        rw [hlog1] at hx
        rw [hst1.gbest]
        refine ⟨(hp5 x (by rw [hlog0] at hx; exact hx)).1, hcov0 x hx⟩
      · rw [hlog1, hlog0, hp6]; simp
      · rw [hlog1, hlog0, hp6]; simp
      · rw [hhist1.1]; rfl
      · rw [hhist1.2]; simp
      · intro hm
        rw [hnfe1', hlog1, hlog0]
        exact hp7 hm) (by omega)
  obtain ⟨⟨⟩, s, hml, e, he1, he2, he3, hg, hc, hl1, hl2, hd, hps, hn⟩ := hloop.ok
  -- the final history
  have hdne : s.hist.diversity ≠ [] := by
    intro h
    rw [h] at hd
    have := he3 hep
    simp at hd; omega
  obtain ⟨m, hm⟩ := listMax_isSome hdne
  obtain ⟨h, hh⟩ : ∃ h, trackProcess s.hist = .ok h := by
    unfold trackProcess
    rw [hm]
    exact ⟨_, rfl⟩
  have hte := trackProcess_ok hh
  refine ⟨s, h, ?_, ?_⟩
  · unfold Mealpy.solve solveInit
    rw [ho]
    simp only [bind, Except.bind]
    rw [hi1]
    simp only
    rw [hs0]
    simp only
    rw [hbm]
    simp only [pure, Except.pure]
    rw [show (1 : Nat) = 0 + 1 from rfl, hml]
    simp only
    rw [hh]
  · have hepoch : h.epoch = e := by rw [hte.1, hd]
    exact {
      feasible := fun x hx => (hc x hx).1
      gev := hg.gev
      gfeas := hg.gfeas
      pop := hg.toGoodPop
      best := fun x hx => (hc x hx).2
      budget_lo := by rw [hepoch]; exact hl1
      budget_hi := by rw [hepoch]; exact hl2
      epochs := by rw [hepoch]; have := he3 hep; omega
      sizes := by rw [hte.2.2.2.2.2.2.2.2.2.1]; exact hps
      counter := fun hm => by rw [hn hm, hnfe1] }

end Mealpy
