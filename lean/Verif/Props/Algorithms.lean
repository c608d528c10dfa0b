import Verif.Catalogue
import Verif.RunEnv
import Verif.Alg.Raise
import Verif.Alg.Raise2

/-!
# C52-C57: whole runs of the modelled algorithms

`Catalogued c A b` lists the algorithms (`Verif.Catalogue`): `A` is one of them with parameters its
constructor accepts, and `b` states its evaluation budget.  `StaysIn` are those that evaluate feasible points only, `KeepsSize` those that
keep their population size, `Listed` those whose agents carry their own targets (`Untidy` are the others), `Contained` those of `Listed` that
stay in the box, `AnyModelled` those of `Listed` that never raise, `MayRaise` those of `Listed` that may, `ReturnsBest` those that return
the best point they evaluated.  `solve A o b0` is a run of
`Optimizer.solve` (`mealpy/optimizer.py:216-278`): `s.base.log` lists the positions handed to the objective, in
order; `s.gbest` is the returned agent; `s.pop` the final population; `h` the history.  The run is
arbitrary: any lawful environment `c.E` (random stream, scheduling, clock, tie order), any problem
`c.P`, mode, size, number of epochs, termination and any feasible starting solutions.
-/

set_option linter.unusedSectionVars false
set_option linter.unusedVariables false

namespace Mealpy
open Spec

variable {d : Nat} {K : Type} [Num K] {c : Cfg d K} {X Y : Type}

/-- the hypotheses of this file are met: Grey Wolf, two variables, five agents, three epochs, each mode -/
example (mode : Valid.Mode) : (exCfg mode).E.Lawful ∧ (exCfg mode).P.Lawful ∧
    Elitist (exCfg mode) OriginalGWO.algo (.of 5 5 5) ∧ Tracked (exCfg mode) CG_GWO.algo (.of 5 8 13) ∧
    Keeping (exCfg mode) (OriginalHC.algo ⟨7, by omega⟩) (.of 5 7 7) ∧
    Resizing (exCfg mode) (OriginalFFA.algo ⟨1/1000, 2, 1/5, 99/100, 1/20, 2⟩) (.of 5 25 25) ∧
    Fallible (exCfg mode) OriginalNRO.algo (.of 5 15 15) [.value] ∧
    Risky (exCfg mode) (OriginalTS.algo ⟨5, 10, 1/20⟩) (.of 5 1 10) [.index] ∧
    Careless (exCfg .single) (OriginalSBO.algo ⟨9/10, 1/20, 1/50⟩) (.of 5 5 5) [.index] ∧
    InPlace (exCfg mode) (ProbBeesA.algo ⟨1/10, 1/10, 99/100, 5⟩) (.of 5 5 25) [] ∧
    Wild (exCfg mode) EnhancedTWO.algo (.of 10 10 15) [] ∧
    FeasibleStart (exCfg mode) exOpts.starting ∧ (exBase mode).log = [] := by
  have hacc : Accepted (exCfg mode) 5 := ⟨by simp [exCfg], by simp [exCfg]⟩
  exact ⟨(exCfg_lawful mode).1, (exCfg_lawful mode).2, .originalGWO hacc, .cgGWO hacc,
    .originalHC _ ⟨by simp [exCfg], by simp [exCfg]⟩, .originalFFA _ hacc, .originalNRO hacc,
    .originalTS _ ⟨by simp [exCfg], by simp [exCfg]⟩ (by decide), .originalSBO _ ⟨by simp [exCfg], by simp [exCfg]⟩ rfl, .probBeesA _ hacc (by decide),
    .enhancedTWO hacc, trivial, rfl⟩

/-- In exact arithmetic a box is mirrored into itself. -/
theorem mirror_exact (c : Cfg d ℚ) : MirrorsBox c := by
  intro x hx j
  have := hx j
  constructor
  · show c.P.lb j ≤ c.P.lb j + c.P.ub j - x j
    linarith [this.2]
  · show c.P.lb j + c.P.ub j - x j ≤ c.P.ub j
    linarith [this.1]

/-! ## C52 -/

/-- Every position handed to the objective lies inside the box.  Partial: `StaysIn` leaves out the classes refuted below in
`Props/Outside.lean` and in `Props/Leaves.lean` (where `OriginalHC` is proved), and settings outside the conditions of a line. -/
theorem C52_evaluates_feasible_points_partial {A : Algo c X Y} {bud : Budget} (hA : StaysIn c A bud) (hE : c.E.Lawful)
    (hP : c.P.Lawful) {o : RunOpts K} (hst : FeasibleStart c o.starting) {b : Base c} (hb : b.log = [])
    {s : St c X Y} {h : FinalHist d K X} (hs : solve A o b = .ok (s, h)) :
    ∀ x ∈ s.base.log, InBox c.P.lb c.P.ub x := hA.log hE hP hst hb hs

/-- a run that evaluated a position outside the box -/
def escapes (r : Except Err (St c X Y × FinalHist d K X)) : Bool :=
  match r with
  | .ok (s, _) => s.base.log.any (fun x => decide (∃ j, x j < c.P.lb j ∨ c.P.ub j < x j))
  | .error _ => false

theorem escapes_spec {r : Except Err (St c X Y × FinalHist d K X)} (h : escapes r = true) :
    ∃ s f, r = .ok (s, f) ∧ ∃ x ∈ s.base.log, ¬ InBox c.P.lb c.P.ub x := by
  unfold escapes at h
  split at h
  · rename_i s f
    refine ⟨s, f, rfl, ?_⟩
    obtain ⟨x, hx, hlt⟩ := List.any_eq_true.1 h
    refine ⟨x, hx, fun hb => ?_⟩
    obtain ⟨j, hj | hj⟩ := of_decide_eq_true hlt
    · exact absurd hj (not_lt.2 (hb j).1)
    · exact absurd hj (not_lt.2 (hb j).2)
  · cases h

/-- one variable in [-5, 5]; every agent starts at 1; the objective is constant; one epoch -/
def saCfg : Cfg 1 ℚ := ⟨runEnv 0 2, pointProb (fun _ => 0) 1 .min, .single, 5, 1⟩

theorem saCfg_lawful : saCfg.E.Lawful ∧ saCfg.P.Lawful :=
  ⟨runEnv_lawful (by norm_num) (by norm_num), pointProb_lawful (f := fun _ => 0) (x0 := 1) (mm := .min) (by norm_num)⟩

/-- `OriginalSA` evaluates outside the box: the neighbour is never corrected. -/
theorem C52_original_sa_leaves_box : saCfg.E.Lawful ∧ saCfg.P.Lawful ∧ Accepted saCfg 2 ∧
    ∃ (p : OriginalSA.Params ℚ) (s : _) (h : _), solve (OriginalSA.algo (c := saCfg) p) ⟨none, .none, false⟩ ⟨(), (), [], 1⟩ = .ok (s, h) ∧
      ∃ x ∈ s.base.log, ¬ InBox saCfg.P.lb saCfg.P.ub x := by
  refine ⟨saCfg_lawful.1, saCfg_lawful.2, ⟨by decide, by decide⟩, ⟨100, 50, by decide +kernel, by decide +kernel⟩, ?_⟩
  apply escapes_spec
  decide +kernel

/-- So does `GaussianSA`. -/
theorem C52_gaussian_sa_leaves_box : saCfg.E.Lawful ∧ saCfg.P.Lawful ∧ Accepted saCfg 2 ∧
    ∃ (p : GaussianSA.Params ℚ) (s : _) (h : _), solve (GaussianSA.algo (c := saCfg) p) ⟨none, .none, false⟩ ⟨(), (), [], 1⟩ = .ok (s, h) ∧
      ∃ x ∈ s.base.log, ¬ InBox saCfg.P.lb saCfg.P.ub x := by
  refine ⟨saCfg_lawful.1, saCfg_lawful.2, ⟨by decide, by decide⟩, ⟨100, 1/2, 50, by decide +kernel, by decide +kernel, by decide +kernel⟩, ?_⟩
  apply escapes_spec
  decide +kernel

/-! ## C53 -/

/-- The returned agent, and every agent of the final population, carries the objective's value at its own
position.  Partial: `Listed` leaves out the classes refuted elsewhere; `EliteSingleGA` and `EliteMultiGA` are refuted in `Verif/Props/Ties.lean`. -/
theorem C53_targets_are_values_partial {A : Algo c X Y} {bud : Budget} (hA : Listed c A bud) (hE : c.E.Lawful)
    (hP : c.P.Lawful) {o : RunOpts K} (hst : FeasibleStart c o.starting) {b : Base c} (hb : b.log = [])
    {s : St c X Y} {h : FinalHist d K X} (hs : solve A o b = .ok (s, h)) :
    s.gbest.tgt = c.P.target s.gbest.sol ∧ ∀ a ∈ s.pop, a.tgt = c.P.target a.sol := by
  have ho := hA.outcome hE hP hst hb hs
  exact ⟨ho.gbest, ho.pop⟩

/-- The returned agent, and every agent of the final population, carries the objective's value at its own
position, and that position is inside the box.  Partial, as above. -/
theorem C53_targets_belong_to_solutions_partial {A : Algo c X Y} {bud : Budget} (hA : Contained c A bud) (hE : c.E.Lawful)
    (hP : c.P.Lawful) {o : RunOpts K} (hst : FeasibleStart c o.starting) {b : Base c} (hb : b.log = [])
    {s : St c X Y} {h : FinalHist d K X} (hs : solve A o b = .ok (s, h)) :
    (s.gbest.tgt = c.P.target s.gbest.sol ∧ InBox c.P.lb c.P.ub s.gbest.sol) ∧
      ∀ a ∈ s.pop, a.tgt = c.P.target a.sol ∧ InBox c.P.lb c.P.ub a.sol := by
  have ho := hA.outcome hE hP hst hb hs
  exact ⟨ho.gbest, ho.pop⟩

/-! ## C54 -/

/-- An elitist algorithm returns a point it evaluated, at least as good as every point it evaluated.  Partial: many classes outside `Elitist`
are refuted in `Props/Forgets.lean`, the rest (listed in the notes of the manifest) are neither proved nor refuted. -/
theorem C54_returns_best_evaluated_partial {A : Algo c X Y} {bud : Budget} (hA : Elitist c A bud) (hE : c.E.Lawful)
    (hP : c.P.Lawful) {o : RunOpts K} (hst : FeasibleStart c o.starting) {b : Base c} (hb : b.log = [])
    {s : St c X Y} {h : FinalHist d K X} (hs : solve A o b = .ok (s, h)) :
    s.gbest.sol ∈ s.base.log ∧ ∀ x ∈ s.base.log, NoWorse c.P.mm s.gbest.tgt.fitness (c.P.target x).fitness := by
  obtain ⟨s', h', hs', -, ho, hm⟩ := (hA.facts hE hP).solve hE hP o hst b hb
  rw [hs] at hs'
  obtain ⟨rfl, rfl⟩ := Prod.mk.inj (Except.ok.inj hs')
  exact ⟨hm, ho⟩

/-- Likewise for the algorithms that keep, until the end of an epoch, an agent as good as each point evaluated in it. -/
theorem C54_keeping_returns_best_partial {A : Algo c X Y} {bud : Budget} (hA : ReturnsBest c A bud) (hE : c.E.Lawful)
    (hP : c.P.Lawful) {o : RunOpts K} (hst : FeasibleStart c o.starting) {b : Base c} (hb : b.log = [])
    {s : St c X Y} {h : FinalHist d K X} (hs : solve A o b = .ok (s, h)) :
    s.gbest.tgt = c.P.target s.gbest.sol ∧ ∀ x ∈ s.base.log, NoWorse c.P.mm s.gbest.tgt.fitness (c.P.target x).fitness := by
  rcases hA with hA | hA
  · exact ⟨(C53_targets_are_values_partial (.inl (.inl (.inl (.inl hA)))) hE hP hst hb hs).1, (C54_returns_best_evaluated_partial hA hE hP hst hb hs).2⟩
  · have hf := hA.facts hE hP
    have hk := hA.keeps hE hP
    exact ⟨(C53_targets_are_values_partial (.inl (.inr (.inr hA))) hE hP hst hb hs).1,
      covers_best hE hP hf.pos hf.epochs hk.init hk.before hk.evolve hst hb hs⟩

/-- one variable; all wolves start at 1; the objective is -1 at 3 and 0 elsewhere -/
def cgCfg : Cfg 1 ℚ := ⟨runEnv 0 2, pointProb (fun x => if x = 3 then -1 else 0) 1 .min, .single, 5, 1⟩

/-- a run that evaluated a point better than the agent it returned -/
def forgets (r : Except Err (St c X Y × FinalHist d K X)) : Bool :=
  match r with
  | .ok (s, _) => s.base.log.any (fun x => match c.P.mm with
      | .min => decide ((c.P.target x).fitness < s.gbest.tgt.fitness)
      | .max => decide (s.gbest.tgt.fitness < (c.P.target x).fitness))
  | .error _ => false

theorem forgets_spec {r : Except Err (St c X Y × FinalHist d K X)} (h : forgets r = true) :
    ∃ s f, r = .ok (s, f) ∧ ∃ x ∈ s.base.log, ¬ NoWorse c.P.mm s.gbest.tgt.fitness (c.P.target x).fitness := by
  unfold forgets at h
  split at h
  · rename_i s f
    refine ⟨s, f, rfl, ?_⟩
    obtain ⟨x, hx, hlt⟩ := List.any_eq_true.1 h
    refine ⟨x, hx, ?_⟩
    cases hm : c.P.mm with
    | min =>
      rw [hm] at hlt
      simp only [decide_eq_true_eq] at hlt
      exact fun hn => absurd hlt (not_lt.2 hn)
    | max =>
      rw [hm] at hlt
      simp only [decide_eq_true_eq] at hlt
      exact fun hn => absurd hlt (not_lt.2 hn)
  · cases h

/-- `CG_GWO` forgets: it evaluates mutated leaders that never enter the population. -/
theorem C54_cg_gwo_forgets : cgCfg.E.Lawful ∧ cgCfg.P.Lawful ∧ Accepted cgCfg 5 ∧
    ∃ s h, solve (CG_GWO.algo (c := cgCfg)) ⟨none, .none, false⟩ ⟨(), (), [], 1⟩ = .ok (s, h) ∧
      ∃ x ∈ s.base.log, ¬ NoWorse cgCfg.P.mm s.gbest.tgt.fitness (cgCfg.P.target x).fitness := by
  refine ⟨runEnv_lawful (by norm_num) (by norm_num), ?_, ⟨by decide, by decide⟩, ?_⟩
  · exact pointProb_lawful (f := fun x => if x = 3 then -1 else 0) (x0 := 1) (mm := .min) (by norm_num)
  apply forgets_spec
  decide +kernel

/-! ## C55 -/

/-- The final population, and every population recorded in the history, has `pop_size` agents.  Partial: `KeepsSize` leaves out the
classes refuted below and in `Verif/Props/Sizes.lean`. -/
theorem C55_population_size_partial {A : Algo c X Y} {bud : Budget} (hA : KeepsSize c A bud) (hE : c.E.Lawful)
    (hP : c.P.Lawful) {o : RunOpts K} (hst : FeasibleStart c o.starting) {b : Base c} (hb : b.log = [])
    {s : St c X Y} {h : FinalHist d K X} (hs : solve A o b = .ok (s, h)) :
    s.pop.length = c.popSize ∧ ∀ pop ∈ h.population, pop.length = c.popSize := hA.sizes hE hP hst hb hs

/-- the final population of a run has another size than `pop_size` -/
def resizes (r : Except Err (St c X Y × FinalHist d K X)) : Bool :=
  match r with
  | .ok (s, _) => decide (s.pop.length ≠ c.popSize)
  | .error _ => false

theorem resizes_spec {r : Except Err (St c X Y × FinalHist d K X)} (h : resizes r = true) :
    ∃ s f, r = .ok (s, f) ∧ s.pop.length ≠ c.popSize := by
  unfold resizes at h
  split at h
  · rename_i s f
    exact ⟨s, f, rfl, of_decide_eq_true h⟩
  · cases h

/-- `OriginalSA`, `GaussianSA` and `OriginalHC` do not keep the population size. -/
theorem C55_sa_hc_resize : saCfg.E.Lawful ∧ saCfg.P.Lawful ∧ Accepted saCfg 2 ∧
    (∃ (p : OriginalSA.Params ℚ) (s : _) (h : _), solve (OriginalSA.algo (c := saCfg) p) ⟨none, .none, false⟩ ⟨(), (), [], 1⟩ = .ok (s, h) ∧
      s.pop.length ≠ saCfg.popSize) ∧
    (∃ (p : GaussianSA.Params ℚ) (s : _) (h : _), solve (GaussianSA.algo (c := saCfg) p) ⟨none, .none, false⟩ ⟨(), (), [], 1⟩ = .ok (s, h) ∧
      s.pop.length ≠ saCfg.popSize) ∧
    ∃ (p : OriginalHC.Params) (s : _) (h : _), solve (OriginalHC.algo (c := saCfg) p) ⟨none, .none, false⟩ ⟨(), (), [], 1⟩ = .ok (s, h) ∧
      s.pop.length ≠ saCfg.popSize := by
  refine ⟨saCfg_lawful.1, saCfg_lawful.2, ⟨by decide, by decide⟩, ⟨⟨100, 50, by decide +kernel, by decide +kernel⟩, ?_⟩,
    ⟨⟨100, 1/2, 50, by decide +kernel, by decide +kernel, by decide +kernel⟩, ?_⟩, ⟨⟨7, by omega⟩, ?_⟩⟩
  all_goals
    apply resizes_spec
    decide +kernel

/-- `OriginalFFA` adds an agent to the population in every epoch. -/
theorem C55_ffa_grows : saCfg.E.Lawful ∧ saCfg.P.Lawful ∧ Accepted saCfg 5 ∧
    ∃ (p : OriginalFFA.Params ℚ) (s : _) (h : _), solve (OriginalFFA.algo (c := saCfg) p) ⟨none, .none, false⟩ ⟨(), (), [], 1⟩ = .ok (s, h) ∧
      s.pop.length ≠ saCfg.popSize := by
  refine ⟨saCfg_lawful.1, saCfg_lawful.2, ⟨by decide, by decide⟩, ⟨1/1000, 2, 1/5, 99/100, 1/20, 2⟩, ?_⟩
  apply resizes_spec
  decide +kernel

/-! ## C56 -/

/-- After `e` epochs the number of objective evaluations is between `first + e * lo` and
`firstMax + e * hi`, the budget listed for the algorithm. -/
theorem C56_evaluation_budget {A : Algo c X Y} {bud : Budget} (hA : Catalogued c A bud) (hE : c.E.Lawful)
    (hP : c.P.Lawful) {o : RunOpts K} (hst : FeasibleStart c o.starting) {b : Base c} (hb : b.log = [])
    {s : St c X Y} {h : FinalHist d K X} (hs : solve A o b = .ok (s, h)) :
    bud.first + h.epoch * bud.lo ≤ s.base.log.length ∧ s.base.log.length ≤ bud.firstMax + h.epoch * bud.hi :=
  hA.budget hE hP hst hb hs

/-- Grey Wolf evaluates exactly `pop_size * (epochs + 1)` points. -/
theorem C56_original_gwo_exact (hc : Accepted c 5) (hE : c.E.Lawful)
    (hP : c.P.Lawful) {o : RunOpts K} (hst : FeasibleStart c o.starting) {b : Base c} (hb : b.log = [])
    {s : St c Unit Unit} {h : FinalHist d K Unit} (hs : solve OriginalGWO.algo o b = .ok (s, h)) :
    s.base.log.length = c.popSize * (h.epoch + 1) := by
  have := C56_evaluation_budget (.inl (.inl (.inl (.inl (.inl (.originalGWO hc)))))) hE hP hst hb hs
  simp only at this
  rw [Nat.mul_succ, Nat.mul_comm c.popSize]
  omega

/-! ## C57 -/

/-- No run raises; it returns after at least one and at most `epoch` epochs.  Partial: for the classes, and under the conditions on parameters,
that `AnyModelled` lists. -/
theorem C57_never_raises_partial {A : Algo c X Y} {bud : Budget} (hA : AnyModelled c A bud) (hE : c.E.Lawful)
    (hP : c.P.Lawful) (o : RunOpts K) (hst : FeasibleStart c o.starting) (b : Base c) (hb : b.log = []) :
    ∃ s h, solve A o b = .ok (s, h) ∧ 1 ≤ h.epoch ∧ h.epoch ≤ c.epoch := by
  obtain ⟨s', h', hs', ho⟩ := hA.solve hE hP o hst b hb
  exact ⟨s', h', hs', ho.epochs⟩

/-- Of the algorithms that may raise, each raises only the exceptions listed for it (none, if the list is empty).  Partial: some lines of
the catalogue put conditions on the parameters which the constructor does not check, and outside them nothing is said. -/
theorem C57_raises_only_partial {A : Algo c X Y} {bud : Budget} {es : List Err} (hA : MayRaise c A bud es ∨ Untidy c A bud es) (hE : c.E.Lawful)
    (hP : c.P.Lawful) (o : RunOpts K) (hst : FeasibleStart c o.starting) (b : Base c) (hb : b.log = []) :
    (∃ e ∈ es, solve A o b = .error e) ∨ ∃ s h, solve A o b = .ok (s, h) ∧ 1 ≤ h.epoch ∧ h.epoch ≤ c.epoch := by
  rcases hA with hA | hA
  · rcases hA.solve hE hP o hst b hb with h | ⟨s', h', hs', ho⟩
    · exact .inl h
    · exact .inr ⟨s', h', hs', ho.epochs⟩
  · obtain ⟨_, _, hf⟩ := hA.facts hE hP
    rcases hf.solve hE o hst b hb with h | ⟨s', h', hs', ho⟩
    · exact .inl h
    · exact .inr ⟨s', h', hs', ho.epochs⟩

/-- `DS_GWO` accepts more groups than wolves, and then always raises `IndexError`. -/
theorem C57_ds_gwo_raises (hE : c.E.Lawful) (hP : c.P.Lawful) (hc : Accepted c 10) (p : DS_GWO.Params K)
    (hg : c.popSize < p.nGroups) (o : RunOpts K) (hst : FeasibleStart c o.starting) (b : Base c) (hb : b.log = []) :
    solve (DS_GWO.algo p) o b = .error .index := by
  have hpop := hc.pop
  have hep := hc.epoch
  have h0 := Algo.plain_wok (Er := fun e => e = .index) (sf := false) hE hP (by omega) (ev := fun _ => Pure.pure ()) (lo := 0) (hi := 0)
    (fun ep _ _ => WT.pure trivial)
  have hok : (DS_GWO.algo p : Algo c Unit Unit).WOk (fun e => e = .index) { Inv.std c Unit (JT : Unit → Prop) with attr := fun _ => False }
      JT JT c.popSize c.popSize 0 0 0 0 := by
    refine ⟨h0.box, h0.nonempty, h0.mkExt, h0.initVars, h0.init, fun s hs => ?_, fun ep _ _ s hs => hs.ext.elim⟩
    show Wp _ (DS_GWO.beforeMain p) s _
    have : (DS_GWO.beforeMain p : M c Unit Unit Unit) s = .error .index := by
      have := DS_GWO.groupStage_raises hE p hg s.pop (s.base.rng, s.base.vg)
      unfold DS_GWO.beforeMain draw
      simp only [liftB, liftD, bind, StateT.bind, Except.bind, get, getThe, MonadStateOf.get, StateT.get, pure, Except.pure] at this ⊢
      rw [this]
    exact Wp.of_err this rfl
  have := hok.solve hE (by omega) (by omega) o hst b hb
  revert this
  cases solve (DS_GWO.algo p) o b with
  | ok q => exact fun h => h.ext.elim
  | error e => exact fun h => by rw [h]

/-- `OriginalDE` accepts strategy 3 with five agents, and then always raises `ValueError`. -/
theorem C57_original_de_raises (hE : c.E.Lawful) (hP : c.P.Lawful) (hc : Accepted c 5) (p : OriginalDE.Params K) (h5 : c.popSize = 5)
    (h3 : p.strategy = 3) (o : RunOpts K) (hst : FeasibleStart c o.starting) (b : Base c) (hb : b.log = []) :
    solve (OriginalDE.algo p) o b = .error .value := OriginalDE.raises hE hP hc p h5 h3 o hst b hb

/-- C57, exception: `OriginalEHO` raises IndexError in its first epoch when `n_clans` does not divide `pop_size`
(`n_individuals = int(pop_size / n_clans)`, so `n_clans * n_individuals < pop_size`). -/
theorem C57_eho_raises (hE : c.E.Lawful) (hP : c.P.Lawful) (hc : Accepted c 5) (p : OriginalEHO.Params K)
    (hn : p.nInd = c.popSize / p.nClans) (h0 : 0 < p.nClans) (hle : p.nClans ≤ c.popSize) (hdvd : ¬ p.nClans ∣ c.popSize)
    (o : RunOpts K) (hst : FeasibleStart c o.starting) (b : Base c) (hlog : b.log = []) :
    solve (OriginalEHO.algo p) o b = .error .index := by
  refine OriginalEHO.raises hE hP hc p (by rw [hn]; exact Nat.div_pos hle h0) ?_ o hst b hlog
  rw [hn]
  refine Nat.lt_of_le_of_ne (Nat.mul_div_le _ _) fun h => hdvd ⟨_, h.symm⟩

example : ∃ p : OriginalEHO.Params ℚ, p.nInd = 11 / p.nClans ∧ 0 < p.nClans ∧ p.nClans ≤ 11 ∧ ¬ p.nClans ∣ 11 :=
  ⟨⟨1, 1/2, 2, 5⟩, by norm_num, by norm_num, by norm_num, by norm_num⟩

/-- `JADE` accepts `pop_size * pt < 1` and then always raises `ValueError`. -/
theorem C57_jade_raises (hE : c.E.Lawful) (hP : c.P.Lawful) (hc : Accepted c 5) (p : JADE.Params K)
    (ht : Num.floor (Num.ofNat c.popSize * p.pt) ≤ 0) (o : RunOpts K) (hst : FeasibleStart c o.starting) (b : Base c)
    (hb : b.log = []) : solve (JADE.algo p) o b = .error .value := JADE.raises hE hP hc p ht o hst b hb

/-- five agents and the default `pt = 0.1` -/
example : ∃ p : JADE.Params ℚ, p.pt = 1/10 ∧ Num.floor (Num.ofNat saCfg.popSize * p.pt) ≤ 0 :=
  ⟨⟨1/2, 1/2, 1/10, 1/10, by norm_num, by norm_num, by norm_num, by norm_num⟩, rfl, by decide +kernel⟩
example : ∃ p : OriginalDE.Params ℚ, p.strategy = 3 ∧ saCfg.popSize = 5 :=
  ⟨⟨1, 9/10, 3, by norm_num, by norm_num, by norm_num⟩, rfl, rfl⟩
example : ∃ p : DS_GWO.Params ℚ, 20 < p.nGroups := ⟨⟨0, 50, by norm_num, by norm_num⟩, by norm_num⟩

end Mealpy
