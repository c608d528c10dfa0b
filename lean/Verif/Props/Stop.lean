import Verif.StopLemmas
import Verif.Catalogue
import Verif.Props.Solve
import Verif.Props.Raises2
import Verif.TapeEnv

/-! # C61: a stopping condition decides when a run stops, not what it does -/

set_option linter.unusedSectionVars false

namespace Mealpy
open Spec

variable {d : Nat} {K : Type} [Num K] {c : Cfg d K} {X Y : Type}

/-- C61: of two calls from the same state that differ in their limits only, the one that runs fewer epochs passes through the states the
other one passes through, epoch by epoch. This holds of any `evolve`. -/
theorem C61_same_epochs {A : Algo c X Y} {t1 t2 : Term K} {st : Starting K} {save : Bool} {b : Base c} {o1 o2 : RunOpts K}
    {L1 L2 : List (Bool × St c X Y)} (h1 : EpochRecord A ⟨some t1, st, save⟩ b o1 L1) (h2 : EpochRecord A ⟨some t2, st, save⟩ b o2 L2)
    (h : L1.length ≤ L2.length) : L1.map (·.2) <+: L2.map (·.2) := by
  obtain ⟨s1, g1, r1⟩ := h1
  obtain ⟨s2, g2, r2⟩ := h2
  rcases solveInit_two (A := A) (t1 := t1) (t2 := t2) (st := st) (save := save) (b := b) with ⟨x, e1, -⟩ | ⟨now, s0, e1, e2⟩
  · rw [e1] at g1; cases g1
  · rw [e1] at g1; rw [e2] at g2
    injection g1 with g1; injection g2 with g2
    obtain ⟨rfl, rfl⟩ := Prod.mk.inj g1
    obtain ⟨rfl, rfl⟩ := Prod.mk.inj g2
    exact r1.two r2 h

/-- what one can see of a run in its history, up to the end of the shorter run -/
structure HistoryBegins (h1 h2 : FinalHist d K X) : Prop where
  globalBestFit : h1.globalBestFit <+: h2.globalBestFit
  currentBestFit : h1.currentBestFit <+: h2.currentBestFit
  diversity : h1.diversity <+: h2.diversity
  epochTime : h1.epochTime <+: h2.epochTime
  population : h1.population <+: h2.population

/-- C61: in terms of the results. The points evaluated by the run that stops first are the first ones evaluated by the other, its
history is the beginning of the other's, and the other returns an agent that is no worse; if both stop after the same epoch everything
is equal. -/
theorem C61_history_begins (hE : c.E.Lawful) {q : Bool} {A : Algo c X Y} (hA : Disciplined q A) {t1 t2 : Term K} {st : Starting K} {save : Bool}
    {b : Base c} {s1 s2 : St c X Y} {h1 h2 : FinalHist d K X} (r1 : solve A ⟨some t1, st, save⟩ b = .ok (s1, h1))
    (r2 : solve A ⟨some t2, st, save⟩ b = .ok (s2, h2)) (h : h1.epoch ≤ h2.epoch) :
    s1.base.log <+: s2.base.log ∧ HistoryBegins h1 h2 ∧ NoWorse c.P.mm s2.gbest.fit s1.gbest.fit ∧
      (h1.epoch = h2.epoch → s1 = s2 ∧ h1 = h2) := by
  obtain ⟨o1, _, p1, y1, c1, s01, u1, a1, a2, a3, a4, a5, a6⟩ := solve_ok r1
  obtain ⟨o2, _, p2, y2, c2, s02, u2, b1, b2, b3, b4, b5, b6⟩ := solve_ok r2
  have g1 := solveInit_of a1 a2 a3 a4
  have g2 := solveInit_of b1 b2 b3 b4
  obtain ⟨e1, v1, v2, v3, v4, v5, v6, v7, v8, v9, -⟩ := trackProcess_ok a6
  obtain ⟨e2, w1, w2, w3, w4, w5, w6, w7, w8, w9, -⟩ := trackProcess_ok b6
  obtain ⟨L1, i1, -, f1, -⟩ := mainLoop_run _ _ _ _ a5
  obtain ⟨L2, i2, -, f2, -⟩ := mainLoop_run _ _ _ _ b5
  have k1 : h1.epoch = L1.length := by
    have := (HistInv.run hE hA L1 1 u1 [] (HistInv.start (save := o1.savePop) hE hA a3 a4) i1).div
    rw [e1, f1, this]; simp
  have k2 : h2.epoch = L2.length := by
    have := (HistInv.run hE hA L2 1 u2 [] (HistInv.start (save := o2.savePop) hE hA b3 b4) i2).div
    rw [e2, f2, this]; simp
  have l1 : s1.hist.globalBest.getLast? = some s1.gbest := by
    obtain ⟨pop0, o', L, -, -, hL, -, -, -, -, -, -, -, inv⟩ := solve_record hE hA r1
    exact inv.last (by simpa using hL)
  have l2 : s2.hist.globalBest.getLast? = some s2.gbest := by
    obtain ⟨pop0, o', L, -, -, hL, -, -, -, -, -, -, -, inv⟩ := solve_record hE hA r2
    exact inv.last (by simpa using hL)
  rcases solveInit_two (A := A) (t1 := t1) (t2 := t2) (st := st) (save := save) (b := b) with ⟨x, j1, -⟩ | ⟨now, s0, j1, j2⟩
  · rw [j1] at g1; cases g1
  · rw [j1] at g1; rw [j2] at g2
    injection g1 with g1; injection g2 with g2
    obtain ⟨rfl, rfl⟩ := Prod.mk.inj g1
    obtain ⟨rfl, rfl⟩ := Prod.mk.inj g2
    obtain ⟨hg, he⟩ := IsRun.grows_two hE hA i1 i2 (by omega)
    rw [← f1, ← f2] at hg he
    refine ⟨hg.log, ⟨by rw [v5, w5]; exact hg.globalBestFit, by rw [v6, w6]; exact hg.currentBestFit, by rw [v7, w7]; exact hg.diversity,
      by rw [v8, w8]; exact hg.epochTime, by rw [v9, w9]; exact hg.population⟩, ?_, fun hn => ?_⟩
    · obtain ⟨g, hg1, hg2⟩ := hg.best _ l1
      rw [l2] at hg1
      injection hg1 with hg1
      rw [hg1]; exact hg2
    have hs := he (by omega)
    subst hs
    rw [a6] at b6
    injection b6 with b6
    exact ⟨rfl, b6⟩

/-- two terminations, the first stopping after one epoch, the second after two, both loose otherwise -/
def exTight : Term ℚ := ⟨some 1, none, none, some 30, 1 / 1000, 0⟩

theorem exTight_tighter : Tighter exTight exTerm :=
  ⟨fun m h => ⟨1, rfl, (by cases h; decide)⟩, fun m h => (by cases h), fun m h => (by cases h), fun m h => ⟨30, rfl, (by cases h; decide)⟩, rfl⟩

/-- both calls end, in every mode; the first after one epoch, the second after two -/
theorem exRuns (mode : Valid.Mode) (st : Starting ℚ) (hst : st = .none) (save : Bool) (t : Term ℚ) : ∃ s h,
    solve (OriginalGWO.algo : Algo (exCfg mode) Unit Unit) ⟨some t, st, save⟩ (exBase mode) = .ok (s, h) := by
  subst hst
  obtain ⟨s, h, hs, -⟩ := (OriginalGWO.ok (exCfg_lawful mode).1 (exCfg_lawful mode).2
    ⟨by simp [exCfg], by simp [exCfg]⟩).solve (exCfg_lawful mode).1 (exCfg_lawful mode).2
    (by simp [exCfg]) (by simp [exCfg]) ⟨some t, .none, save⟩
    trivial (exBase mode) rfl
  exact ⟨s, h, hs⟩

example (mode : Valid.Mode) : Disciplined true (OriginalGWO.algo : Algo (exCfg mode) Unit Unit) ∧ Tighter exTight exTerm ∧
    (∃ s h, solve (OriginalGWO.algo : Algo (exCfg mode) Unit Unit) ⟨some exTight, .none, true⟩ (exBase mode) = .ok (s, h)) ∧
    ∃ s h, solve (OriginalGWO.algo : Algo (exCfg mode) Unit Unit) ⟨some exTerm, .none, true⟩ (exBase mode) = .ok (s, h) :=
  ⟨OriginalGWO.disciplined (exCfg_lawful mode).1, exTight_tighter, exRuns mode _ rfl _ _, exRuns mode _ rfl _ _⟩

/-- the two runs really differ: one epoch against two -/
example : let A := OriginalGWO.algo (c := tapeCfg 1 3 1 (fun x => x 0) .min .single 5 3)
    (match solve A ⟨some exTight, .none, true⟩ ⟨(0 : Nat), (0 : Nat), [], 1⟩ with | .ok (_, h) => h.epoch | .error _ => 0) = 1 ∧
    (match solve A ⟨some exTerm, .none, true⟩ ⟨(0 : Nat), (0 : Nat), [], 1⟩ with | .ok (_, h) => h.epoch | .error _ => 0) = 2 := by decide +kernel

/-- C61: loosening limits never shortens a run. -/
theorem C61_looser_runs_longer (hE : c.E.Lawful) {q : Bool} {A : Algo c X Y} (hA : Disciplined q A) {t1 t2 : Term K} (ht : Tighter t1 t2)
    {st : Starting K} {save : Bool} {b : Base c} {s1 s2 : St c X Y} {h1 h2 : FinalHist d K X}
    (r1 : solve A ⟨some t1, st, save⟩ b = .ok (s1, h1)) (r2 : solve A ⟨some t2, st, save⟩ b = .ok (s2, h2)) : h1.epoch ≤ h2.epoch := by
  obtain ⟨-, o1, L1, -, ⟨u1, g1, q1⟩, -, -, e1, n1, f1, -⟩ := solve_record hE hA r1
  obtain ⟨-, o2, L2, -, ⟨u2, g2, q2⟩, -, -, e2, -, -, f2, -⟩ := solve_record hE hA r2
  rw [e1, e2]
  rcases solveInit_two (A := A) (t1 := t1) (t2 := t2) (st := st) (save := save) (b := b) with ⟨x, i1, -⟩ | ⟨now, s0, i1, i2⟩
  · rw [i1] at g1; cases g1
  · rw [i1] at g1; rw [i2] at g2
    injection g1 with g1; injection g2 with g2
    obtain ⟨rfl, rfl⟩ := Prod.mk.inj g1
    obtain ⟨rfl, rfl⟩ := Prod.mk.inj g2
    exact q1.tighter ht now q2 n1 f1 f2

/-- C61: an exception of a run is not avoided by loosening its limits. -/
theorem C61_looser_raises_too (hE : c.E.Lawful) {A : Algo c X Y} (hep : 0 < c.epoch) {t1 t2 : Term K} (ht : Tighter t1 t2) {st : Starting K} {save : Bool} {b : Base c} {x : Err}
    (hx : solve A ⟨some t1, st, save⟩ b = .error x) : solve A ⟨some t2, st, save⟩ b = .error x := by
  unfold solve at hx ⊢
  rcases solveInit_two (A := A) (t1 := t1) (t2 := t2) (st := st) (save := save) (b := b) with ⟨y, j1, j2⟩ | ⟨now, s0, j1, j2⟩
  · rw [j1] at hx; rw [j2]; exact hx
  · rw [j1] at hx; rw [j2]
    dsimp only [bind, Except.bind] at hx ⊢
    cases hm : mainLoop A ⟨some { t1 with startTime := now }, st, save⟩ c.epoch 1 s0 with
    | error y =>
      rw [hm] at hx
      rw [mainLoop_error ht now _ _ _ hm]
      exact hx
    | ok p =>
      rw [hm] at hx
      obtain ⟨f, hf⟩ := trackProcess_after_loop hE hep hm
      dsimp only at hx
      rw [hf] at hx
      cases hx

/-- a run that raises: bacteria foraging with five cells -/
example (mode : Valid.Mode) : 0 < (exCfg mode).epoch ∧ Tighter exTight exTerm ∧
    solve (OriginalBFO.algo ⟨0, 1/4, 5, 4, 1/10, 1/5, 1/10, 10⟩ : Algo (exCfg mode) Unit (OriginalBFO.Cells ℚ)) ⟨some exTight, .none, true⟩ (exBase mode)
      = .error .index :=
  ⟨by simp [exCfg], exTight_tighter, C57_bfo_raises (exCfg_lawful mode).1 (exCfg_lawful mode).2 ⟨by simp [exCfg], by simp [exCfg]⟩ _ (by simp [exCfg])
    (by decide) ⟨some exTight, .none, true⟩ trivial _ rfl⟩

/-- C61 for the classes of the catalogue whose history is kept: looser limits give at least as many epochs, the same evaluations to begin
with, and a result that is no worse. -/
theorem C61_catalogue {A : Algo c X Y} {bud : Budget} (hA : KeepsHistory c A bud) (hE : c.E.Lawful) (hP : c.P.Lawful) {t1 t2 : Term K} (ht : Tighter t1 t2)
    {st : Starting K} {save : Bool} {b : Base c} {s1 s2 : St c X Y} {h1 h2 : FinalHist d K X}
    (r1 : solve A ⟨some t1, st, save⟩ b = .ok (s1, h1)) (r2 : solve A ⟨some t2, st, save⟩ b = .ok (s2, h2)) :
    h1.epoch ≤ h2.epoch ∧ s1.base.log <+: s2.base.log ∧ HistoryBegins h1 h2 ∧ NoWorse c.P.mm s2.gbest.fit s1.gbest.fit := by
  obtain ⟨q, hq⟩ := hA.disciplined hE hP
  have h := C61_looser_runs_longer hE hq ht r1 r2
  obtain ⟨g1, g2, g3, -⟩ := C61_history_begins hE hq r1 r2 h
  exact ⟨h, g1, g2, g3⟩

end Mealpy
