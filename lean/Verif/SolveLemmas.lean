import Verif.OptLemmas

/-! # Lemmas about the main loop -/

set_option linter.unusedSectionVars false
set_option linter.unusedVariables false

namespace Mealpy
open Spec

variable {d : Nat} {K : Type} [Num K] {c : Cfg d K} {X Y : Type} {Er : Err → Prop}

/-- the state after the bookkeeping of one epoch, from the state `s1` after `evolve` -/
structure EpochEnd (sf save : Bool) (s1 s' : St c X Y) : Prop where
  log : s'.base.log = s1.base.log
  nfe : s'.base.nfe = s1.base.nfe
  ext : s'.ext = s1.ext
  pop : s'.pop = if sf then (getSorted c.E.argsort s1.pop c.P.mm).1 else s1.pop
  hist : ∃ cb cw gb gw tm,
    (cb ∈ s1.pop ∧ ∀ a ∈ s1.pop, NoWorse c.P.mm cb.fit a.fit) ∧
    (cw ∈ s1.pop ∧ ∀ a ∈ s1.pop, NoWorse c.P.mm a.fit cw.fit) ∧
    s1.hist.globalBest.getLast? = some gb ∧ s1.hist.globalWorst.getLast? = some gw ∧
    s'.gbest = getBetterAgent cb gb c.P.mm ∧
    s'.hist = { currentBest := s1.hist.currentBest ++ [cb]
                globalBest := s1.hist.globalBest ++ [getBetterAgent cb gb c.P.mm]
                currentWorst := s1.hist.currentWorst ++ [cw]
                globalWorst := s1.hist.globalWorst ++ [getBetterAgent cw gw c.P.mm true]
                population := if save then s1.hist.population ++ [s'.pop] else s1.hist.population
                epochTime := s1.hist.epochTime ++ [tm]
                globalBestFit := s1.hist.globalBestFit ++ [(getBetterAgent cb gb c.P.mm).fit]
                currentBestFit := s1.hist.currentBestFit ++ [cb.fit]
                diversity := s1.hist.diversity ++ [diversity s'.pop] }

/-- the answer of `check_termination("end", ...)` at a given clock reading -/
def stopFlag (o : RunOpts K) (epoch : Nat) (s : St c X Y) (time : K) : Bool :=
  match o.term with
  | none => false
  | some t => (shouldTerminate t epoch s.base.nfe time
      (repeatedTimes Num.abs t.epsilon (s.hist.globalBest.map Agent.fit))).isSome

/-- the last use of the generators before `s` was a reading of the clock, with this result -/
def LastClock (s : St c X Y) (time : K) : Prop := ∃ g, c.E.clock g = (time, s.base.rng)

theorem checkEnd_wp (o : RunOpts K) (epoch : Nat) (s : St c X Y) :
    Wp Er (checkEnd o epoch) s (fun f s' => (∃ time, f = stopFlag o epoch s time ∧ (o.term ≠ none → LastClock s' time)) ∧
      ∃ r v, s' = { s with base := { s.base with rng := r, vg := v } }) := by
  unfold checkEnd stopFlag
  cases ho : o.term with
  | none => exact Wp.pure ⟨⟨0, rfl, fun h => absurd rfl h⟩, s.base.rng, s.base.vg, rfl⟩
  | some t =>
    refine Wp.bind (Wp.get ?_)
    refine Wp.bind (Wp.of_ok (a := (c.E.clock s.base.rng).1)
      (s' := { s with base := { s.base with rng := (c.E.clock s.base.rng).2 } }) rfl ?_)
    exact Wp.pure ⟨⟨_, rfl, fun _ => ⟨s.base.rng, rfl⟩⟩, _, s.base.vg, rfl⟩

theorem epochStep_wp (hE : c.E.Lawful) {A : Algo c X Y} {o : RunOpts K} {epoch : Nat} {s : St c X Y}
    {R : St c X Y → Prop}
    (hev : ∀ r v, Wp Er (A.evolve epoch) { s with base := { s.base with rng := r, vg := v } } (fun _ s1 => R s1))
    (hne : (∀ e, Er e) ∨ ∀ s1, R s1 → s1.pop ≠ [] ∧ s1.hist.globalBest ≠ [] ∧ s1.hist.globalWorst ≠ []) :
    Wp Er (epochStep A o epoch) s (fun f s' => ∃ s1, R s1 ∧ EpochEnd A.sortFlag o.savePop s1 s' ∧
      ∃ time, f = stopFlag o epoch s' time ∧ (o.term ≠ none → LastClock s' time)) := by
  unfold epochStep
  refine Wp.bind (Wp.draw DT.clock ?_)
  intro t0 r v _
  refine Wp.bind (Wp.mono (hev r v) ?_)
  intro _ s1 hR
  refine Wp.bind (Wp.get ?_)
  refine Wp.bind ?_
  -- update_global_best_agent
  cases hh : (getSorted c.E.argsort s1.pop c.P.mm).1.head? with
  | none =>
    rcases hne with hne | hne
    · refine Wp.of_err (e := .index) ?_ (hne _)
      unfold updateGlobalBest
      simp only [hh]
    · have hp := (hne s1 hR).1
      rw [List.head?_eq_none_iff] at hh
      have := getSorted_length hE.argsortLaw s1.pop c.P.mm
      rw [hh] at this
      exact absurd (List.length_eq_zero_iff.1 this.symm) hp
  | some cb =>
  cases hl : (getSorted c.E.argsort s1.pop c.P.mm).1.getLast? with
  | none =>
    rw [List.getLast?_eq_none_iff] at hl
    rw [hl] at hh; simp at hh
  | some cw =>
  cases hg : s1.hist.globalBest.getLast? with
  | none =>
    rcases hne with hne | hne
    · refine Wp.of_err (e := .index) ?_ (hne _)
      unfold updateGlobalBest
      simp only [hh, hl, hg]
    · exact absurd (List.getLast?_eq_none_iff.1 hg) (hne s1 hR).2.1
  | some gb =>
  cases hw : s1.hist.globalWorst.getLast? with
  | none =>
    rcases hne with hne | hne
    · refine Wp.of_err (e := .index) ?_ (hne _)
      unfold updateGlobalBest
      simp only [hh, hl, hg, hw]
    · exact absurd (List.getLast?_eq_none_iff.1 hw) (hne s1 hR).2.2
  | some gw =>
  have hu : updateGlobalBest (c := c) (X := X) (Y := Y) s1.pop s1 =
      .ok (((getSorted c.E.argsort s1.pop c.P.mm).1, getBetterAgent cb gb c.P.mm),
        { s1 with hist := { s1.hist with
          currentBest := s1.hist.currentBest ++ [cb]
          globalBest := s1.hist.globalBest ++ [getBetterAgent cb gb c.P.mm]
          currentWorst := s1.hist.currentWorst ++ [cw]
          globalWorst := s1.hist.globalWorst ++ [getBetterAgent cw gw c.P.mm true] } }) := by
    unfold updateGlobalBest
    simp only [hh, hl, hg, hw]
  refine Wp.of_ok hu ?_
  dsimp only
  refine Wp.bind (Wp.modify ?_)
  refine Wp.bind (Wp.draw DT.clock ?_)
  intro t1 r1 v1 _
  refine Wp.bind (Wp.get ?_)
  refine Wp.bind ?_
  refine Wp.of_ok (a := ()) (s' := ?_) ?_ ?_
  rotate_left
  · unfold trackStep
    simp only [List.getLast?_append, List.getLast?_singleton, Option.some_or]
    rfl
  refine Wp.mono (checkEnd_wp o epoch _) ?_
  rintro f s' ⟨⟨time, hf, hclk⟩, r, v, rfl⟩
  refine ⟨s1, hR, ⟨rfl, rfl, rfl, rfl, cb, cw, gb, gw, t1 - t0, ?_, ?_, hg, hw, rfl, rfl⟩, time, hf, hclk⟩
  · refine head_best hE.argsortLaw ?_
    rw [← List.head?_eq_getElem?]; exact hh
  · exact last_worst hE.argsortLaw hl

/-- loop rule for the main loop: `I k` holds after `k` epochs -/
theorem mainLoop_wp {A : Algo c X Y} {o : RunOpts K} (I : Nat → St c X Y → Prop)
    (hI : ∀ k s, I k s → k < c.epoch → Wp Er (epochStep A o (k + 1)) s (fun _ s' => I (k + 1) s')) :
    ∀ (n k : Nat) (s : St c X Y), I k s → k + n ≤ c.epoch →
      Wp Er (mainLoop A o n (k + 1)) s (fun _ s' => ∃ e, k ≤ e ∧ e ≤ k + n ∧ (0 < n → k < e) ∧ I e s')
  | 0, k, s, hk, _ => Wp.pure ⟨k, le_rfl, le_rfl, by simp, hk⟩
  | n + 1, k, s, hk, hle => by
    unfold mainLoop
    refine Wp.bind (Wp.mono (hI k s hk (by omega)) ?_)
    intro f s' h'
    refine Wp.ite (fun _ => Wp.pure ⟨k + 1, by omega, by omega, by omega, h'⟩) (fun _ => ?_)
    refine Wp.mono (mainLoop_wp I hI n (k + 1) s' h' (by omega)) ?_
    rintro _ s'' ⟨e, h1, h2, h3, h4⟩
    exact ⟨e, by omega, by omega, fun _ => by omega, h4⟩

theorem afterInit_ok {sf : Bool} {pop : List (Agent d K X)} {y : Y} {b : Base c} {s : St c X Y}
    (hE : c.E.Lawful) (h : afterInit sf pop y b = .ok s) : ∃ best worst,
      (best ∈ pop ∧ ∀ a ∈ pop, NoWorse c.P.mm best.fit a.fit) ∧
      (worst ∈ pop ∧ ∀ a ∈ pop, NoWorse c.P.mm a.fit worst.fit) ∧
      s = { base := b
            pop := if sf then (getSorted c.E.argsort pop c.P.mm).1 else pop
            gbest := best
            hist := { globalBest := [best], currentBest := [best], globalWorst := [worst]
                      currentWorst := [worst], globalBestFit := [], currentBestFit := []
                      diversity := [], epochTime := [], population := [] }
            ext := y } := by
  unfold afterInit at h
  simp only [getSpecial, Option.map_some, Option.bind_some] at h
  split at h
  · rename_i best worst h1 h2
    injection h with h
    refine ⟨best, worst, ?_, ?_, h.symm⟩
    · refine head_best hE.argsortLaw ?_
      generalize (getSorted c.E.argsort pop c.P.mm).1 = l at h1
      cases l with
      | nil => simp at h1
      | cons x xs => simpa using h1
    · refine last_worst hE.argsortLaw ?_
      generalize (getSorted c.E.argsort pop c.P.mm).1 = l at h2
      rw [List.getLast?_eq_head?_reverse]
      cases hl : l.reverse with
      | nil => rw [hl] at h2; simp at h2
      | cons x xs => rw [hl] at h2; simpa using h2
  · cases h

theorem afterInit_total {sf : Bool} {pop : List (Agent d K X)} {y : Y} {b : Base c}
    (hE : c.E.Lawful) (hne : pop ≠ []) : ∃ s, afterInit sf pop y b = .ok s := by
  unfold afterInit
  simp only [getSpecial, Option.map_some, Option.bind_some]
  have hlen := getSorted_length hE.argsortLaw pop c.P.mm
  generalize (getSorted c.E.argsort pop c.P.mm).1 = l at *
  have hl : l ≠ [] := by
    intro h; rw [h] at hlen
    exact hne (List.length_eq_zero_iff.1 hlen.symm)
  have hr : l.reverse ≠ [] := by simpa using hl
  cases l with
  | nil => exact absurd rfl hl
  | cons x xs =>
    cases hrv : (x :: xs).reverse with
    | nil => exact absurd hrv hr
    | cons z zs => exact ⟨_, rfl⟩

/-- inversion of a successful `solve` -/
theorem solve_ok {A : Algo c X Y} {o : RunOpts K} {b : Base c} {s : St c X Y} {h : FinalHist d K X}
    (hs : solve A o b = .ok (s, h)) : ∃ o' b1 pop0 y b2 s0 s1,
      startTermination o b = .ok (o', b1) ∧ initialPop A o' b1 = .ok ((pop0, y), b2) ∧
      afterInit A.sortFlag pop0 y b2 = .ok s0 ∧ A.beforeMain s0 = .ok ((), s1) ∧
      mainLoop A o' c.epoch 1 s1 = .ok ((), s) ∧ trackProcess s.hist = .ok h := by
  unfold solve solveInit at hs
  cases h1 : startTermination o b with
  | error e => rw [h1] at hs; cases hs
  | ok p =>
  rw [h1] at hs
  obtain ⟨o', b1⟩ := p
  dsimp only [bind, Except.bind] at hs
  cases h2 : initialPop A o' b1 with
  | error e => rw [h2] at hs; cases hs
  | ok p =>
  rw [h2] at hs
  obtain ⟨⟨pop0, y⟩, b2⟩ := p
  dsimp only at hs
  cases h3 : afterInit A.sortFlag pop0 y b2 with
  | error e => rw [h3] at hs; cases hs
  | ok s0 =>
  rw [h3] at hs
  dsimp only at hs
  cases h4 : A.beforeMain s0 with
  | error e => rw [h4] at hs; cases hs
  | ok p =>
  rw [h4] at hs
  obtain ⟨⟨⟩, s1⟩ := p
  dsimp only [pure, Except.pure] at hs
  cases h5 : mainLoop A o' c.epoch 1 s1 with
  | error e => rw [h5] at hs; cases hs
  | ok p =>
  rw [h5] at hs
  obtain ⟨⟨⟩, s2⟩ := p
  dsimp only at hs
  cases h6 : trackProcess s2.hist with
  | error e => rw [h6] at hs; cases hs
  | ok h' =>
  rw [h6] at hs
  injection hs with hs
  obtain ⟨rfl, rfl⟩ := Prod.mk.inj hs
  exact ⟨o', b1, pop0, y, b2, s0, s1, rfl, h2, h3, h4, h5, h6⟩

theorem startTermination_ok (o : RunOpts K) (b : Base c) : ∃ o' b',
    startTermination o b = .ok (o', b') ∧ o'.starting = o.starting ∧ o'.savePop = o.savePop ∧
    b'.log = b.log ∧ (o.term = none → o' = o ∧ b' = b) ∧
    (o.term ≠ none → b'.nfe = 0 ∧ ∃ t, o.term = some t ∧
      o'.term = some { t with startTime := (c.E.clock b.rng).1 }) := by
  unfold startTermination
  cases ho : o.term with
  | none => exact ⟨o, b, rfl, rfl, rfl, rfl, fun _ => ⟨rfl, rfl⟩, fun h => absurd rfl h⟩
  | some t =>
    refine ⟨_, _, rfl, rfl, rfl, rfl, (fun h => by cases h), fun _ => ⟨rfl, t, rfl, rfl⟩⟩

theorem trackProcess_ok {h : Hist d K X} {f : FinalHist d K X} (hf : trackProcess h = .ok f) :
    f.epoch = h.diversity.length ∧ f.globalBest = h.globalBest.tail ∧ f.currentBest = h.currentBest.tail ∧
    f.globalWorst = h.globalWorst.tail ∧ f.currentWorst = h.currentWorst.tail ∧
    f.globalBestFit = h.globalBestFit ∧ f.currentBestFit = h.currentBestFit ∧
    f.diversity = h.diversity ∧ f.epochTime = h.epochTime ∧ f.population = h.population ∧
    f.exploration.length = h.diversity.length ∧ f.exploitation.length = h.diversity.length := by
  unfold trackProcess at hf
  split at hf
  · cases hf
  · injection hf with hf
    subst hf
    simp

end Mealpy
