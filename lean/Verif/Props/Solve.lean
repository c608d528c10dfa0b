import Verif.OptWitness
import Verif.Props.Valid
import Verif.Alg.GWO

/-!
# C28, C29, C32, C33: whole runs of `solve`

`solve A o b` is a complete call of `Optimizer.solve` by algorithm `A` with options `o` on an
optimizer whose generators, counter and (ghost) list of evaluated positions are `b`; it returns the
final optimizer (`s.gbest` is the returned agent) and the final `History` `h`.

`InitialPopulation A o b pop0`: `pop0` is the population made by `initialization`.
`EpochRecord A o b o' L`: `L` lists the results of the first `L.length` epochs: the answer of the
termination test and the optimizer after the epoch.

`Disciplined q A` says what is asked of the algorithm: `evolve` and `before_main_loop` evaluate
only through `get_target`/`update_target_for_population`/`generate_*` and, if `q`, leave
`self.history` alone; if not `q`, they may also call `update_global_best_agent(..., save=False)`.
-/

set_option linter.unusedSectionVars false
set_option linter.unusedVariables false

namespace Mealpy
open Spec

variable {d : Nat} {K : Type} [Num K] {c : Cfg d K} {X Y : Type}

theorem OriginalGWO.disciplined (hE : c.E.Lawful) : Disciplined true (OriginalGWO.algo : Algo c Unit Unit) :=
  ⟨Framed.pure, OriginalGWO.framed hE⟩

/-- a complete run exists, in every mode: the hypotheses of the theorems below are met -/
theorem exRun (mode : Valid.Mode) : ∃ s h,
    solve (OriginalGWO.algo : Algo (exCfg mode) Unit Unit) exOpts (exBase mode) = .ok (s, h) := by
  obtain ⟨s, h, hs, -⟩ := (OriginalGWO.ok (exCfg_lawful mode).1 (exCfg_lawful mode).2
    ⟨by simp [exCfg], by simp [exCfg]⟩).solve (exCfg_lawful mode).1 (exCfg_lawful mode).2
    (by simp [exCfg]) (by simp [exCfg]) exOpts
    trivial (exBase mode) rfl
  exact ⟨s, h, hs⟩

/-! ## C28 -/

/-- C28: the record of global bests is monotone, ends with the returned agent, and that agent is at
least as good as every member of the initial population and of every end-of-epoch population;
likewise for the record of global worsts. -/
theorem C28_global_best_monotone (hE : c.E.Lawful) {q : Bool} {A : Algo c X Y} (hA : Disciplined q A)
    {o : RunOpts K} {b : Base c} {s : St c X Y} {h : FinalHist d K X} (hs : solve A o b = .ok (s, h)) :
    ∃ pop0 o' L, InitialPopulation A o b pop0 ∧ EpochRecord A o b o' L ∧ L.length = h.epoch ∧
      (∀ (i j : Nat) (g g' : Agent d K X), i ≤ j → h.globalBest[i]? = some g → h.globalBest[j]? = some g' →
        NoWorse c.P.mm g'.fit g.fit) ∧
      h.globalBest.getLast? = some s.gbest ∧
      (∀ a ∈ pop0, NoWorse c.P.mm s.gbest.fit a.fit) ∧
      (∀ r ∈ L, ∀ a ∈ r.2.pop, NoWorse c.P.mm s.gbest.fit a.fit) ∧
      (∀ (i j : Nat) (w w' : Agent d K X), i ≤ j → h.globalWorst[i]? = some w → h.globalWorst[j]? = some w' →
        NoWorse c.P.mm w.fit w'.fit) ∧
      ∃ w, h.globalWorst.getLast? = some w ∧ (∀ a ∈ pop0, NoWorse c.P.mm a.fit w.fit) ∧
        ∀ r ∈ L, ∀ a ∈ r.2.pop, NoWorse c.P.mm a.fit w.fit := by
  obtain ⟨pop0, o', L, h1, h2, h3, h4, h5, h6, h7, h8, h9, h10, inv⟩ := solve_record hE hA hs
  obtain ⟨-, t1, -, t2, -⟩ := trackProcess_ok h9
  have hpops : L.map (fun r => r.2.pop) ≠ [] := by simpa using h3
  have hlast := inv.last hpops
  have hLpos : 0 < L.length := List.length_pos_iff.2 h3
  have lenb : s.hist.globalBest.length = L.length + 1 := by simpa using inv.lenGb
  have lenw : s.hist.globalWorst.length = L.length + 1 := by simpa using inv.lenGw
  have hlast' : s.hist.globalBest[L.length]? = some s.gbest := by
    rw [List.getLast?_eq_getElem?, lenb] at hlast; simpa using hlast
  obtain ⟨w, hw⟩ : ∃ w, s.hist.globalWorst[L.length]? = some w :=
    ⟨_, List.getElem?_eq_getElem (by omega)⟩
  obtain ⟨m, hm⟩ : ∃ m, L.length = m + 1 := ⟨L.length - 1, by omega⟩
  refine ⟨pop0, o', L, h1, h2, h5.symm, ?_, ?_, ?_, ?_, ?_, w, ?_, ?_, ?_⟩
  · intro i j g g' hij hg hg'
    rw [t1, List.getElem?_tail] at hg hg'
    rcases Nat.lt_or_ge i j with hlt | hge
    · exact (List.pairwise_iff_getElem.1 inv.monoGb) (i + 1) (j + 1) (List.getElem?_eq_some_iff.1 hg).1
        (List.getElem?_eq_some_iff.1 hg').1 (by omega) |> fun hh => by
          obtain ⟨hl, rfl⟩ := List.getElem?_eq_some_iff.1 hg
          obtain ⟨hl', rfl⟩ := List.getElem?_eq_some_iff.1 hg'
          exact hh
    · have : i = j := by omega
      subst this
      rw [hg] at hg'
      rw [Option.some.inj hg']
      exact NoWorse.rfl
  · rw [t1, List.getLast?_tail]
    rw [if_neg (by omega)]
    exact hlast
  · exact fun a ha => inv.initGb a ha _ (List.mem_of_getLast? hlast)
  · intro r hr a ha
    obtain ⟨i, hi⟩ := List.mem_iff_getElem?.1 hr
    have hil := (List.getElem?_eq_some_iff.1 hi).1
    refine inv.coverGb i m r.2.pop s.gbest (by simp [hi]) (by rw [← hm]; exact hlast') (by omega) a ha
  · intro i j g g' hij hg hg'
    rw [t2, List.getElem?_tail] at hg hg'
    rcases Nat.lt_or_ge i j with hlt | hge
    · exact (List.pairwise_iff_getElem.1 inv.monoGw) (i + 1) (j + 1) (List.getElem?_eq_some_iff.1 hg).1
        (List.getElem?_eq_some_iff.1 hg').1 (by omega) |> fun hh => by
          obtain ⟨hl, rfl⟩ := List.getElem?_eq_some_iff.1 hg
          obtain ⟨hl', rfl⟩ := List.getElem?_eq_some_iff.1 hg'
          exact hh
    · have : i = j := by omega
      subst this
      rw [hg] at hg'
      rw [Option.some.inj hg']
      exact NoWorse.rfl
  · rw [t2, List.getLast?_tail]
    rw [if_neg (by omega), List.getLast?_eq_getElem?, lenw]
    simpa using hw
  · exact fun a ha => inv.initGw a ha _ (List.mem_of_getElem? hw)
  · intro r hr a ha
    obtain ⟨i, hi⟩ := List.mem_iff_getElem?.1 hr
    have hil := (List.getElem?_eq_some_iff.1 hi).1
    refine inv.coverGw i m r.2.pop w (by simp [hi]) (by rw [← hm]; exact hw) (by omega) a ha

/-- C28: an algorithm that leaves the history alone returns an agent it actually had: a member of
the initial population or of an end-of-epoch population. -/
theorem C28_global_best_is_a_member (hE : c.E.Lawful) {A : Algo c X Y} (hA : Disciplined true A)
    {o : RunOpts K} {b : Base c} {s : St c X Y} {h : FinalHist d K X} (hs : solve A o b = .ok (s, h)) :
    ∃ pop0 o' L, InitialPopulation A o b pop0 ∧ EpochRecord A o b o' L ∧ L.length = h.epoch ∧
      ∀ g ∈ h.globalBest, g ∈ pop0 ∨ ∃ r ∈ L, g ∈ r.2.pop := by
  obtain ⟨pop0, o', L, h1, h2, h3, h4, h5, h6, h7, h8, h9, h10, inv⟩ := solve_record hE hA hs
  obtain ⟨-, t1, -⟩ := trackProcess_ok h9
  refine ⟨pop0, o', L, h1, h2, h5.symm, ?_⟩
  intro g hg
  rw [t1] at hg
  rcases inv.memQ rfl g (List.mem_of_mem_tail hg) with h | ⟨P, hP, h⟩
  · exact .inl h
  · obtain ⟨r, hr, rfl⟩ := List.mem_map.1 hP
    exact .inr ⟨r, hr, h⟩

example (mode : Valid.Mode) : Disciplined true (OriginalGWO.algo : Algo (exCfg mode) Unit Unit) ∧ ∃ s h,
    solve (OriginalGWO.algo : Algo (exCfg mode) Unit Unit) exOpts (exBase mode) = .ok (s, h) :=
  ⟨OriginalGWO.disciplined (exCfg_lawful mode).1, exRun mode⟩

/-! ## C29 -/

/-- C29: after `solve` every history list has one entry per executed epoch, the recorded fitness
lists are the fitnesses of the recorded agents, the current best of an epoch is the best of the
population at its end, and the recorded populations (if requested) are those populations. -/
theorem C29_history_lines_up (hE : c.E.Lawful) {A : Algo c X Y} (hA : Disciplined true A)
    {o : RunOpts K} {b : Base c} {s : St c X Y} {h : FinalHist d K X} (hs : solve A o b = .ok (s, h)) :
    ∃ o' L, EpochRecord A o b o' L ∧ L.length = h.epoch ∧
      h.globalBest.length = h.epoch ∧ h.currentBest.length = h.epoch ∧ h.globalWorst.length = h.epoch ∧
      h.currentWorst.length = h.epoch ∧ h.globalBestFit.length = h.epoch ∧ h.currentBestFit.length = h.epoch ∧
      h.diversity.length = h.epoch ∧ h.epochTime.length = h.epoch ∧ h.exploration.length = h.epoch ∧
      h.exploitation.length = h.epoch ∧
      h.population = (if o.savePop then L.map (fun r => r.2.pop) else []) ∧
      h.globalBestFit = h.globalBest.map Agent.fit ∧ h.currentBestFit = h.currentBest.map Agent.fit ∧
      (∀ (i : Nat) (v : K) (r : Bool × St c X Y), h.currentBestFit[i]? = some v → L[i]? = some r →
        IsBestOf c.P.mm v (r.2.pop.map Agent.fit)) ∧
      h.diversity = L.map (fun r => diversity r.2.pop) := by
  obtain ⟨pop0, o', L, h1, h2, h3, h4, h5, h6, h7, h8, h9, h10, inv⟩ := solve_record hE hA hs
  obtain ⟨t0, t1, t2, t3, t4, t5, t6, t7, t8, t9, t10, t11⟩ := trackProcess_ok h9
  have e := inv.div
  have hl : s.hist.diversity.length = L.length := by rw [e]; simp
  refine ⟨o', L, h2, h5.symm, ?_, ?_, ?_, ?_, ?_, ?_, ?_, ?_, ?_, ?_, ?_, ?_, ?_, ?_, ?_⟩
  · rw [t1, List.length_tail, inv.lenGb]; simp [h5]
  · rw [t2, List.length_tail, inv.lenCb]; simp [h5]
  · rw [t3, List.length_tail, inv.lenGw]; simp [h5]
  · rw [t4, List.length_tail, inv.lenCw]; simp [h5]
  · rw [t5, inv.lenGbf]; simp [h5]
  · rw [t6, inv.lenCbf]; simp [h5]
  · rw [t7]; omega
  · rw [t8, inv.lenTime]; simp [h5]
  · omega
  · omega
  · rw [t9, inv.saved]
  · rw [t5, t1, inv.gbfQ rfl]
  · rw [t6, t2, inv.cbfQ rfl]
  · intro i v r hv hr
    rw [t6] at hv
    obtain ⟨⟨a, ha, hv'⟩, hall⟩ := inv.cbf i r.2.pop v (by simp [hr]) hv
    refine ⟨List.mem_map.2 ⟨a, ha, hv'⟩, ?_⟩
    intro w hw
    obtain ⟨a', ha', rfl⟩ := List.mem_map.1 hw
    exact hall a' ha'
  · rw [t7, e, List.map_map]; rfl

/-- C29: the lengths also agree for algorithms that call `update_global_best_agent(save=False)` in
`evolve`; their fitness lists need not match the agents (`C29_save_false_misaligned`). -/
theorem C29_lengths (hE : c.E.Lawful) {q : Bool} {A : Algo c X Y} (hA : Disciplined q A)
    {o : RunOpts K} {b : Base c} {s : St c X Y} {h : FinalHist d K X} (hs : solve A o b = .ok (s, h)) :
    ∃ o' L, EpochRecord A o b o' L ∧ L.length = h.epoch ∧
      h.globalBest.length = h.epoch ∧ h.currentBest.length = h.epoch ∧ h.globalWorst.length = h.epoch ∧
      h.currentWorst.length = h.epoch ∧ h.globalBestFit.length = h.epoch ∧ h.currentBestFit.length = h.epoch ∧
      h.diversity.length = h.epoch ∧ h.epochTime.length = h.epoch := by
  obtain ⟨pop0, o', L, h1, h2, h3, h4, h5, h6, h7, h8, h9, h10, inv⟩ := solve_record hE hA hs
  obtain ⟨t0, t1, t2, t3, t4, t5, t6, t7, t8, t9, t10, t11⟩ := trackProcess_ok h9
  have e := inv.div
  have hl : s.hist.diversity.length = L.length := by rw [e]; simp
  refine ⟨o', L, h2, h5.symm, ?_, ?_, ?_, ?_, ?_, ?_, ?_, ?_⟩
  · rw [t1, List.length_tail, inv.lenGb]; simp [h5]
  · rw [t2, List.length_tail, inv.lenCb]; simp [h5]
  · rw [t3, List.length_tail, inv.lenGw]; simp [h5]
  · rw [t4, List.length_tail, inv.lenCw]; simp [h5]
  · rw [t5, inv.lenGbf]; simp [h5]
  · rw [t6, inv.lenCbf]; simp [h5]
  · rw [t7]; omega
  · rw [t8, inv.lenTime]; simp [h5]

/-! ## C32 -/

theorem IsRun.get {A : Algo c X Y} {o : RunOpts K} : ∀ {L : List (Bool × St c X Y)} {e : Nat} {s : St c X Y}
    {i : Nat} {r : Bool × St c X Y}, IsRun A o e s L → L[i]? = some r →
    ∃ s', epochStep A o (e + i) s' = .ok (r.1, r.2)
  | [], e, s, i, r, _, h => by simp at h
  | r0 :: L, e, s, 0, r, h, hi => by
    simp at hi
    subst hi
    exact ⟨s, h.1⟩
  | r0 :: L, e, s, i + 1, r, h, hi => by
    obtain ⟨s', hs'⟩ := IsRun.get h.2 (by simpa using hi)
    exact ⟨s', by rw [← hs']; congr 1; omega⟩

/-- C32: `solve` runs at least one and at most `epoch` epochs; after every epoch the termination
test is true exactly when a configured limit is reached by the epoch number, the counter of
evaluations, the time since the start, or the length of the streak of unimproved global bests; it
stops after the first epoch with a true test, and runs all of `epoch` epochs if there is none.  The
final optimizer is the one after the last listed epoch. -/
theorem C32_stops_at_first_true_test (hE : c.E.Lawful) {q : Bool} {A : Algo c X Y} (hA : Disciplined q A)
    {o : RunOpts K} {t : Term K} (ht : o.term = some t)
    {b : Base c} {s : St c X Y} {h : FinalHist d K X} (hs : solve A o b = .ok (s, h)) :
    ∃ o' L, EpochRecord A o b o' L ∧ L.length = h.epoch ∧ 1 ≤ h.epoch ∧ h.epoch ≤ c.epoch ∧
      (∃ f, L.getLast? = some (f, s)) ∧
      (∀ (i : Nat) (f : Bool) (s' : St c X Y), L[i]? = some (f, s') → ∃ time streak,
        LastClock s' time ∧ TrailingStreak Num.abs t.epsilon (s'.hist.globalBest.map Agent.fit) streak ∧
        (f = true ↔ ∃ m, Reached { t with startTime := (c.E.clock b.rng).1 } (i + 1 : Nat) s'.base.nfe time streak m)) ∧
      (∀ (i : Nat) (f : Bool) (s' : St c X Y), L[i]? = some (f, s') → i + 1 < h.epoch → f = false) ∧
      ((∃ f s', L.getLast? = some (f, s') ∧ f = true) ∨ h.epoch = c.epoch) := by
  obtain ⟨pop0, o', L, h1, h2, h3, ⟨s0, h4⟩, h5, h6, h7, h8, h9, h10, inv⟩ := solve_record hE hA hs
  have hterm : o'.term = some { t with startTime := (c.E.clock b.rng).1 } := by
    obtain ⟨s0, g1, g2⟩ := h2
    obtain ⟨o'', b1, k1, -, -, -, -, k2⟩ := startTermination_ok o b
    unfold solveInit at g1
    rw [k1] at g1
    dsimp only [bind, Except.bind] at g1
    have : o' = o'' := by
      split at g1
      · cases g1
      · split at g1
        · cases g1
        · split at g1
          · cases g1
          · injection g1 with g1
            exact (Prod.mk.inj g1).1.symm
    rw [this]
    obtain ⟨-, t', k3, k4⟩ := k2 (by simp [ht])
    rw [ht] at k3
    rw [← Option.some.inj k3] at k4
    exact k4
  have hlast : ∃ r, L.getLast? = some r := by
    cases hl : L.getLast? with
    | none => exact absurd (List.getLast?_eq_none_iff.1 hl) h3
    | some r => exact ⟨r, rfl⟩
  obtain ⟨r, hr⟩ := hlast
  have hLpos : 0 < L.length := List.length_pos_iff.2 h3
  refine ⟨o', L, h2, h5.symm, by omega, by omega, ⟨r.1, ?_⟩, ?_, ?_, ?_⟩
  · rw [hr, h4]
    unfold finalState
    rw [hr]
  · intro i f s' hi
    obtain ⟨s00, g1, g2⟩ := h2
    obtain ⟨sp, hsp⟩ := g2.get hi
    obtain ⟨s1, -, -, time, hf, hclk⟩ := epochStep_facts hE hA hsp
    refine ⟨time, repeatedTimes Num.abs t.epsilon (s'.hist.globalBest.map Agent.fit), hclk (by simp [hterm]),
      C30_trailing_streak _ _ _, ?_⟩
    rw [← (C31_should_terminate _ _ _ _ _).1]
    have hf : f = stopFlag o' (1 + i) s' time := hf
    rw [hf]
    unfold stopFlag
    rw [hterm, Nat.add_comm 1 i]
  · intro i f s' hi hlt
    exact h7 i (f, s') (by omega) hi
  · rcases h8 with h8 | ⟨r', h8, h8'⟩
    · exact .inr (by omega)
    · exact .inl ⟨r'.1, r'.2, h8, h8'⟩

/-- C32: without a termination all `epoch` epochs run. -/
theorem C32_no_termination (hE : c.E.Lawful) {q : Bool} {A : Algo c X Y} (hA : Disciplined q A)
    {o : RunOpts K} (ht : o.term = none) {b : Base c} {s : St c X Y} {h : FinalHist d K X}
    (hs : solve A o b = .ok (s, h)) : h.epoch = c.epoch := by
  obtain ⟨pop0, o', L, h1, h2, h3, ⟨s0, h4⟩, h5, h6, h7, h8, h9, h10, inv⟩ := solve_record hE hA hs
  have hterm : o'.term = none := by
    obtain ⟨s0, g1, g2⟩ := h2
    obtain ⟨o'', b1, k1, -, -, -, k2, -⟩ := startTermination_ok o b
    unfold solveInit at g1
    rw [k1] at g1
    dsimp only [bind, Except.bind] at g1
    have : o' = o'' := by
      split at g1
      · cases g1
      · split at g1
        · cases g1
        · split at g1
          · cases g1
          · injection g1 with g1
            exact (Prod.mk.inj g1).1.symm
    rw [this, (k2 ht).1, ht]
  rcases h8 with h8 | ⟨r, h8, h8'⟩
  · omega
  · rw [List.getLast?_eq_getElem?] at h8
    obtain ⟨s00, g1, g2⟩ := h2
    obtain ⟨sp, hsp⟩ := g2.get h8
    obtain ⟨s1, -, -, time, hf, -⟩ := epochStep_facts hE hA hsp
    rw [h8'] at hf
    unfold stopFlag at hf
    rw [hterm] at hf
    cases hf

/-- C32: never more epochs than `max_epoch`. -/
theorem C32_max_epoch (hE : c.E.Lawful) {q : Bool} {A : Algo c X Y} (hA : Disciplined q A)
    {o : RunOpts K} {t : Term K} (ht : o.term = some t) {m : Int} (hm : t.maxEpoch = some m) (hm1 : 1 ≤ m)
    {b : Base c} {s : St c X Y} {h : FinalHist d K X} (hs : solve A o b = .ok (s, h)) : (h.epoch : Int) ≤ m := by
  obtain ⟨o', L, h2, h5, h1, h6, -, h7, h8, h9⟩ := C32_stops_at_first_true_test hE hA ht hs
  by_contra hlt
  have hi : m.toNat - 1 < L.length := by omega
  obtain ⟨time, streak, -, -, hf⟩ := h7 (m.toNat - 1) L[m.toNat - 1].1 L[m.toNat - 1].2 (List.getElem?_eq_getElem hi)
  have := h8 (m.toNat - 1) L[m.toNat - 1].1 L[m.toNat - 1].2 (List.getElem?_eq_getElem hi) (by omega)
  rw [this] at hf
  have := hf.2 ⟨.MG, m, hm, by omega⟩
  cases this

example (mode : Valid.Mode) : exOpts.term = some exTerm ∧ exTerm.maxEpoch = some 2 ∧ (exCfg mode).epoch = 3 :=
  ⟨rfl, rfl, rfl⟩

/-! ## C33 -/

theorem FramedB.pendingEval {mkExt : Vec d K → D c X} {st : Starting K} (hE : c.E.Lawful) :
    FramedB (beforeInit mkExt st : B c _) := by
  unfold beforeInit
  split
  · exact FramedB.pure
  · exact FramedB.throw
  · exact FramedB.throw
  · split
    · exact FramedB.throw
    · split
      · exact FramedB.throw
      · split
        · exact FramedB.throw
        · split
          · exact FramedB.throw
          · split
            · exact FramedB.bind FramedB.liftD fun _ => FramedB.bind (FramedB.updateTargets hE) fun _ => FramedB.pure
            · exact FramedB.bind (FramedB.mapM fun _ => FramedB.agentOf) fun _ => FramedB.pure

theorem FramedB.defaultInit {mkExt : Vec d K → D c X} {y : Y} {p : Option (List (Agent d K X))} (hE : c.E.Lawful) :
    FramedB (defaultInit mkExt y p : B c _) := by
  unfold Mealpy.defaultInit
  split
  · exact FramedB.pure
  · exact FramedB.bind (FramedB.generatePopulation hE) fun _ => FramedB.pure

theorem run_frB (hE : c.E.Lawful) {q : Bool} {A : Algo c X Y} (hA : Disciplined q A) {o : RunOpts K} :
    ∀ {L : List (Bool × St c X Y)} {e : Nat} {s : St c X Y}, IsRun A o e s L → FrB s.base (finalState s L).base
  | [], e, s, _ => by simp [finalState]; exact FrB.rfl
  | r :: L, e, s, h => by
    rw [finalState_cons]
    obtain ⟨s1, hf, he, -⟩ := epochStep_facts hE hA h.1
    refine (FrB.trans ?_ (run_frB hE hA h.2))
    obtain ⟨⟨new, h1⟩, h2, h3⟩ := hf.base
    exact ⟨⟨new, by rw [he.log]; exact h1⟩, fun hm => by rw [he.nfe, he.log]; exact h2 hm,
      by rw [he.nfe, he.log]; exact h3⟩

/-- the evaluations made before the main loop and in it -/
theorem solve_frB (hE : c.E.Lawful) {q : Bool} {A : Algo c X Y} (hA : Disciplined q A)
    {o : RunOpts K} {b : Base c} {s : St c X Y} {h : FinalHist d K X} (hs : solve A o b = .ok (s, h)) :
    ∃ o' b1 pop0 y b2, startTermination o b = .ok (o', b1) ∧ initialPop A o' b1 = .ok ((pop0, y), b2) ∧
      b1.log = b.log ∧ b1.nfe = (if o.term.isSome then 0 else b.nfe) ∧ o'.starting = o.starting ∧
      FrB b2 s.base := by
  obtain ⟨o', b1, pop0, y, b2, s0, s1, h1, h2, h3, h4, h5, h6⟩ := solve_ok hs
  obtain ⟨o'', b1', h1', hst, hsp, hlog, hnone, hsome⟩ := startTermination_ok o b
  rw [h1] at h1'
  injection h1' with h1'
  obtain ⟨rfl, rfl⟩ := Prod.mk.inj h1'
  obtain ⟨L, g1, g2, g3, g4, g5⟩ := mainLoop_run _ _ _ _ h5
  obtain ⟨best, worst, -, -, hs0⟩ := afterInit_ok hE h3
  refine ⟨o', b1, pop0, y, b2, h1, h2, hlog, ?_, hst, ?_⟩
  · cases ht : o.term with
    | none => rw [(hnone ht).2]; rfl
    | some t => exact (hsome (by simp [ht])).1
  · have e1 : s0.base = b2 := by rw [hs0]
    have e2 := ((hA.before _).elim h4).base
    rw [e1] at e2
    rw [g3]
    exact e2.trans (run_frB hE hA g1)

/-- C33: in the modes 'single' and 'swarm', `nfe_counter` grows by exactly the number of calls of the
objective made by the run; it starts from 0 if a termination is set and from its previous value
otherwise (1 for a new optimizer, so it then counts one too many, and keeps growing over repeated
`solve` calls). -/
theorem C33_counter_counts (hE : c.E.Lawful) {q : Bool} {A : Algo c X Y} (hA : Disciplined q A)
    (hI : ∀ y p, FramedB (A.initialization y p)) (hm : c.mode = .single ∨ c.mode = .swarm)
    {o : RunOpts K} {b : Base c} {s : St c X Y} {h : FinalHist d K X} (hs : solve A o b = .ok (s, h)) :
    ∃ calls : List (Vec d K), s.base.log = b.log ++ calls ∧
      s.base.nfe = (if o.term.isSome then 0 else b.nfe) + calls.length := by
  obtain ⟨o', b1, pop0, y, b2, -, h2, h3, h4, -, h5⟩ := solve_frB hE hA hs
  have hf : FramedB (initialPop A o') := by
    unfold initialPop
    exact FramedB.bind FramedB.liftD fun _ => FramedB.bind (FramedB.pendingEval hE) fun _ => hI _ _
  obtain ⟨⟨new, k1⟩, k2, -⟩ := (FrB.trans ((hf b1).elim h2) h5)
  refine ⟨new, by rw [k1, h3], ?_⟩
  have := k2 hm
  rw [k1, List.length_append] at this
  omega

/-- C33: in 'process' mode the evaluations of the initial population are not counted (each worker
increments the counter of its own copy of the optimizer), nor more than made. -/
theorem C33_process_misses_initial_population (hE : c.E.Lawful) (hP : c.P.Lawful) {q : Bool} {A : Algo c X Y}
    (hA : Disciplined q A) (hI : A.initialization = defaultInit A.mkExt) (hm : c.mode = .process)
    {o : RunOpts K} (hst : o.starting = .none)
    {b : Base c} {s : St c X Y} {h : FinalHist d K X} (hs : solve A o b = .ok (s, h)) :
    ∃ calls : List (Vec d K), s.base.log = b.log ++ calls ∧
      s.base.nfe + c.popSize ≤ (if o.term.isSome then 0 else b.nfe) + calls.length := by
  obtain ⟨o', b1, pop0, y, b2, -, h2, h3, h4, hst', h5⟩ := solve_frB hE hA hs
  have hinit : Wp (fun _ => True) (initialPop A o') b1 (fun _ b' => (∃ new, b'.log = b1.log ++ new ∧
      new.length = c.popSize) ∧ b'.nfe = b1.nfe) := by
    unfold initialPop
    rw [hst', hst, hI]
    refine Wp.bind (Wp.liftD DT.any fun y r v _ => ?_)
    refine Wp.bind (Wp.pure ?_)
    refine Wp.bind (Wp.mono (generatePopulation_spec (F := fun _ => True) hE hP c.popSize
      (fun x _ => DT.any)) ?_)
    rintro pop b' ⟨g1, -, ⟨new, g2, g3⟩, -, g4, -⟩
    exact Wp.pure ⟨⟨new, g2, by rw [g3.length_eq]; simpa using g1⟩, g4 hm⟩
  obtain ⟨⟨new0, k1, k1'⟩, k2⟩ := hinit.elim h2
  obtain ⟨⟨new, k3⟩, -, k4⟩ := h5
  refine ⟨new0 ++ new, by rw [k3, k1, h3, List.append_assoc], ?_⟩
  rw [k3, List.length_append] at k4
  rw [List.length_append]
  omega

/-- C33: in every mode, 'thread' included, the counter never exceeds the number of calls. -/
theorem C33_counter_at_most_calls (hE : c.E.Lawful) {q : Bool} {A : Algo c X Y} (hA : Disciplined q A)
    (hI : ∀ y p, FramedB (A.initialization y p))
    {o : RunOpts K} {b : Base c} {s : St c X Y} {h : FinalHist d K X} (hs : solve A o b = .ok (s, h)) :
    ∃ calls : List (Vec d K), s.base.log = b.log ++ calls ∧
      s.base.nfe ≤ (if o.term.isSome then 0 else b.nfe) + calls.length := by
  obtain ⟨o', b1, pop0, y, b2, -, h2, h3, h4, -, h5⟩ := solve_frB hE hA hs
  have hf : FramedB (initialPop A o') := by
    unfold initialPop
    exact FramedB.bind FramedB.liftD fun _ => FramedB.bind (FramedB.pendingEval hE) fun _ => hI _ _
  obtain ⟨⟨new, k1⟩, -, k2⟩ := (FrB.trans ((hf b1).elim h2) h5)
  refine ⟨new, by rw [k1, h3], ?_⟩
  rw [k1, List.length_append] at k2
  omega

/-- C33: in 'thread' mode increments can be lost: with the schedule of `detEnv`, generating five
agents makes five calls and counts three. -/
theorem C33_thread_loses_increments : ∃ pop b',
    generatePopulation (fun _ => pure ()) 5 (exBase .thread) = .ok (pop, b') ∧
      b'.log.length = 5 ∧ b'.nfe = (exBase .thread).nfe + 3 := by
  refine ⟨_, _, rfl, ?_, ?_⟩ <;> decide +kernel

example (mode : Valid.Mode) : ∀ y p, FramedB ((OriginalGWO.algo : Algo (exCfg mode) Unit Unit).initialization y p) :=
  fun _ _ => FramedB.defaultInit (exCfg_lawful mode).1

example : (exCfg .swarm).mode = .single ∨ (exCfg .swarm).mode = .swarm := .inr rfl

end Mealpy
