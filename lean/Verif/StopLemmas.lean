import Verif.RunLemmas

/-! # Runs that differ in their stopping conditions only -/

set_option linter.unusedSectionVars false

namespace Mealpy
open Spec

variable {d : Nat} {K : Type} [Num K] {c : Cfg d K} {X Y : Type}

/-- one epoch up to the stopping test (`mealpy/optimizer.py:256-276` and `208-211`): the state the test looks at, and the time -/
def epochPre (A : Algo c X Y) (save : Bool) (epoch : Nat) : M c X Y (St c X Y × K) := do
  let t0 ← draw clock
  A.evolve epoch
  let s ← get
  let (popTemp, g) ← updateGlobalBest s.pop
  modify (fun s => { s with gbest := g, pop := if A.sortFlag then popTemp else s.pop })
  let t1 ← draw clock
  let s ← get
  trackStep save s.pop (t1 - t0)
  let s ← get
  let time ← draw clock
  pure (s, time)

/-- the stopping test on what `epochPre` answers -/
def stops (t : Term K) (epoch : Nat) (r : St c X Y × K) : Bool :=
  (shouldTerminate t epoch r.1.base.nfe r.2 (repeatedTimes Num.abs t.epsilon (r.1.hist.globalBest.map Agent.fit))).isSome

theorem epochStep_pre (A : Algo c X Y) (t : Term K) (st : Starting K) (save : Bool) (e : Nat) :
    epochStep A ⟨some t, st, save⟩ e = epochPre A save e >>= fun r => pure (stops t e r) := by
  unfold epochStep epochPre checkEnd stops
  simp only [bind_assoc, pure_bind]

theorem epochStep_two {A : Algo c X Y} {t1 t2 : Term K} {st : Starting K} {save : Bool} {e : Nat} {s s1 : St c X Y} {f1 : Bool}
    (h : epochStep A ⟨some t1, st, save⟩ e s = .ok (f1, s1)) :
    ∃ r : St c X Y × K, f1 = stops t1 e r ∧ epochStep A ⟨some t2, st, save⟩ e s = .ok (stops t2 e r, s1) := by
  rw [epochStep_pre] at h ⊢
  change (epochPre A save e s >>= fun p => _) = _ at h
  show ∃ r : St c X Y × K, _ ∧ (epochPre A save e s >>= fun p => _) = _
  cases hp : epochPre A save e s with
  | error x => rw [hp] at h; cases h
  | ok p =>
    rw [hp] at h
    injection h with h
    obtain ⟨h1, h2⟩ := Prod.mk.inj h
    exact ⟨p.1, h1.symm, by rw [← h2]; rfl⟩

theorem epochStep_error {A : Algo c X Y} {t1 t2 : Term K} {st : Starting K} {save : Bool} {e : Nat} {s : St c X Y} {x : Err}
    (h : epochStep A ⟨some t1, st, save⟩ e s = .error x) : epochStep A ⟨some t2, st, save⟩ e s = .error x := by
  cases h2 : epochStep A ⟨some t2, st, save⟩ e s with
  | error y =>
    rw [epochStep_pre] at h h2
    change (epochPre A save e s >>= fun p => _) = _ at h
    change (epochPre A save e s >>= fun p => _) = _ at h2
    cases hp : epochPre A save e s with
    | error z =>
      rw [hp] at h h2
      injection h with h; injection h2 with h2
      rw [← h, ← h2]
    | ok p => rw [hp] at h; cases h
  | ok p =>
    obtain ⟨r, -, hr⟩ := epochStep_two (t2 := t1) h2
    rw [h] at hr; cases hr

/-- what comes before the first epoch does not look at the limits -/
theorem solveInit_two {A : Algo c X Y} {t1 t2 : Term K} {st : Starting K} {save : Bool} {b : Base c} :
    (∃ x, solveInit A ⟨some t1, st, save⟩ b = .error x ∧ solveInit A ⟨some t2, st, save⟩ b = .error x) ∨
    ∃ now s0, solveInit A ⟨some t1, st, save⟩ b = .ok (⟨some { t1 with startTime := now }, st, save⟩, s0) ∧
      solveInit A ⟨some t2, st, save⟩ b = .ok (⟨some { t2 with startTime := now }, st, save⟩, s0) := by
  have key : ∃ now b1, ∀ t : Term K, startTermination ⟨some t, st, save⟩ b = .ok (⟨some { t with startTime := now }, st, save⟩, b1) :=
    ⟨_, _, fun t => rfl⟩
  obtain ⟨now, b1, hst⟩ := key
  have hip : ∀ t : Term K, initialPop A ⟨some t, st, save⟩ b1 = initialPop A ⟨none, st, save⟩ b1 := fun t => rfl
  unfold solveInit
  rw [hst, hst]
  dsimp only [bind, Except.bind]
  rw [hip, hip]
  cases initialPop A ⟨none, st, save⟩ b1 with
  | error x => exact .inl ⟨x, rfl, rfl⟩
  | ok p =>
    dsimp only
    cases afterInit A.sortFlag p.1.1 p.1.2 p.2 with
    | error x => exact .inl ⟨x, rfl, rfl⟩
    | ok s =>
      dsimp only
      cases A.beforeMain s with
      | error x => exact .inl ⟨x, rfl, rfl⟩
      | ok q => exact .inr ⟨now, q.2, rfl, rfl⟩

theorem IsRun.two {A : Algo c X Y} {t1 t2 : Term K} {st : Starting K} {save : Bool} : ∀ {L1 L2 : List (Bool × St c X Y)} {e : Nat} {s : St c X Y},
    IsRun A ⟨some t1, st, save⟩ e s L1 → IsRun A ⟨some t2, st, save⟩ e s L2 → L1.length ≤ L2.length → L1.map (·.2) <+: L2.map (·.2)
  | [], L2, e, s, _, _, _ => List.nil_prefix
  | r1 :: L1, [], e, s, _, _, h => by simp at h
  | r1 :: L1, r2 :: L2, e, s, h1, h2, h => by
    obtain ⟨r, -, hr⟩ := epochStep_two (t2 := t2) h1.1
    have h21 := h2.1
    rw [h21] at hr
    injection hr with hr
    obtain ⟨-, hr⟩ := Prod.mk.inj hr
    rw [List.map_cons, List.map_cons, ← hr]
    refine (List.prefix_cons_inj _).2 (IsRun.two h1.2 (by rw [← hr]; exact h2.2) (by simpa using h))

/-- `t1` is at least as tight as `t2` -/
structure Tighter (t1 t2 : Term K) : Prop where
  epoch : ∀ m, t2.maxEpoch = some m → ∃ n, t1.maxEpoch = some n ∧ n ≤ m
  fe : ∀ m, t2.maxFe = some m → ∃ n, t1.maxFe = some n ∧ n ≤ m
  time : ∀ m, t2.maxTime = some m → ∃ n, t1.maxTime = some n ∧ n ≤ m
  early : ∀ m, t2.maxEarlyStop = some m → ∃ n, t1.maxEarlyStop = some n ∧ n ≤ m
  epsilon : t1.epsilon = t2.epsilon

theorem limitHit_tighter {α : Type} [LinearOrder α] {l1 l2 : Option α} {x : α} (h : ∀ m, l2 = some m → ∃ n, l1 = some n ∧ n ≤ m)
    (h2 : limitHit l2 (fun m => decide (x ≥ m)) = true) : limitHit l1 (fun m => decide (x ≥ m)) = true := by
  cases l2 with
  | none => cases h2
  | some m =>
    obtain ⟨n, rfl, hn⟩ := h m rfl
    have : m ≤ x := of_decide_eq_true h2
    exact decide_eq_true (le_trans hn this)

theorem shouldTerminate_isSome {t : Term K} {e f : Int} {x : K} {es : Int} : (shouldTerminate t e f x es).isSome = true ↔
    limitHit t.maxEpoch (fun m => decide (e ≥ m)) = true ∨ limitHit t.maxFe (fun m => decide (f ≥ m)) = true ∨
    limitHit t.maxTime (fun m => decide (x - t.startTime ≥ m)) = true ∨ limitHit t.maxEarlyStop (fun m => decide (es ≥ m)) = true := by
  unfold shouldTerminate
  split
  · simp_all
  · split
    · simp_all
    · split
      · simp_all
      · split <;> simp_all

theorem stops_tighter {t1 t2 : Term K} (ht : Tighter t1 t2) (now : K) {e : Nat} {r : St c X Y × K}
    (h : stops { t2 with startTime := now } e r = true) : stops { t1 with startTime := now } e r = true := by
  unfold stops at h ⊢
  rw [shouldTerminate_isSome] at h ⊢
  dsimp only at h ⊢
  rw [ht.epsilon]
  rcases h with h | h | h | h
  · exact .inl (limitHit_tighter ht.epoch h)
  · exact .inr (.inl (limitHit_tighter ht.fe h))
  · exact .inr (.inr (.inl (limitHit_tighter ht.time h)))
  · exact .inr (.inr (.inr (limitHit_tighter ht.early h)))

theorem mainLoop_ok {A : Algo c X Y} {o : RunOpts K} {n e : Nat} {s s1 : St c X Y} {f : Bool} (h : epochStep A o e s = .ok (f, s1)) :
    mainLoop A o (n + 1) e s = if f then .ok ((), s1) else mainLoop A o n (e + 1) s1 := by
  have hm : mainLoop A o (n + 1) e = (epochStep A o e >>= fun stop => if stop then pure () else mainLoop A o n (e + 1)) := rfl
  rw [hm]
  change (epochStep A o e s >>= fun p => _) = _
  rw [h]
  cases f <;> rfl

theorem mainLoop_err {A : Algo c X Y} {o : RunOpts K} {n e : Nat} {s : St c X Y} {x : Err} (h : epochStep A o e s = .error x) :
    mainLoop A o (n + 1) e s = .error x := by
  unfold mainLoop
  change (epochStep A o e s >>= fun p => _) = _
  rw [h]; rfl

theorem mainLoop_error {A : Algo c X Y} {t1 t2 : Term K} (ht : Tighter t1 t2) (now : K) {st : Starting K} {save : Bool} {x : Err} : ∀ (n e : Nat) (s : St c X Y),
    mainLoop A ⟨some { t1 with startTime := now }, st, save⟩ n e s = .error x → mainLoop A ⟨some { t2 with startTime := now }, st, save⟩ n e s = .error x := by
  intro n
  induction n with
  | zero => intro e s h; cases h
  | succ n ih =>
    intro e s h
    cases hs : epochStep A ⟨some { t1 with startTime := now }, st, save⟩ e s with
    | error y =>
      rw [mainLoop_err hs] at h
      rw [mainLoop_err (epochStep_error hs)]
      exact h
    | ok p =>
      obtain ⟨f1, s1⟩ := p
      obtain ⟨r, hf, h2⟩ := epochStep_two (t2 := { t2 with startTime := now }) hs
      rw [mainLoop_ok hs] at h
      rw [mainLoop_ok h2]
      cases f1 with
      | true => rw [if_pos rfl] at h; cases h
      | false =>
        have : stops { t2 with startTime := now } e r = false := by
          cases hb : stops { t2 with startTime := now } e r with
          | false => rfl
          | true => rw [stops_tighter ht now hb] at hf; cases hf
        rw [if_neg (by decide)] at h
        rw [this, if_neg (by decide)]
        exact ih (e + 1) s1 h

/-- the tighter run is over no later -/
theorem IsRun.tighter {A : Algo c X Y} {t1 t2 : Term K} (ht : Tighter t1 t2) (now : K) {st : Starting K} {save : Bool} {N : Nat} :
    ∀ {L1 L2 : List (Bool × St c X Y)} {e : Nat} {s : St c X Y}, IsRun A ⟨some { t1 with startTime := now }, st, save⟩ e s L1 →
      IsRun A ⟨some { t2 with startTime := now }, st, save⟩ e s L2 → L1.length ≤ N → (∀ i r, i + 1 < L1.length → L1[i]? = some r → r.1 = false) →
      (L2.length = N ∨ ∃ r, L2.getLast? = some r ∧ r.1 = true) → L1.length ≤ L2.length
  | [], L2, e, s, _, _, _, _, _ => by simp
  | r1 :: L1, [], e, s, _, _, hN, _, h => by
    rcases h with h | ⟨r, h, -⟩
    · simp at h hN; omega
    · cases h
  | [r1], r2 :: L2, e, s, _, _, _, _, _ => by simp
  | r1 :: r1' :: L1, r2 :: L2, e, s, h1, h2, hN, hf, h => by
    have f1 : r1.1 = false := hf 0 r1 (by simp) rfl
    obtain ⟨r, g1, g2⟩ := epochStep_two (t2 := { t2 with startTime := now }) h1.1
    have h21 := h2.1
    rw [h21] at g2
    injection g2 with g2
    obtain ⟨g2, g3⟩ := Prod.mk.inj g2
    have f2 : r2.1 = false := by
      rw [g2]
      cases hb : stops { t2 with startTime := now } e r with
      | false => rfl
      | true => rw [stops_tighter ht now hb, f1] at g1; cases g1
    have hN' : N ≠ 0 := by intro h0; subst h0; simp at hN
    obtain ⟨N', rfl⟩ : ∃ N', N = N' + 1 := ⟨N - 1, by omega⟩
    have := IsRun.tighter (N := N') ht now (L1 := r1' :: L1) (L2 := L2) (e := e + 1) (s := r1.2) h1.2 (by rw [← g3]; exact h2.2) (by simpa using hN)
      (fun i q hi hq => hf (i + 1) q (by simpa using hi) (by simpa using hq)) ?_
    · simpa using this
    · rcases h with h | ⟨q, h, hq⟩
      · exact .inl (by simpa using h)
      · cases L2 with
        | nil =>
          simp at h
          rw [← h, f2] at hq; cases hq
        | cons q' L2 => exact .inr ⟨q, by rw [← h]; simp [List.getLast?_cons_cons], hq⟩

theorem IsRun.last_diversity (hE : c.E.Lawful) {A : Algo c X Y} {o : RunOpts K} : ∀ {L : List (Bool × St c X Y)} {e : Nat} {s : St c X Y},
    IsRun A o e s L → L ≠ [] → (finalState s L).hist.diversity ≠ []
  | [], _, _, _, h => absurd rfl h
  | [r], e, s, h, _ => by
    have := epochStep_wp (Er := fun _ => True) hE (A := A) (o := o) (epoch := e) (s := s) (R := fun _ => True) (fun _ _ => Wp.any fun _ _ _ => trivial) (.inl fun _ => trivial)
    obtain ⟨s1, -, he, -⟩ := this.elim h.1
    obtain ⟨cb, cw, gb, gw, tm, -, -, -, -, -, hh⟩ := he.hist
    show r.2.hist.diversity ≠ []
    rw [hh]; simp
  | r :: r' :: L, e, s, h, _ => by
    rw [finalState_cons]
    exact IsRun.last_diversity hE h.2 (by simp)

theorem trackProcess_after_loop (hE : c.E.Lawful) {A : Algo c X Y} {o : RunOpts K} {n e : Nat} {s : St c X Y} {p : Unit × St c X Y} (hn : 0 < n)
    (h : mainLoop A o n e s = .ok p) : ∃ f, trackProcess p.2.hist = .ok f := by
  obtain ⟨u, s'⟩ := p
  obtain ⟨L, h1, -, h3, -, h5⟩ := mainLoop_run n e s s' h
  have hL : L ≠ [] := by
    rcases h5 with h5 | ⟨r, h5, -⟩
    · intro h0; rw [h0] at h5; simp at h5; omega
    · intro h0; rw [h0] at h5; cases h5
  have hd := IsRun.last_diversity hE h1 hL
  rw [← h3] at hd
  show ∃ f, trackProcess s'.hist = .ok f
  unfold trackProcess
  cases hx : listMax s'.hist.diversity with
  | none =>
    cases hl : s'.hist.diversity with
    | nil => exact absurd hl hd
    | cons a l => rw [hl] at hx; simp [listMax] at hx
  | some m => exact ⟨_, rfl⟩

/-- what only grows from epoch to epoch -/
structure Grows (s s' : St c X Y) : Prop where
  log : s.base.log <+: s'.base.log
  globalBestFit : s.hist.globalBestFit <+: s'.hist.globalBestFit
  currentBestFit : s.hist.currentBestFit <+: s'.hist.currentBestFit
  diversity : s.hist.diversity <+: s'.hist.diversity
  epochTime : s.hist.epochTime <+: s'.hist.epochTime
  population : s.hist.population <+: s'.hist.population
  best : ∀ g, s.hist.globalBest.getLast? = some g → ∃ g', s'.hist.globalBest.getLast? = some g' ∧ NoWorse c.P.mm g'.fit g.fit

theorem Grows.refl (s : St c X Y) : Grows s s :=
  ⟨List.prefix_rfl, List.prefix_rfl, List.prefix_rfl, List.prefix_rfl, List.prefix_rfl, List.prefix_rfl, fun g h => ⟨g, h, NoWorse.refl _ _⟩⟩

theorem Grows.trans {s s' s'' : St c X Y} (a : Grows s s') (b : Grows s' s'') : Grows s s'' :=
  ⟨a.log.trans b.log, a.globalBestFit.trans b.globalBestFit, a.currentBestFit.trans b.currentBestFit, a.diversity.trans b.diversity,
    a.epochTime.trans b.epochTime, a.population.trans b.population, fun g h => by
      obtain ⟨g1, e1, n1⟩ := a.best g h
      obtain ⟨g2, e2, n2⟩ := b.best g1 e1
      exact ⟨g2, e2, n2.trans n1⟩⟩

theorem improveLast_getLast {α : Type} {R : α → α → Prop} (hr : ∀ a, R a a) {l l' : List α} (h : ImproveLast R l l') {a : α}
    (ha : l.getLast? = some a) : ∃ b, l'.getLast? = some b ∧ R a b := by
  rcases h with rfl | ⟨p, a', b, rfl, rfl, hab⟩
  · exact ⟨a, ha, hr a⟩
  · rw [List.getLast?_concat] at ha
    injection ha with ha
    subst ha
    exact ⟨b, List.getLast?_concat, hab⟩

theorem Grows.epoch (hE : c.E.Lawful) {q : Bool} {A : Algo c X Y} (hA : Disciplined q A) {o : RunOpts K} {e : Nat} {s s' : St c X Y} {f : Bool}
    (h : epochStep A o e s = .ok (f, s')) : Grows s s' := by
  obtain ⟨s1, hf, he, -⟩ := epochStep_facts hE hA h
  obtain ⟨cb, cw, gb, gw, tm, -, -, hgb, -, -, hh⟩ := he.hist
  obtain ⟨new, hn⟩ := hf.base.log
  refine ⟨by rw [he.log, hn]; exact List.prefix_append _ _, ?_, ?_, ?_, ?_, ?_, ?_⟩
  · rw [hh, ← hf.hist.globalBestFit]; exact List.prefix_append _ _
  · rw [hh, ← hf.hist.currentBestFit]; exact List.prefix_append _ _
  · rw [hh, ← hf.hist.diversity]; exact List.prefix_append _ _
  · rw [hh, ← hf.hist.epochTime]; exact List.prefix_append _ _
  · rw [hh, ← hf.hist.population]
    dsimp only
    split
    · exact List.prefix_append _ _
    · exact List.prefix_rfl
  · intro g hg
    obtain ⟨g1, e1, n1⟩ := improveLast_getLast (R := fun a b : Agent d K X => NoWorse c.P.mm b.fit a.fit) (fun a => NoWorse.refl _ _) hf.hist.globalBest hg
    rw [hgb] at e1
    injection e1 with e1
    subst e1
    exact ⟨_, by rw [hh]; simp, (getBetterAgent_cases cb gb c.P.mm).2.2.trans n1⟩

theorem IsRun.grows (hE : c.E.Lawful) {q : Bool} {A : Algo c X Y} (hA : Disciplined q A) {o : RunOpts K} : ∀ {L : List (Bool × St c X Y)} {e : Nat} {s : St c X Y},
    IsRun A o e s L → Grows s (finalState s L)
  | [], e, s, _ => Grows.refl s
  | r :: L, e, s, h => by
    rw [finalState_cons]
    exact (Grows.epoch hE hA h.1).trans (IsRun.grows hE hA h.2)

theorem IsRun.grows_two (hE : c.E.Lawful) {q : Bool} {A : Algo c X Y} (hA : Disciplined q A) {t1 t2 : Term K} {st : Starting K} {save : Bool} :
    ∀ {L1 L2 : List (Bool × St c X Y)} {e : Nat} {s : St c X Y}, IsRun A ⟨some t1, st, save⟩ e s L1 → IsRun A ⟨some t2, st, save⟩ e s L2 →
      L1.length ≤ L2.length → Grows (finalState s L1) (finalState s L2) ∧ (L1.length = L2.length → finalState s L1 = finalState s L2)
  | [], L2, e, s, _, h2, _ => ⟨IsRun.grows hE hA h2, fun h => by cases L2 with
    | nil => rfl
    | cons r L => simp at h⟩
  | r1 :: L1, [], e, s, _, _, h => by simp at h
  | r1 :: L1, r2 :: L2, e, s, h1, h2, h => by
    obtain ⟨r, -, hr⟩ := epochStep_two (t2 := t2) h1.1
    have h21 := h2.1
    rw [h21] at hr
    injection hr with hr
    obtain ⟨-, hr⟩ := Prod.mk.inj hr
    rw [finalState_cons, finalState_cons, ← hr]
    have := IsRun.grows_two hE hA (L1 := L1) (L2 := L2) (s := r2.2) (by rw [hr]; exact h1.2) h2.2 (by simpa using h)
    exact ⟨this.1, fun h => this.2 (by simpa using h)⟩

end Mealpy
