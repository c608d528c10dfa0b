import Verif.Alg.Raise3
import Verif.Alg.GA2
import Verif.Alg.Simple10
import Verif.Alg.Simple13
import Verif.Alg.Simple14

/-! # Runs that raise in a later epoch -/

set_option linter.unusedSectionVars false
set_option linter.unusedVariables false

namespace Mealpy
open Spec

variable {d : Nat} {K : Type} [Num K] {c : Cfg d K} {X Y α β : Type} {e : Err} {Er : Err → Prop} {lo hi lo' hi' : Nat}

section
variable {I : LInv d K Y}

/-- the state in which the first epoch starts -/
theorem Algo.LOk.start {A : Algo c X Y} {J0 J1 : Y → Prop} {i1 i2 b1 b2 lo hi : Nat}
    (hA : A.LOk Er I J0 J1 i1 i2 b1 b2 lo hi) (hE : c.E.Lawful) (hpos : 0 < c.popSize)
    (o : RunOpts K) (hst : FeasibleStart c o.starting) (b : Base c) (hno : o.term = none) :
    match solveInit A o b with
    | .ok (o', s) => LHolds I s ∧ o'.term = none
    | .error e => Er e := by
  obtain ⟨o', bb, ho, hos, hosp, hlog, hnone, hsome⟩ := startTermination_ok o b
  have hinit : Wp Er (initialPop A o') bb (fun r _ => I.size r.1.length ∧ J1 r.2) := by
    unfold initialPop
    refine Wp.bind (Wp.liftD hA.initVars ?_)
    intro y r v hy
    rw [hos]
    cases hstart : o.starting with
    | notArray => rw [hstart] at hst; exact hst.elim
    | flat n => rw [hstart] at hst; exact hst.elim
    | none =>
      refine Wp.bind (Wp.pure ?_)
      exact Wp.mono (hA.init y none _ hy (by simp)) fun r b2 h => ⟨h.1, h.2.1⟩
    | rows l =>
      rw [hstart] at hst
      obtain ⟨hl, hrows⟩ := hst
      obtain ⟨xs, hx1, hx2, hx3, hx4⟩ := mapM_rowVec hrows
      refine Wp.bind (Wp.mono (beforeInit_rows hE (F := fun _ => True) hl hpos hx1 hx2 hx3
        (fun x hx => hA.mkExt x (hx4 x hx)) _) ?_)
      rintro p b2 ⟨pop, rfl, hp1, hp2, ⟨new0, hn1, hn2⟩, hp4⟩
      have hpl : pop.length = xs.length := by rw [← hp1]; simp
      refine Wp.mono (hA.init y (some pop) _ hy ?_) fun r b3 h => ⟨h.1, h.2.1⟩
      rintro pop' h
      injection h with h
      subst h
      omega
  unfold solveInit
  rw [ho]
  simp only [bind, Except.bind]
  unfold Wp at hinit
  cases hi1 : initialPop A o' bb with
  | error e => rw [hi1] at hinit; exact hinit
  | ok q =>
  rw [hi1] at hinit
  obtain ⟨⟨pop0, y⟩, bb2⟩ := q
  obtain ⟨hp1, hp3⟩ := hinit
  dsimp only at hp1 hp3 ⊢
  have hne0 : pop0 ≠ [] := by
    intro h
    have := hA.nonempty _ hp1
    rw [h] at this
    simp at this
  obtain ⟨s0, hs0⟩ := afterInit_total (sf := A.sortFlag) (y := y) (b := bb2) hE hne0
  obtain ⟨best, worst, hbest, hworst, hs0e⟩ := afterInit_ok hE hs0
  have hinv0 : LHolds { I with attr := J1 } s0 := by
    refine ⟨?_, by rw [hs0e]; exact hp3, by rw [hs0e]; simp, by rw [hs0e]; simp, by rw [hs0e]; simp, by rw [hs0e]; simp⟩
    rw [hs0e]
    dsimp only
    split
    · rw [getSorted_length hE.argsortLaw]; exact hp1
    · exact hp1
  rw [hs0]
  simp only
  have hbm := hA.before s0 hinv0
  unfold Wp at hbm
  cases hbe : A.beforeMain s0 with
  | error e => rw [hbe] at hbm; exact hbm
  | ok q =>
  rw [hbe] at hbm
  obtain ⟨⟨⟩, s1⟩ := q
  simp only [pure, Except.pure] at hbm ⊢
  exact ⟨hbm.inv, by rw [(hnone hno).1]; exact hno⟩

/-- without a termination criterion the loop arrives at epoch `m + 1`, which never returns -/
theorem Algo.LOk.loopNever {A : Algo c X Y} {J0 J1 : Y → Prop} {i1 i2 b1 b2 l1 h1 : Nat}
    (hA : A.LOk Er I J0 J1 i1 i2 b1 b2 l1 h1) (hE : c.E.Lawful) {o : RunOpts K} (hno : o.term = none) {m : Nat}
    (hm : LT Er I lo hi (A.evolve (m + 1)) (fun _ => False)) : ∀ (n k : Nat) (s : St c X Y), LHolds I s → k ≤ m → m < k + n → k + n ≤ c.epoch →
      Wp Er (mainLoop A o n (k + 1)) s (fun _ _ => False)
  | 0, k, s, _, h1, h2, _ => by omega
  | n + 1, k, s, hs, hk, hkn, hep => by
    unfold mainLoop
    rcases Nat.lt_or_eq_of_le hk with g | rfl
    · refine Wp.bind (Wp.mono (epochStep_wp (R := fun s1 => LHolds I s1) hE ?_ (.inr ?_)) ?_)
      · intro r v
        exact Wp.mono (hA.evolve (k + 1) (by omega) (by omega) _ (hs.base _)) fun _ s1 h => h.1.inv
      · intro s1 h
        refine ⟨?_, h.gbest, h.worst⟩
        intro hnil
        have := hA.nonempty _ h.len
        rw [hnil] at this
        simp at this
      · rintro f s' ⟨s1, hst, hend, time, hf, -⟩
        have hff : f = false := by rw [hf]; unfold stopFlag; rw [hno]
        subst hff
        obtain ⟨cb, cw, gb, gw, tm, hcb, hcw, hgb, hgw, hgbest, hhist⟩ := hend.hist
        have hsz : I.size s'.pop.length := by
          rw [hend.pop]
          split
          · rw [getSorted_length hE.argsortLaw]; exact hst.len
          · exact hst.len
        refine Wp.ite (fun h => absurd h (by simp)) fun _ => ?_
        exact loopNever hA hE hno hm n (k + 1) s' ⟨hsz, by rw [hend.ext]; exact hst.ext, by rw [hhist]; simp, by rw [hhist]; simp,
          by rw [hhist]; simp, by rw [hhist]; simp⟩ (by omega) (by omega) (by omega)
    · refine Wp.bind (Wp.mono (epochStep_wp (R := fun _ => False) hE ?_ (.inr fun _ h => h.elim)) ?_)
      · intro r v
        exact Wp.mono (hm _ (hs.base _)) fun _ s1 h => h.2
      · rintro f s' ⟨s1, h, -⟩
        exact h.elim

/-- a run without a termination criterion raises if epoch `m + 1` never returns -/
theorem Algo.LOk.raisesAt {A : Algo c X Y} {J0 J1 : Y → Prop} {i1 i2 b1 b2 l1 h1 : Nat}
    (hA : A.LOk (fun x => x = e) I J0 J1 i1 i2 b1 b2 l1 h1) (hE : c.E.Lawful) (hpos : 0 < c.popSize) {m : Nat} (hme : m < c.epoch)
    (hm : LT (fun x => x = e) I lo hi (A.evolve (m + 1)) (fun _ => False))
    (o : RunOpts K) (hno : o.term = none) (hst : FeasibleStart c o.starting) (b : Base c) :
    Mealpy.solve A o b = .error e := by
  have h0 := hA.start hE hpos o hst b hno
  unfold Mealpy.solve
  revert h0
  cases solveInit A o b with
  | error x => rintro rfl; rfl
  | ok q =>
    obtain ⟨o', s⟩ := q
    rintro ⟨hs, hno'⟩
    have h1 := hA.loopNever hE hno' hm c.epoch 0 s hs (by omega) (by omega) (by omega)
    simp only [bind, Except.bind]
    revert h1
    unfold Wp
    rw [Nat.zero_add]
    cases mainLoop A o' c.epoch 1 s with
    | error x => rintro rfl; rfl
    | ok q => exact fun h => h.elim

end

theorem DT.iterNever {n : Nat} {f : Nat → α → D c α} {a : α} {R : α → Prop} (hn : 0 < n)
    (h : ∀ a, DT Er (f 0 a) (fun _ => False)) : DT Er (Mealpy.iter n f a) R := by
  intro g
  refine Wp.mono (Wp.iter (fun i _ _ => i = 0) n rfl ?_) fun _ _ h => by omega
  rintro i a g' hi rfl
  exact Wp.mono (h a g') fun _ _ q => q.elim

theorem DT.never {m : D c α} {Q : α → Prop} (h : DT Er m (fun _ => False)) : DT Er m Q := DT.mono h fun _ q => q.elim

theorem DT.neverBind {m : D c α} {k : α → D c β} {Q : β → Prop} (h : DT Er m (fun _ => False)) : DT Er (m >>= k) Q :=
  DT.bind h fun _ q => q.elim

theorem DT.choice_never {n k : Nat} {rep : Bool} {Q : List Nat → Prop} (h : choiceErr n k rep = true) (he : Er .value) :
    DT Er (Mealpy.choice n k rep : D c (List Nat)) Q := by
  unfold Mealpy.choice
  rw [if_pos h]
  exact DT.throw he

namespace OriginalDOA

/-- the exploitation phase looks up the bounds under the number of the agent; agent `d` has none (`mealpy/human_based/DOA.py:142`) -/
theorem exploit_never (hE : c.E.Lawful) {ep : Nat} {s : St c Unit Unit} (hd : 2 ≤ d) :
    DT (fun x => x = Err.index) (exploit ep s d : D c _) (fun _ => False) := by
  have hc2 := ceilDiv_le (a := d) (b := 3) (by omega)
  unfold exploit
  refine DT.bind (DT.integers hE (by push_cast; omega)) fun k hk => ?_
  have hk1 := hk.1
  have hk2 := hk.2
  push_cast at hk2
  refine DT.bind (DT.choice hE (choiceErr_false (by omega) (by omega))) fun is his => DT.neverBind (DT.iterNever ?_ fun pos => ?_)
  · have := his.1; omega
  · refine DT.bind (DT.nth_mem (by have := his.1; omega)) fun j _ => DT.bind DT.random' fun r _ => ?_
    rw [if_neg (by omega)]
    exact DT.throw rfl

/-- one coordinate cannot be chosen twice (`mealpy/human_based/DOA.py:136-138`) -/
theorem exploit_never1 (hE : c.E.Lawful) {ep i : Nat} {s : St c Unit Unit} (hd : d = 1) :
    DT (fun x => x = Err.value) (exploit ep s i : D c _) (fun _ => False) := by
  subst hd
  unfold exploit
  refine DT.bind (DT.integers hE (by decide)) fun k hk => DT.neverBind (DT.choice_never ?_ rfl)
  have hk1 := hk.1
  unfold choiceErr
  simp
  omega

theorem late {e : Err} (hE : c.E.Lawful) (hP : c.P.Lawful) (hc : Accepted c 5) (hd : 0 < d)
    (hx : ∀ ep (s : St c Unit Unit), s.pop.length = c.popSize →
      DT (fun x => x = e) (repM c.popSize (exploit ep s) : D c _) (fun _ => False))
    (o : RunOpts K) (hno : o.term = none) (hst : FeasibleStart c o.starting) (b : Base c) : solve (algo : Algo c Unit Unit) o b = .error e := by
  have hpop := hc.pop
  have hep := hc.epoch
  have hbad : ∀ ep, ¬ ep ≤ 9 * c.epoch / 10 → LT (fun x => x = e) (LInv.std c JT) c.popSize c.popSize (evolve ep : M c Unit Unit Unit) (fun _ => False) := by
    intro ep h
    unfold evolve
    refine LT.bind0 LT.get fun s hs => ?_
    rw [if_neg h]
    exact LT.neverBind (lo := 0) (hi := 0) (LT.draw (hx ep s hs.len))
  refine Algo.LOk.raisesAt (A := algo) (I := LInv.std c JT) (m := 9 * c.epoch / 10) (lo := c.popSize) (hi := c.popSize)
    (Algo.plain_lok (lo := c.popSize) (hi := c.popSize) hE hP (by omega) (fun _ h => h) ?_) hE (by omega) (by omega)
    (hbad (9 * c.epoch / 10 + 1) (by omega)) o hno hst b
  intro ep _ _
  by_cases h : ep ≤ 9 * c.epoch / 10
  · unfold evolve
    refine LT.bind0 LT.get fun s hs => ?_
    have hl : s.pop.length = c.popSize := hs.len
    rw [if_pos h]
    refine LT.bind0 (LT.draw (dt_explore hE hP hd hl (by omega))) fun pend hp => ?_
    refine LT.bindS (LT.evalAll hE fun q hq => hp.2 q hq) (by omega) fun new hn => LT.weaken (LT.setPop (hn.trans hp.1)) (by omega) (by omega)
  · exact LT.mono (hbad ep h) fun _ h => h.elim

/-- more agents than variables: the first epoch of the exploitation phase raises -/
theorem raises (hE : c.E.Lawful) (hP : c.P.Lawful) (hc : Accepted c 5) (h2 : 2 ≤ d) (hd : d < c.popSize)
    (o : RunOpts K) (hno : o.term = none) (hst : FeasibleStart c o.starting) (b : Base c) : solve (algo : Algo c Unit Unit) o b = .error .index := by
  refine late hE hP hc (by omega) (fun ep s hl => DT.repMNever hd (fun i hi => ?_) (exploit_never hE h2)) o hno hst b
  exact DT.mono (dt_exploit hE hP hl (by have := hc.pop; omega) h2 hi) fun _ _ => trivial

/-- one variable: likewise -/
theorem raises1 (hE : c.E.Lawful) (hP : c.P.Lawful) (hc : Accepted c 5) (hd : d = 1)
    (o : RunOpts K) (hno : o.term = none) (hst : FeasibleStart c o.starting) (b : Base c) : solve (algo : Algo c Unit Unit) o b = .error .value :=
  late hE hP hc (by omega) (fun ep s hl => DT.repMNever (k := 0) (by have := hc.pop; omega) (fun i hi => absurd hi (Nat.not_lt_zero i)) (exploit_never1 hE hd)) o hno hst b

end OriginalDOA


/-! ### Any error of a list -/

section
variable {I : LInv d K Y}

/-- `Algo.LOk.raisesAt` for several errors -/
theorem Algo.LOk.raisesOneAt {A : Algo c X Y} {J0 J1 : Y → Prop} {i1 i2 b1 b2 l1 h1 : Nat}
    (hA : A.LOk Er I J0 J1 i1 i2 b1 b2 l1 h1) (hE : c.E.Lawful) (hpos : 0 < c.popSize) {m : Nat} (hme : m < c.epoch)
    (hm : LT Er I lo hi (A.evolve (m + 1)) (fun _ => False))
    (o : RunOpts K) (hno : o.term = none) (hst : FeasibleStart c o.starting) (b : Base c) :
    ∃ e, Er e ∧ Mealpy.solve A o b = .error e := by
  have h0 := hA.start hE hpos o hst b hno
  unfold Mealpy.solve
  revert h0
  cases solveInit A o b with
  | error x => exact fun h => ⟨x, h, rfl⟩
  | ok q =>
    obtain ⟨o', s⟩ := q
    rintro ⟨hs, hno'⟩
    have h1 := hA.loopNever hE hno' hm c.epoch 0 s hs (by omega) (by omega) (by omega)
    simp only [bind, Except.bind]
    revert h1
    unfold Wp
    rw [Nat.zero_add]
    cases mainLoop A o' c.epoch 1 s with
    | error x => exact fun h => ⟨x, h, rfl⟩
    | ok q => exact fun h => h.elim

/-- `Algo.LOk.raises` for several errors -/
theorem Algo.LOk.raisesOne {A : Algo c X Y} {J0 J1 : Y → Prop} {i : Nat} (hA : A.LOk Er I J0 J1 i i 0 0 1 0) (hE : c.E.Lawful)
    (hpos : 0 < c.popSize) (hep : 0 < c.epoch) (o : RunOpts K) (hst : FeasibleStart c o.starting) (b : Base c) (hb : b.log = []) :
    ∃ e, Er e ∧ Mealpy.solve A o b = .error e := by
  have := hA.solve hE hpos hep o hst b hb
  revert this
  cases Mealpy.solve A o b with
  | ok q =>
    intro h
    have h1 := h.budget_lo
    have h2 := h.budget_hi
    have h3 := h.epochs
    omega
  | error x => exact fun h => ⟨x, h, rfl⟩

end

/-- a tournament among fewer than ten agents with `k_way = 0.1` has no entrants -/
theorem DT.kwayIdx_tenth (hE : c.E.Lawful) {pop : List (Agent d K X)} {output : Nat} {rev : Bool} (ho : 0 < output) (h : pop.length < 10) :
    DT Er (Mealpy.kwayIdx pop (.frac (1 / 10)) output rev : D c (List Nat)) (fun r => r = []) := by
  have hs : (KWay.frac (1 / 10)).size pop.length = 0 := by
    simp only [KWay.size]
    have h1 : (pop.length : ℚ) < 10 := by exact_mod_cast h
    have h2 : (0 : ℚ) ≤ pop.length := by positivity
    have g1 : (0 : Int) ≤ (1 / 10 * (pop.length : ℚ)).floor := Rat.le_floor_iff.2 (by push_cast; linarith)
    have g2 : ¬ (1 : Int) ≤ (1 / 10 * (pop.length : ℚ)).floor := fun g => by
      have := Rat.le_floor_iff.1 g
      push_cast at this
      linarith
    omega
  refine DT.mono (DT.kwayIdx hE ho (by omega) (by omega)) fun r hr => List.length_eq_zero_iff.1 ?_
  have := hr.1
  rw [hs] at this
  omega

namespace GA

/-- fewer than ten agents, or an odd number of them, cannot survive (`mealpy/evolutionary_based/GA.py:283-299`) -/
theorem survive_never (hE : c.E.Lawful) (hpos : 0 < c.popSize) {new : List (Agent d K Nat)} (h : c.popSize < 10 ∨ new.length < c.popSize) :
    LT (only [.value, .index]) (TI c) 0 0 (survive new : M c Nat Nat Unit) (fun _ => False) := by
  have hv : only [.value, .index] .value := by simp [only]
  have hi : only [.value, .index] .index := by simp [only]
  unfold survive
  refine LT.bind0 LT.get fun s hs => ?_
  have hlen : s.pop.length = c.popSize := hs.len
  by_cases h10 : c.popSize < 10
  · refine LT.neverBind (lo := 0) (hi := 0) (LT.draw (DT.repMNever hpos (fun i hi => absurd hi (Nat.not_lt_zero i)) ?_))
    refine DT.bind (DT.kwayIdx_tenth hE Nat.one_pos (by omega)) fun l hl => ?_
    subst hl
    exact DT.nth_tol hi |>.mono fun _ h => by simp at h
  · refine LT.bind0 (LT.draw (R := fun l => True) (DT.mono (DT.repM (Q := fun _ => True) fun i _ => ?_) fun _ _ => trivial)) fun ids hids => ?_
    · exact DT.bind (DT.kwayIdx_tol hE (by omega) hv) fun l hl => DT.mono (DT.nth_tol hi) fun _ _ => trivial
    · rw [if_pos (by omega)]
      exact LT.throw hi

theorem evolve_never {p : Params K} (hE : c.E.Lawful) (hP : c.P.Lawful) (hpos : 0 < c.popSize) (h : c.popSize < 10 ∨ c.popSize % 2 = 1) {ep : Nat} :
    LT (only [.value, .index]) (TI c) 1 0 (evolve p ep : M c Nat Nat Unit) (fun _ => True) := by
  have hv : only [.value, .index] .value := by simp [only]
  have hi : only [.value, .index] .index := by simp [only]
  unfold evolve
  refine LT.bind0 (LT.weaken (LT.iter (lo := 0) (hi := 0)
    (fun i (l : List (Vec d K × Nat)) => l.length = 2 * i ∧ ∀ q ∈ l, Feas c q.1) _ ⟨rfl, by simp⟩ fun i acc hi' hacc => ?_)
      (by omega) (by omega)) fun kids hk => ?_
  · refine LT.bind0 (lt_pair hE hP hv hi) fun l hl => LT.pure ⟨by rw [List.length_append]; omega, fun q hq => ?_⟩
    rcases List.mem_append.1 hq with h | h
    · exact hacc.2 q h
    · exact hl.2 q h
  · refine LT.never (lo := kids.length + 0) (hi := kids.length + 0) (LT.bindL (LT.evalAll hE hk.2) fun new hn => survive_never hE hpos ?_)
    have hn : new.length = kids.length := hn
    have := hk.1
    omega

end GA


theorem DT.nth_never {l : List α} {i : Nat} {Q : α → Prop} (hi : l.length ≤ i) (h : Er .index) : DT Er (Mealpy.nth l i : D c α) Q := by
  unfold Mealpy.nth
  rw [List.getElem?_eq_none (by omega)]
  exact DT.throw h

/-- making position `k` never returns -/
theorem LT.buildEvalNeverAt {I : LInv d K Y} {n k : Nat} (hk : k < n) {mk : St c X Y → Nat → D c (Vec d K × X)} {R : List (Agent d K X) → Prop}
    (hi : ∀ (s : St c X Y) i, LHolds I s → i < k → DT Er (mk s i) (fun q => I.pos q.1))
    (h : ∀ s : St c X Y, LHolds I s → DT Er (mk s k) (fun _ => False)) : LT Er I lo hi' (Mealpy.buildEval n mk : M c X Y _) R := by
  unfold Mealpy.buildEval
  refine LT.ite (fun hm => ?_) fun _ => ?_
  · refine LT.bind0 LT.get fun s hs => LT.neverBind (LT.draw ?_)
    intro g
    refine Wp.mono (Wp.iter (fun i _ _ => i ≤ k) n (Nat.zero_le k) ?_) fun _ _ h => by omega
    rintro i a g' hin hik
    rcases Nat.lt_or_eq_of_le hik with q | rfl
    · exact Wp.bind (Wp.mono (hi s i hs q g') fun _ _ _ => Wp.pure (by omega))
    · exact Wp.bind (Wp.mono (h s hs g') fun _ _ h => h.elim)
  · refine LT.iterNever (l1 := 1) (h1 := 1) (lo := 0) (hi := 0) (k := k) hk (fun i _ hik => ?_) fun _ => ?_
    · exact LT.bind0 LT.get fun s hs => LT.bind0 (LT.draw (hi s i hs hik)) fun q hq => LT.bindL (LT.getTarget hq) fun t _ => LT.pure trivial
    · exact LT.bind0 LT.get fun s hs => LT.neverBind (LT.draw (h s hs))

/-- with an odd `pop_size` the last child has no partner (`mealpy/evolutionary_based/MA.py:178-180`) -/
theorem OriginalMA.raises (hE : c.E.Lawful) (hP : c.P.Lawful) (hc : Accepted c 5) (p : OriginalMA.Params K) (h : c.popSize % 2 = 1)
    (o : RunOpts K) (hst : FeasibleStart c o.starting) (b : Base c) (hb : b.log = []) :
    solve (OriginalMA.algo p : Algo c (List Bool) Unit) o b = .error .index := by
  have hpop := hc.pop
  have hep := hc.epoch
  refine (Algo.std_lok (Er := fun x => x = Err.index) (I := (⟨Feas c, fun n => n = c.popSize, JT⟩ : LInv d K Unit))
    (lo := 1) (hi := 0) hE hP rfl (fun n hn => by have : n = c.popSize := hn; omega) (fun _ h => h) rfl rfl (fun x => OriginalMA.dt_mkExt (x := x))
    (DT.pure trivial) fun ep _ _ => ?_).raises hE (by omega) (by omega) o hst b hb
  show LT _ _ _ _ (OriginalMA.evolve p ep) _
  unfold OriginalMA.evolve
  refine LT.bind0 LT.get fun s hs => ?_
  have hl : s.pop.length = c.popSize := hs.len
  refine LT.bind0 (LT.draw (DT.repM (Q := fun _ => True) fun k hk => ?_)) fun children hch => ?_
  · refine DT.bind (DT.kwayIdx hE (by omega) (by simp [KWay.size]) (by simp [KWay.size]; omega)) fun is his => DT.bind (DT.nth_mem (by rw [his.1]; simp [KWay.size])) fun i hi => ?_
    exact DT.mono (DT.nth_mem (his.2 i hi)) fun _ _ => trivial
  · refine LT.neverBind (lo := 0) (hi := 0) (LT.buildEvalNeverAt (k := c.popSize - 1) (by omega) (fun s i _ hi => ?_) fun s _ => ?_)
    · unfold OriginalMA.child
      refine DT.bind (R := fun _ => True) (DT.ite (fun h => DT.mono (DT.nth_mem (by omega)) fun _ _ => trivial) fun h => DT.mono (DT.nth_mem (by omega)) fun _ _ => trivial) fun a0 _ => ?_
      refine DT.bind (R := fun _ => True) (DT.ite (fun h => DT.mono (DT.nth_mem (by omega)) fun _ _ => trivial) fun h => DT.pure trivial) fun a _ => ?_
      exact DT.bind (DT.nth_mem (by omega)) fun x _ => DT.bind OriginalMA.dt_crossover fun l _ => DT.bind OriginalMA.dt_pointMutation fun l2 _ => OriginalMA.dt_express hP
    · unfold OriginalMA.child
      rw [if_pos (by omega)]
      exact DT.neverBind (DT.nth_never (by omega) rfl)

theorem DT.integers_never {lo hi : Int} {Q : Int → Prop} (h : hi ≤ lo) (he : Er .value) : DT Er (Mealpy.integers lo hi : D c Int) Q := by
  unfold Mealpy.integers
  rw [if_neg (by omega)]
  exact DT.throw he

/-- the first coordinate never returns -/
theorem DT.vecMNever {α : Type} (hd : 0 < d) {f : Fin d → D c α} {Q : (Fin d → α) → Prop} (h : ∀ j, DT Er (f j) (fun _ => False)) : DT Er (Mealpy.vecM f) Q :=
  DT.mono (DT.vecM (Q := fun _ _ => False) h) fun _ g => (g ⟨0, hd⟩).elim

/-- the first move of a greedy loop never returns -/
theorem LT.greedyLoopNever {I : LInv d K Y} {n : Nat} (hn : 0 < n) {mk : St c X Y → Nat → D c (Vec d K × X)}
    (h : ∀ s, DT Er (mk s 0) (fun _ => False)) {R : Unit → Prop} : LT Er I lo hi (Mealpy.greedyLoop n mk : M c X Y Unit) R := by
  unfold Mealpy.greedyLoop
  refine LT.ite (fun hm => ?_) fun _ => ?_
  · refine LT.bind0 LT.get fun s hs => LT.neverBind (LT.draw ?_)
    intro g
    refine Wp.mono (Wp.iter (fun i _ _ => i = 0) n rfl ?_) fun _ _ h => by omega
    rintro i a g' hi rfl
    exact Wp.bind (Wp.mono (h s g') fun _ _ h => h.elim)
  · refine LT.iterNever (l1 := 0) (h1 := 0) (lo := 0) (hi := 0) (k := 0) hn (fun i _ hi => absurd hi (Nat.not_lt_zero i)) fun _ => ?_
    exact LT.bind0 LT.get fun s hs => LT.neverBind (LT.draw (h s))

namespace DevEFO

/-- the top field is empty: its first index cannot be drawn (`mealpy/physics_based/EFO.py:90`) -/
theorem raises (hE : c.E.Lawful) (hP : c.P.Lawful) (hc : Accepted c 5) (p : Params K) (h : top c p ≤ 0)
    (o : RunOpts K) (hst : FeasibleStart c o.starting) (b : Base c) (hb : b.log = []) : solve (algo p : Algo c Unit Unit) o b = .error .value := by
  have hpop := hc.pop
  have hep := hc.epoch
  refine (Algo.plain_lok (Er := fun x => x = Err.value) (pos := fun _ => True) (lo := 1) (hi := 0) hE hP (by omega) (fun _ _ => trivial) fun ep _ _ => ?_).raises hE
    (by omega) (by omega) o hst b hb
  unfold evolve
  refine LT.greedyLoopNever (by omega) fun s => ?_
  unfold move
  exact DT.neverBind (DT.integers_never h rfl)

end DevEFO

namespace OriginalEFO

/-- so is the array of such indexes, if there is a variable and an epoch (`mealpy/physics_based/EFO.py:191`) -/
theorem raises (hE : c.E.Lawful) (hP : c.P.Lawful) (hc : Accepted c 5) (p : DevEFO.Params K) (hd : 0 < d) (h : DevEFO.top c p ≤ 0)
    (o : RunOpts K) (hst : FeasibleStart c o.starting) (b : Base c) (hb : b.log = []) :
    solve (algo p : Algo c Unit (Vars d K)) o b = .error .value := by
  have hpop := hc.pop
  have hep := hc.epoch
  have key : ∀ Q : Vars d K → Prop, DT (fun x => x = Err.value) (arrays p : D c (Vars d K)) Q := by
    intro Q
    unfold arrays
    refine DT.neverBind ?_
    unfold indexes
    exact DT.vecMNever hd fun j => DT.repMNever (k := 0) (by omega) (fun i hi => absurd hi (Nat.not_lt_zero i)) (DT.neverBind (DT.integers_never h rfl))
  refine init_raises hE (by omega) (by omega) (fun _ _ => DT.pure trivial) (DT.pure trivial) (fun y q b hq => ?_) o hst b hb
  show Wp _ (initialization p y q) b _
  unfold initialization startPop
  cases q with
  | none =>
    refine Wp.bind (Wp.mono (BT.generatePopulation hE hP (mkExt := fun _ => pure ()) (n := c.popSize) (fun x _ => DT.pure trivial) b) fun pop b2 _ => ?_)
    exact Wp.bind (Wp.mono (BT.liftD (key fun _ => False) b2) fun _ _ h => h.2.elim)
  | some pop =>
    exact Wp.bind (Wp.pure (Wp.bind (Wp.mono (BT.liftD (key fun _ => False) b) fun _ _ h => h.2.elim)))

end OriginalEFO

namespace ImprovedBSO

/-- a population that cannot be cut into equal groups leaves an agent without one (`mealpy/human_based/BSO.py:100-121`) -/
theorem raises (hE : c.E.Lawful) (hP : c.P.Lawful) (hc : Accepted c 5) (p : Params K) (h2 : 2 ≤ p.m) (h5 : p.m ≤ c.popSize / 5) (h : c.popSize % p.m ≠ 0)
    (o : RunOpts K) (hst : FeasibleStart c o.starting) (b : Base c) (hb : b.log = []) :
    solve (algo p : Algo c Unit (Centers d K)) o b = .error .index := by
  have hpop := hc.pop
  have hep := hc.epoch
  have hk : 0 < size c p.m := Nat.div_pos (by omega) (by omega)
  have hm : p.m * size c p.m < c.popSize := by
    have := Nat.div_add_mod c.popSize p.m
    show p.m * (c.popSize / p.m) < _
    omega
  have hat : ∀ {i j}, i < p.m → j < size c p.m → i * size c p.m + j < c.popSize := by
    intro i j hi hj
    have h1 : (i + 1) * size c p.m ≤ p.m * size c p.m := Nat.mul_le_mul_right _ hi
    rw [Nat.add_mul, Nat.one_mul] at h1
    omega
  have hcen : ∀ {pop : List (Agent d K Unit)}, pop.length = c.popSize → DT (fun x => x = Err.index) (centers p.m pop : D c _) (fun l => l.length = p.m) := by
    intro pop hl
    unfold centers
    refine DT.mono (DT.repM (Q := fun _ => True) fun i hi => DT.mono (DT.bestAgent' hE ?_) fun _ _ => trivial) fun l hl => hl.1
    have h1 := hat hi hk
    rw [List.length_take, List.length_drop, hl]
    omega
  have hbet : ∀ {eps : K} {cs : Centers d K} {ps : List (Vec d K)}, cs.length = p.m → ps.length = c.popSize →
      DT (fun x => x = Err.index) (between p eps cs ps : D c _) (fun _ => True) := by
    intro eps cs ps hcs hps
    unfold between
    refine DT.bind (DT.choose2 hE (by omega)) fun ij hij => DT.bind DT.uniform' fun u _ => DT.ite (fun _ => ?_) fun _ => ?_
    · exact DT.bind (DT.nth_mem (by omega)) fun a _ => DT.bind (DT.nth_mem (by omega)) fun b _ => DT.bind DT.normalVec fun n _ => DT.pure trivial
    · refine DT.bind (DT.index hE hk) fun r1 hr1 => DT.bind (DT.index hE hk) fun r2 hr2 => ?_
      have g1 := hat (i := ij.1) (by omega) hr1
      have g2 := hat (i := ij.2) (by omega) hr2
      exact DT.bind (DT.nth_mem (by omega)) fun a _ => DT.bind (DT.nth_mem (by omega)) fun b _ => DT.bind DT.normalVec fun n _ => DT.pure trivial
  have hmv : ∀ {ep : Nat} {cs : Centers d K} {ps : List (Vec d K)} {i : Nat}, cs.length = p.m → ps.length = c.popSize → i < c.popSize →
      DT (fun x => x = Err.index) (move p ep cs ps i : D c _) (fun q => i / size c p.m < p.m ∧ q.1 < c.popSize ∧ Feas c q.2) := by
    intro ep cs ps i hcs hps hi
    unfold move
    refine DT.bind DT.uniform' fun u _ => DT.bind (R := fun _ => True) (DT.ite (fun _ => DT.bind DT.uniform' fun v _ => DT.ite (fun _ => ?_) fun _ => ?_) fun _ => hbet hcs hps) fun y _ =>
      DT.bind (DT.correct hP) fun pos hp => DT.ite (fun g => DT.pure ⟨g, hi, hp⟩) fun _ => DT.throw rfl
    · exact DT.bind (R := fun _ => True) (DT.mono (DT.nth_tol rfl) fun _ _ => trivial) fun a _ => DT.bind DT.normalVec fun n _ => DT.pure trivial
    · exact DT.bind DT.levyVec fun l _ => DT.bind (DT.nth_mem (by omega)) fun x _ => DT.pure trivial
  have hno : ¬ p.m * size c p.m / size c p.m < p.m := by rw [Nat.mul_div_cancel _ hk]; omega
  refine (Algo.custom_lok (Er := fun x => x = Err.index) (I := (⟨Feas c, fun n => n = c.popSize, Ok p.m⟩ : LInv d K (Centers d K)))
    (lo := 1) (hi := 0) (i1 := c.popSize) (i2 := c.popSize) (J0 := JT) (fun n hn => by have : n = c.popSize := hn; omega) (fun _ h => h) (fun _ _ => DT.pure trivial) (DT.pure trivial) le_rfl
    (fun y _ => ?_) (fun y pop _ hl => ?_) fun ep _ _ => ?_).raises hE (by omega) (by omega) o hst b hb
  · unfold initialization startPop
    exact BT.bindS (BT.generatePopulation hE hP fun x _ => DT.pure trivial) le_rfl fun pop hpop =>
      BT.bind0 (BT.liftD (hcen hpop.1)) fun l hl => BT.weaken (BT.pure ⟨hpop.1, hl⟩) (by omega) (by omega)
  · unfold initialization startPop
    rw [pure_bind]
    exact BT.bind0 (BT.liftD (hcen hl)) fun l hl' => BT.weaken (BT.pure ⟨hl, hl'⟩) (by omega) (by omega)
  · unfold evolve
    refine LT.never (lo := 0) (hi := 1) (LT.bindS (l1 := 0) (h1 := 1) (R := fun _ => True) ?_ (by omega) fun _ _ => LT.neverBind (lo := 0) (hi := 0) ?_)
    · unfold respawn
      refine LT.bind0 (LT.draw DT.uniform') fun u _ => LT.ite (fun _ => ?_) fun _ => LT.weaken (LT.pure trivial) (by omega) (by omega)
      refine LT.bind0 (LT.draw (DT.index hE (by omega))) fun i hi => LT.bind0 (LT.draw (DT.genSolution hP)) fun x hx => LT.weaken (LT.bindL (LT.agentOf hx (DT.pure trivial)) fun a _ => ?_) (by omega) (by omega)
      exact LT.modExt fun y hy => (List.length_set ..).trans hy
    · unfold loop
      refine LT.ite (fun _ => ?_) fun _ => LT.iterNever (l1 := 1) (h1 := 1) (lo := 0) (hi := 0) hm (fun i _ hi => ?_) fun _ => ?_
      · refine LT.bind0 LT.get fun s hs => LT.neverBind (lo := 0) (hi := 0) (LT.draw ?_)
        have hl : s.pop.length = c.popSize := hs.len
        unfold movePos
        refine DT.mono (DT.iter (fun i (l : List (Vec d K)) => i ≤ p.m * size c p.m ∧ l.length = c.popSize) c.popSize ⟨Nat.zero_le _, by rw [List.length_map]; exact hl⟩ ?_) fun _ h => by omega
        rintro i l hi ⟨hi2, hl2⟩
        refine DT.bind (hmv hs.ext hl2 hi) fun q hq => DT.pure ⟨?_, (List.length_set ..).trans hl2⟩
        rcases Nat.lt_or_eq_of_le hi2 with g | g
        · omega
        · exact absurd (g ▸ hq.1) hno
      · refine LT.bind0 LT.get fun s hs => ?_
        have hl : s.pop.length = c.popSize := hs.len
        refine LT.bind0 (LT.draw (hmv hs.ext (by rw [List.length_map]; exact hl) (by omega))) fun q hq => LT.bindL (LT.agentOf hq.2.2 (DT.pure trivial)) fun a _ => ?_
        exact LT.setAt fun n hn => by have : n = c.popSize := hn; omega
      · refine LT.bind0 LT.get fun s hs => ?_
        have hl : s.pop.length = c.popSize := hs.len
        exact LT.neverBind (LT.draw (DT.mono (hmv hs.ext (by rw [List.length_map]; exact hl) hm) fun q hq => hno hq.1))

end ImprovedBSO
end Mealpy
