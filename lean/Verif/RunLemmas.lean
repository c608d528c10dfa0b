import Verif.Frame

/-!
# The epochs of a run

`IsRun`, `InitialPopulation` and `EpochRecord` describe a run of `solve` as the list of its epochs;
`HistInv` is the invariant that ties the history lists to the populations at the ends of the epochs.
-/

set_option linter.unusedSectionVars false
set_option linter.unusedVariables false

namespace Mealpy
open Spec

variable {d : Nat} {K : Type} [Num K] {c : Cfg d K} {X Y α : Type}

/-- The algorithm changes the history, if at all, only through `update_global_best_agent(save=False)`
(`q = false`), or not at all (`q = true`), and evaluates only through `get_target` and
`update_target_for_population`. -/
structure Disciplined (q : Bool) (A : Algo c X Y) : Prop where
  before : Framed q A.beforeMain
  evolve : ∀ ep, Framed q (A.evolve ep)

/-- `L` lists the results of consecutive epochs (stop flag and state), the first being number `e`
and starting from state `s`. -/
def IsRun (A : Algo c X Y) (o : RunOpts K) : Nat → St c X Y → List (Bool × St c X Y) → Prop
  | _, _, [] => True
  | e, s, r :: L => epochStep A o e s = .ok (r.1, r.2) ∧ IsRun A o (e + 1) r.2 L

/-- the state after the listed epochs -/
def finalState (s : St c X Y) (L : List (Bool × St c X Y)) : St c X Y :=
  match L.getLast? with
  | some r => r.2
  | none => s

theorem finalState_cons (s : St c X Y) (r : Bool × St c X Y) (L : List (Bool × St c X Y)) :
    finalState s (r :: L) = finalState r.2 L := by
  unfold finalState
  cases L with
  | nil => rfl
  | cons r' L => simp [List.getLast?_cons]

theorem mainLoop_run {A : Algo c X Y} {o : RunOpts K} : ∀ (n e : Nat) (s s' : St c X Y),
    mainLoop A o n e s = .ok ((), s') → ∃ L, IsRun A o e s L ∧ L.length ≤ n ∧ s' = finalState s L ∧
      (∀ i r, i + 1 < L.length → L[i]? = some r → r.1 = false) ∧
      (L.length = n ∨ ∃ r, L.getLast? = some r ∧ r.1 = true)
  | 0, e, s, s', h => by
    unfold mainLoop at h
    injection h with h
    obtain ⟨-, rfl⟩ := Prod.mk.inj h
    exact ⟨[], trivial, by simp, rfl, by simp, Or.inl rfl⟩
  | n + 1, e, s, s', h => by
    unfold mainLoop at h
    change (epochStep A o e s >>= fun p => _) = _ at h
    cases hs : epochStep A o e s with
    | error er => rw [hs] at h; cases h
    | ok p =>
      obtain ⟨f, s1⟩ := p
      rw [hs] at h
      change ((if f then pure () else mainLoop A o n (e + 1)) : M c X Y Unit) s1 = _ at h
      cases f with
      | true =>
        injection h with h
        obtain ⟨-, rfl⟩ := Prod.mk.inj h
        exact ⟨[(true, s1)], ⟨hs, trivial⟩, by simp, rfl, by simp, Or.inr ⟨_, rfl, rfl⟩⟩
      | false =>
        obtain ⟨L, h1, h2, h3, h4, h5⟩ := mainLoop_run n (e + 1) s1 s' h
        refine ⟨(false, s1) :: L, ⟨hs, h1⟩, by simp; omega, by rw [finalState_cons]; exact h3, ?_, ?_⟩
        · intro i r hi hr
          cases i with
          | zero => simp at hr; rw [← hr]
          | succ i => exact h4 i r (by simp at hi; omega) (by simpa using hr)
        · rcases h5 with h5 | ⟨r, h5, h6⟩
          · exact Or.inl (by simp [h5])
          · refine Or.inr ⟨r, ?_, h6⟩
            cases L with
            | nil => cases h5
            | cons r' L => rw [List.getLast?_cons_cons]; exact h5

/-- the population `solve` starts the main loop with, and the options with the start time filled in -/
def InitialPopulation (A : Algo c X Y) (o : RunOpts K) (b : Base c) (pop0 : List (Agent d K X)) : Prop :=
  ∃ o' b1 y b2, startTermination o b = .ok (o', b1) ∧ initialPop A o' b1 = .ok ((pop0, y), b2)

/-- `L` lists the epochs `solve A o b` executes, with the options `o'` (start time filled in) -/
def EpochRecord (A : Algo c X Y) (o : RunOpts K) (b : Base c) (o' : RunOpts K) (L : List (Bool × St c X Y)) :
    Prop := ∃ s0, solveInit A o b = .ok (o', s0) ∧ IsRun A o' 1 s0 L

theorem solveInit_of {A : Algo c X Y} {o o' : RunOpts K} {b b1 b2 : Base c} {pop0 : List (Agent d K X)} {y : Y}
    {s0 s1 : St c X Y} (h1 : startTermination o b = .ok (o', b1)) (h2 : initialPop A o' b1 = .ok ((pop0, y), b2))
    (h3 : afterInit A.sortFlag pop0 y b2 = .ok s0) (h4 : A.beforeMain s0 = .ok ((), s1)) :
    solveInit A o b = .ok (o', s1) := by
  unfold solveInit
  rw [h1]
  dsimp only [bind, Except.bind]
  rw [h2]
  dsimp only
  rw [h3]
  dsimp only
  rw [h4]
  rfl

/-! ## `ImproveLast` -/

theorem ImproveLast.get {R : α → α → Prop} {l l' : List α} (h : ImproveLast R l l') (hR : ∀ a, R a a) {j : Nat}
    {x : α} (hx : l'[j]? = some x) : ∃ y, l[j]? = some y ∧ R y x := by
  rcases h with rfl | ⟨p, a, b, rfl, rfl, hab⟩
  · exact ⟨x, hx, hR x⟩
  · rw [List.getElem?_append] at hx ⊢
    split at hx
    · rename_i hj
      exact ⟨x, by rw [if_pos hj]; exact hx, hR x⟩
    · rename_i hj
      rw [if_neg hj]
      cases hi : j - p.length with
      | zero => rw [hi] at hx; simp at hx; subst hx; exact ⟨a, by simp, hab⟩
      | succ n => rw [hi] at hx; simp at hx

theorem ImproveLast.mem {R : α → α → Prop} {l l' : List α} (h : ImproveLast R l l') (hR : ∀ a, R a a)
    {x : α} (hx : x ∈ l') : ∃ y ∈ l, R y x := by
  obtain ⟨j, hj⟩ := List.mem_iff_getElem?.1 hx
  obtain ⟨y, h1, h2⟩ := h.get hR hj
  exact ⟨y, List.mem_of_getElem? h1, h2⟩

theorem ImproveLast.pairwise {R : α → α → Prop} (hT : ∀ a b c, R a b → R b c → R a c) {l l' : List α}
    (h : ImproveLast R l l') (hp : l.Pairwise R) : l'.Pairwise R := by
  rcases h with rfl | ⟨p, a, b, rfl, rfl, hab⟩
  · exact hp
  · rw [List.pairwise_append] at hp ⊢
    refine ⟨hp.1, by simp, ?_⟩
    intro x hx y hy
    rw [List.mem_singleton.1 hy]
    exact hT _ _ _ (hp.2.2 x hx a (by simp)) hab

theorem pairwise_concat {R : α → α → Prop} (hT : ∀ a b c, R a b → R b c → R a c) {l : List α} {a b : α}
    (hp : l.Pairwise R) (hl : l.getLast? = some a) (hab : R a b) : (l ++ [b]).Pairwise R := by
  rw [List.pairwise_append]
  refine ⟨hp, by simp, ?_⟩
  intro x hx y hy
  rw [List.mem_singleton.1 hy]
  obtain ⟨p, rfl⟩ := List.getLast?_eq_some_iff.1 hl
  rcases List.mem_append.1 hx with h | h
  · exact hT _ _ _ ((List.pairwise_append.1 hp).2.2 x h a (by simp)) hab
  · rw [List.mem_singleton.1 h]; exact hab

/-! ## One epoch -/

theorem epochStep_facts (hE : c.E.Lawful) {q : Bool} {A : Algo c X Y} (hA : Disciplined q A) {o : RunOpts K}
    {e : Nat} {s s' : St c X Y} {f : Bool} (h : epochStep A o e s = .ok (f, s')) :
    ∃ s1, Fr q s s1 ∧ EpochEnd A.sortFlag o.savePop s1 s' ∧
      ∃ time, f = stopFlag o e s' time ∧ (o.term ≠ none → LastClock s' time) := by
  have := epochStep_wp (Er := fun _ => True) hE (A := A) (o := o) (epoch := e) (s := s) (R := fun s1 => Fr q s s1)
    (fun r v => by
      refine Wp.mono (hA.evolve e _) fun _ s1 h => ?_
      exact ⟨⟨h.base.log, h.base.count, h.base.under⟩, h.hist, h.quiet⟩)
    (.inl fun _ => trivial)
  exact this.elim h

theorem EpochEnd.mem_pop (hE : c.E.Lawful) {sf save : Bool} {s1 s' : St c X Y} (h : EpochEnd sf save s1 s')
    {a : Agent d K X} : a ∈ s'.pop ↔ a ∈ s1.pop := by
  rw [h.pop]
  split
  · exact getSorted_mem hE.argsortLaw
  · rfl

/-- The invariant; `pops` are the populations at the ends of the epochs so far. -/
structure HistInv (c : Cfg d K) (q save : Bool) (pop0 : List (Agent d K X)) (pops : List (List (Agent d K X)))
    (s : St c X Y) : Prop where
  lenGb : s.hist.globalBest.length = pops.length + 1
  lenCb : s.hist.currentBest.length = pops.length + 1
  lenGw : s.hist.globalWorst.length = pops.length + 1
  lenCw : s.hist.currentWorst.length = pops.length + 1
  lenTime : s.hist.epochTime.length = pops.length
  lenGbf : s.hist.globalBestFit.length = pops.length
  lenCbf : s.hist.currentBestFit.length = pops.length
  div : s.hist.diversity = pops.map diversity
  saved : s.hist.population = if save then pops else []
  monoGb : s.hist.globalBest.Pairwise (fun a b => NoWorse c.P.mm b.fit a.fit)
  monoGw : s.hist.globalWorst.Pairwise (fun a b => NoWorse c.P.mm a.fit b.fit)
  initGb : ∀ a ∈ pop0, ∀ g ∈ s.hist.globalBest, NoWorse c.P.mm g.fit a.fit
  initGw : ∀ a ∈ pop0, ∀ g ∈ s.hist.globalWorst, NoWorse c.P.mm a.fit g.fit
  coverGb : ∀ i j P g, pops[i]? = some P → s.hist.globalBest[j + 1]? = some g → i ≤ j →
    ∀ a ∈ P, NoWorse c.P.mm g.fit a.fit
  coverGw : ∀ i j P g, pops[i]? = some P → s.hist.globalWorst[j + 1]? = some g → i ≤ j →
    ∀ a ∈ P, NoWorse c.P.mm a.fit g.fit
  cbf : ∀ (i : Nat) (P : List (Agent d K X)) (v : K), pops[i]? = some P → s.hist.currentBestFit[i]? = some v →
    (∃ a ∈ P, a.fit = v) ∧ ∀ a ∈ P, NoWorse c.P.mm v a.fit
  last : pops ≠ [] → s.hist.globalBest.getLast? = some s.gbest
  gbfQ : q = true → s.hist.globalBestFit = s.hist.globalBest.tail.map Agent.fit
  cbfQ : q = true → s.hist.currentBestFit = s.hist.currentBest.tail.map Agent.fit
  memQ : q = true → ∀ g ∈ s.hist.globalBest, g ∈ pop0 ∨ ∃ P ∈ pops, g ∈ P
  memWQ : q = true → ∀ g ∈ s.hist.globalWorst, g ∈ pop0 ∨ ∃ P ∈ pops, g ∈ P

/-- framed code keeps the invariant (the last clause apart, which it re-establishes at the end of the
epoch) -/
theorem HistInv.frame {q save : Bool} {pop0 : List (Agent d K X)} {pops : List (List (Agent d K X))}
    {s s1 : St c X Y} (h : HistInv c q save pop0 pops s) (hf : Fr q s s1)
    (hlast : pops ≠ [] → s1.hist.globalBest.getLast? = some s1.gbest) : HistInv c q save pop0 pops s1 := by
  have hh := hf.hist
  have tg : ∀ a b e : Agent d K X, NoWorse c.P.mm b.fit a.fit → NoWorse c.P.mm e.fit b.fit →
      NoWorse c.P.mm e.fit a.fit := fun a b e h1 h2 => h2.trans h1
  have tw : ∀ a b e : Agent d K X, NoWorse c.P.mm a.fit b.fit → NoWorse c.P.mm b.fit e.fit →
      NoWorse c.P.mm a.fit e.fit := fun a b e h1 h2 => h1.trans h2
  refine
  { lenGb := by rw [hh.globalBest.length]; exact h.lenGb
    lenCb := by rw [hh.currentBest.length]; exact h.lenCb
    lenGw := by rw [hh.globalWorst.length]; exact h.lenGw
    lenCw := by rw [hh.currentWorst.length]; exact h.lenCw
    lenTime := by rw [hh.epochTime]; exact h.lenTime
    lenGbf := by rw [hh.globalBestFit]; exact h.lenGbf
    lenCbf := by rw [hh.currentBestFit]; exact h.lenCbf
    div := by rw [hh.diversity]; exact h.div
    saved := by rw [hh.population]; exact h.saved
    monoGb := hh.globalBest.pairwise tg h.monoGb
    monoGw := hh.globalWorst.pairwise tw h.monoGw
    initGb := ?_
    initGw := ?_
    coverGb := ?_
    coverGw := ?_
    cbf := by rw [hh.currentBestFit]; exact h.cbf
    last := hlast
    gbfQ := fun hq => by rw [hf.quiet hq]; exact h.gbfQ hq
    cbfQ := fun hq => by rw [hf.quiet hq]; exact h.cbfQ hq
    memQ := fun hq => by rw [hf.quiet hq]; exact h.memQ hq
    memWQ := fun hq => by rw [hf.quiet hq]; exact h.memWQ hq }
  · intro a ha g hg
    obtain ⟨y, hy, hn⟩ := hh.globalBest.mem (fun _ => NoWorse.rfl) hg
    exact hn.trans (h.initGb a ha y hy)
  · intro a ha g hg
    obtain ⟨y, hy, hn⟩ := hh.globalWorst.mem (fun _ => NoWorse.rfl) hg
    exact (h.initGw a ha y hy).trans hn
  · intro i j P g hP hg hij a ha
    obtain ⟨y, hy, hn⟩ := hh.globalBest.get (fun _ => NoWorse.rfl) hg
    exact hn.trans (h.coverGb i j P y hP hy hij a ha)
  · intro i j P g hP hg hij a ha
    obtain ⟨y, hy, hn⟩ := hh.globalWorst.get (fun _ => NoWorse.rfl) hg
    exact (h.coverGw i j P y hP hy hij a ha).trans hn

theorem getElem?_concat_cases {l : List α} {a x : α} {j : Nat} (h : (l ++ [a])[j]? = some x) :
    (l[j]? = some x) ∨ (j = l.length ∧ x = a) := by
  rw [List.getElem?_append] at h
  split at h
  · exact .inl h
  · cases hi : j - l.length with
    | zero => rw [hi] at h; simp at h; exact .inr ⟨by omega, h.symm⟩
    | succ n => rw [hi] at h; simp at h

theorem tail_concat {l : List α} (h : l ≠ []) (a : α) : (l ++ [a]).tail = l.tail ++ [a] := by
  cases l with
  | nil => exact absurd rfl h
  | cons x l => rfl

/-- the bookkeeping at the end of an epoch -/
theorem HistInv.epoch (hE : c.E.Lawful) {q sf save : Bool} {pop0 : List (Agent d K X)}
    {pops : List (List (Agent d K X))} {s s1 s' : St c X Y} (h0 : HistInv c q save pop0 pops s) (hf : Fr q s s1)
    (he : EpochEnd sf save s1 s') : HistInv c q save pop0 (pops ++ [s'.pop]) s' := by
  -- the frame part, with a placeholder `g_best`
  have hl1 := hf.hist.globalBest.length
  rw [h0.lenGb] at hl1
  have hex : ∃ g1, s1.hist.globalBest.getLast? = some g1 := by
    cases hg : s1.hist.globalBest.getLast? with
    | none => rw [List.getLast?_eq_none_iff] at hg; rw [hg] at hl1; simp at hl1
    | some g => exact ⟨g, rfl⟩
  obtain ⟨g1, hg1⟩ := hex
  have h : HistInv c q save pop0 pops { s1 with gbest := g1 } :=
    h0.frame ⟨hf.base, hf.hist, hf.quiet⟩ (fun _ => hg1)
  have hmem : ∀ a, a ∈ s'.pop ↔ a ∈ s1.pop := fun a => he.mem_pop hE
  obtain ⟨cb, cw, gb, gw, tm, ⟨hcb, hcb'⟩, ⟨hcw, hcw'⟩, hgb, hgw, hg, hh⟩ := he.hist
  have hB := getBetterAgent_cases cb gb c.P.mm
  have hW := getBetterAgent_reverse_cases cw gw c.P.mm
  have hgbm := List.mem_of_getLast? hgb
  have hgwm := List.mem_of_getLast? hgw
  have hne1 : s1.hist.globalBest ≠ [] := by intro h; rw [h] at hgb; cases hgb
  have hne2 : s1.hist.currentBest ≠ [] := by
    intro hn; have := h.lenCb; dsimp only at this; rw [hn] at this; simp at this
  have L1 : s1.hist.globalBest.length = pops.length + 1 := h.lenGb
  have L3 : s1.hist.globalWorst.length = pops.length + 1 := h.lenGw
  generalize getBetterAgent cb gb c.P.mm = G at *
  generalize getBetterAgent cw gw c.P.mm true = W at *
  refine
  { lenGb := by rw [hh]; simp [L1]
    lenCb := by rw [hh]; simpa using h.lenCb
    lenGw := by rw [hh]; simp [L3]
    lenCw := by rw [hh]; simpa using h.lenCw
    lenTime := by rw [hh]; simpa using h.lenTime
    lenGbf := by rw [hh]; simpa using h.lenGbf
    lenCbf := by rw [hh]; simpa using h.lenCbf
    div := by rw [hh]; simpa using h.div
    saved := ?_
    monoGb := ?_
    monoGw := ?_
    initGb := ?_
    initGw := ?_
    coverGb := ?_
    coverGw := ?_
    cbf := ?_
    last := ?_
    gbfQ := ?_
    cbfQ := ?_
    memQ := ?_
    memWQ := ?_ }
  · have := h.saved
    dsimp only at this
    rw [hh]
    dsimp only
    cases save <;> simp_all
  · rw [hh]
    exact pairwise_concat (fun a b e h1 h2 => h2.trans h1) h.monoGb hgb hB.2.2
  · rw [hh]
    exact pairwise_concat (fun a b e h1 h2 => h1.trans h2) h.monoGw hgw hW.2.2
  · intro a ha g hgm
    rw [hh] at hgm
    rcases List.mem_append.1 hgm with hgm | hgm
    · exact h.initGb a ha g hgm
    · rw [List.mem_singleton.1 hgm]
      exact hB.2.2.trans (h.initGb a ha gb hgbm)
  · intro a ha g hgm
    rw [hh] at hgm
    rcases List.mem_append.1 hgm with hgm | hgm
    · exact h.initGw a ha g hgm
    · rw [List.mem_singleton.1 hgm]
      exact (h.initGw a ha gw hgwm).trans hW.2.2
  · intro i j P g hP hgj hij a ha
    rw [hh] at hgj
    rcases getElem?_concat_cases hgj with hgj | ⟨hj, rfl⟩
    · rcases getElem?_concat_cases hP with hP | ⟨rfl, rfl⟩
      · exact h.coverGb i j P g hP hgj hij a ha
      · have := (List.getElem?_eq_some_iff.1 hgj).1
        omega
    · rcases getElem?_concat_cases hP with hP | ⟨rfl, rfl⟩
      · refine hB.2.2.trans ?_
        have hlast : s1.hist.globalBest[pops.length]? = some gb := by
          rw [List.getLast?_eq_getElem?, L1] at hgb; simpa using hgb
        have hpl : 0 < pops.length := by
          have := (List.getElem?_eq_some_iff.1 hP).1; omega
        obtain ⟨m, hm⟩ : ∃ m, pops.length = m + 1 := ⟨pops.length - 1, by omega⟩
        have hi := (List.getElem?_eq_some_iff.1 hP).1
        rw [hm] at hlast
        exact h.coverGb i m P gb hP hlast (by omega) a ha
      · exact hB.2.1.trans (hcb' a ((hmem a).1 ha))
  · intro i j P g hP hgj hij a ha
    rw [hh] at hgj
    rcases getElem?_concat_cases hgj with hgj | ⟨hj, rfl⟩
    · rcases getElem?_concat_cases hP with hP | ⟨rfl, rfl⟩
      · exact h.coverGw i j P g hP hgj hij a ha
      · have := (List.getElem?_eq_some_iff.1 hgj).1
        omega
    · rcases getElem?_concat_cases hP with hP | ⟨rfl, rfl⟩
      · refine NoWorse.trans ?_ hW.2.2
        have hlast : s1.hist.globalWorst[pops.length]? = some gw := by
          rw [List.getLast?_eq_getElem?, L3] at hgw; simpa using hgw
        have hi := (List.getElem?_eq_some_iff.1 hP).1
        obtain ⟨m, hm⟩ : ∃ m, pops.length = m + 1 := ⟨pops.length - 1, by omega⟩
        rw [hm] at hlast
        exact h.coverGw i m P gw hP hlast (by omega) a ha
      · exact (hcw' a ((hmem a).1 ha)).trans hW.2.1
  · intro i P v hP hv
    rw [hh] at hv
    have hlc : s1.hist.currentBestFit.length = pops.length := h.lenCbf
    rcases getElem?_concat_cases hP with hP | ⟨rfl, rfl⟩
    · have hi := (List.getElem?_eq_some_iff.1 hP).1
      rcases getElem?_concat_cases hv with hv | ⟨hj, rfl⟩
      · exact h.cbf i P v hP hv
      · omega
    · rcases getElem?_concat_cases hv with hv | ⟨hj, rfl⟩
      · have := (List.getElem?_eq_some_iff.1 hv).1
        omega
      · exact ⟨⟨cb, (hmem cb).2 hcb, rfl⟩, fun a ha => hcb' a ((hmem a).1 ha)⟩
  · intro _
    rw [hh, hg]
    simp
  · intro hq
    have := h.gbfQ hq
    dsimp only at this
    rw [hh]
    dsimp only
    rw [tail_concat hne1, List.map_append, ← this]
    rfl
  · intro hq
    have := h.cbfQ hq
    dsimp only at this
    rw [hh]
    dsimp only
    rw [tail_concat hne2, List.map_append, ← this]
    rfl
  · intro hq g hgm
    rw [hh] at hgm
    have old : ∀ g ∈ s1.hist.globalBest, g ∈ pop0 ∨ ∃ P ∈ pops ++ [s'.pop], g ∈ P := by
      intro g hgm
      rcases h.memQ hq g hgm with h' | ⟨P, hP, h'⟩
      · exact .inl h'
      · exact .inr ⟨P, List.mem_append_left _ hP, h'⟩
    rcases List.mem_append.1 hgm with hgm | hgm
    · exact old g hgm
    · rw [List.mem_singleton.1 hgm]
      rcases hB.1 with h' | h'
      · rw [h']; exact .inr ⟨s'.pop, by simp, (hmem cb).2 hcb⟩
      · rw [h']; exact old gb hgbm
  · intro hq g hgm
    rw [hh] at hgm
    have old : ∀ g ∈ s1.hist.globalWorst, g ∈ pop0 ∨ ∃ P ∈ pops ++ [s'.pop], g ∈ P := by
      intro g hgm
      rcases h.memWQ hq g hgm with h' | ⟨P, hP, h'⟩
      · exact .inl h'
      · exact .inr ⟨P, List.mem_append_left _ hP, h'⟩
    rcases List.mem_append.1 hgm with hgm | hgm
    · exact old g hgm
    · rw [List.mem_singleton.1 hgm]
      rcases hW.1 with h' | h'
      · rw [h']; exact .inr ⟨s'.pop, by simp, (hmem cw).2 hcw⟩
      · rw [h']; exact old gw hgwm

theorem HistInv.run (hE : c.E.Lawful) {q : Bool} {A : Algo c X Y} (hA : Disciplined q A) {o : RunOpts K}
    {pop0 : List (Agent d K X)} : ∀ (L : List (Bool × St c X Y)) (e : Nat) (s : St c X Y)
      (pops : List (List (Agent d K X))), HistInv c q o.savePop pop0 pops s → IsRun A o e s L →
      HistInv c q o.savePop pop0 (pops ++ L.map (fun r => r.2.pop)) (finalState s L)
  | [], e, s, pops, h, _ => by simpa [finalState] using h
  | r :: L, e, s, pops, h, hr => by
    obtain ⟨s1, hf, he, -⟩ := epochStep_facts hE hA hr.1
    have := HistInv.run hE hA L (e + 1) r.2 _ (h.epoch hE hf he) hr.2
    rw [finalState_cons]
    simpa using this

/-- the state before the main loop -/
theorem HistInv.start (hE : c.E.Lawful) {q save : Bool} {A : Algo c X Y} (hA : Disciplined q A)
    {pop0 : List (Agent d K X)} {y : Y} {b : Base c} {s0 s1 : St c X Y}
    (h3 : afterInit A.sortFlag pop0 y b = .ok s0) (h4 : A.beforeMain s0 = .ok ((), s1)) :
    HistInv c q save pop0 [] s1 := by
  obtain ⟨best, worst, ⟨hb, hb'⟩, ⟨hw, hw'⟩, rfl⟩ := afterInit_ok hE h3
  have hf := (hA.before _).elim h4
  refine HistInv.frame ?_ hf (fun h => absurd rfl h)
  exact
    { lenGb := rfl, lenCb := rfl, lenGw := rfl, lenCw := rfl, lenTime := rfl, lenGbf := rfl, lenCbf := rfl
      div := rfl
      saved := by cases save <;> rfl
      monoGb := by simp
      monoGw := by simp
      initGb := by intro a ha g hg; rw [List.mem_singleton.1 hg]; exact hb' a ha
      initGw := by intro a ha g hg; rw [List.mem_singleton.1 hg]; exact hw' a ha
      coverGb := by intro i j P g hP; simp at hP
      coverGw := by intro i j P g hP; simp at hP
      cbf := by intro i P v hP; simp at hP
      last := fun h => absurd rfl h
      gbfQ := fun _ => rfl
      cbfQ := fun _ => rfl
      memQ := by intro _ g hg; rw [List.mem_singleton.1 hg]; exact .inl hb
      memWQ := by intro _ g hg; rw [List.mem_singleton.1 hg]; exact .inl hw }

/-- everything about a finished run -/
theorem solve_record (hE : c.E.Lawful) {q : Bool} {A : Algo c X Y} (hA : Disciplined q A) {o : RunOpts K}
    {b : Base c} {s : St c X Y} {h : FinalHist d K X} (hs : solve A o b = .ok (s, h)) :
    ∃ pop0 o' L, InitialPopulation A o b pop0 ∧ EpochRecord A o b o' L ∧ L ≠ [] ∧
      (∃ s0, s = finalState s0 L) ∧ h.epoch = L.length ∧ L.length ≤ c.epoch ∧
      (∀ i r, i + 1 < L.length → L[i]? = some r → r.1 = false) ∧
      (L.length = c.epoch ∨ ∃ r, L.getLast? = some r ∧ r.1 = true) ∧
      trackProcess s.hist = .ok h ∧ o'.savePop = o.savePop ∧
      HistInv c q o.savePop pop0 (L.map (fun r => r.2.pop)) s := by
  obtain ⟨o', b1, pop0, y, b2, s0, s1, h1, h2, h3, h4, h5, h6⟩ := solve_ok hs
  obtain ⟨o'', b1', h1', -, hsp, -⟩ := startTermination_ok o b
  rw [h1] at h1'
  injection h1' with h1'
  obtain ⟨rfl, rfl⟩ := Prod.mk.inj h1'
  obtain ⟨L, g1, g2, g3, g4, g5⟩ := mainLoop_run _ _ _ _ h5
  have hinv := HistInv.run hE hA L 1 s1 [] (HistInv.start (save := o'.savePop) hE hA h3 h4) g1
  rw [List.nil_append, ← g3] at hinv
  obtain ⟨t1, -⟩ := trackProcess_ok h6
  rw [hinv.div] at t1
  have hne : L ≠ [] := by
    intro hL
    have hd := hinv.div
    rw [hL] at hd
    unfold trackProcess at h6
    rw [hd] at h6
    simp [listMax] at h6
  refine ⟨pop0, o', L, ⟨o', b1, y, b2, h1, h2⟩, ⟨s1, solveInit_of h1 h2 h3 h4, g1⟩, hne, ⟨s1, g3⟩,
    by simpa using t1, g2, g4, g5, h6, hsp, by rw [← hsp]; exact hinv⟩

end Mealpy
