import Verif.Alg.Weak
import Verif.RunLemmas

/-!
# Runs that keep what they evaluate

An algorithm whose population, after each epoch, covers every point evaluated during that epoch returns the
best point it ever evaluated.  Nothing else is asked: the population may change its size and forget older
points, since `solve` keeps the best of every population in the history.
-/

set_option linter.unusedSectionVars false
set_option linter.unusedVariables false

namespace Mealpy
open Spec

variable {d : Nat} {K : Type} [Num K] {c : Cfg d K} {X Y : Type} {α : Type}

/-- the points evaluated between `s` and `s'` are covered by the population of `s'`; the history is the same -/
def Covers (s s' : St c X Y) : Prop :=
  s'.hist = s.hist ∧ ∃ new, s'.base.log = s.base.log ++ new ∧
    ∀ x ∈ new, ∃ a ∈ s'.pop, NoWorse c.P.mm a.fit (c.P.target x).fitness

/-- every evaluated point is covered by the last recorded best agent -/
def Seen (s : St c X Y) : Prop :=
  ∃ g, s.hist.globalBest.getLast? = some g ∧ ∀ x ∈ s.base.log, NoWorse c.P.mm g.fit (c.P.target x).fitness

theorem covers_best {A : Algo c X Y} (hE : c.E.Lawful) (hP : c.P.Lawful) (hpos : 0 < c.popSize) (hep : 0 < c.epoch)
    (hinit : A.initialization = defaultInit A.mkExt)
    (hbefore : ∀ s, Wp (fun _ => True) A.beforeMain s (fun _ s' => s'.hist = s.hist ∧ s'.base.log = s.base.log))
    (hev : ∀ ep s, Wp (fun _ => True) (A.evolve ep) s (fun _ s' => Covers s s'))
    {o : RunOpts K} (hst : FeasibleStart c o.starting) {b : Base c} (hb : b.log = [])
    {s : St c X Y} {h : FinalHist d K X} (hs : solve A o b = .ok (s, h)) :
    ∀ x ∈ s.base.log, NoWorse c.P.mm s.gbest.fit (c.P.target x).fitness := by
  obtain ⟨o', bb, pop0, y, b2, s0, s1, g1, g2, g3, g4, g5, g6⟩ := solve_ok hs
  obtain ⟨o'', bb', ho, hos, hosp, hlog, hnone, hsome⟩ := startTermination_ok o b
  rw [g1] at ho
  injection ho with ho
  obtain ⟨rfl, rfl⟩ := Prod.mk.inj ho
  have hl1 : bb.log = [] := by rw [hlog, hb]
  have hmk : ∀ x, Feas c x → DT (fun _ => True) (A.mkExt x) (fun e => (fun _ : Agent d K X => True) ⟨x, c.P.target x, e⟩) :=
    fun x _ => DT.any
  have hcov0 : Wp (fun _ => True) (initialPop A o') bb (fun r b2 => ∀ x ∈ b2.log, ∃ a ∈ r.1,
      a.fit = (c.P.target x).fitness) := by
    unfold initialPop
    refine Wp.bind (Wp.liftD DT.any ?_)
    intro y r v hy
    rw [hos, hinit]
    unfold defaultInit
    cases hstart : o.starting with
    | notArray => rw [hstart] at hst; exact hst.elim
    | flat n => rw [hstart] at hst; exact hst.elim
    | none =>
      refine Wp.bind (Wp.pure ?_)
      refine Wp.bind (Wp.mono (generatePopulation_spec hE hP c.popSize (F := fun _ => True) hmk) ?_)
      rintro pop b' ⟨h1, h2, ⟨new, h3, h3'⟩, -⟩
      refine Wp.pure ?_
      intro x hx
      have h3 : b'.log = new := by rw [h3]; show bb.log ++ new = new; rw [hl1]; rfl
      rw [h3] at hx
      obtain ⟨a, ha, rfl⟩ := List.mem_map.1 (h3'.mem_iff.1 hx)
      exact ⟨a, ha, by rw [← (h2 a ha).2.1]; rfl⟩
    | rows l =>
      rw [hstart] at hst
      obtain ⟨hl, hrows⟩ := hst
      obtain ⟨xs, hx1, hx2, hx3, hx4⟩ := mapM_rowVec hrows
      refine Wp.bind (Wp.mono (beforeInit_rows hE (F := fun _ : Agent d K X => True) hl hpos hx1 hx2 hx3
        (fun x hx => hmk x (hx4 x hx)) _) ?_)
      rintro p b2 ⟨pop, rfl, hp1, hp2, ⟨new0, hn1, hn2⟩, hp4⟩
      refine Wp.pure ?_
      intro x hx
      have hn1 : b2.log = new0 := by rw [hn1]; show bb.log ++ _ = _; rw [hl1]; rfl
      rw [hn1] at hx
      have hx := hn2.mem_iff.1 hx
      rw [← hp1] at hx
      obtain ⟨a, ha, rfl⟩ := List.mem_map.1 hx
      exact ⟨a, ha, by rw [← (hp2 a ha).1]; rfl⟩
  have hc0 := Wp.elim hcov0 g2
  obtain ⟨best, worst, hbest, hworst, hs0e⟩ := afterInit_ok hE g3
  have hs0 : Seen s0 := by
    refine ⟨best, by rw [hs0e]; rfl, ?_⟩
    intro x hx
    rw [hs0e] at hx
    obtain ⟨a, ha, he⟩ := hc0 x hx
    rw [← he]
    exact hbest.2 a ha
  obtain ⟨e1, e2⟩ := Wp.elim (hbefore s0) g4
  have hs1 : Seen s1 := by
    obtain ⟨g, k1, k2⟩ := hs0
    exact ⟨g, by rw [e1]; exact k1, by rw [e2]; exact k2⟩
  have hloop := mainLoop_wp (Er := fun _ => True) (A := A) (o := o')
    (fun k s => Seen s ∧ (0 < k → s.hist.globalBest.getLast? = some s.gbest)) (by
      rintro k s ⟨hs, -⟩ hk
      refine Wp.mono (epochStep_wp (R := fun s1 => Covers s s1) hE ?_ (.inl fun _ => trivial)) ?_
      · intro r v
        refine Wp.mono (hev (k + 1) _) fun _ s' h => ?_
        exact h
      · rintro f s' ⟨s1, ⟨hh, new, hn1, hn2⟩, hend, -⟩
        obtain ⟨cb, cw, gb, gw, tm, hcb, hcw, hgb, hgw, hgbest, hhist⟩ := hend.hist
        obtain ⟨g, k1, k2⟩ := hs
        rw [hh, k1] at hgb
        obtain rfl := Option.some.inj hgb
        have hB := getBetterAgent_cases cb g c.P.mm
        have hgl : s'.hist.globalBest.getLast? = some s'.gbest := by rw [hhist, hgbest]; simp
        refine ⟨⟨s'.gbest, hgl, ?_⟩, fun _ => hgl⟩
        intro x hx
        rw [hend.log, hn1] at hx
        rw [hgbest]
        rcases List.mem_append.1 hx with hx | hx
        · exact hB.2.2.trans (k2 x hx)
        · obtain ⟨a, ha, hn⟩ := hn2 x hx
          exact hB.2.1.trans ((hcb.2 a ha).trans hn)) c.epoch 0 s1 ⟨hs1, by simp⟩ (by omega)
  obtain ⟨e, -, -, h3, h4, h5⟩ := Wp.elim hloop g5
  obtain ⟨g, k1, k2⟩ := h4
  rw [h5 (by have := h3 hep; omega)] at k1
  obtain rfl := Option.some.inj k1
  exact k2

/-- every point a batch evaluates is the point of one of its agents -/
theorem buildEval_cov (hE : c.E.Lawful) {n : Nat} {mk : St c X Y → Nat → D c (Vec d K × X)} (s : St c X Y) :
    Wp (fun _ => True) (buildEval n mk) s (fun new s' => s'.hist = s.hist ∧ s'.pop = s.pop ∧
      ∃ xs, s'.base.log = s.base.log ++ xs ∧ ∀ x ∈ xs, ∃ a ∈ new, a.fit = (c.P.target x).fitness) := by
  unfold buildEval
  by_cases hm : c.swarmLike = true
  · rw [if_pos hm]
    refine Wp.bind (Wp.get ?_)
    refine Wp.bind (Wp.draw DT.any ?_)
    intro pend r v _
    refine Wp.liftB (Wp.mono (updateTargets_spec hE hm pend _) ?_)
    rintro new b' ⟨rfl, xs, h1, h2, -⟩
    refine ⟨rfl, rfl, xs, h2, fun x hx => ?_⟩
    obtain ⟨p, hp, rfl⟩ := List.mem_map.1 (h1.mem_iff.1 hx)
    exact ⟨⟨p.1, c.P.target p.1, p.2⟩, List.mem_map.2 ⟨p, hp, rfl⟩, rfl⟩
  · rw [if_neg hm]
    refine Wp.iter (fun _ (new : List (Agent d K X)) (s' : St c X Y) => s'.hist = s.hist ∧ s'.pop = s.pop ∧
      ∃ xs, s'.base.log = s.base.log ++ xs ∧ ∀ x ∈ xs, ∃ a ∈ new, a.fit = (c.P.target x).fitness) n
      ⟨rfl, rfl, [], by simp, by simp⟩ ?_
    rintro i acc s1 hi ⟨h1, h2, xs, h3, h4⟩
    refine Wp.bind (Wp.get ?_)
    refine Wp.bind (Wp.draw DT.any ?_)
    intro p r v _
    refine Wp.bind (Wp.liftB (Wp.getTarget ?_))
    refine Wp.pure ⟨h1, h2, xs ++ [p.1], by simp [h3], fun x hx => ?_⟩
    rcases List.mem_append.1 hx with hx | hx
    · obtain ⟨a, ha, e⟩ := h4 x hx
      exact ⟨a, List.mem_append_left _ ha, e⟩
    · rw [List.mem_singleton.1 hx]
      exact ⟨_, List.mem_append_right _ (List.mem_singleton.2 rfl), rfl⟩

end Mealpy
