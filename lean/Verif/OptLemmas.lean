import Verif.Hoare
import Verif.DrawLemmas

/-! # Lemmas about evaluation and generation -/

set_option linter.unusedSectionVars false
set_option linter.unusedVariables false

namespace Mealpy

variable {d : Nat} {K : Type} [Num K] {c : Cfg d K} {X Y : Type} {Er : Err → Prop}

/-! ## Pools -/

theorem poolMap_eq {α β : Type} (f : α → β) (xs : List α) {ord : List Nat}
    (h : ord.Perm (List.range xs.length)) : poolMap f xs ord = xs.map (fun x => some (f x)) := by
  have key : ∀ i, i < xs.length → ∀ hx : i < xs.length,
      ((ord.filterMap (fun i => xs[i]?.map (fun x => (i, f x)))).find? (fun p => p.1 == i)).map (·.2)
        = some (f (xs[i])) := by
    intro i hi hx
    have hm : (i, f xs[i]) ∈ ord.filterMap (fun i => xs[i]?.map (fun x => (i, f x))) := by
      rw [List.mem_filterMap]
      exact ⟨i, h.mem_iff.2 (List.mem_range.2 hi), by simp [List.getElem?_eq_getElem hi]⟩
    have hall : ∀ p ∈ ord.filterMap (fun i => xs[i]?.map (fun x => (i, f x))),
        ∃ hp : p.1 < xs.length, p.2 = f xs[p.1] := by
      intro p hp
      rw [List.mem_filterMap] at hp
      obtain ⟨j, -, hj⟩ := hp
      rw [Option.map_eq_some_iff] at hj
      obtain ⟨x, hx, rfl⟩ := hj
      obtain ⟨hj', rfl⟩ := List.getElem?_eq_some_iff.1 hx
      exact ⟨hj', rfl⟩
    cases hf : (ord.filterMap (fun i => xs[i]?.map (fun x => (i, f x)))).find? (fun p => p.1 == i) with
    | none =>
      rw [List.find?_eq_none] at hf
      exact absurd (hf _ hm) (by simp)
    | some p =>
      have h1 := List.find?_some hf
      have h2 := List.mem_of_find?_eq_some hf
      obtain ⟨hp, he⟩ := hall p h2
      have h1 : p.1 = i := by simpa using h1
      subst h1
      simp [he]
  unfold poolMap
  apply List.ext_getElem
  · simp
  · intro i h1 h2
    simp only [List.getElem_map, List.getElem_range]
    have hi : i < xs.length := by simpa using h1
    exact key i hi hi

theorem filterMap_perm_get {α : Type} (l : List α) {ord : List Nat} (h : ord.Perm (List.range l.length)) :
    (ord.filterMap (fun i => l[i]?)).Perm l := by
  have := h.filterMap (fun i => l[i]?)
  rwa [filterMap_range_getElem?] at this

/-- what evaluating a list of pending agents yields -/
def evaluated (c : Cfg d K) (pend : List (Vec d K × X)) : List (Agent d K X) :=
  pend.map (fun p => ⟨p.1, c.P.target p.1, p.2⟩)

theorem setTargets_map (pend : List (Vec d K × X)) (f : Vec d K → Target K) :
    setTargets pend (pend.map (fun p => f p.1)) = pend.map (fun p => ⟨p.1, f p.1, p.2⟩) := by
  unfold setTargets
  induction pend with
  | nil => rfl
  | cons p l ih => simp [ih]

theorem updateTargets_spec (hE : c.E.Lawful) (hm : c.swarmLike = true) (pend : List (Vec d K × X))
    (b : Base c) : Wp Er (updateTargets pend) b (fun pop b' => pop = evaluated c pend ∧
      ∃ new, new.Perm (pend.map (·.1)) ∧ b'.log = b.log ++ new ∧ b'.nfe = b.nfe + pend.length) := by
  have hpool : ∀ b : Base c, Wp Er (do
      let ord ← liftD (poolOrder pend.length)
      let ts := poolMap (fun x => c.P.target x) (pend.map (·.1)) ord
      modify (fun b : Base c => { b with
        log := b.log ++ ord.filterMap (fun i => pend[i]?.map (·.1))
        nfe := b.nfe + pend.length })
      pure (setTargets pend (ts.filterMap id)) : B c _) b (fun pop b' => pop = evaluated c pend ∧
      ∃ new, new.Perm (pend.map (·.1)) ∧ b'.log = b.log ++ new ∧ b'.nfe = b.nfe + pend.length) := by
    intro b
    refine Wp.bind (Wp.liftD (R := fun l => l.Perm (List.range pend.length))
      (DT.rngCall fun s => hE.order_perm _ s) ?_)
    intro ord r v hord
    refine Wp.bind (Wp.modify ?_)
    refine Wp.pure ⟨?_, ord.filterMap (fun i => pend[i]?.map (·.1)), ?_, rfl, rfl⟩
    · rw [poolMap_eq _ _ (by simpa using hord)]
      have : List.filterMap id ((pend.map (·.1)).map (fun x => some (c.P.target x)))
          = pend.map (fun p => c.P.target p.1) := by
        rw [List.filterMap_map]
        simp
      rw [this]
      exact setTargets_map pend c.P.target
    · have := filterMap_perm_get (pend.map (·.1)) (ord := ord) (by simpa using hord)
      simpa using this
  unfold updateTargets
  have hsw : c.mode ≠ .single := by
    intro h
    simp [Cfg.swarmLike, h] at hm
  cases hmode : c.mode with
  | single => exact absurd hmode hsw
  | thread => exact hpool b
  | process => exact hpool b
  | swarm =>
    refine Wp.bind (Wp.mono (Wp.iter (fun i ts b' => ts = (pend.take i).map (fun p => c.P.target p.1) ∧
      b'.log = b.log ++ (pend.take i).map (·.1) ∧ b'.nfe = b.nfe) pend.length ?_ ?_) ?_)
    · simp
    · intro i ts b' hi ⟨h1, h2, h3⟩
      simp only [List.getElem?_eq_getElem hi]
      refine Wp.bind (Wp.getTarget' ?_)
      refine Wp.pure ⟨?_, ?_, h3⟩
      · rw [h1, List.take_add_one, List.getElem?_eq_getElem hi]
        simp only [Option.toList_some, List.map_append, List.map_cons, List.map_nil]
      · show b'.log ++ [_] = _
        rw [h2, List.take_add_one, List.getElem?_eq_getElem hi]
        simp only [Option.toList_some, List.map_append, List.map_cons, List.map_nil, List.append_assoc]
    · intro ts b' ⟨h1, h2, h3⟩
      rw [List.take_length] at h1 h2
      refine Wp.bind (Wp.modify (Wp.pure ⟨?_, pend.map (·.1), List.Perm.refl _, h2, ?_⟩))
      · rw [h1]; exact setTargets_map pend c.P.target
      · show b'.nfe + _ = _
        rw [h3]

theorem updateTargets_single (hm : c.swarmLike = false) (pend : List (Vec d K × X)) (b : Base c) :
    updateTargets pend b = .error .attribute := by
  unfold updateTargets
  cases hmode : c.mode with
  | single => rfl
  | thread => simp [Cfg.swarmLike, hmode] at hm
  | process => simp [Cfg.swarmLike, hmode] at hm
  | swarm => simp [Cfg.swarmLike, hmode] at hm

/-! ## Generation -/

/-- agent made of `x`: evaluated, with extra attributes satisfying `F` -/
theorem agentOf_spec {F : Agent d K X → Prop} {mkExt : Vec d K → D c X} {x : Vec d K} {b : Base c}
    (h : DT Er (mkExt x) (fun e => F ⟨x, c.P.target x, e⟩)) :
    Wp Er (agentOf mkExt x) b (fun a b' => a.sol = x ∧ a.tgt = c.P.target x ∧ F a ∧
      b'.log = b.log ++ [x] ∧ b'.nfe = b.nfe + 1) := by
  refine Wp.bind (Wp.liftD h ?_)
  intro e r v he
  exact Wp.bind (Wp.getTarget (Wp.pure ⟨rfl, rfl, he, rfl, rfl⟩))

theorem generateAgent_spec (hP : c.P.Lawful) {F : Agent d K X → Prop} {mkExt : Vec d K → D c X}
    {b : Base c}
    (h : ∀ x, Spec.InBox c.P.lb c.P.ub x → DT Er (mkExt x) (fun e => F ⟨x, c.P.target x, e⟩)) :
    Wp Er (generateAgent mkExt) b (fun a b' => Spec.InBox c.P.lb c.P.ub a.sol ∧
      a.tgt = c.P.target a.sol ∧ F a ∧ b'.log = b.log ++ [a.sol] ∧ b'.nfe = b.nfe + 1) := by
  refine Wp.bind (Wp.liftD (DT.genSolution hP) ?_)
  intro x r v hx
  refine Wp.mono (agentOf_spec (h x hx)) ?_
  rintro a b' ⟨h1, h2, h3, h4, h5⟩
  subst h1
  exact ⟨hx, h2, h3, h4, h5⟩

theorem generateSeq_spec (hP : c.P.Lawful) {F : Agent d K X → Prop} {mkExt : Vec d K → D c X}
    {b : Base c} (n : Nat)
    (h : ∀ x, Spec.InBox c.P.lb c.P.ub x → DT Er (mkExt x) (fun e => F ⟨x, c.P.target x, e⟩)) :
    Wp Er (generateSeq mkExt n) b (fun pop b' => pop.length = n ∧
      (∀ a ∈ pop, Spec.InBox c.P.lb c.P.ub a.sol ∧ a.tgt = c.P.target a.sol ∧ F a) ∧
      b'.log = b.log ++ pop.map Agent.sol ∧ b'.nfe = b.nfe + n) := by
  refine Wp.mono (Wp.iter (fun i (pop : List (Agent d K X)) (b' : Base c) => pop.length = i ∧
      (∀ a ∈ pop, Spec.InBox c.P.lb c.P.ub a.sol ∧ a.tgt = c.P.target a.sol ∧ F a) ∧
      b'.log = b.log ++ pop.map Agent.sol ∧ b'.nfe = b.nfe + i) n ?_ ?_) ?_
  · simp
  · rintro i pop b' hi ⟨h1, h2, h3, h4⟩
    refine Wp.bind (Wp.mono (generateAgent_spec hP h) ?_)
    rintro a b'' ⟨g1, g2, g3, g4, g5⟩
    refine Wp.pure ⟨by simp [h1], ?_, ?_, by omega⟩
    · intro x hx
      rcases List.mem_append.1 hx with hx | hx
      · exact h2 x hx
      · rw [List.mem_singleton.1 hx]; exact ⟨g1, g2, g3⟩
    · rw [g4, h3]; simp
  · intro pop b' h; exact h

/-- The number of evaluations `nfe_counter` records while generating `n` agents. -/
theorem generatePopulation_spec (hE : c.E.Lawful) (hP : c.P.Lawful) {F : Agent d K X → Prop}
    {mkExt : Vec d K → D c X} {b : Base c} (n : Nat)
    (h : ∀ x, Spec.InBox c.P.lb c.P.ub x → DT Er (mkExt x) (fun e => F ⟨x, c.P.target x, e⟩)) :
    Wp Er (generatePopulation mkExt n) b (fun pop b' => pop.length = n ∧
      (∀ a ∈ pop, Spec.InBox c.P.lb c.P.ub a.sol ∧ a.tgt = c.P.target a.sol ∧ F a) ∧
      (∃ new, b'.log = b.log ++ new ∧ new.Perm (pop.map Agent.sol)) ∧
      (c.mode = .single ∨ c.mode = .swarm → b'.nfe = b.nfe + n) ∧
      (c.mode = .process → b'.nfe = b.nfe) ∧
      (c.mode = .thread → b'.nfe ≤ b.nfe + n ∧ b.nfe + min n 1 ≤ b'.nfe)) := by
  unfold generatePopulation
  have hseq : (c.mode = .single ∨ c.mode = .swarm) →
      Wp Er (generateSeq mkExt n) b (fun pop b' => pop.length = n ∧
      (∀ a ∈ pop, Spec.InBox c.P.lb c.P.ub a.sol ∧ a.tgt = c.P.target a.sol ∧ F a) ∧
      (∃ new, b'.log = b.log ++ new ∧ new.Perm (pop.map Agent.sol)) ∧
      (c.mode = .single ∨ c.mode = .swarm → b'.nfe = b.nfe + n) ∧
      (c.mode = .process → b'.nfe = b.nfe) ∧
      (c.mode = .thread → b'.nfe ≤ b.nfe + n ∧ b.nfe + min n 1 ≤ b'.nfe)) := by
    intro hmode
    refine Wp.mono (generateSeq_spec hP n h) ?_
    rintro pop b' ⟨h1, h2, h3, h4⟩
    refine ⟨h1, h2, ⟨_, h3, List.Perm.refl _⟩, fun _ => h4, ?_, ?_⟩
    · intro hc; rw [hc] at hmode; simp at hmode
    · intro hc; rw [hc] at hmode; simp at hmode
  cases hmode : c.mode with
  | single => rw [hmode] at hseq; exact hseq (Or.inl rfl)
  | swarm => rw [hmode] at hseq; exact hseq (Or.inr rfl)
  | thread =>
    refine Wp.bind (Wp.mono (generateSeq_spec hP n h) ?_)
    rintro pop b' ⟨h1, h2, h3, h4⟩
    refine Wp.bind (Wp.liftD (R := fun l => l.Perm (List.range n))
      (DT.rngCall fun s => hE.order_perm _ s) ?_)
    intro ord r v hord
    refine Wp.bind (Wp.liftD (R := fun l => l ≤ n - 1) (DT.rngCall fun s => hE.lost_lt _ s) ?_)
    intro l r v hl
    refine Wp.bind (Wp.modify ?_)
    have hp : (ord.filterMap (fun i => pop[i]?)).Perm pop := filterMap_perm_get pop (by rw [h1]; exact hord)
    refine Wp.pure ⟨by rw [hp.length_eq, h1], ?_, ⟨pop.map Agent.sol, h3, (hp.map _).symm⟩, by simp, by simp, ?_⟩
    · intro a ha; exact h2 a (hp.mem_iff.1 ha)
    · intro _
      show b'.nfe - l ≤ _ ∧ _ ≤ b'.nfe - l
      omega
  | process =>
    have key : ∀ k, (∃ ps : List (Agent d K X × Base c), (List.replicate k ()).mapM (fun _ => generateAgent mkExt b) = .ok ps
        ∧ ps.length = k ∧ ∀ p ∈ ps, Spec.InBox c.P.lb c.P.ub p.1.sol ∧ p.1.tgt = c.P.target p.1.sol ∧ F p.1) ∨
        ∃ e, Er e ∧ (List.replicate k ()).mapM (fun _ => generateAgent mkExt b) = .error e := by
      intro k
      have hg := generateAgent_spec (b := b) hP h
      unfold Wp at hg
      induction k with
      | zero => exact Or.inl ⟨[], rfl, rfl, by simp⟩
      | succ k ih =>
        rw [List.replicate_succ, List.mapM_cons]
        cases hga : generateAgent mkExt b with
        | error e => rw [hga] at hg; exact Or.inr ⟨e, hg, rfl⟩
        | ok p =>
          rw [hga] at hg
          rcases ih with ⟨ps, hps, hl, hall⟩ | ⟨e, he, hps⟩
          · refine Or.inl ⟨p :: ps, ?_, by simp [hl], ?_⟩
            · rw [hga] at hps; rw [hps]; rfl
            · intro q hq
              rcases List.mem_cons.1 hq with rfl | hq
              · exact ⟨hg.1, hg.2.1, hg.2.2.1⟩
              · exact hall q hq
          · refine Or.inr ⟨e, he, ?_⟩
            rw [hga] at hps; rw [hps]; rfl
    rcases key n with ⟨ps, hps, hl, hall⟩ | ⟨e, he, hps⟩
    · refine Wp.of_ok (a := (c.E.order n b.rng).1.filterMap (fun i => (ps.map (·.1))[i]?))
        (s' := { b with rng := (c.E.order n b.rng).2, log := b.log ++ (ps.map (·.1)).map Agent.sol }) ?_ ?_
      · show ((List.replicate n ()).mapM (fun _ => generateAgent mkExt b) >>= fun tasks => _) = _
        rw [hps]; rfl
      · have hp : ((c.E.order n b.rng).1.filterMap (fun i => (ps.map (·.1))[i]?)).Perm (ps.map (·.1)) :=
          filterMap_perm_get _ (by simpa [hl] using hE.order_perm n b.rng)
        refine ⟨by rw [hp.length_eq]; simpa using hl, ?_, ⟨_, rfl, (hp.map _).symm⟩, by simp, by simp, by simp⟩
        intro a ha
        have := hp.mem_iff.1 ha
        obtain ⟨p, hp, rfl⟩ := List.mem_map.1 this
        exact hall p hp
    · refine Wp.of_err (e := e) ?_ he
      show ((List.replicate n ()).mapM (fun _ => generateAgent mkExt b) >>= fun tasks => _) = _
      rw [hps]; rfl

end Mealpy
