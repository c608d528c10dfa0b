import Verif.Comb
import Verif.Contract

/-! # Rules for the loop shapes of `Verif.Comb` -/

set_option linter.unusedSectionVars false
set_option linter.unusedVariables false

namespace Mealpy
open Spec

variable {d : Nat} {K : Type} [Num K] {c : Cfg d K} {X Y : Type}
variable {F : Agent d K X → Prop} {J : Y → Prop}

/-- what position-building code may rely on in the middle of an epoch -/
structure Mid (F : Agent d K X → Prop) (J : Y → Prop) (s : St c X Y) : Prop extends GoodPop F J s where
  gev : Evald c s.base.log s.gbest
  gfeas : F s.gbest

theorem Good.mid {s : St c X Y} (h : Good F J s) : Mid F J s := ⟨h.toGoodPop, h.gev, h.gfeas⟩

theorem Step.mid {J' : Y → Prop} {lo hi : Nat} {s s' : St c X Y} (h : Step F J lo hi s s') (hs : Mid F J' s) :
    Mid F J s' :=
  ⟨h.good, by rw [h.gbest]; exact hs.gev.mono h.toPost.log_sub, by rw [h.gbest]; exact hs.gfeas⟩

theorem Mid.reseed {s : St c X Y} (h : Mid F J s) (r : c.E.σ) (v : c.P.S) :
    Mid F J { s with base := { s.base with rng := r, vg := v } } :=
  (Imp.refl h.toGoodPop r v).toStep.mid h

/-- what `mk` has to deliver: a feasible position and extra attributes allowed by `F` -/
def MkOk (F : Agent d K X → Prop) (c : Cfg d K) (p : Vec d K × X) : Prop :=
  Feas c p.1 ∧ F ⟨p.1, c.P.target p.1, p.2⟩

theorem mem_set_iff {α : Type} {l : List α} {i : Nat} {a x : α} (h : x ∈ l.set i a) : x = a ∨ x ∈ l := by
  rw [List.mem_iff_getElem?] at h
  obtain ⟨j, hj⟩ := h
  rw [List.getElem?_set] at hj
  split at hj
  · split at hj
    · left; exact (Option.some.inj hj).symm
    · cases hj
  · right; exact List.mem_of_getElem? hj

/-- one evaluation whose result replaces slot `i` only if that loses nothing -/
theorem Imp.ofSlot {s s' : St c X Y} (hg : GoodPop F J s) {i : Nat} (hi : i < s.pop.length)
    {x : Vec d K} {e : X} (hx : Feas c x) (hF : F ⟨x, c.P.target x, e⟩) {a' : Agent d K X}
    (ha : a' = ⟨x, c.P.target x, e⟩ ∨ a' = s.pop[i])
    (hn : NoWorse c.P.mm a'.fit (c.P.target x).fitness) (ho : NoWorse c.P.mm a'.fit (s.pop[i]).fit)
    (hlog : s'.base.log = s.base.log ++ [x]) (hnfe : s'.base.nfe = s.base.nfe + 1)
    (hpop : s'.pop = s.pop.set i a') (hgb : s'.gbest = s.gbest) (hh : s'.hist = s.hist)
    (he : s'.ext = s.ext) : Imp F J 1 1 s s' := by
  have hsub : ∀ z ∈ s.base.log, z ∈ s'.base.log := by
    intro z hz; rw [hlog]; exact List.mem_append_left _ hz
  have hmem : a' ∈ s'.pop := by
    rw [hpop]
    exact List.mem_of_getElem? (i := i) (by rw [List.getElem?_set_self hi])
  have ha'ev : Evald c s'.base.log a' := by
    rcases ha with h | h
    · rw [h]; exact ⟨rfl, by rw [hlog]; simp⟩
    · rw [h]; exact (hg.ev _ (List.getElem_mem hi)).mono hsub
  refine ⟨⟨⟨⟨?_, ?_, ?_, ?_⟩, hh, [x], hlog, by simp, by simp, by simpa using hnfe, ?_⟩, hgb⟩, ?_⟩
  · rw [hpop, List.length_set]; exact hg.len
  · intro a hamem
    rw [hpop] at hamem
    rcases mem_set_iff hamem with h | h
    · rw [h]; exact ha'ev
    · exact (hg.ev a h).mono hsub
  · intro a hamem
    rw [hpop] at hamem
    rcases mem_set_iff hamem with h | h
    · rw [h]
      rcases ha with h | h
      · rw [h]; exact hF
      · rw [h]; exact hg.feas _ (List.getElem_mem hi)
    · exact hg.feas a h
  · rw [he]; exact hg.ext
  · intro z hz
    rw [List.mem_singleton.1 hz]
    exact ⟨hx, Or.inr ⟨a', hmem, hn⟩⟩
  · intro a hamem
    obtain ⟨j, hj, rfl⟩ := List.mem_iff_getElem.1 hamem
    by_cases hij : i = j
    · subst hij
      exact ⟨a', hmem, ho⟩
    · refine ⟨s.pop[j], ?_, NoWorse.rfl⟩
      rw [hpop]
      exact List.mem_of_getElem? (i := j) (by
        rw [List.getElem?_set_ne hij]; exact List.getElem?_eq_getElem hj)

theorem Wp.popAt {Er : Err → Prop} {s : St c X Y} {i : Nat} {Q : Agent d K X → St c X Y → Prop}
    (hi : i < s.pop.length) (h : Q (s.pop[i]) s) : Wp Er (popAt i) s Q :=
  Wp.of_ok (a := s.pop[i]) (s' := s) (by unfold Mealpy.popAt; rw [List.getElem?_eq_getElem hi]) h

theorem Wp.setAt {Er : Err → Prop} {s : St c X Y} {i : Nat} {a : Agent d K X} {Q : Unit → St c X Y → Prop}
    (hi : i < s.pop.length)
    (h : Q () { s with pop := s.pop.set i a }) :
    Wp Er (setAt i a) s Q :=
  Wp.of_ok (a := ()) (by unfold Mealpy.setAt; rw [if_pos hi]) h

theorem Wp.updateAt {Er : Err → Prop} {s : St c X Y} {i : Nat} {x : Vec d K} {t : Target K}
    {Q : Unit → St c X Y → Prop} (hi : i < s.pop.length)
    (h : Q () { s with
      pop := s.pop.set i { s.pop[i] with sol := x, tgt := t } }) :
    Wp Er (updateAt i x t) s Q :=
  Wp.of_ok (a := ()) (by unfold Mealpy.updateAt; rw [List.getElem?_eq_getElem hi]) h

theorem tryBetter_imp {Er : Err → Prop} {s : St c X Y} (hg : GoodPop F J s) {i : Nat} (hi : i < c.popSize)
    {p : Vec d K × X} (hp : MkOk F c p) : Wp Er (tryBetter i p) s (fun _ s' => Imp F J 1 1 s s') := by
  have hi' : i < s.pop.length := by rw [hg.len]; exact hi
  refine Wp.bind (Wp.liftB (Wp.getTarget ?_))
  refine Wp.bind (Wp.popAt hi' (Wp.setAt hi' ?_))
  have hb := getBetterAgent_cases (⟨p.1, c.P.target p.1, p.2⟩ : Agent d K X) (s.pop[i]) c.P.mm
  exact Imp.ofSlot hg hi' hp.1 hp.2 hb.1 hb.2.1 hb.2.2 rfl rfl rfl rfl rfl rfl

theorem Imp.dropOne {s : St c X Y} (hg : GoodPop F J s) {x : Vec d K} (hx : Feas c x)
    {a : Agent d K X} (ha : a ∈ s.pop) (hn : NoWorse c.P.mm a.fit (c.P.target x).fitness)
    {s' : St c X Y} (hlog : s'.base.log = s.base.log ++ [x]) (hnfe : s'.base.nfe = s.base.nfe + 1)
    (hpop : s'.pop = s.pop) (hgb : s'.gbest = s.gbest) (hh : s'.hist = s.hist)
    (he : s'.ext = s.ext) : Imp F J 1 1 s s' := by
  have hsub : ∀ z ∈ s.base.log, z ∈ s'.base.log := by
    intro z hz; rw [hlog]; exact List.mem_append_left _ hz
  refine ⟨⟨⟨⟨?_, ?_, ?_, ?_⟩, hh, [x], hlog, by simp, by simp, by simpa using hnfe, ?_⟩, hgb⟩, ?_⟩
  · rw [hpop]; exact hg.len
  · rw [hpop]; exact fun a h => (hg.ev a h).mono hsub
  · rw [hpop]; exact hg.feas
  · rw [he]; exact hg.ext
  · intro z hz
    rw [List.mem_singleton.1 hz]
    exact ⟨hx, Or.inr ⟨a, by rw [hpop]; exact ha, hn⟩⟩
  · intro a ha; exact ⟨a, by rw [hpop]; exact ha, NoWorse.rfl⟩

theorem Imp.reseed_left {J' : Y → Prop} {lo hi : Nat} {s s' : St c X Y} {r : c.E.σ} {v : c.P.S}
    (h : Imp F J lo hi { s with base := { s.base with rng := r, vg := v } } s') : Imp F J lo hi s s' :=
  ⟨⟨⟨h.good, h.hist, h.evals⟩, h.gbest⟩, h.keep⟩

theorem Post.reseed_left {lo hi : Nat} {s s' : St c X Y} {r : c.E.σ} {v : c.P.S}
    (h : Post F J lo hi { s with base := { s.base with rng := r, vg := v } } s') : Post F J lo hi s s' :=
  ⟨h.good, h.hist, h.evals⟩

theorem Step.reseed_left {lo hi : Nat} {s s' : St c X Y} {r : c.E.σ} {v : c.P.S}
    (h : Step F J lo hi { s with base := { s.base with rng := r, vg := v } } s') : Step F J lo hi s s' :=
  ⟨h.toPost.reseed_left, h.gbest⟩

theorem tryCompare_imp {Er : Err → Prop} {s : St c X Y} (hg : GoodPop F J s) {i : Nat} (hi : i < c.popSize)
    {mkExt : Vec d K → D c X} {x : Vec d K} (hx : Feas c x)
    (hmk : DT Er (mkExt x) (fun e => F ⟨x, c.P.target x, e⟩)) :
    Wp Er (tryCompare mkExt i x) s (fun _ s' => Imp F J 1 1 s s') := by
  have hi' : i < s.pop.length := by rw [hg.len]; exact hi
  refine Wp.bind (Wp.liftB ?_)
  refine Wp.bind (Wp.liftD hmk ?_)
  intro e r v he
  refine Wp.bind (Wp.getTarget (Wp.pure ?_))
  refine Wp.bind (Wp.popAt hi' ?_)
  refine Wp.ite (fun h => Wp.setAt hi' ?_) (fun h => Wp.pure ?_)
  · exact Imp.ofSlot hg hi' hx he (.inl rfl) NoWorse.rfl (compareTarget_true h) rfl rfl rfl rfl rfl rfl
  · exact Imp.dropOne hg hx (List.getElem_mem hi') (compareTarget_false (by simpa using h)) rfl rfl rfl rfl rfl rfl

/-- chaining improving steps in a loop -/
theorem iter_imp {α : Type} {f : Nat → α → M c X Y α} {lo hi : Nat} (I : Nat → α → Prop) (n : Nat) {a : α}
    {s : St c X Y} (hm : Mid F J s) (h0 : I 0 a)
    (hf : ∀ (i : Nat) (a : α) (s : St c X Y), i < n → Mid F J s → I i a →
      Wp noErr (f i a) s (fun a' s' => Imp F J lo hi s s' ∧ I (i + 1) a')) :
    Wp noErr (iter n f a) s (fun a' s' => Imp F J (n * lo) (n * hi) s s' ∧ I n a') := by
  refine Wp.iter (fun i a' s' => Imp F J (i * lo) (i * hi) s s' ∧ I i a') n ?_ ?_
  · refine ⟨?_, h0⟩
    simpa using Imp.refl hm.toGoodPop s.base.rng s.base.vg
  · rintro i a' s' hi ⟨h1, h2⟩
    refine Wp.mono (hf i a' s' hi (h1.toStep.mid hm) h2) ?_
    rintro a'' s'' ⟨h3, h4⟩
    refine ⟨?_, h4⟩
    rw [Nat.add_mul, Nat.add_mul, Nat.one_mul, Nat.one_mul]
    exact h1.trans h3

theorem iter_imp_unit {f : Nat → Unit → M c X Y Unit} {lo hi : Nat} (n : Nat)
    {s : St c X Y} (hm : Mid F J s)
    (hf : ∀ (i : Nat) (s : St c X Y), i < n → Mid F J s →
      Wp noErr (f i ()) s (fun _ s' => Imp F J lo hi s s')) :
    Wp noErr (iter n f ()) s (fun _ s' => Imp F J (n * lo) (n * hi) s s') :=
  Wp.mono (iter_imp (fun _ _ => True) n hm trivial
    (fun i _ s hi hs _ => Wp.mono (hf i s hi hs) (fun _ _ h => ⟨h, trivial⟩))) (fun _ _ h => h.1)

theorem buildPending_dt {Er : Err → Prop} {Q : Vec d K × X → Prop} {n : Nat} {mk : Nat → D c (Vec d K × X)}
    (h : ∀ i, i < n → DT Er (mk i) Q) :
    DT Er (buildPending n mk) (fun l => l.length = n ∧ ∀ p ∈ l, Q p) := by
  refine DT.iter (fun i (l : List (Vec d K × X)) => l.length = i ∧ ∀ p ∈ l, Q p) n (by simp) ?_
  rintro i l hi ⟨h1, h2⟩
  refine DT.bind (h i hi) fun p hp => DT.pure ⟨by simp [h1], ?_⟩
  intro q hq
  rcases List.mem_append.1 hq with hq | hq
  · exact h2 q hq
  · rw [List.mem_singleton.1 hq]; exact hp

/-- a batch of freshly evaluated agents, not yet in the population -/
structure Batch (F : Agent d K X → Prop) (s : St c X Y) (new : List (Agent d K X)) (s' : St c X Y) : Prop where
  ok : ∀ a ∈ new, Feas c a.sol ∧ F a ∧ a.tgt = c.P.target a.sol
  log : ∃ xs, s'.base.log = s.base.log ++ xs ∧ xs.Perm (new.map Agent.sol)
  nfe : s'.base.nfe = s.base.nfe + new.length
  pop : s'.pop = s.pop
  gbest : s'.gbest = s.gbest
  hist : s'.hist = s.hist
  ext : s'.ext = s.ext

theorem Batch.evald {s s' : St c X Y} {new : List (Agent d K X)} (h : Batch F s new s') :
    ∀ a ∈ new, Evald c s'.base.log a := by
  obtain ⟨xs, h1, h2⟩ := h.log
  intro a ha
  refine ⟨(h.ok a ha).2.2, ?_⟩
  rw [h1]
  exact List.mem_append_right _ (h2.mem_iff.2 (List.mem_map.2 ⟨a, ha, rfl⟩))

theorem Batch.old {s s' : St c X Y} {new : List (Agent d K X)} (h : Batch F s new s')
    {a : Agent d K X} (ha : Evald c s.base.log a) : Evald c s'.base.log a := by
  obtain ⟨xs, h1, h2⟩ := h.log
  exact ha.mono (fun x hx => by rw [h1]; exact List.mem_append_left _ hx)

theorem updateTargets_batch {Er : Err → Prop} (hE : c.E.Lawful) (hm : c.swarmLike = true)
    {pend : List (Vec d K × X)} (hp : ∀ p ∈ pend, MkOk F c p) (s : St c X Y) :
    Wp Er (liftB (updateTargets pend)) s (fun new s' => new.length = pend.length ∧ Batch F s new s') := by
  refine Wp.liftB (Wp.mono (updateTargets_spec hE hm pend s.base) ?_)
  rintro new b' ⟨rfl, xs, h1, h2, h3⟩
  refine ⟨by simp [evaluated], ?_, ⟨xs, h2, ?_⟩, ?_, rfl, rfl, rfl, rfl⟩
  · intro a ha
    obtain ⟨p, hpm, rfl⟩ := List.mem_map.1 ha
    exact ⟨(hp p hpm).1, (hp p hpm).2, rfl⟩
  · simpa [evaluated, Function.comp_def] using h1
  · simpa [evaluated] using h3

theorem buildEval_batch (hE : c.E.Lawful) {n : Nat} {mk : St c X Y → Nat → D c (Vec d K × X)}
    {s : St c X Y} (hs : Mid F J s)
    (hmk : ∀ (s : St c X Y) (i : Nat), Mid F J s → i < n → DT noErr (mk s i) (MkOk F c)) :
    Wp noErr (buildEval n mk) s (fun new s' => new.length = n ∧ Batch F s new s') := by
  unfold buildEval
  by_cases hm : c.swarmLike = true
  · rw [if_pos hm]
    refine Wp.bind (Wp.get ?_)
    refine Wp.bind (Wp.draw (buildPending_dt (fun i hi => hmk s i hs hi)) ?_)
    rintro pend r v ⟨h1, h2⟩
    refine Wp.mono (updateTargets_batch hE hm h2 _) ?_
    rintro new s' ⟨h3, h4⟩
    exact ⟨by omega, ⟨h4.ok, h4.log, h4.nfe, h4.pop, h4.gbest, h4.hist, h4.ext⟩⟩
  · rw [if_neg hm]
    refine Wp.iter (fun i (new : List (Agent d K X)) s' => new.length = i ∧ Batch F s new s') n ?_ ?_
    · exact ⟨rfl, by simp, ⟨[], by simp, by simp⟩, by simp, rfl, rfl, rfl, rfl⟩
    · rintro i new s' hi ⟨h1, h2⟩
      refine Wp.bind (Wp.get ?_)
      have hmid : Mid F J s' := by
        refine ⟨⟨?_, ?_, ?_, ?_⟩, ?_, ?_⟩
        · rw [h2.pop]; exact hs.len
        · rw [h2.pop]; exact fun a ha => h2.old (hs.ev a ha)
        · rw [h2.pop]; exact hs.feas
        · rw [h2.ext]; exact hs.ext
        · rw [h2.gbest]; exact h2.old hs.gev
        · rw [h2.gbest]; exact hs.gfeas
      refine Wp.bind (Wp.draw (hmk s' i hmid hi) ?_)
      rintro p r v hp
      refine Wp.bind (Wp.liftB (Wp.getTarget (Wp.pure ?_)))
      obtain ⟨xs, hx1, hx2⟩ := h2.log
      refine ⟨by simp [h1], ?_, ⟨xs ++ [p.1], ?_, ?_⟩, ?_, h2.pop, h2.gbest, h2.hist, h2.ext⟩
      · intro a ha
        rcases List.mem_append.1 ha with ha | ha
        · exact h2.ok a ha
        · rw [List.mem_singleton.1 ha]; exact ⟨hp.1, hp.2, rfl⟩
      · show s'.base.log ++ [p.1] = _
        rw [hx1]; simp
      · rw [List.map_append]; exact hx2.append (List.Perm.refl _)
      · show s'.base.nfe + 1 = _
        rw [h2.nfe]; simp; omega

/-- turning an evaluated batch and a new population into a `Step` -/
theorem Step.ofBatch {s s1 s' : St c X Y} {new : List (Agent d K X)} (hg : GoodPop F J s)
    (hb : Batch F s new s1) (hlen : s'.pop.length = c.popSize)
    (hmem : ∀ a ∈ s'.pop, a ∈ new ∨ a ∈ s.pop)
    (hcov : ∀ a ∈ new, Covered s' a.sol)
    (hbase : s'.base.log = s1.base.log) (hnfe : s'.base.nfe = s1.base.nfe)
    (hgb : s'.gbest = s1.gbest) (hh : s'.hist = s1.hist) (he : J s'.ext) :
    Step F J new.length new.length s s' := by
  obtain ⟨xs, hx1, hx2⟩ := hb.log
  refine ⟨⟨⟨hlen, ?_, ?_, he⟩, by rw [hh, hb.hist], xs, by rw [hbase, hx1], ?_, ?_, ?_, ?_⟩, by rw [hgb, hb.gbest]⟩
  · intro a ha
    rw [hbase]
    rcases hmem a ha with h | h
    · exact hb.evald a h
    · exact hb.old (hg.ev a h)
  · intro a ha
    rcases hmem a ha with h | h
    · exact (hb.ok a h).2.1
    · exact hg.feas a h
  · rw [hx2.length_eq]; simp
  · rw [hx2.length_eq]; simp
  · rw [hnfe, hb.nfe, hx2.length_eq]; simp
  · intro x hx
    obtain ⟨a, ha, rfl⟩ := List.mem_map.1 (hx2.mem_iff.1 hx)
    exact ⟨(hb.ok a ha).1, hcov a ha⟩

theorem Covered.of_mem {s : St c X Y} {a b : Agent d K X} (ha : a ∈ s.pop) (hb : b.tgt = c.P.target b.sol)
    (h : NoWorse c.P.mm a.fit b.fit) : Covered s b.sol :=
  Or.inr ⟨a, ha, by rw [← hb]; exact h⟩

theorem selectGreedy_imp {Er : Err → Prop} {s s1 : St c X Y} {new : List (Agent d K X)} (hg : GoodPop F J s)
    (hb : Batch F s new s1) (hlen : new.length = c.popSize) :
    Wp Er (selectGreedy new) s1 (fun _ s' => Imp F J c.popSize c.popSize s s') := by
  have hl : s.pop.length = new.length := by rw [hg.len, hlen]
  refine Wp.of_ok (a := ()) (s' := { s1 with
    pop := List.zipWith (greedyPick c.P.mm) s1.pop new }) ?_ ?_
  · unfold selectGreedy
    rw [greedySelection_ok (by rw [hb.pop]; exact hl)]
  have hget : ∀ (i : Nat) (h1 : i < s.pop.length) (h2 : i < new.length),
      greedyPick c.P.mm (s.pop[i]) (new[i]) ∈ List.zipWith (greedyPick c.P.mm) s1.pop new := by
    intro i h1 h2
    rw [hb.pop]
    refine List.mem_of_getElem (i := i) (h := by simp; omega) ?_
    simp
  refine ⟨?_, ?_⟩
  · rw [← hlen]
    refine Step.ofBatch hg hb ?_ ?_ ?_ rfl rfl rfl rfl (by
      show J s1.ext
      rw [hb.ext]; exact hg.ext)
    · show (List.zipWith (greedyPick c.P.mm) s1.pop new).length = _
      rw [hb.pop]; simp; omega
    · intro a ha
      change a ∈ List.zipWith (greedyPick c.P.mm) s1.pop new at ha
      rw [hb.pop] at ha
      obtain ⟨i, hi, rfl⟩ := List.mem_iff_getElem.1 ha
      rw [List.length_zipWith] at hi
      rw [List.getElem_zipWith]
      rcases (greedyPick_cases c.P.mm (s.pop[i]'(by omega)) (new[i]'(by omega))).1 with h | h
      · rw [h]; exact Or.inr (List.getElem_mem _)
      · rw [h]; exact Or.inl (List.getElem_mem _)
    · intro a ha
      obtain ⟨i, hi, rfl⟩ := List.mem_iff_getElem.1 ha
      exact Covered.of_mem (hget i (by omega) hi) (hb.ok _ ha).2.2
        (greedyPick_cases c.P.mm (s.pop[i]'(by omega)) (new[i])).2.2.1
  · intro a ha
    obtain ⟨i, hi, rfl⟩ := List.mem_iff_getElem.1 ha
    exact ⟨_, hget i hi (by omega), (greedyPick_cases c.P.mm (s.pop[i]) (new[i]'(by omega))).2.1⟩

/-- the commonest shape: `pop_size` feasible evaluations, nothing lost -/
theorem greedyLoop_imp (hE : c.E.Lawful) {mk : St c X Y → Nat → D c (Vec d K × X)}
    {s : St c X Y} (hs : Mid F J s)
    (hmk : ∀ (s : St c X Y) (i : Nat), Mid F J s → i < c.popSize → DT noErr (mk s i) (MkOk F c)) :
    Wp noErr (greedyLoop c.popSize mk) s (fun _ s' => Imp F J c.popSize c.popSize s s') := by
  unfold greedyLoop
  by_cases hm : c.swarmLike = true
  · rw [if_pos hm]
    refine Wp.bind (Wp.get ?_)
    refine Wp.bind (Wp.draw (buildPending_dt (fun i hi => hmk s i hs hi)) ?_)
    rintro pend r v ⟨h1, h2⟩
    refine Wp.bind (Wp.mono (updateTargets_batch hE hm h2 _) ?_)
    rintro new s' ⟨h3, h4⟩
    have h4' : Batch F s new s' := ⟨h4.ok, h4.log, h4.nfe, h4.pop, h4.gbest, h4.hist, h4.ext⟩
    exact selectGreedy_imp hs.toGoodPop h4' (by omega)
  · rw [if_neg hm]
    refine Wp.mono (iter_imp_unit (lo := 1) (hi := 1) c.popSize hs ?_) ?_
    · intro i s' hi hs'
      refine Wp.bind (Wp.get ?_)
      refine Wp.bind (Wp.draw (hmk s' i hs' hi) ?_)
      intro p r v hp
      refine Wp.mono (tryBetter_imp (F := F) (J := J) (hs'.reseed r v).toGoodPop hi hp) ?_
      intro _ s'' h
      exact h.reseed_left (J' := J)
    · intro _ s' h
      simpa using h

/-- replacing the whole population by an evaluated batch -/
theorem Step.replace {s s1 s' : St c X Y} {new : List (Agent d K X)} (hg : GoodPop F J s)
    (hb : Batch F s new s1) (hlen : new.length = c.popSize) (hpop : s'.pop = new)
    (hbase : s'.base.log = s1.base.log) (hnfe : s'.base.nfe = s1.base.nfe)
    (hgb : s'.gbest = s1.gbest) (hh : s'.hist = s1.hist) (he : s'.ext = s1.ext) :
    Step F J c.popSize c.popSize s s' := by
  rw [← hlen]
  refine Step.ofBatch hg hb (by rw [hpop]; exact hlen) (by rw [hpop]; exact fun a ha => Or.inl ha) ?_
    hbase hnfe hgb hh (by rw [he, hb.ext]; exact hg.ext)
  intro a ha
  exact Covered.of_mem (by rw [hpop]; exact ha) (hb.ok a ha).2.2 NoWorse.rfl

theorem setPop_step {Er : Err → Prop} {s s1 : St c X Y} {new : List (Agent d K X)} (hg : GoodPop F J s)
    (hb : Batch F s new s1) (hlen : new.length = c.popSize) :
    Wp Er (setPop new) s1 (fun _ s' => Step F J c.popSize c.popSize s s') :=
  Wp.modify (Step.replace hg hb hlen rfl rfl rfl rfl rfl rfl)

/-- state in the middle of a replacing loop in `single` mode: slots below `i` are new -/
structure RepMid (F : Agent d K X → Prop) (J : Y → Prop) (s : St c X Y) (i : Nat) (s' : St c X Y) : Prop where
  mid : Mid F J s'
  hist : s'.hist = s.hist
  evals : ∃ new, s'.base.log = s.base.log ++ new ∧ new.length = i ∧ s'.base.nfe = s.base.nfe + i ∧
    ∀ x ∈ new, Feas c x ∧ ∃ j a, j < i ∧ s'.pop[j]? = some a ∧ a.sol = x

theorem RepMid.init {s : St c X Y} (hs : Mid F J s) : RepMid F J s 0 s :=
  ⟨hs, rfl, [], by simp, rfl, rfl, by simp⟩

theorem RepMid.post {s s' : St c X Y} {n : Nat} (h : RepMid F J s n s') : Post F J n n s s' := by
  obtain ⟨new, h1, h2, h3, h4⟩ := h.evals
  refine ⟨h.mid.toGoodPop, h.hist, new, h1, by omega, by omega, by omega, ?_⟩
  intro x hx
  obtain ⟨hf, j, a, hj, ha, rfl⟩ := h4 x hx
  have hm := List.mem_of_getElem? ha
  exact ⟨hf, Covered.of_mem hm (h.mid.ev a hm).1 NoWorse.rfl⟩

/-- one more slot replaced -/
theorem RepMid.succ {s s1 s' : St c X Y} {i : Nat} (h : RepMid F J s i s1) (hi : i < c.popSize)
    {x : Vec d K} {a : Agent d K X} (hx : Feas c x) (hsol : a.sol = x) (htgt : a.tgt = c.P.target x) (hF : F a)
    (hlog : s'.base.log = s1.base.log ++ [x]) (hnfe : s'.base.nfe = s1.base.nfe + 1)
    (hpop : s'.pop = s1.pop.set i a) (hgb : s'.gbest = s1.gbest ∨ s'.gbest = a) (hh : s'.hist = s1.hist)
    (he : s'.ext = s1.ext) : RepMid F J s (i + 1) s' := by
  obtain ⟨new, h1, h2, h3, h4⟩ := h.evals
  have hsub : ∀ z ∈ s1.base.log, z ∈ s'.base.log := by
    intro z hz; rw [hlog]; exact List.mem_append_left _ hz
  have haev : Evald c s'.base.log a := ⟨by rw [htgt, hsol], by rw [hlog, hsol]; simp⟩
  have hil : i < s1.pop.length := by rw [h.mid.len]; exact hi
  refine ⟨⟨⟨?_, ?_, ?_, ?_⟩, ?_, ?_⟩, by rw [hh, h.hist], new ++ [x], ?_, by simp [h2], by rw [hnfe, h3]; omega, ?_⟩
  · rw [hpop, List.length_set]; exact h.mid.len
  · intro b hb
    rw [hpop] at hb
    rcases mem_set_iff hb with hb | hb
    · rw [hb]; exact haev
    · exact (h.mid.ev b hb).mono hsub
  · intro b hb
    rw [hpop] at hb
    rcases mem_set_iff hb with hb | hb
    · rw [hb]; exact hF
    · exact h.mid.feas b hb
  · rw [he]; exact h.mid.ext
  · rcases hgb with hgb | hgb
    · rw [hgb]; exact h.mid.gev.mono hsub
    · rw [hgb]; exact haev
  · rcases hgb with hgb | hgb
    · rw [hgb]; exact h.mid.gfeas
    · rw [hgb]; exact hF
  · rw [hlog, h1, List.append_assoc]
  · intro z hz
    rcases List.mem_append.1 hz with hz | hz
    · obtain ⟨hf, j, b, hj, hb, rfl⟩ := h4 z hz
      refine ⟨hf, j, b, by omega, ?_, rfl⟩
      rw [hpop, List.getElem?_set_ne (by omega)]
      exact hb
    · rw [List.mem_singleton.1 hz]
      refine ⟨hx, i, a, by omega, ?_, hsol⟩
      rw [hpop, List.getElem?_set_self hil]

/-- replacing loop, in-place updates -/
theorem replaceLoop_post (hE : c.E.Lawful) {mk : St c X Y → Nat → D c (Vec d K × X)}
    {s : St c X Y} (hs : Mid F J s)
    (hF : ∀ (a : Agent d K X) (x : Vec d K), F a → Feas c x → F { a with sol := x, tgt := c.P.target x })
    (hmk : ∀ (s : St c X Y) (i : Nat), Mid F J s → i < c.popSize → DT noErr (mk s i) (MkOk F c)) :
    Wp noErr (replaceLoop c.popSize mk) s (fun _ s' => Post F J c.popSize c.popSize s s') := by
  unfold replaceLoop
  by_cases hm : c.swarmLike = true
  · rw [if_pos hm]
    refine Wp.bind (Wp.get ?_)
    refine Wp.bind (Wp.draw (buildPending_dt (fun i hi => hmk s i hs hi)) ?_)
    rintro pend r v ⟨h1, h2⟩
    refine Wp.bind (Wp.mono (updateTargets_batch hE hm h2 _) ?_)
    rintro new s' ⟨h3, h4⟩
    have h4' : Batch F s new s' := ⟨h4.ok, h4.log, h4.nfe, h4.pop, h4.gbest, h4.hist, h4.ext⟩
    exact Wp.modify (Step.toPost (Step.replace hs.toGoodPop h4' (by omega) rfl rfl rfl rfl rfl rfl))
  · rw [if_neg hm]
    refine Wp.mono (Wp.iter (fun i _ s' => RepMid F J s i s') c.popSize (RepMid.init hs) ?_)
      (fun _ _ h => h.post)
    rintro i _ s1 hi h
    have hil : i < s1.pop.length := by rw [h.mid.len]; exact hi
    refine Wp.bind (Wp.get ?_)
    refine Wp.bind (Wp.draw (hmk s1 i h.mid hi) ?_)
    intro p r v hp
    refine Wp.bind (Wp.liftB (Wp.getTarget ?_))
    refine Wp.updateAt hil ?_
    refine RepMid.succ h hi hp.1 (a := { s1.pop[i] with sol := p.1, tgt := c.P.target p.1 }) rfl rfl
      (hF _ _ (h.mid.feas _ (List.getElem_mem hil)) hp.1) rfl rfl rfl (.inl rfl) rfl rfl

/-- replacing loop, rebound slots -/
theorem rebindLoop_post (hE : c.E.Lawful) {mk : St c X Y → Nat → D c (Vec d K × X)}
    {s : St c X Y} (hs : Mid F J s)
    (hmk : ∀ (s : St c X Y) (i : Nat), Mid F J s → i < c.popSize → DT noErr (mk s i) (MkOk F c)) :
    Wp noErr (rebindLoop c.popSize mk) s (fun _ s' => Post F J c.popSize c.popSize s s') := by
  unfold rebindLoop
  by_cases hm : c.swarmLike = true
  · rw [if_pos hm]
    refine Wp.bind (Wp.get ?_)
    refine Wp.bind (Wp.draw (buildPending_dt (fun i hi => hmk s i hs hi)) ?_)
    rintro pend r v ⟨h1, h2⟩
    refine Wp.bind (Wp.mono (updateTargets_batch hE hm h2 _) ?_)
    rintro new s' ⟨h3, h4⟩
    have h4' : Batch F s new s' := ⟨h4.ok, h4.log, h4.nfe, h4.pop, h4.gbest, h4.hist, h4.ext⟩
    exact Wp.modify (Step.toPost (Step.replace hs.toGoodPop h4' (by omega) rfl rfl rfl rfl rfl rfl))
  · rw [if_neg hm]
    refine Wp.mono (Wp.iter (fun i _ s' => RepMid F J s i s') c.popSize (RepMid.init hs) ?_)
      (fun _ _ h => h.post)
    rintro i _ s1 hi h
    have hil : i < s1.pop.length := by rw [h.mid.len]; exact hi
    refine Wp.bind (Wp.get ?_)
    refine Wp.bind (Wp.draw (hmk s1 i h.mid hi) ?_)
    intro p r v hp
    refine Wp.bind (Wp.liftB (Wp.getTarget ?_))
    refine Wp.setAt hil ?_
    exact RepMid.succ h hi hp.1 (a := ⟨p.1, c.P.target p.1, p.2⟩) rfl rfl hp.2 rfl rfl rfl (.inl rfl) rfl rfl

/-- keeping the best `pop_size` of old and new agents -/
theorem mergeTrim_imp {Er : Err → Prop} (hE : c.E.Lawful) {s s1 : St c X Y} {new : List (Agent d K X)}
    (hg : GoodPop F J s) (hpos : 0 < c.popSize) (hb : Batch F s new s1) :
    Wp Er (mergeTrim c.popSize new) s1 (fun _ s' => Imp F J new.length new.length s s') := by
  have hlaw := hE.argsortLaw
  have hsl := getSorted_length hlaw (s.pop ++ new) c.P.mm
  have hsm : ∀ a, a ∈ (getSorted c.E.argsort (s.pop ++ new) c.P.mm).1 ↔ a ∈ s.pop ++ new :=
    fun a => getSorted_mem hlaw
  have hbf := getSorted_bestFirst hlaw (s.pop ++ new) c.P.mm
  have hcovers : ∀ b ∈ s.pop ++ new, ∃ a ∈ getSortedTrimmed c.E.argsort (s.pop ++ new) c.popSize c.P.mm,
      NoWorse c.P.mm a.fit b.fit := by
    intro b hb'
    unfold getSortedTrimmed
    have hbm := (hsm b).2 hb'
    cases hl : (getSorted c.E.argsort (s.pop ++ new) c.P.mm).1 with
    | nil => rw [hl] at hbm; cases hbm
    | cons x l =>
      rw [hl] at hbm hbf
      refine ⟨x, ?_, ?_⟩
      · cases hps : c.popSize with
        | zero => omega
        | succ n => simp
      · rcases List.mem_cons.1 hbm with rfl | hbm
        · exact NoWorse.rfl
        · exact (List.pairwise_cons.1 hbf).1 b hbm
  refine Wp.modify ⟨Step.ofBatch hg hb ?_ ?_ ?_ rfl rfl rfl rfl (by
    show J s1.ext
    rw [hb.ext]; exact hg.ext), ?_⟩
  · show (getSortedTrimmed c.E.argsort (s1.pop ++ new) c.popSize c.P.mm).length = _
    rw [hb.pop]
    unfold getSortedTrimmed
    rw [List.length_take, hsl, List.length_append, hg.len]
    omega
  · intro a ha
    change a ∈ getSortedTrimmed c.E.argsort (s1.pop ++ new) c.popSize c.P.mm at ha
    rw [hb.pop] at ha
    have := (hsm a).1 (List.mem_of_mem_take ha)
    rcases List.mem_append.1 this with h | h
    · exact Or.inr h
    · exact Or.inl h
  · intro a ha
    obtain ⟨a', ha', hn⟩ := hcovers a (List.mem_append_right _ ha)
    refine Covered.of_mem (a := a') ?_ (hb.ok a ha).2.2 hn
    show a' ∈ getSortedTrimmed c.E.argsort (s1.pop ++ new) c.popSize c.P.mm
    rw [hb.pop]; exact ha'
  · intro a ha
    obtain ⟨a', ha', hn⟩ := hcovers a (List.mem_append_left _ ha)
    refine ⟨a', ?_, hn⟩
    show a' ∈ getSortedTrimmed c.E.argsort (s1.pop ++ new) c.popSize c.P.mm
    rw [hb.pop]; exact ha'

end Mealpy
