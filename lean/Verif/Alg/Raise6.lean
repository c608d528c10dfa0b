import Verif.Alg.Raise5
import Verif.Alg.Kit21
import Verif.Alg.Kit22
import Verif.Alg.LSHADEcn
import Verif.Alg.Simple17
import Verif.Alg.Enhanced

/-! # Loops over a population size that the population does not have -/

set_option linter.unusedSectionVars false
set_option linter.unusedVariables false

namespace Mealpy
open Spec

variable {d : Nat} {K : Type} [Num K] {c : Cfg d K} {Er : Err → Prop}

namespace OriginalLSHADEcnEpSin

variable {p : Params K} {y : Vars d K} {ep n idx : Nat}

theorem dt_mutant_tol (hE : c.E.Lawful) (hP : c.P.Lawful) (he : Er .index) {pop : List (Agent d K Unit)} {archive : List (Vec d K)} {F : K} (h4 : 4 ≤ pop.length) (hn : 2 ≤ n) :
    DT Er (mutant pop archive n idx F : D c _) (fun _ => idx < pop.length) := by
  have hnth : ∀ i, DT Er (nth pop i : D c _) (fun _ => i < pop.length) := by
    intro i
    by_cases hi : i < pop.length
    · exact DT.mono (DT.nth_mem hi) fun _ _ => hi
    · exact DT.nth_never (by omega) he
  unfold mutant
  dsimp only
  refine DT.bind (DT.sortedPop hE) fun sorted hs => DT.bind (DT.index hE (by omega)) fun k hk => DT.bind (DT.pickWithout hE (by simp; omega)) fun r1 h1 => ?_
  refine DT.bind (DT.pickWithout hE (by simp; omega)) fun r2 h2 => DT.bind (hnth idx) fun x hx => DT.bind (DT.nth_tol he) fun b _ => ?_
  exact DT.bind (DT.nth_tol he) fun a _ => DT.bind (DT.nth_tol he) fun e _ => DT.mono (DT.correct hP) fun _ _ => hx

theorem dt_covariance_tol (hE : c.E.Lawful) (hd : 2 ≤ d ∨ d = 1 ∧ Er .value) (h : Ok p y) {pop : List (Agent d K Unit)} {best x m : Vec d K} :
    DT Er (covariance p y pop n best x m : D c _) (fun _ => True) := by
  rcases hd with hd | ⟨rfl, hv⟩
  · exact DT.lax (dt_covariance hE hd h)
  · have hb : ∀ {x m : Vec 1 K}, DT Er (do let cr ← rate p y; binomial x m cr : D c (Vec 1 K)) (fun _ => True) :=
      fun {x m} => DT.bind (DT.lax (dt_rate hE h)) fun cr _ => DT.lax (dt_binomial hE (by omega))
    unfold covariance
    dsimp only
    refine DT.ite (fun _ => ?_) fun _ => hb
    rw [if_pos rfl]
    exact DT.throw hv

/-- an agent that is not there is never replaced -/
theorem dt_plan_tol (hE : c.E.Lawful) (hP : c.P.Lawful) (he : Er .index) (hd : 2 ≤ d ∨ d = 1 ∧ Er .value) (h : Ok p y) {best : Vec d K} {r : Run d K}
    (h4 : 4 ≤ r.pop.length) (hn : 2 ≤ n) : DT Er (plan p y ep n best r idx : D c _) (fun q => Feas c q.1 ∧ idx < r.pop.length) := by
  have hd0 : 0 < d := by rcases hd with hd | ⟨hd, _⟩ <;> omega
  unfold plan
  refine DT.bind (DT.lax (dt_factor hE h)) fun f _ => DT.bind (DT.lax (dt_rate hE h)) fun cr _ => DT.bind (dt_mutant_tol hE hP he h4 hn) fun m hm => DT.bind DT.random' fun u _ => ?_
  refine DT.bind (DT.nth_tol he) fun x _ => DT.bind (R := fun _ => True) (DT.ite (fun _ => dt_covariance_tol hE hd h) fun _ => DT.lax (dt_binomial hE hd0)) fun t _ => ?_
  exact DT.bind (DT.correct hP) fun pos hp => DT.pure ⟨hp, hm⟩

/-- the population keeps its size, the memories theirs -/
abbrev J (c : Cfg d K) (p : Params K) : LInv d K (Vars d K) := ⟨fun _ => True, fun n => n = c.popSize, Ok p⟩

theorem lt_step (hE : c.E.Lawful) (hP : c.P.Lawful) (he : Er .index) (hd : 2 ≤ d ∨ d = 1 ∧ Er .value) (h : Ok p y) {best : Vec d K} {r : Run d K}
    (h4 : 4 ≤ c.popSize) (hr : r.pop.length = c.popSize) (hn : 2 ≤ n) :
    LT Er (J c p) 1 1 (step p y ep n best idx r : M c Unit (Vars d K) _) (fun r' => r'.pop.length = c.popSize ∧ idx < c.popSize) := by
  unfold step
  refine LT.bind0 (LT.draw (dt_plan_tol hE hP he hd h (by omega) hn)) fun q hq => LT.bind0 (LT.draw (DT.nth_tol he)) fun x hx => ?_
  refine LT.bindS (LT.getTarget trivial) (by omega) fun t _ => LT.weaken (LT.ite (fun _ => LT.pure ⟨?_, by have := hq.2; omega⟩) fun _ => LT.pure ⟨hr, by have := hq.2; omega⟩) (by omega) (by omega)
  rw [List.length_set]; exact hr

theorem late (hE : c.E.Lawful) (hP : c.P.Lawful) (hc : Accepted c 5) (he : Er .index) (hd : 2 ≤ d ∨ d = 1 ∧ Er .value) (hm : 1 ≤ p.memory)
    (hmin : c.popSize < p.min) (h2 : 2 ≤ c.epoch) (o : RunOpts K) (hno : o.term = none) (hst : FeasibleStart c o.starting) (b : Base c) :
    ∃ e, Er e ∧ solve (algo p : Algo c Unit (Vars d K)) o b = .error e := by
  have hpop := hc.pop
  have hbad : ∀ ep, 1 < ep → LT Er (J c p) 0 (p.min * 1) (evolve p ep : M c Unit (Vars d K) Unit) (fun _ => False) := by
    intro ep h
    unfold evolve
    refine LT.bind0 LT.get fun s hs => ?_
    have hl : s.pop.length = c.popSize := hs.len
    dsimp only
    rw [show np c p ep s.pop.length = p.min from if_pos ⟨hmin, h⟩]
    refine LT.neverBind (lo := 0) (hi := p.min * 1) (LT.mono (LT.iterS 1 1 (fun i r => r.pop.length = c.popSize ∧ i ≤ c.popSize) (Nat.zero_le _) le_rfl ⟨hl, Nat.zero_le _⟩
      fun i r hi hr => LT.mono (lt_step hE hP he hd hs.ext (by omega) hr.1 (by omega)) fun r' h' => ⟨h'.1, h'.2⟩) fun r hr => by omega)
  refine Algo.LOk.raisesOneAt (A := algo p) (I := J c p) (m := 1) (lo := 0) (hi := p.min * 1)
    (Algo.pre_lok (J0 := Ok p) (lo := 0) (hi := p.min * 1) hE hP rfl (fun n hn => by have : n = c.popSize := hn; omega) (fun _ _ => trivial) (fun _ => DT.pure trivial)
      (DT.pure ⟨by simp only [initVars]; omega, by simp [initVars], by simp [initVars]⟩) (fun s hs => DT.pure ⟨hs.ext.idx, hs.ext.f, hs.ext.cr⟩) ?_) hE (by omega) (by omega)
    (hbad 2 (by omega)) o hno hst b
  intro ep h1 _
  rcases Nat.lt_or_eq_of_le h1 with h | rfl
  · exact LT.mono (hbad ep h) fun _ h => h.elim
  · unfold evolve
    refine LT.bind0 LT.get fun s hs => ?_
    have hl : s.pop.length = c.popSize := hs.len
    dsimp only
    rw [show np c p 1 s.pop.length = c.popSize from (if_neg (by omega)).trans hl]
    refine LT.bindS (LT.iterS 1 1 (lo := 0) (hi := p.min * 1) (fun i r => r.pop.length = c.popSize) (Nat.zero_le _) (by omega) hl
      fun i r hi hr => LT.mono (lt_step hE hP he hd hs.ext (by omega) hr (by omega)) fun r' h' => h'.1) le_rfl fun r hr => ?_
    have hs1 : ¬ size c p 1 < c.popSize := by have := size_ge (c := c) (p := p) (ep := 1); omega
    refine LT.bind0 (R := fun l => l.length = c.popSize) (LT.draw ?_) fun pop hp => LT.bind0 (LT.draw (DT.lax (dt_limit hE))) fun archive _ => ?_
    · unfold reduce
      rw [if_neg hs1]
      exact DT.pure hr
    refine LT.bind0 (LT.setPop hp) fun _ _ => LT.weaken (LT.modExt fun y hy => ?_) (by omega) (by omega)
    have h := learn_ok hy (r := r)
    exact ⟨h.idx, h.f, h.cr⟩

/-- no more agents than at first, and no fewer than `pop_size_min` unless there were fewer at first -/
def Some' (c : Cfg d K) (p : Params K) (n : Nat) : Prop := min p.min c.popSize ≤ n ∧ n ≤ c.popSize

theorem wt_step_tol (hE : c.E.Lawful) (hP : c.P.Lawful) (he : Er .index) (hd : 2 ≤ d ∨ d = 1 ∧ Er .value) (h : Ok p y) {best : Vec d K} {r : Run d K} {k : Nat}
    (h4 : 4 ≤ k) (hr : Fine c k r) (hn : 2 ≤ n) :
    WT Er (Inv.sized c Unit (Some' c p) (Ok p)) 1 1 (step p y ep n best idx r : M c Unit (Vars d K) _) (fun r' => Fine c k r' ∧ idx < k) := by
  obtain ⟨rfl, hr⟩ := hr
  unfold step
  refine WT.bind0 (WT.draw (dt_plan_tol hE hP he hd h h4 hn)) fun q hq => WT.bind0 (WT.draw (DT.nth_tol he)) fun x hx => ?_
  refine WT.bindS (WT.getTarget hq.1) (by omega) fun t ht => WT.weaken (WT.ite (fun _ => WT.pure ⟨⟨by rw [List.length_set], fun a ha => ?_⟩, hq.2⟩) fun _ => WT.pure ⟨⟨rfl, hr⟩, hq.2⟩) (by omega) (by omega)
  rcases mem_set_iff ha with rfl | ha
  · exact ⟨ht, hq.1⟩
  · exact hr a ha

/-- whatever the constructor accepts, nothing but `ValueError` (in one dimension) and `IndexError` (with fewer agents than `pop_size_min`) is raised -/
theorem wokUneven (hE : c.E.Lawful) (hP : c.P.Lawful) (hc : Accepted c 5) (p : Params K) (hd : 0 < d) (hm : 1 ≤ p.memory) (h4 : 4 ≤ p.min) :
    (algo p : Algo c Unit (Vars d K)).WOk (only [.value, .index]) (Inv.sized c Unit (Some' c p) (Ok p)) (Ok p) (Ok p) c.popSize c.popSize 0 0 (min p.min c.popSize) c.popSize := by
  have hpop := hc.pop
  have hep := hc.epoch
  have hd' : 2 ≤ d ∨ d = 1 ∧ only [.value, .index] Err.value := by
    rcases Nat.lt_or_ge 1 d with h | h
    · exact .inl h
    · exact .inr ⟨by omega, .head _⟩
  have he : only [.value, .index] Err.index := .tail _ (.head _)
  unfold algo
  refine Algo.before_wok (I := Inv.sized c Unit (Some' c p) (Ok p)) hE hP (by omega) (⟨min_le_right _ _, le_rfl⟩ : Some' c p c.popSize)
    (fun n hn => by have : Some' c p n := hn; have := this.1; omega) rfl
    (Inv.sized_box (mkExt := fun _ => pure ()) fun x hx => DT.pure trivial) (DT.pure ⟨by simp only [initVars]; omega, by simp [initVars], by simp [initVars]⟩) ?_ (fun ep _ _ => ?_)
  · intro s hs
    have h0 : Ok p s.ext := hs.ext
    have hb : DT (only [.value, .index]) (before s) (Ok p) := DT.pure ⟨h0.idx, h0.f, h0.cr⟩
    refine Wp.bind (Wp.get (Wp.bind (Wp.draw hb fun y r v hy => Wp.modify ?_)))
    exact ⟨⟨hs.len, hs.pop, hy, hs.gbest, hs.record, hs.worst, hs.cbest, hs.cworst⟩, .refl rfl, .rfl⟩
  show WT _ (Inv.sized c Unit (Some' c p) (Ok p)) (min p.min c.popSize) c.popSize (evolve p ep) (fun _ => True)
  unfold evolve
  refine WT.bind0 WT.get fun s hs => ?_
  have hsz : Some' c p s.pop.length := hs.len
  have hok : Ok p s.ext := hs.ext
  have hn1 := hsz.1
  have hn2 := hsz.2
  have hfine : Fine c s.pop.length (⟨s.pop, s.ext.archive, [], (0, 0, 0, 0)⟩ : Run d K) := ⟨rfl, fun a ha => ⟨(hs.pop a ha).1, (hs.pop a ha).2⟩⟩
  dsimp only
  by_cases hlt : s.pop.length < np c p ep s.pop.length
  · have hn := WT.iter (Er := only [.value, .index]) (I := Inv.sized c Unit (Some' c p) (Ok p)) (lo := 1) (hi := 1) (fun i r => Fine c s.pop.length r ∧ i ≤ s.pop.length) (np c p ep s.pop.length)
      (f := fun i r => step p s.ext ep (np c p ep s.pop.length) s.gbest.sol i r) ⟨hfine, Nat.zero_le _⟩
      fun i r hi hr => WT.mono (wt_step_tol hE hP he hd' hok (by omega) hr.1 (by omega)) fun r' h => ⟨h.1, h.2⟩
    exact fun s' hs' => Wp.bind (Wp.mono (hn s' hs') fun r s2 h => absurd h.2.2 (by omega))
  have hnp : np c p ep s.pop.length = s.pop.length := by
    unfold np at hlt ⊢
    split at hlt
    · omega
    · rw [if_neg ‹_›]
  rw [hnp]
  refine WT.bindS (WT.iter (lo := 1) (hi := 1) (fun _ r => Fine c s.pop.length r) s.pop.length hfine
    fun i r hi hr => WT.mono (wt_step_tol hE hP he hd' hok (by omega) hr (by omega)) fun r' h => h.1) (by omega) fun r hr => ?_
  refine WT.bind0 (R := fun l => Some' c p l.length ∧ ∀ a ∈ l, CF c a) (WT.draw ?_) fun pop hpop' => WT.bind0 (WT.draw (DT.lax (dt_limit hE))) fun archive _ => ?_
  · have hge := size_ge (c := c) (p := p) (ep := ep)
    unfold reduce
    refine DT.ite (fun hlt => DT.bind (DT.sortedPop hE) fun sorted hs => DT.bind (DT.permutation hE) fun ord ho => DT.pure ⟨?_, fun a ha => ?_⟩) fun _ => DT.pure ⟨?_, hr.2⟩
    · rw [lookup_all fun i hi => List.mem_range.1 ((ho.mem_iff).1 hi), ho.length_eq, List.length_range, List.length_take, hs.1, hr.1]
      constructor <;> omega
    · obtain ⟨i, _, h⟩ := List.mem_filterMap.1 ha
      exact hr.2 a ((hs.2 a).1 (List.mem_of_mem_take (List.mem_of_getElem? h)))
    · rw [hr.1]; exact hsz
  refine WT.bind0 (WT.setPop hpop'.1 hpop'.2) fun _ _ => WT.weaken (WT.modExt fun y hy => ?_) (by omega) (by omega)
  have h := learn_ok hy (r := r)
  exact ⟨h.idx, h.f, h.cr⟩

end OriginalLSHADEcnEpSin

namespace OriginalCRO

/-- the reef as it is settled at first -/
def First (c : Cfg d K) (p : Params K) (y : Reef K) : Prop := y.occ.length = settled c p ∧ ∀ i ∈ y.occ, i < c.popSize

theorem crossings_never (hE : c.E.Lawful) (hd : d = 1) {s : St c Unit (Reef K)} {sel : List Nat} (hl : s.pop.length = c.popSize)
    (hs : ∀ i ∈ sel, i < c.popSize) (h2 : 2 ≤ sel.length) : DT (fun x => x = Err.value) (crossings s sel : D c _) (fun _ => False) := by
  unfold crossings
  refine DT.mono (DT.iter (fun k (r : List (Vec d K × Unit) × List Nat) => k = 0 ∧ r = ([], sel)) (sel.length / 2) ⟨rfl, rfl⟩ ?_) fun r h => by have := h.1; omega
  rintro k r hk ⟨rfl, rfl⟩
  dsimp only
  refine DT.bind (DT.choose2 hE h2) fun q hq => ?_
  refine DT.bind (DT.nth_mem (by omega)) fun i hi => DT.bind (DT.nth_mem (by omega)) fun j hj => ?_
  have hi' := hs i hi
  have hj' := hs j hj
  refine DT.bind (DT.nth_mem (by omega)) fun a _ => DT.bind (DT.nth_mem (by omega)) fun b _ => DT.neverBind ?_
  unfold cross choose2
  refine DT.neverBind (DT.neverBind (DT.choice_never ?_ rfl))
  subst hd
  rfl

theorem larvae_never (hE : c.E.Lawful) (hP : c.P.Lawful) (hd : d = 1) {p : Params K} (hr : Rates c p) (h2 : 2 ≤ part (settled c p) p.fb) {s : St c Unit (Reef K)}
    (hl : s.pop.length = c.popSize) (hy : First c p s.ext) : DT (fun x => x = Err.value) (larvae p s : D c _) (fun _ => False) := by
  unfold larvae
  have hb := hr.fb _ hr.po
  refine DT.bind (DT.choice hE (choice_ok (by rw [hy.1]; exact hb))) ?_
  rintro ks ⟨h1, h3, -⟩
  have hsel : ∀ i ∈ ks.filterMap (fun k => s.ext.occ[k]?), i < c.popSize := by
    intro i hi
    obtain ⟨k, _, hk⟩ := List.mem_filterMap.1 hi
    exact hy.2 i (List.mem_of_getElem? hk)
  have hlen : (ks.filterMap (fun k => s.ext.occ[k]?)).length = part s.ext.occ.length p.fb := by
    rw [lookup_all h3, h1]
  rw [hy.1] at hlen
  dsimp only
  generalize ks.filterMap (fun k => s.ext.occ[k]?) = sel at hsel hlen ⊢
  have hrest : ∀ i ∈ s.ext.occ.filter (fun i => decide (i ∉ sel)), i < s.pop.length := fun i hi => by
    rw [hl]; exact hy.2 i (List.mem_filter.1 hi).1
  generalize s.ext.occ.filter (fun i => decide (i ∉ sel)) = rest at hrest ⊢
  refine DT.bind (buildPending_dt (Q := fun q => Feas c q.1) fun k hk => ?_) fun muts hm => DT.neverBind (crossings_never hE hd hl hsel (by omega))
  exact DT.bind (DT.nth_mem hk) fun i hi => DT.bind (DT.nth_mem (hrest i hi)) fun a _ => dt_mutate hP

theorem dt_first (hE : c.E.Lawful) {p : Params K} (hr : Rates c p) :
    DT Er (choice c.popSize (settled c p) false : D c _) (fun l => l.length = settled c p ∧ ∀ i ∈ l, i < c.popSize) := by
  have := hr.po
  exact DT.mono (DT.choice hE (choice_ok (by omega))) fun l h => ⟨h.1, h.2.1⟩

/-- code that starts with the larvae never gets past them in one dimension -/
theorem never (hE : c.E.Lawful) (hP : c.P.Lawful) (hc : Accepted c 5) (p : Params K) (hd : d = 1) (hr : Rates c p) (h2 : 2 ≤ part (settled c p) p.fb)
    {ev : Nat → M c Unit (Reef K) Unit} {k : List (Vec d K × Unit) → M c Unit (Reef K) Unit}
    (hev : ∀ ep, ev ep = (do let s ← get; let pend ← draw (larvae p s); k pend))
    (o : RunOpts K) (hst : FeasibleStart c o.starting) (b : Base c) (hb : b.log = []) :
    solve (Algo.custom false (fun _ => pure ()) (pure ⟨[], 0, 0, 0⟩) (initialization p) ev : Algo c Unit (Reef K)) o b = .error .value := by
  have hpop := hc.pop
  have hep := hc.epoch
  refine (Algo.custom_lok (Er := fun x => x = Err.value) (I := (⟨fun _ => True, fun n => n = c.popSize, First c p⟩ : LInv d K (Reef K)))
    (i1 := c.popSize) (i2 := c.popSize) (lo := 1) (hi := 0) (J0 := JT)
    (fun n hn => by have : n = c.popSize := hn; omega) (fun _ _ => trivial) (fun _ _ => DT.pure trivial) (DT.pure trivial) le_rfl (fun y _ => ?_) (fun y pop _ hl => ?_) fun ep _ _ => ?_).raises hE (by omega) (by omega) o hst b hb
  · unfold initialization startPop
    exact BT.bindS (BT.generatePopulation hE hP fun x _ => DT.pure trivial) le_rfl fun pop hpop =>
      BT.bind0 (BT.liftD (dt_first hE hr)) fun l hl => BT.weaken (BT.pure ⟨hpop.1, hl.1, hl.2⟩) (by omega) (by omega)
  · unfold initialization startPop
    rw [pure_bind]
    exact BT.bind0 (BT.liftD (dt_first hE hr)) fun l hl' => BT.weaken (BT.pure ⟨hl, hl'.1, hl'.2⟩) (by omega) (by omega)
  · rw [hev]
    exact LT.bind0 LT.get fun s hs => LT.neverBind (lo := 0) (hi := 0) (LT.draw (larvae_never hE hP hd hr h2 hs.len hs.ext))

theorem raises (hE : c.E.Lawful) (hP : c.P.Lawful) (hc : Accepted c 5) (p : Params K) (hd : d = 1) (hr : Rates c p) (h2 : 2 ≤ part (settled c p) p.fb)
    (o : RunOpts K) (hst : FeasibleStart c o.starting) (b : Base c) (hb : b.log = []) : solve (algo p : Algo c Unit (Reef K)) o b = .error .value :=
  never hE hP hc p hd hr h2 (fun ep => rfl) o hst b hb

end OriginalCRO

theorem OCRO.raises (hE : c.E.Lawful) (hP : c.P.Lawful) (hc : Accepted c 5) (p : OCRO.Params K) (hd : d = 1) (hr : OriginalCRO.Rates c p.base)
    (h2 : 2 ≤ OriginalCRO.part (OriginalCRO.settled c p.base) p.base.fb)
    (o : RunOpts K) (hst : FeasibleStart c o.starting) (b : Base c) (hb : b.log = []) : solve (OCRO.algo p : Algo c Unit (OriginalCRO.Reef K)) o b = .error .value :=
  OriginalCRO.never hE hP hc p.base hd hr h2 (fun ep => rfl) o hst b hb

end Mealpy
