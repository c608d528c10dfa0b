import Verif.Alg.Kit10

/-! # Building blocks, part 11: own `initialization`, scattered assignments, replacing duplicates -/

set_option linter.unusedSectionVars false
set_option linter.unusedVariables false

namespace Mealpy
open Spec

variable {d : Nat} {K : Type} [Num K] {c : Cfg d K} {X Y : Type} {α β : Type} {Er : Err → Prop}
variable {F : Agent d K X → Prop} {J : Y → Prop}

/-! ## Algorithms with their own `initialization` -/

/-- code that runs before there is a state: between `lo` and `hi` evaluations of feasible points -/
def BT (Er : Err → Prop) (lo hi : Nat) (m : B c α) (R : α → Prop) : Prop :=
  ∀ b, Wp Er m b (fun a b' => (∃ new, b'.log = b.log ++ new ∧ lo ≤ new.length ∧ new.length ≤ hi ∧ ∀ x ∈ new, Feas c x) ∧ R a)

theorem BT.pure {a : α} {R : α → Prop} (h : R a) : BT Er 0 0 (Pure.pure a : B c α) R :=
  fun b => Wp.pure ⟨⟨[], by simp, by simp, by simp, by simp⟩, h⟩

theorem BT.mono {lo hi : Nat} {m : B c α} {R Q : α → Prop} (h : BT Er lo hi m R) (hQ : ∀ a, R a → Q a) : BT Er lo hi m Q :=
  fun b => Wp.mono (h b) fun a s' h => ⟨h.1, hQ a h.2⟩

theorem BT.weaken {lo hi lo' hi' : Nat} {m : B c α} {R : α → Prop} (h : BT Er lo hi m R) (h1 : lo' ≤ lo) (h2 : hi ≤ hi') :
    BT Er lo' hi' m R := by
  intro b
  refine Wp.mono (h b) ?_
  rintro a s' ⟨⟨new, g1, g2, g3, g4⟩, g5⟩
  exact ⟨⟨new, g1, by omega, by omega, g4⟩, g5⟩

theorem BT.bind {l1 h1 l2 h2 : Nat} {m : B c α} {f : α → B c β} {R : α → Prop} {Q : β → Prop}
    (h : BT Er l1 h1 m R) (h' : ∀ a, R a → BT Er l2 h2 (f a) Q) : BT Er (l1 + l2) (h1 + h2) (m >>= f) Q := by
  intro b
  refine Wp.bind (Wp.mono (h b) ?_)
  rintro a s' ⟨⟨n1, a1, a2, a3, a4⟩, a5⟩
  refine Wp.mono (h' a a5 s') ?_
  rintro r s'' ⟨⟨n2, b1, b2, b3, b4⟩, b5⟩
  refine ⟨⟨n1 ++ n2, by rw [b1, a1, List.append_assoc], by simp; omega, by simp; omega, fun x hx => ?_⟩, b5⟩
  rcases List.mem_append.1 hx with g | g
  · exact a4 x g
  · exact b4 x g

theorem BT.bindS {lo hi l1 h1 : Nat} {m : B c α} {f : α → B c β} {R : α → Prop} {Q : β → Prop}
    (h : BT Er l1 h1 m R) (hle : h1 ≤ hi) (h' : ∀ a, R a → BT Er (lo - l1) (hi - h1) (f a) Q) : BT Er lo hi (m >>= f) Q :=
  BT.weaken (BT.bind h h') (by omega) (by omega)

theorem BT.bind0 {l h : Nat} {m : B c α} {f : α → B c β} {R : α → Prop} {Q : β → Prop}
    (hm : BT Er 0 0 m R) (h' : ∀ a, R a → BT Er l h (f a) Q) : BT Er l h (m >>= f) Q :=
  BT.weaken (BT.bind hm h') (by omega) (by omega)

theorem BT.ite {p : Prop} [Decidable p] {lo hi : Nat} {m n : B c α} {R : α → Prop} (h : p → BT Er lo hi m R)
    (h' : ¬ p → BT Er lo hi n R) : BT Er lo hi (if p then m else n) R := by
  split
  · exact h (by assumption)
  · exact h' (by assumption)

theorem BT.liftD {m : D c α} {R : α → Prop} (h : DT Er m R) : BT Er 0 0 (Mealpy.liftD m : B c α) R :=
  fun b => Wp.liftD h fun a r v ha => ⟨⟨[], by simp, by simp, by simp, by simp⟩, ha⟩

theorem BT.iter {f : Nat → α → B c α} {lo hi : Nat} (P : Nat → α → Prop) (n : Nat) {a : α} (h0 : P 0 a)
    (hf : ∀ (i : Nat) (a : α), i < n → P i a → BT Er lo hi (f i a) (P (i + 1))) :
    BT Er (n * lo) (n * hi) (Mealpy.iter n f a) (P n) := by
  intro b
  refine Wp.mono (Wp.iter (fun i a b' => (∃ new, b'.log = b.log ++ new ∧ i * lo ≤ new.length ∧ new.length ≤ i * hi ∧
    ∀ x ∈ new, Feas c x) ∧ P i a) n ⟨⟨[], by simp, by simp, by simp, by simp⟩, h0⟩ ?_) fun a s h => h
  rintro i a s hi ⟨⟨n1, a1, a2, a3, a4⟩, a5⟩
  refine Wp.mono (hf i a hi a5 s) ?_
  rintro r s'' ⟨⟨n2, b1, b2, b3, b4⟩, b5⟩
  refine ⟨⟨n1 ++ n2, by rw [b1, a1, List.append_assoc], ?_, ?_, fun x hx => ?_⟩, b5⟩
  · simp only [List.length_append, Nat.add_mul]; omega
  · simp only [List.length_append, Nat.add_mul]; omega
  · rcases List.mem_append.1 hx with g | g
    · exact a4 x g
    · exact b4 x g

theorem BT.generatePopulation (hE : c.E.Lawful) (hP : c.P.Lawful) {mkExt : Vec d K → D c X}
    (hm : ∀ x, Feas c x → DT Er (mkExt x) (fun _ => True)) {n : Nat} :
    BT Er n n (Mealpy.generatePopulation mkExt n : B c _) (fun l => l.length = n ∧ ∀ a ∈ l, CF c a) := by
  intro b
  refine Wp.mono (generatePopulation_spec hE hP n (F := fun _ => True) hm) ?_
  rintro pop b' ⟨h1, h2, ⟨new, h3, h3'⟩, -⟩
  have hl : new.length = n := by rw [h3'.length_eq]; simp [h1]
  refine ⟨⟨new, h3, by omega, by omega, fun x hx => ?_⟩, h1, fun a ha => ⟨(h2 a ha).2.1, (h2 a ha).1⟩⟩
  obtain ⟨a, ha, rfl⟩ := List.mem_map.1 (h3'.mem_iff.1 hx)
  exact (h2 a ha).1

/-- the usual beginning of an own `initialization`: `if self.pop is None: self.pop = self.generate_population(self.pop_size)` -/
def startPop (mkExt : Vec d K → D c X) (p : Option (List (Agent d K X))) : B c (List (Agent d K X)) :=
  match p with
  | some pop => pure pop
  | none => generatePopulation mkExt c.popSize

/-- As `Algo.full`, with its own `initialization`. -/
def Algo.custom (sf : Bool) (mkExt : Vec d K → D c X) (init : D c Y)
    (initialization : Y → Option (List (Agent d K X)) → B c (List (Agent d K X) × Y)) (evolve : Nat → M c X Y Unit) : Algo c X Y where
  sortFlag := sf
  mkExt := mkExt
  initVars := init
  initialization := initialization
  beforeMain := pure ()
  evolve := evolve

theorem Algo.custom_wok (hpos : 0 < c.popSize) {sf : Bool} {mkExt : Vec d K → D c X} {init : D c Y}
    {ini : Y → Option (List (Agent d K X)) → B c (List (Agent d K X) × Y)} {ev : Nat → M c X Y Unit} {i1 i2 lo hi : Nat} {J0 : Y → Prop}
    (hm : ∀ x, Feas c x → DT Er (mkExt x) (fun _ => True)) (hv : DT Er init J0) (h2 : c.popSize ≤ i2)
    (hnone : ∀ y, J0 y → BT Er i1 i2 (ini y none) (fun r => r.1.length = c.popSize ∧ (∀ a ∈ r.1, CF c a) ∧ J r.2))
    (hsome : ∀ y pop, J0 y → pop.length = c.popSize → (∀ a ∈ pop, CF c a) →
      BT Er (i1 - c.popSize) (i2 - c.popSize) (ini y (some pop)) (fun r => r.1.length = c.popSize ∧ (∀ a ∈ r.1, CF c a) ∧ J r.2))
    (h : ∀ ep, 1 ≤ ep → ep ≤ c.epoch → WT Er (Inv.std c X J) lo hi (ev ep) (fun _ => True)) :
    (Algo.custom sf mkExt init ini ev).WOk Er (Inv.std c X J) J0 J i1 i2 0 0 lo hi where
  box := fun x hx => hx
  nonempty := fun n hn => by change n = _ at hn; omega
  mkExt := fun x hx => DT.mono (hm x hx) fun _ _ => hx
  initVars := hv
  init := by
    intro y p b hy hp
    cases p with
    | none =>
      refine Wp.mono (hnone y hy b) ?_
      rintro r b' ⟨⟨new, g1, g2, g3, g4⟩, g5, g6, g7⟩
      exact ⟨g5, g6, g7, new, g1, g4, by simp; omega, by simp; omega⟩
    | some pop =>
      obtain ⟨k1, k2⟩ := hp pop rfl
      refine Wp.mono (hsome y pop hy k1 k2 b) ?_
      rintro r b' ⟨⟨new, g1, g2, g3, g4⟩, g5, g6, g7⟩
      exact ⟨g5, g6, g7, new, g1, g4, by simp; omega, by simp; omega⟩
  before := fun s hs => Wp.pure (WStep.base hs (.refl rfl))
  evolve := h

/-! ## Scattered assignments -/

/-- `for i, a in zip(idx, new): l[i] = a` -/
def overwrite {α : Type} (l : List α) (ps : List (Nat × α)) : List α := ps.foldl (fun l p => l.set p.1 p.2) l

theorem overwrite_length {l : List α} {ps : List (Nat × α)} : (overwrite l ps).length = l.length := by
  unfold overwrite
  induction ps generalizing l with
  | nil => rfl
  | cons p ps ih => rw [List.foldl_cons, ih, List.length_set]

theorem overwrite_mem {l : List α} {ps : List (Nat × α)} {a : α} (h : a ∈ overwrite l ps) : a ∈ l ∨ ∃ p ∈ ps, a = p.2 := by
  unfold overwrite at h
  induction ps generalizing l with
  | nil => exact .inl h
  | cons p ps ih =>
    rw [List.foldl_cons] at h
    rcases ih h with g | ⟨q, g1, g2⟩
    · rcases List.mem_or_eq_of_mem_set g with g | g
      · exact .inl g
      · exact .inr ⟨p, by simp, g⟩
    · exact .inr ⟨q, by simp [g1], g2⟩

theorem overwrite_other {l : List α} {ps : List (Nat × α)} {i : Nat} (h : i ∉ ps.map (·.1)) : (overwrite l ps)[i]? = l[i]? := by
  unfold overwrite
  induction ps generalizing l with
  | nil => rfl
  | cons p ps ih =>
    rw [List.map_cons, List.mem_cons, not_or] at h
    rw [List.foldl_cons, ih h.2, List.getElem?_set_ne (fun g => h.1 g.symm)]

theorem overwrite_at {l : List α} {ps : List (Nat × α)} (hn : (ps.map (·.1)).Nodup) {p : Nat × α} (hp : p ∈ ps) (hl : p.1 < l.length) :
    (overwrite l ps)[p.1]? = some p.2 := by
  induction ps generalizing l with
  | nil => cases hp
  | cons q ps ih =>
    rw [List.map_cons, List.nodup_cons] at hn
    rcases List.mem_cons.1 hp with rfl | g
    · have := overwrite_other (l := l.set p.1 p.2) hn.1
      change (overwrite (l.set p.1 p.2) ps)[p.1]? = _
      rw [this, List.getElem?_set_self hl]
    · exact ih (l := l.set q.1 q.2) hn.2 g (by simpa using hl)

/-! ## Replacing duplicates -/

/-- the agents that have an earlier twin: `np.setdiff1d(np.arange(n), np.unique(positions, axis=0, return_index=True)[1])` -/
def dupIdx (pop : List (Agent d K X)) : List Nat :=
  (List.range pop.length).filter (fun i => (pop.take i).any (fun a => pop[i]?.any (fun b => decide (b.sol = a.sol))))

/-- each duplicate is replaced by a new agent -/
def fillDups (mk : D c (Vec d K)) (e : X) : M c X Y Unit := do
  let s ← get
  let xs ← draw (repM (dupIdx s.pop).length (fun _ => mk))
  let new ← evalSeq (xs.map (fun x => (x, e)))
  modify (fun t => { t with pop := overwrite s.pop ((dupIdx s.pop).zip new) })

theorem evalSeq_pop : ∀ {pend : List (Vec d K × X)} {s : St c X Y},
    Wp (fun _ => True) (evalSeq pend : M c X Y _) s (fun _ s' => s'.pop = s.pop)
  | [], s => Wp.pure rfl
  | p :: ps, s => by
    unfold evalSeq
    refine Wp.bind (Wp.liftB (Wp.getTarget ?_))
    refine Wp.bind (Wp.mono evalSeq_pop ?_)
    intro a s' h
    exact Wp.pure h

theorem Wp.and {S : Type} {m : StateT S (Except Err) α} {s : S} {Q R : α → S → Prop} (h : Wp Er m s Q) (h' : Wp (fun _ => True) m s R) :
    Wp Er m s (fun a t => Q a t ∧ R a t) := by
  unfold Wp at *
  cases hm : m s with
  | error e => rw [hm] at h; exact h
  | ok q => rw [hm] at h h'; exact ⟨h, h'⟩

theorem dupIdx_nodup {pop : List (Agent d K X)} : (dupIdx pop).Nodup := List.nodup_range.filter _

theorem dupIdx_lt {pop : List (Agent d K X)} {i : Nat} (h : i ∈ dupIdx pop) : i < pop.length :=
  List.mem_range.1 (List.mem_filter.1 h).1

theorem dupIdx_length {pop : List (Agent d K X)} : (dupIdx pop).length ≤ pop.length := by
  have := List.length_filter_le (fun i => (pop.take i).any (fun a => pop[i]?.any (fun b => decide (b.sol = a.sol)))) (List.range pop.length)
  rwa [List.length_range] at this

/-- every position survives among the agents that are not duplicates -/
theorem dupIdx_first {pop : List (Agent d K X)} : ∀ (i : Nat) (hi : i < pop.length), ∃ k, ∃ hk : k < pop.length, k ∉ dupIdx pop ∧ (pop[k]).sol = (pop[i]).sol := by
  intro i
  induction i using Nat.strong_induction_on with
  | _ i ih =>
    intro hi
    by_cases h : i ∈ dupIdx pop
    · have h2 := (List.mem_filter.1 h).2
      obtain ⟨a, ha, hab⟩ := List.any_eq_true.1 h2
      obtain ⟨k, hk, rfl⟩ := List.mem_iff_getElem.1 ha
      rw [List.getElem?_eq_getElem hi] at hab
      simp only [Option.any_some, decide_eq_true_eq] at hab
      rw [List.getElem_take] at hab
      rw [List.length_take] at hk
      obtain ⟨k', hk', h1, h2⟩ := ih k (by omega) (by omega)
      exact ⟨k', hk', h1, by rw [h2, hab]⟩
    · exact ⟨i, hi, h, rfl⟩

theorem HJ.fillDups {mk : D c (Vec d K)} {e : X} (hmk : DT noErr mk (fun x => MkOk F c (x, e))) :
    HJ F J 0 c.popSize [] (Mealpy.fillDups mk e : M c X Y Unit) (fun _ => []) (fun _ => True) := by
  intro s0 s l k hs0 hs
  unfold Mealpy.fillDups
  refine Wp.bind (Wp.get ?_)
  refine Wp.bind (Wp.draw (DT.repM fun _ _ => hmk) fun xs r v hxs => ?_)
  have hs1 : ImpH F J l k s0 { s with base := { s.base with rng := r, vg := v } } [] :=
    ⟨⟨hs.good.len, hs.good.ev, hs.good.feas, hs.good.ext⟩, hs.hist, hs.gbest, hs.evals, hs.keep, by simp⟩
  have hp : ∀ p ∈ xs.map (fun x => (x, e)), MkOk F c p := by
    intro p hp
    obtain ⟨x, hx, rfl⟩ := List.mem_map.1 hp
    exact hxs.2 x hx
  refine Wp.bind (Wp.mono ((HJ.evalSeq (G := []) hp s0 _ l k hs0 hs1).and evalSeq_pop) ?_)
  rintro new s' ⟨⟨h1, h2, -⟩, hpop⟩
  replace hpop : s'.pop = s.pop := hpop
  rw [List.length_map, hxs.1] at h1 h2
  replace h1 : ImpH F J (l + (dupIdx s.pop).length) (k + (dupIdx s.pop).length) s0 s' new := h1
  have hlen : (dupIdx s.pop).length = new.length := h2.symm
  have hkeys : ((dupIdx s.pop).zip new).map (·.1) = dupIdx s.pop := by
    have := List.map_fst_zip (l₁ := dupIdx s.pop) (l₂ := new) (by omega)
    simpa using this
  refine Wp.modify ⟨?_, trivial⟩
  refine ImpH.weaken (lo := l + (dupIdx s.pop).length) (hi := k + (dupIdx s.pop).length) ?_ (by omega) (by have := dupIdx_length (pop := s.pop); have := hs.good.len; omega)
  refine (h1.settle (s'' := { s' with pop := overwrite s.pop ((dupIdx s.pop).zip new) }) ?_ ?_ ?_ rfl rfl rfl rfl rfl).held
  · show (overwrite s.pop _).length = _
    rw [overwrite_length]; exact hs.good.len
  · intro a ha
    rcases overwrite_mem ha with g | ⟨p, g1, g2⟩
    · exact .inl (by rw [hpop]; exact g)
    · exact .inr (by rw [g2]; exact (List.of_mem_zip g1).2)
  · rintro a (ha | ha)
    · rw [hpop] at ha
      obtain ⟨i, hi, rfl⟩ := List.mem_iff_getElem.1 ha
      obtain ⟨j, hj, h3, h4⟩ := dupIdx_first i hi
      have h5 : (overwrite s.pop ((dupIdx s.pop).zip new))[j]? = some s.pop[j] := by
        rw [overwrite_other (by rw [hkeys]; exact h3), List.getElem?_eq_getElem hj]
      refine ⟨s.pop[j], List.mem_of_getElem? h5, ?_⟩
      have e1 := (hs.good.ev _ (List.getElem_mem hj)).1
      have e2 := (hs.good.ev _ (List.getElem_mem hi)).1
      unfold Agent.fit
      rw [e1, e2, h4]
      exact NoWorse.rfl
    · obtain ⟨i, hi, rfl⟩ := List.mem_iff_getElem.1 ha
      have hz : ((dupIdx s.pop)[i]'(by omega), new[i]) ∈ (dupIdx s.pop).zip new := by
        rw [List.mem_iff_getElem]
        exact ⟨i, by simp; omega, by simp⟩
      have := overwrite_at (l := s.pop) (by rw [hkeys]; exact dupIdx_nodup) hz (dupIdx_lt (List.getElem_mem _))
      exact ⟨new[i], List.mem_of_getElem? this, NoWorse.rfl⟩

theorem Framed.fillDups {q : Bool} {mk : D c (Vec d K)} {e : X} : Framed q (Mealpy.fillDups mk e : M c X Y Unit) := by
  unfold Mealpy.fillDups
  framed

macro_rules
  | `(tactic| fprim) => `(tactic| (at_last fillDups; exact Framed.fillDups))

/-! ## Elites replace the worst -/

/-- `_, _, worst = get_special_agents(pop, n_worst=k, return_index=True)`; `pop[worst[i]] = elites[i]` -/
def putElites (c : Cfg d K) (elites pop : List (Agent d K X)) : List (Agent d K X) :=
  overwrite pop (((getSorted c.E.argsort pop c.P.mm).2.reverse.take elites.length).zip elites)

theorem putElites_ok (hE : c.E.Lawful) {elites pop : List (Agent d K X)} (h : elites.length < pop.length) :
    (putElites c elites pop).length = pop.length ∧ (∀ a ∈ putElites c elites pop, a ∈ pop ∨ a ∈ elites) ∧
      ∀ a, a ∈ pop ∨ a ∈ elites → ∃ a' ∈ putElites c elites pop, NoWorse c.P.mm a'.fit a.fit := by
  have hperm := sortedIdx_perm hE.argsortLaw pop c.P.mm
  have h2 : (getSorted c.E.argsort pop c.P.mm).2 = sortedIdx c.E.argsort pop c.P.mm := by rw [getSorted_eq]
  have hl : (sortedIdx c.E.argsort pop c.P.mm).length = pop.length := by rw [hperm.length_eq, List.length_range]
  have hnd : (sortedIdx c.E.argsort pop c.P.mm).Nodup := hperm.nodup_iff.2 List.nodup_range
  have hkeys : (((sortedIdx c.E.argsort pop c.P.mm).reverse.take elites.length).zip elites).map (·.1) =
      (sortedIdx c.E.argsort pop c.P.mm).reverse.take elites.length := by
    have := List.map_fst_zip (l₁ := (sortedIdx c.E.argsort pop c.P.mm).reverse.take elites.length) (l₂ := elites) (by simp)
    simpa using this
  have hkn : (((sortedIdx c.E.argsort pop c.P.mm).reverse.take elites.length)).Nodup :=
    (List.take_sublist _ _).nodup (List.nodup_reverse.2 hnd)
  unfold putElites
  rw [h2]
  refine ⟨overwrite_length, fun a ha => ?_, ?_⟩
  · rcases overwrite_mem ha with g | ⟨p, g1, g2⟩
    · exact .inl g
    · exact .inr (by rw [g2]; exact (List.of_mem_zip g1).2)
  · rintro a (ha | ha)
    · have h0 : 0 < (getSorted c.E.argsort pop c.P.mm).1.length := by rw [getSorted_length hE.argsortLaw]; omega
      have hb := List.getElem?_eq_getElem h0
      have hbest := (head_best hE.argsortLaw hb).2 a ha
      have hix := getSorted_index hE.argsortLaw pop c.P.mm 0
      have hi0 : 0 < (sortedIdx c.E.argsort pop c.P.mm).length := by omega
      rw [hb, h2, List.getElem?_eq_getElem hi0] at hix
      refine ⟨(getSorted c.E.argsort pop c.P.mm).1[0], List.mem_of_getElem? (i := (sortedIdx c.E.argsort pop c.P.mm)[0]) ?_, hbest⟩
      rw [overwrite_other, ← show _ = pop[(sortedIdx c.E.argsort pop c.P.mm)[0]]? from hix]
      rw [hkeys, List.take_reverse]
      intro hm
      rw [List.mem_reverse, List.mem_iff_getElem] at hm
      obtain ⟨k, hk, hk2⟩ := hm
      rw [List.getElem_drop] at hk2
      have := (List.nodup_iff_injective_getElem.1 hnd).eq_iff (a := ⟨_, by rw [List.length_drop] at hk; omega⟩) (b := ⟨0, hi0⟩) |>.1 hk2
      have := Fin.mk.inj this
      omega
    · obtain ⟨i, hi, rfl⟩ := List.mem_iff_getElem.1 ha
      have hi' : i < ((sortedIdx c.E.argsort pop c.P.mm).reverse.take elites.length).length := by simp; omega
      have hz : (((sortedIdx c.E.argsort pop c.P.mm).reverse.take elites.length)[i], elites[i]) ∈
          ((sortedIdx c.E.argsort pop c.P.mm).reverse.take elites.length).zip elites := by
        rw [List.mem_iff_getElem]
        exact ⟨i, by simp; omega, by simp⟩
      have hm : ((sortedIdx c.E.argsort pop c.P.mm).reverse.take elites.length)[i] < pop.length := by
        have := List.mem_reverse.1 (List.mem_of_mem_take (List.getElem_mem hi'))
        exact List.mem_range.1 (hperm.mem_iff.1 this)
      exact ⟨elites[i], List.mem_of_getElem? (overwrite_at (l := pop) (by rw [hkeys]; exact hkn) hz hm), NoWorse.rfl⟩

end Mealpy
