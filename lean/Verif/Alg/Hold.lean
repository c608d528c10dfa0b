import Verif.Alg.Kit

/-!
# Code that keeps evaluated agents in local variables

`HJ lo hi G m H R`: run `m` while the evaluated agents `G` are held in local variables; afterwards `H a` are
held (`a` the value returned), between `lo` and `hi` evaluations were made, and still nothing good has been lost
from population and held agents together.
-/

set_option linter.unusedSectionVars false
set_option linter.unusedVariables false

namespace Mealpy
open Spec

variable {d : Nat} {K : Type} [Num K] {c : Cfg d K} {X Y : Type} {α β : Type}
variable {F : Agent d K X → Prop} {J : Y → Prop}

def HJ (F : Agent d K X → Prop) (J : Y → Prop) (lo hi : Nat) (G : List (Agent d K X)) (m : M c X Y α)
    (H : α → List (Agent d K X)) (R : α → Prop) : Prop :=
  ∀ s0 s l h, Mid F J s0 → ImpH F J l h s0 s G →
    Wp noErr m s (fun a s' => ImpH F J (l + lo) (h + hi) s0 s' (H a) ∧ R a)

theorem ImpH.weaken {lo hi lo' hi' : Nat} {s s' : St c X Y} {H : List (Agent d K X)} (h : ImpH F J lo hi s s' H)
    (h1 : lo' ≤ lo) (h2 : hi ≤ hi') : ImpH F J lo' hi' s s' H := by
  obtain ⟨n1, a1, a2, a3, a4, a5⟩ := h.evals
  exact ⟨h.good, h.hist, h.gbest, ⟨n1, a1, by omega, by omega, a4, a5⟩, h.keep, h.held⟩

theorem ImpH.nil {lo hi : Nat} {s s' : St c X Y} (h : ImpH F J lo hi s s' []) : Imp F J lo hi s s' :=
  h.settle h.good.len (fun a ha => .inl ha) (fun a ha => by
    rcases ha with ha | ha
    · exact ⟨a, ha, NoWorse.rfl⟩
    · cases ha) rfl rfl rfl rfl rfl

/-- the judgement about whole code -/
theorem HJ.it {lo hi : Nat} {m : M c X Y α} {R : α → Prop} (h : HJ F J lo hi [] m (fun _ => []) R) : IT F J lo hi m R := by
  intro s hs
  have h0 : ImpH F J 0 0 s s [] := (Imp.refl hs.toGoodPop s.base.rng s.base.vg).held
  refine Wp.mono (h s s 0 0 hs h0) fun a s' h => ⟨?_, h.2⟩
  exact (h.1.weaken (by omega) (by omega)).nil

/-- code that holds nothing itself -/
theorem HJ.ofIT {lo hi : Nat} {G : List (Agent d K X)} {m : M c X Y α} {R : α → Prop} (h : IT F J lo hi m R) :
    HJ F J lo hi G m (fun _ => G) R := by
  intro s0 s l k hs0 hs
  refine Wp.mono (h s (hs.mid hs0)) fun a s' g => ⟨?_, g.2⟩
  exact hs.trans_imp g.1

theorem HJ.bind {l1 h1 l2 h2 : Nat} {G : List (Agent d K X)} {m : M c X Y α} {f : α → M c X Y β} {H : α → List (Agent d K X)}
    {H' : β → List (Agent d K X)} {R : α → Prop} {Q : β → Prop}
    (h : HJ F J l1 h1 G m H R) (h' : ∀ a, R a → HJ F J l2 h2 (H a) (f a) H' Q) :
    HJ F J (l1 + l2) (h1 + h2) G (m >>= f) H' Q := by
  intro s0 s l k hs0 hs
  refine Wp.bind (Wp.mono (h s0 s l k hs0 hs) ?_)
  rintro a s1 ⟨g1, g2⟩
  refine Wp.mono (h' a g2 s0 s1 _ _ hs0 g1) fun b s2 g => ⟨g.1.weaken (by omega) (by omega), g.2⟩

theorem HJ.weaken {lo hi lo' hi' : Nat} {G : List (Agent d K X)} {m : M c X Y α} {H : α → List (Agent d K X)} {R : α → Prop}
    (h : HJ F J lo hi G m H R) (h1 : lo' ≤ lo) (h2 : hi ≤ hi') : HJ F J lo' hi' G m H R := by
  intro s0 s l k hs0 hs
  exact Wp.mono (h s0 s l k hs0 hs) fun a s1 g => ⟨g.1.weaken (by omega) (by omega), g.2⟩

theorem HJ.bind0 {l h : Nat} {G : List (Agent d K X)} {m : M c X Y α} {f : α → M c X Y β} {H : α → List (Agent d K X)}
    {H' : β → List (Agent d K X)} {R : α → Prop} {Q : β → Prop}
    (hm : HJ F J 0 0 G m H R) (h' : ∀ a, R a → HJ F J l h (H a) (f a) H' Q) :
    HJ F J l h G (m >>= f) H' Q := (HJ.bind hm h').weaken (by omega) (by omega)

theorem HJ.bindS {lo hi l1 h1 : Nat} {G : List (Agent d K X)} {m : M c X Y α} {f : α → M c X Y β} {H : α → List (Agent d K X)}
    {H' : β → List (Agent d K X)} {R : α → Prop} {Q : β → Prop}
    (h : HJ F J l1 h1 G m H R) (hle : h1 ≤ hi) (h' : ∀ a, R a → HJ F J (lo - l1) (hi - h1) (H a) (f a) H' Q) :
    HJ F J lo hi G (m >>= f) H' Q := (HJ.bind h h').weaken (by omega) (by omega)

theorem HJ.pure {G : List (Agent d K X)} {a : α} {H : α → List (Agent d K X)} {R : α → Prop} (hH : H a = G) (h : R a) :
    HJ F J 0 0 G (Pure.pure a : M c X Y α) H R := by
  intro s0 s l k hs0 hs
  exact Wp.pure ⟨by rw [hH]; exact hs, h⟩

theorem HJ.draw {G : List (Agent d K X)} {m : D c α} {R : α → Prop} (h : DT noErr m R) :
    HJ F J 0 0 G (Mealpy.draw m : M c X Y α) (fun _ => G) R := HJ.ofIT (IT.draw h)

theorem HJ.ite {p : Prop} [Decidable p] {lo hi : Nat} {G : List (Agent d K X)} {m n : M c X Y α} {H : α → List (Agent d K X)}
    {R : α → Prop} (h : p → HJ F J lo hi G m H R) (h' : ¬ p → HJ F J lo hi G n H R) :
    HJ F J lo hi G (if p then m else n) H R :=
  fun s0 s l k hs0 hs => Wp.ite (fun hp => h hp s0 s l k hs0 hs) (fun hp => h' hp s0 s l k hs0 hs)

/-- hold other agents, at least as good -/
theorem HJ.swap {lo hi : Nat} {G : List (Agent d K X)} {m : M c X Y α} {H H' : α → List (Agent d K X)} {R : α → Prop}
    (h : HJ F J lo hi G m H R) (h1 : ∀ v, R v → ∀ a ∈ H v, ∃ a' ∈ H' v, NoWorse c.P.mm a'.fit a.fit)
    (h2 : ∀ v, R v → ∀ a ∈ H' v, a ∈ H v) : HJ F J lo hi G m H' R := by
  intro s0 s l k hs0 hs
  refine Wp.mono (h s0 s l k hs0 hs) fun v s' g => ⟨g.1.swap (h1 v g.2) ?_, g.2⟩
  exact fun a ha => g.1.held a (h2 v g.2 a ha)

/-- before running `m`, let go of agents no better than those kept -/
theorem HJ.drop {lo hi : Nat} {G G' : List (Agent d K X)} {m : M c X Y α} {H : α → List (Agent d K X)} {R : α → Prop}
    (h1 : ∀ a ∈ G, ∃ a' ∈ G', NoWorse c.P.mm a'.fit a.fit) (h2 : ∀ a ∈ G', a ∈ G) (h : HJ F J lo hi G' m H R) :
    HJ F J lo hi G m H R :=
  fun s0 s l k hs0 hs => h s0 s l k hs0 (hs.swap h1 fun a ha => hs.held a (h2 a ha))

/-- a loop collecting held agents -/
theorem HJ.iter {f : Nat → α → M c X Y α} {lo hi : Nat} (H : α → List (Agent d K X)) (P : Nat → α → Prop) : ∀ (n : Nat) {a : α},
    P 0 a → (∀ (i : Nat) (a : α), i < n → P i a → HJ F J lo hi (H a) (f i a) H (P (i + 1))) →
    HJ F J (n * lo) (n * hi) (H a) (Mealpy.iter n f a) H (P n)
  | 0, a, h0, _ => by
    rw [Nat.zero_mul, Nat.zero_mul]
    exact HJ.pure rfl h0
  | n + 1, a, h0, hf => by
    have := HJ.bind (HJ.iter H P n h0 (fun i a hi => hf i a (by omega))) (fun a ha => hf n a (by omega) ha)
    rw [Nat.succ_mul, Nat.succ_mul]
    exact this

/-- evaluate a batch -/
theorem HJ.buildEval (hE : c.E.Lawful) {n : Nat} {G : List (Agent d K X)} {mk : St c X Y → Nat → D c (Vec d K × X)}
    (hmk : ∀ (s : St c X Y) (i : Nat), Mid F J s → s.pop.length = c.popSize → i < n → DT noErr (mk s i) (MkOk F c)) :
    HJ F J n n G (Mealpy.buildEval n mk : M c X Y _) (fun new => G ++ new) (fun new => new.length = n ∧ ∀ a ∈ new, F a) := by
  intro s0 s l k hs0 hs
  refine Wp.mono (buildEval_batch hE (hs.mid hs0) (fun s i hs => hmk s i hs hs.len)) ?_
  rintro new s1 ⟨h1, h2⟩
  have := hs.trans (ImpH.ofBatch hs.good h2)
  rw [h1] at this
  exact ⟨this, h1, fun a ha => (this.held a (List.mem_append_right _ ha)).2⟩

/-- evaluate one agent -/
theorem HJ.agentOf {G : List (Agent d K X)} {x : Vec d K} {mkExt : Vec d K → D c X} (hx : Feas c x)
    (hmk : DT noErr (mkExt x) (fun e => F ⟨x, c.P.target x, e⟩)) :
    HJ F J 1 1 G (liftB (Mealpy.agentOf mkExt x) : M c X Y _) (fun a => G ++ [a]) (fun a => F a ∧ a.tgt = c.P.target a.sol ∧ a.sol = x) := by
  intro s0 s l k hs0 hs
  refine Wp.liftB (Wp.mono (agentOf_spec hmk) ?_)
  rintro a b' ⟨h1, h2, h3, h4, h5⟩
  have hb : Batch F s [a] { s with base := b' } := by
    refine ⟨?_, ⟨[x], h4, by simp [h1]⟩, by simpa using h5, rfl, rfl, rfl, rfl⟩
    intro a' ha'
    rw [List.mem_singleton.1 ha']
    exact ⟨by rw [h1]; exact hx, h3, by rw [h2, h1]⟩
  have := hs.trans (ImpH.ofBatch hs.good hb)
  exact ⟨this, h3, by rw [h2, h1], h1⟩

/-- the best of a list -/
theorem DT.bestAgent' (hE : c.E.Lawful) {Er : Err → Prop} {pop : List (Agent d K X)} (h : 0 < pop.length) :
    DT Er (Mealpy.bestAgent pop : D c _) (fun a => a ∈ pop ∧ ∀ b ∈ pop, NoWorse c.P.mm a.fit b.fit) := by
  have hl := getSorted_length hE.argsortLaw pop c.P.mm
  intro g
  refine Wp.mono (Wp.of_ok (a := (getSorted c.E.argsort pop c.P.mm).1[0]'(by omega)) (s' := g) (Q := fun a _ =>
    a = (getSorted c.E.argsort pop c.P.mm).1[0]'(by omega)) ?_ rfl) ?_
  · have hi : (getSorted c.E.argsort pop c.P.mm).2.length = pop.length := by
      have := (sortedIdx_perm hE.argsortLaw pop c.P.mm).length_eq
      rw [List.length_range] at this
      exact this
    unfold Mealpy.bestAgent getBest
    simp only
    rw [List.getElem?_eq_getElem (by omega), List.getElem?_eq_getElem (by omega)]
  · rintro a _ rfl
    refine ⟨(getSorted_mem hE.argsortLaw).1 (List.getElem_mem _), fun b hb => ?_⟩
    have hbf := getSorted_bestFirst hE.argsortLaw pop c.P.mm
    have hbm := (getSorted_mem hE.argsortLaw (mm := c.P.mm)).2 hb
    obtain ⟨j, hj, rfl⟩ := List.mem_iff_getElem.1 hbm
    rcases Nat.eq_zero_or_pos j with rfl | hj0
    · exact NoWorse.rfl
    · exact List.pairwise_iff_getElem.1 hbf 0 j (by omega) hj hj0

/-- put the better of a held agent and `pop[i]` into slot `i`; the held agent may then be let go -/
theorem HJ.slot {i : Nat} (hi : i < c.popSize) {G : List (Agent d K X)} {a : Agent d K X} (ha : a ∈ G)
    {f : Agent d K X → M c X Y Unit}
    (hf : ∀ (s : St c X Y) (h : i < s.pop.length), ∃ a', f (s.pop[i]) s = .ok ((), { s with pop := s.pop.set i a' }) ∧
      (a' = a ∨ a' = s.pop[i]) ∧ NoWorse c.P.mm a'.fit a.fit ∧ NoWorse c.P.mm a'.fit (s.pop[i]).fit) {G' : List (Agent d K X)}
    (hG : ∀ b ∈ G, b ∈ G' ∨ NoWorse c.P.mm a.fit b.fit) (hG' : ∀ b ∈ G', b ∈ G) :
    HJ F J 0 0 G (popAt i >>= f : M c X Y Unit) (fun _ => G') (fun _ => True) := by
  intro s0 s l k hs0 hs
  have hil : i < s.pop.length := by rw [hs.good.len]; exact hi
  refine Wp.bind (Wp.popAt hil ?_)
  obtain ⟨a', h1, h2, h3, h4⟩ := hf s hil
  refine Wp.of_ok h1 ⟨?_, trivial⟩
  have hmem : ∀ b ∈ s.pop.set i a', b ∈ s.pop ∨ b ∈ G := by
    intro b hb
    rcases mem_set_iff hb with rfl | hb
    · rcases h2 with rfl | rfl
      · exact .inr ha
      · exact .inl (List.getElem_mem _)
    · exact .inl hb
  have hin : a' ∈ s.pop.set i a' := List.mem_set hil a'
  have hcov : ∀ b ∈ s.pop, ∃ b' ∈ s.pop.set i a', NoWorse c.P.mm b'.fit b.fit := by
    intro b hb
    obtain ⟨j, hj, rfl⟩ := List.mem_iff_getElem.1 hb
    by_cases hij : i = j
    · subst hij
      exact ⟨a', hin, h4⟩
    · refine ⟨s.pop[j], ?_, NoWorse.rfl⟩
      rw [List.mem_iff_getElem]
      exact ⟨j, by simpa using hj, by rw [List.getElem_set_ne hij]⟩
  have hcovG : ∀ b ∈ G, b ∈ G' ∨ ∃ b' ∈ s.pop.set i a', NoWorse c.P.mm b'.fit b.fit := by
    intro b hb
    rcases hG b hb with h | h
    · exact .inl h
    · exact .inr ⟨a', hin, h3.trans h⟩
  obtain ⟨n1, a1, a2, a3, a4, a5⟩ := hs.evals
  refine ⟨⟨by rw [List.length_set]; exact hs.good.len, ?_, ?_, hs.good.ext⟩, hs.hist, hs.gbest, ⟨n1, a1, a2, a3, a4, ?_⟩, ?_,
    fun b hb => hs.held b (hG' b hb)⟩
  · intro b hb
    rcases hmem b hb with h | h
    · exact hs.good.ev b h
    · exact (hs.held b h).1
  · intro b hb
    rcases hmem b hb with h | h
    · exact hs.good.feas b h
    · exact (hs.held b h).2
  · intro x hx
    refine ⟨(a5 x hx).1, ?_⟩
    rcases (a5 x hx).2 with (⟨g, hg, hn⟩ | ⟨b, hb, hn⟩) | ⟨b, hb, hn⟩
    · exact .inl (.inl ⟨g, hg, hn⟩)
    · obtain ⟨b', hb', hn'⟩ := hcov b hb
      exact .inl (.inr ⟨b', hb', hn'.trans hn⟩)
    · rcases hcovG b hb with h | ⟨b', hb', hn'⟩
      · exact .inr ⟨b, h, hn⟩
      · exact .inl (.inr ⟨b', hb', hn'.trans hn⟩)
  · intro b hb
    obtain ⟨b', hb' | hb', hn⟩ := hs.keep b hb
    · obtain ⟨b'', hb'', hn'⟩ := hcov b' hb'
      exact ⟨b'', .inl hb'', hn'.trans hn⟩
    · rcases hcovG b' hb' with h | ⟨b'', hb'', hn'⟩
      · exact ⟨b', .inr h, hn⟩
      · exact ⟨b'', .inl hb'', hn'.trans hn⟩

/-- `self.pop[i] = self.get_better_agent(a, self.pop[i], minmax)` -/
theorem HJ.slotBetter {i : Nat} (hi : i < c.popSize) {G G' : List (Agent d K X)} {a : Agent d K X} (ha : a ∈ G)
    (hG : ∀ b ∈ G, b ∈ G' ∨ NoWorse c.P.mm a.fit b.fit) (hG' : ∀ b ∈ G', b ∈ G) :
    HJ F J 0 0 G (do let old ← popAt i; setAt i (getBetterAgent a old c.P.mm) : M c X Y Unit) (fun _ => G') (fun _ => True) := by
  refine HJ.slot hi ha (fun s h => ⟨getBetterAgent a s.pop[i] c.P.mm, ?_, ?_⟩) hG hG'
  · unfold Mealpy.setAt; rw [if_pos h]
  · have hb := getBetterAgent_cases a (s.pop[i]) c.P.mm
    exact ⟨hb.1, hb.2.1, hb.2.2⟩

/-- `if self.compare_target(a.target, self.pop[i].target, minmax): self.pop[i] = a` -/
theorem HJ.slotCompare {i : Nat} (hi : i < c.popSize) {G G' : List (Agent d K X)} {a : Agent d K X} (ha : a ∈ G)
    (hG : ∀ b ∈ G, b ∈ G' ∨ NoWorse c.P.mm a.fit b.fit) (hG' : ∀ b ∈ G', b ∈ G) :
    HJ F J 0 0 G (do let old ← popAt i; if compareTarget a.tgt old.tgt c.P.mm then setAt i a else Pure.pure () : M c X Y Unit)
      (fun _ => G') (fun _ => True) := by
  refine HJ.slot hi ha (fun s h => ?_) hG hG'
  by_cases hc : compareTarget a.tgt (s.pop[i]).tgt c.P.mm = true
  · refine ⟨a, ?_, .inl rfl, NoWorse.rfl, compareTarget_true hc⟩
    rw [if_pos hc]; unfold Mealpy.setAt; rw [if_pos h]
  · refine ⟨s.pop[i], ?_, .inr rfl, compareTarget_false (by simpa using hc), NoWorse.rfl⟩
    rw [if_neg hc, List.set_getElem_self]
    rfl

/-- `self.pop = self.greedy_selection_population(self.pop, G, minmax)` -/
theorem HJ.selectGreedy {G : List (Agent d K X)} (hl : G.length = c.popSize) :
    HJ F J 0 0 G (Mealpy.selectGreedy G : M c X Y Unit) (fun _ => []) (fun _ => True) := by
  intro s0 s l k hs0 hs
  have hlen := hs.good.len
  refine Wp.of_ok (a := ()) (s' := { s with pop := List.zipWith (greedyPick c.P.mm) s.pop G }) ?_ ⟨?_, trivial⟩
  · unfold Mealpy.selectGreedy
    rw [greedySelection_ok (by omega)]
  · have hg := fun o n => greedyPick_cases (d := d) (K := K) (X := X) c.P.mm o n
    refine (hs.settle (s'' := { s with pop := List.zipWith (greedyPick c.P.mm) s.pop G }) ?_ ?_ ?_ rfl rfl rfl rfl rfl).held
    · show (List.zipWith _ _ _).length = _
      rw [List.length_zipWith]; omega
    · exact (zip_better (c := c) (greedyPick c.P.mm) (fun o n => ⟨(hg o n).1, (hg o n).2.1, (hg o n).2.2.1⟩) (by omega)).2
    · rintro a (ha | ha)
      · obtain ⟨i, hi, rfl⟩ := List.mem_iff_getElem.1 ha
        refine ⟨greedyPick c.P.mm (s.pop[i]) (G[i]'(by omega)), ?_, (hg _ _).2.1⟩
        refine List.mem_of_getElem (i := i) (h := by simp; omega) ?_
        simp
      · exact (zip_better (c := c) (greedyPick c.P.mm) (fun o n => ⟨(hg o n).1, (hg o n).2.1, (hg o n).2.2.1⟩) (by omega)).1 a ha

/-- the held agents are merged into the population, which is sorted and trimmed -/
theorem HJ.mergeTrim (hE : c.E.Lawful) (hpos : 0 < c.popSize) {G : List (Agent d K X)} :
    HJ F J 0 0 G (Mealpy.mergeTrim c.popSize G : M c X Y Unit) (fun _ => []) (fun _ => True) :=
  fun s0 s l k hs0 hs => Wp.mono (hs.trim hE hpos) fun _ _ h => ⟨h.held, trivial⟩

end Mealpy
