import Verif.Alg.Kit11
import Verif.Alg.Kit16
import Verif.Alg.Alias

/-!
# The contract of algorithms whose agents may lie

`Algo.WOk` (`Verif.Alg.Weak`) asks that every agent carries the objective's value at its solution.  Some classes of the library break that:
they store a position other than the evaluated one, or write into solution arrays that are held elsewhere (`Verif.Props.InPlace`).  What is
left to prove of them is collected here: which positions are evaluated and how many, the size of the population, and which exceptions may
be raised.  Nothing is asked of agents, and the recorded agents may change.
-/

set_option linter.unusedSectionVars false
set_option linter.unusedVariables false

namespace Mealpy
open Spec

variable {d : Nat} {K : Type} [Num K] {c : Cfg d K} {X Y : Type} {α β : Type} {Er : Err → Prop}

/-- what is asked of evaluated positions, of the population's size and of the attributes -/
structure LInv (d : Nat) (K : Type) (Y : Type) where
  pos : Vec d K → Prop
  size : Nat → Prop
  attr : Y → Prop

/-- the usual case: everything evaluated is feasible, `pop_size` agents -/
def LInv.std (c : Cfg d K) {Y : Type} (J : Y → Prop) : LInv d K Y := ⟨Feas c, fun n => n = c.popSize, J⟩

/-- states the code may be in -/
structure LHolds (I : LInv d K Y) (s : St c X Y) : Prop where
  len : I.size s.pop.length
  ext : I.attr s.ext
  gbest : s.hist.globalBest ≠ []
  worst : s.hist.globalWorst ≠ []
  cbest : s.hist.currentBest ≠ []
  cworst : s.hist.currentWorst ≠ []

/-- between `lo` and `hi` evaluations, all allowed -/
def LEv (I : LInv d K Y) (lo hi : Nat) (b b' : Base c) : Prop :=
  ∃ new, b'.log = b.log ++ new ∧ lo ≤ new.length ∧ new.length ≤ hi ∧ ∀ x ∈ new, I.pos x

structure LStep (I : LInv d K Y) (lo hi : Nat) (s s' : St c X Y) : Prop where
  inv : LHolds I s'
  evals : LEv I lo hi s.base s'.base
  diversity : s'.hist.diversity = s.hist.diversity
  population : s'.hist.population.map List.length = s.hist.population.map List.length

/-- code that keeps the invariant -/
def LT (Er : Err → Prop) (I : LInv d K Y) (lo hi : Nat) (m : M c X Y α) (R : α → Prop) : Prop :=
  ∀ s, LHolds I s → Wp Er m s (fun a s' => LStep I lo hi s s' ∧ R a)

variable {I : LInv d K Y}

theorem LEv.refl {b b' : Base c} (h : b'.log = b.log) : LEv I 0 0 b b' :=
  ⟨[], by simp [h], by simp, by simp, by simp⟩

theorem LEv.trans {l1 h1 l2 h2 : Nat} {b b' b'' : Base c} (h : LEv I l1 h1 b b') (h' : LEv I l2 h2 b' b'') :
    LEv I (l1 + l2) (h1 + h2) b b'' := by
  obtain ⟨n1, a1, a2, a3, a4⟩ := h
  obtain ⟨n2, b1, b2, b3, b4⟩ := h'
  refine ⟨n1 ++ n2, by rw [b1, a1, List.append_assoc], by simp; omega, by simp; omega, ?_⟩
  intro x hx
  rcases List.mem_append.1 hx with hx | hx
  · exact a4 x hx
  · exact b4 x hx

theorem LStep.trans {l1 h1 l2 h2 : Nat} {s s' s'' : St c X Y} (h : LStep I l1 h1 s s') (h' : LStep I l2 h2 s' s'') :
    LStep I (l1 + l2) (h1 + h2) s s'' :=
  ⟨h'.inv, h.evals.trans h'.evals, h'.diversity.trans h.diversity, h'.population.trans h.population⟩

theorem LStep.weaken {l1 h1 l2 h2 : Nat} {s s' : St c X Y} (h : LStep I l1 h1 s s') (hl : l2 ≤ l1) (hh : h1 ≤ h2) :
    LStep I l2 h2 s s' := by
  obtain ⟨n1, a1, a2, a3, a4⟩ := h.evals
  exact ⟨h.inv, ⟨n1, a1, by omega, by omega, a4⟩, h.diversity, h.population⟩

theorem LHolds.base {s : St c X Y} (h : LHolds I s) (b : Base c) : LHolds I { s with base := b } :=
  ⟨h.len, h.ext, h.gbest, h.worst, h.cbest, h.cworst⟩

theorem LStep.base {lo hi : Nat} {s : St c X Y} (h : LHolds I s) {b : Base c} (hb : LEv I lo hi s.base b) :
    LStep I lo hi s { s with base := b } := ⟨h.base b, hb, rfl, rfl⟩

theorem LStep.refl {s : St c X Y} (h : LHolds I s) : LStep I 0 0 s s := ⟨h, .refl rfl, rfl, rfl⟩

theorem LStep.pop {s : St c X Y} (h : LHolds I s) {l : List (Agent d K X)} (h1 : I.size l.length) :
    LStep I 0 0 s { s with pop := l } := ⟨⟨h1, h.ext, h.gbest, h.worst, h.cbest, h.cworst⟩, .refl rfl, rfl, rfl⟩

namespace LT

theorem pure {a : α} {R : α → Prop} (h : R a) : LT Er I 0 0 (pure a : M c X Y α) R :=
  fun s hs => Wp.pure ⟨.refl hs, h⟩

theorem mono {lo hi : Nat} {m : M c X Y α} {R Q : α → Prop} (h : LT Er I lo hi m R) (hQ : ∀ a, R a → Q a) :
    LT Er I lo hi m Q :=
  fun s hs => Wp.mono (h s hs) fun a s' h => ⟨h.1, hQ a h.2⟩

theorem weaken {lo hi lo' hi' : Nat} {m : M c X Y α} {R : α → Prop} (h : LT Er I lo hi m R)
    (h1 : lo' ≤ lo) (h2 : hi ≤ hi') : LT Er I lo' hi' m R :=
  fun s hs => Wp.mono (h s hs) fun a s' h => ⟨h.1.weaken h1 h2, h.2⟩

theorem bind {l1 h1 l2 h2 : Nat} {m : M c X Y α} {f : α → M c X Y β} {R : α → Prop} {Q : β → Prop}
    (h : LT Er I l1 h1 m R) (h' : ∀ a, R a → LT Er I l2 h2 (f a) Q) : LT Er I (l1 + l2) (h1 + h2) (m >>= f) Q := by
  intro s hs
  refine Wp.bind (Wp.mono (h s hs) ?_)
  rintro a s' ⟨g1, g2⟩
  refine Wp.mono (h' a g2 s' g1.inv) ?_
  rintro b s'' ⟨k1, k2⟩
  exact ⟨g1.trans k1, k2⟩

theorem bind0 {l h : Nat} {m : M c X Y α} {f : α → M c X Y β} {R : α → Prop} {Q : β → Prop}
    (hm : LT Er I 0 0 m R) (h' : ∀ a, R a → LT Er I l h (f a) Q) : LT Er I l h (m >>= f) Q := by
  have := LT.bind hm h'
  rwa [Nat.zero_add, Nat.zero_add] at this

theorem bindS {lo hi l1 h1 : Nat} {m : M c X Y α} {f : α → M c X Y β} {R : α → Prop} {Q : β → Prop}
    (h : LT Er I l1 h1 m R) (hle : h1 ≤ hi) (h' : ∀ a, R a → LT Er I (lo - l1) (hi - h1) (f a) Q) :
    LT Er I lo hi (m >>= f) Q :=
  LT.weaken (LT.bind h h') (by omega) (by omega)

/-- the last piece costs nothing -/
theorem bindL {lo hi : Nat} {m : M c X Y α} {f : α → M c X Y β} {R : α → Prop} {Q : β → Prop}
    (h : LT Er I lo hi m R) (h' : ∀ a, R a → LT Er I 0 0 (f a) Q) : LT Er I lo hi (m >>= f) Q := LT.bind h h'

theorem ite {p : Prop} [Decidable p] {lo hi : Nat} {m n : M c X Y α} {R : α → Prop}
    (h : p → LT Er I lo hi m R) (h' : ¬ p → LT Er I lo hi n R) : LT Er I lo hi (if p then m else n) R :=
  fun s hs => Wp.ite (fun hp => h hp s hs) (fun hp => h' hp s hs)

theorem get : LT Er I 0 0 (get : M c X Y _) (LHolds I) := fun s hs => Wp.get ⟨.refl hs, hs⟩

theorem draw {m : D c α} {R : α → Prop} (h : DT Er m R) : LT Er I 0 0 (draw m : M c X Y α) R :=
  fun s hs => Wp.draw h fun a r v hR => ⟨.base hs (.refl rfl), hR⟩

theorem throw {e : Err} {lo hi : Nat} {R : α → Prop} (h : Er e) : LT Er I lo hi (mthrow e : M c X Y α) R := fun _ _ => h

theorem iter {f : Nat → α → M c X Y α} {lo hi : Nat} (P : Nat → α → Prop) : ∀ (n : Nat) {a : α}, P 0 a →
    (∀ (i : Nat) (a : α), i < n → P i a → LT Er I lo hi (f i a) (P (i + 1))) →
    LT Er I (n * lo) (n * hi) (Mealpy.iter n f a) (P n)
  | 0, a, h0, _ => by
    rw [Nat.zero_mul, Nat.zero_mul]
    exact LT.pure h0
  | n + 1, a, h0, hf => by
    have := LT.bind (LT.iter P n h0 (fun i a hi => hf i a (by omega))) (fun a ha => hf n a (by omega) ha)
    rw [Nat.succ_mul, Nat.succ_mul]
    exact this

theorem iterU {f : Nat → Unit → M c X Y Unit} {n : Nat} (k1 k2 : Nat) {lo hi : Nat} (hl : lo ≤ n * k1) (hh : n * k2 ≤ hi)
    (hf : ∀ i, i < n → LT Er I k1 k2 (f i ()) (fun _ => True)) :
    LT Er I lo hi (Mealpy.iter n f ()) (fun _ => True) :=
  LT.weaken (LT.iter (fun _ _ => True) n trivial (fun i _ hi _ => hf i hi)) hl hh

theorem getTarget {x : Vec d K} (hx : I.pos x) : LT Er I 1 1 (liftB (getTarget x) : M c X Y _) (fun _ => True) :=
  fun s hs => Wp.liftB (Wp.getTarget ⟨.base hs ⟨[x], rfl, by simp, by simp, by simpa using hx⟩, trivial⟩)

theorem generateAgent (hP : c.P.Lawful) (hB : ∀ x, Feas c x → I.pos x) {mkExt : Vec d K → D c X} (hmk : ∀ x, DT Er (mkExt x) (fun _ => True)) :
    LT Er I 1 1 (liftB (generateAgent mkExt) : M c X Y _) (fun _ => True) := by
  intro s hs
  refine Wp.liftB (Wp.mono (generateAgent_spec hP (F := fun _ => True) (fun x hx => hmk x)) ?_)
  rintro a b' ⟨h1, h2, h3, h4, h5⟩
  exact ⟨.base hs ⟨[a.sol], h4, by simp, by simp, by simpa using hB _ h1⟩, trivial⟩

theorem updateTargets (hE : c.E.Lawful) (hm : c.swarmLike = true) {pend : List (Vec d K × X)} (hp : ∀ p ∈ pend, I.pos p.1) :
    LT Er I pend.length pend.length (liftB (updateTargets pend) : M c X Y _) (fun l => l.length = pend.length) := by
  intro s hs
  refine Wp.liftB (Wp.mono (updateTargets_spec hE hm pend s.base) ?_)
  rintro new b' ⟨rfl, xs, h1, h2, h3⟩
  have hl : xs.length = pend.length := by rw [h1.length_eq]; simp
  refine ⟨.base hs ⟨xs, h2, by omega, by omega, ?_⟩, by simp [evaluated]⟩
  intro x hx
  obtain ⟨p, hpm, rfl⟩ := List.mem_map.1 (h1.mem_iff.1 hx)
  exact hp p hpm

theorem setPop {l : List (Agent d K X)} (h1 : I.size l.length) : LT Er I 0 0 (setPop l : M c X Y Unit) (fun _ => True) :=
  fun s hs => Wp.modify ⟨.pop hs h1, trivial⟩

theorem modExt {f : Y → Y} (h : ∀ y, I.attr y → I.attr (f y)) : LT Er I 0 0 (modExt f : M c X Y Unit) (fun _ => True) :=
  fun s hs => Wp.modify ⟨⟨⟨hs.len, h _ hs.ext, hs.gbest, hs.worst, hs.cbest, hs.cworst⟩, .refl rfl, rfl, rfl⟩, trivial⟩

theorem popAt {i : Nat} (hi : ∀ n, I.size n → i < n) : LT Er I 0 0 (popAt i : M c X Y _) (fun _ => True) :=
  fun s hs => Wp.popAt (hi _ hs.len) ⟨.refl hs, trivial⟩

theorem setAt {i : Nat} (hi : ∀ n, I.size n → i < n) {a : Agent d K X} : LT Er I 0 0 (setAt i a : M c X Y Unit) (fun _ => True) :=
  fun s hs => Wp.setAt (hi _ hs.len) ⟨.pop hs (by rw [List.length_set]; exact hs.len), trivial⟩

theorem selectGreedy {new : List (Agent d K X)} (hl : ∀ n, I.size n → n = new.length) :
    LT Er I 0 0 (selectGreedy new : M c X Y Unit) (fun _ => True) := by
  intro s hs
  have hlen := hl _ hs.len
  refine Wp.of_ok (a := ()) (s' := { s with pop := List.zipWith (greedyPick c.P.mm) s.pop new }) ?_ ⟨.pop hs ?_, trivial⟩
  · unfold Mealpy.selectGreedy
    rw [greedySelection_ok hlen]
  · rw [List.length_zipWith, ← hlen, Nat.min_self]
    exact hs.len

/-- `self.update_global_best_agent(pop, save=False)` -/
theorem updateNoSave (hE : c.E.Lawful) {pop : List (Agent d K X)} (h0 : 0 < pop.length) :
    LT Er I 0 0 (updateGlobalBestNoSave pop : M c X Y _) (fun r => r.1.length = pop.length) := by
  intro s hs
  have hlen := getSorted_length hE.argsortLaw pop c.P.mm
  have hne : (getSorted c.E.argsort pop c.P.mm).1 ≠ [] := by
    intro h; rw [h] at hlen; simp at hlen; omega
  obtain ⟨cb, hcb⟩ : ∃ cb, (getSorted c.E.argsort pop c.P.mm).1.head? = some cb := ⟨_, List.head?_eq_some_head hne⟩
  obtain ⟨cw, hcw⟩ : ∃ cb, (getSorted c.E.argsort pop c.P.mm).1.getLast? = some cb := ⟨_, List.getLast?_eq_some_getLast hne⟩
  obtain ⟨lb, hlb⟩ : ∃ cb, s.hist.currentBest.getLast? = some cb := ⟨_, List.getLast?_eq_some_getLast hs.cbest⟩
  obtain ⟨lw, hlw⟩ : ∃ cb, s.hist.currentWorst.getLast? = some cb := ⟨_, List.getLast?_eq_some_getLast hs.cworst⟩
  obtain ⟨gw, hgw⟩ : ∃ cb, s.hist.globalWorst.getLast? = some cb := ⟨_, List.getLast?_eq_some_getLast hs.worst⟩
  obtain ⟨gb, hgb⟩ : ∃ cb, s.hist.globalBest.getLast? = some cb := ⟨_, List.getLast?_eq_some_getLast hs.gbest⟩
  have hok : ∃ s', updateGlobalBestNoSave pop s = .ok (((getSorted c.E.argsort pop c.P.mm).1, getBetterAgent cb gb c.P.mm), s') ∧
      s'.pop = s.pop ∧ s'.ext = s.ext ∧ s'.base = s.base ∧ s'.hist.globalBest ≠ [] ∧
      s'.hist.globalWorst ≠ [] ∧ s'.hist.currentBest ≠ [] ∧ s'.hist.currentWorst ≠ [] ∧
      s'.hist.diversity = s.hist.diversity ∧ s'.hist.population = s.hist.population := by
    unfold updateGlobalBestNoSave
    simp only [hcb, hcw, hlb, hgb, hlw, hgw]
    exact ⟨_, rfl, rfl, rfl, rfl, setLast_ne, setLast_ne, setLast_ne, setLast_ne, rfl, rfl⟩
  obtain ⟨s', hrun, e1, e2, e4, e5, e6, e7, e8, e9, e10⟩ := hok
  exact Wp.of_ok hrun ⟨⟨⟨by rw [e1]; exact hs.len, by rw [e2]; exact hs.ext, e5, e6, e7, e8⟩, .refl (by rw [e4]), e9, by rw [e10]⟩, hlen⟩

theorem buildEval (hE : c.E.Lawful) {n : Nat} {mk : St c X Y → Nat → D c (Vec d K × X)}
    (hmk : ∀ (s : St c X Y) (i : Nat), LHolds I s → i < n → DT Er (mk s i) (fun p => I.pos p.1)) :
    LT Er I n n (buildEval n mk : M c X Y _) (fun l => l.length = n) := by
  unfold Mealpy.buildEval
  refine LT.ite (fun hm => ?_) (fun hm => ?_)
  · refine LT.bind0 LT.get fun s hs => ?_
    refine LT.bind0 (LT.draw (R := fun l : List (Vec d K × X) => l.length = n ∧ ∀ p ∈ l, I.pos p.1)
      (DT.iter (fun i (l : List (Vec d K × X)) => l.length = i ∧ ∀ p ∈ l, I.pos p.1) n ⟨rfl, by simp⟩ fun i l hi hl =>
        DT.bind (hmk s i hs hi) fun p hp => DT.pure ⟨by simp [hl.1], ?_⟩)) fun pend hp => ?_
    · intro q hq
      rcases List.mem_append.1 hq with hq | hq
      · exact hl.2 q hq
      · rw [List.mem_singleton.1 hq]; exact hp
    · rw [← hp.1]
      exact LT.updateTargets hE hm hp.2
  · have := LT.iter (Er := Er) (I := I) (c := c) (f := fun i acc => do
      let s ← MonadState.get
      let p ← Mealpy.draw (mk s i)
      let t ← liftB (Mealpy.getTarget p.1)
      Pure.pure (acc ++ [⟨p.1, t, p.2⟩])) (lo := 1) (hi := 1) (fun i (l : List (Agent d K X)) => l.length = i) n (a := []) rfl ?_
    · rwa [Nat.mul_one] at this
    intro i l hi hl
    refine LT.bind0 LT.get fun s hs => LT.bind0 (LT.draw (hmk s i hs hi)) fun p hp => LT.bindL (LT.getTarget hp) fun t _ => LT.pure (by simp [hl])

theorem evalAll (hE : c.E.Lawful) {pend : List (Vec d K × X)} (hp : ∀ p ∈ pend, I.pos p.1) :
    LT Er I pend.length pend.length (evalAll pend : M c X Y _) (fun l => l.length = pend.length) :=
  LT.buildEval hE fun s i hs hi => DT.mono (DT.nth_mem hi) hp

/-- writing into an array changes neither the sizes nor what is evaluated -/
theorem poke {r : Nat} {v : Vec d K} : LT Er I 0 0 (poke r v : M c Nat Y Unit) (fun _ => True) := by
  intro s hs
  refine Wp.modify ⟨⟨⟨by simpa using hs.len, hs.ext, by simpa using hs.gbest, by simpa using hs.worst, by simpa using hs.cbest,
    by simpa using hs.cworst⟩, .refl rfl, rfl, ?_⟩, trivial⟩
  simp [List.map_map, Function.comp_def]

/-- `self.pop[i]` when an `IndexError` is one of the tolerated exceptions -/
theorem popAt_err {i : Nat} (h : Er .index) : LT Er I 0 0 (Mealpy.popAt i : M c X Y _) (fun _ => True) := by
  intro s hs
  by_cases hi : i < s.pop.length
  · exact Wp.popAt hi ⟨.refl hs, trivial⟩
  · have : (Mealpy.popAt i : M c X Y _) s = .error .index := by
      unfold Mealpy.popAt
      rw [List.getElem?_eq_none (by omega)]
    exact Wp.of_err this h

theorem iterS {f : Nat → α → M c X Y α} {n : Nat} (k1 k2 : Nat) {lo hi : Nat} (P : Nat → α → Prop) (hl : lo ≤ n * k1) (hh : n * k2 ≤ hi)
    {a : α} (h0 : P 0 a) (hf : ∀ (i : Nat) (a : α), i < n → P i a → LT Er I k1 k2 (f i a) (P (i + 1))) :
    LT Er I lo hi (Mealpy.iter n f a) (P n) := LT.weaken (LT.iter P n h0 hf) hl hh

end LT

theorem LT.fresh {I : LInv d K Nat} (h : ∀ n, I.attr n → I.attr (n + 1)) : LT Er I 0 0 (Mealpy.fresh : M c X Nat Nat) (fun _ => True) := by
  unfold Mealpy.fresh
  exact LT.bind0 LT.get fun s hs => LT.bind0 (LT.modExt h) fun _ _ => LT.pure trivial

/-! ## Whole runs -/

/-- The contract: `i1..i2` evaluations of the initial population, `b1..b2` in `before_main_loop`, `lo..hi` per epoch. -/
structure Algo.LOk (A : Algo c X Y) (Er : Err → Prop) (I : LInv d K Y) (J0 J1 : Y → Prop)
    (i1 i2 b1 b2 lo hi : Nat) : Prop where
  box : ∀ x, Feas c x → I.pos x
  nonempty : ∀ n, I.size n → 0 < n
  mkExt : ∀ x, Feas c x → DT Er (A.mkExt x) (fun _ => True)
  initVars : DT Er A.initVars J0
  init : ∀ y p b, J0 y → (∀ pop, p = some pop → pop.length = c.popSize) →
    Wp Er (A.initialization y p) b (fun r b' => I.size r.1.length ∧ J1 r.2 ∧
      ∃ new, b'.log = b.log ++ new ∧ (∀ x ∈ new, I.pos x) ∧ i1 ≤ new.length + (p.getD []).length ∧
        new.length + (p.getD []).length ≤ i2)
  before : ∀ s, LHolds { I with attr := J1 } s → Wp Er A.beforeMain s (fun _ s' => LStep I b1 b2 s s')
  evolve : ∀ ep, 1 ≤ ep → ep ≤ c.epoch → LT Er I lo hi (A.evolve ep) (fun _ => True)

/-- The same with a condition on the attributes that depends on the number of epochs done. -/
structure Algo.LOkE (A : Algo c X Y) (Er : Err → Prop) (I : LInv d K Y) (J : Nat → Y → Prop) (J0 J1 : Y → Prop)
    (i1 i2 b1 b2 lo hi : Nat) : Prop where
  box : ∀ x, Feas c x → I.pos x
  nonempty : ∀ n, I.size n → 0 < n
  mkExt : ∀ x, Feas c x → DT Er (A.mkExt x) (fun _ => True)
  initVars : DT Er A.initVars J0
  init : ∀ y p b, J0 y → (∀ pop, p = some pop → pop.length = c.popSize) →
    Wp Er (A.initialization y p) b (fun r b' => I.size r.1.length ∧ J1 r.2 ∧
      ∃ new, b'.log = b.log ++ new ∧ (∀ x ∈ new, I.pos x) ∧ i1 ≤ new.length + (p.getD []).length ∧
        new.length + (p.getD []).length ≤ i2)
  before : ∀ s, LHolds { I with attr := J1 } s → Wp Er A.beforeMain s (fun _ s' => LStep { I with attr := J 0 } b1 b2 s s')
  evolve : ∀ k, k < c.epoch → ∀ s, LHolds { I with attr := J k } s →
    Wp Er (A.evolve (k + 1)) s (fun _ s' => LStep { I with attr := J (k + 1) } lo hi s s')

theorem Algo.LOk.each {A : Algo c X Y} {J0 J1 : Y → Prop} {i1 i2 b1 b2 lo hi : Nat} (h : A.LOk Er I J0 J1 i1 i2 b1 b2 lo hi) :
    A.LOkE Er I (fun _ => I.attr) J0 J1 i1 i2 b1 b2 lo hi :=
  ⟨h.box, h.nonempty, h.mkExt, h.initVars, h.init, h.before, fun k hk s hs =>
    Wp.mono (h.evolve (k + 1) (by omega) (by omega) s hs) fun _ _ h => h.1⟩

/-- Outcome of a run that returned (empty log before). -/
structure LRun (I : LInv d K Y) (n1 n2 lo hi : Nat) (s : St c X Y) (h : FinalHist d K X) : Prop where
  log : ∀ x ∈ s.base.log, I.pos x
  size : I.size s.pop.length
  budget_lo : n1 + h.epoch * lo ≤ s.base.log.length
  budget_hi : s.base.log.length ≤ n2 + h.epoch * hi
  epochs : 1 ≤ h.epoch ∧ h.epoch ≤ c.epoch
  sizes : ∀ pop ∈ h.population, I.size pop.length

theorem Algo.LOkE.loop {A : Algo c X Y} {J : Nat → Y → Prop} {J0 J1 : Y → Prop} {i1 i2 b1 b2 lo hi : Nat}
    (hA : A.LOkE Er I J J0 J1 i1 i2 b1 b2 lo hi) (hE : c.E.Lawful) (o : RunOpts K) (n1 n2 : Nat) (s1 : St c X Y)
    (hs : LHolds { I with attr := J 0 } s1) (hlog : ∀ x ∈ s1.base.log, I.pos x) (h1 : n1 ≤ s1.base.log.length) (h2 : s1.base.log.length ≤ n2)
    (hd : s1.hist.diversity = []) (hp : s1.hist.population = []) :
    Wp Er (mainLoop A o c.epoch 1) s1 (fun _ s => ∃ e, e ≤ c.epoch ∧ (0 < c.epoch → 0 < e) ∧ LHolds { I with attr := J e } s ∧
      (∀ x ∈ s.base.log, I.pos x) ∧ n1 + e * lo ≤ s.base.log.length ∧ s.base.log.length ≤ n2 + e * hi ∧
      s.hist.diversity.length = e ∧ ∀ n ∈ s.hist.population.map List.length, I.size n) := by
  refine Wp.mono (mainLoop_wp (Er := Er) (A := A) (o := o) (fun k s => LHolds { I with attr := J k } s ∧
      (∀ x ∈ s.base.log, I.pos x) ∧ n1 + k * lo ≤ s.base.log.length ∧ s.base.log.length ≤ n2 + k * hi ∧
      s.hist.diversity.length = k ∧ ∀ n ∈ s.hist.population.map List.length, I.size n) ?_ c.epoch 0 s1
      ⟨hs, hlog, by simpa using h1, by simpa using h2, by simp [hd], by simp [hp]⟩ (by omega)) ?_
  · rintro k s ⟨hs, hlog, h1, h2, hd, hp⟩ hk
    refine Wp.mono (epochStep_wp (R := fun s1 => LStep { I with attr := J (k + 1) } lo hi s s1) hE ?_ (.inr ?_)) ?_
    · intro r v
      refine Wp.mono (hA.evolve k (by omega) _ (hs.base _)) ?_
      rintro _ s1 h
      exact ⟨h.inv, h.evals, h.diversity, h.population⟩
    · intro s1 h
      refine ⟨?_, h.inv.gbest, h.inv.worst⟩
      intro hnil
      have := hA.nonempty _ h.inv.len
      rw [hnil] at this
      simp at this
    · rintro f s' ⟨s1, hst, hend, -⟩
      obtain ⟨cb, cw, gb, gw, tm, hcb, hcw, hgb, hgw, hgbest, hhist⟩ := hend.hist
      obtain ⟨new, n1', n2', n3', n4'⟩ := hst.evals
      have hsz : I.size s'.pop.length := by
        rw [hend.pop]
        split
        · rw [getSorted_length hE.argsortLaw]; exact hst.inv.len
        · exact hst.inv.len
      refine ⟨⟨hsz, by rw [hend.ext]; exact hst.inv.ext, by rw [hhist]; simp, by rw [hhist]; simp, by rw [hhist]; simp,
        by rw [hhist]; simp⟩, ?_, ?_, ?_, ?_, ?_⟩
      · intro x hx
        rw [hend.log, n1'] at hx
        rcases List.mem_append.1 hx with hx | hx
        · exact hlog x hx
        · exact n4' x hx
      · rw [hend.log, n1', List.length_append, Nat.add_mul]; omega
      · rw [hend.log, n1', List.length_append, Nat.add_mul]; omega
      · rw [hhist]
        simp only [List.length_append, List.length_singleton]
        rw [hst.diversity, hd]
      · rw [hhist]
        dsimp only
        intro n hn
        split at hn
        · rw [List.map_append, hst.population] at hn
          rcases List.mem_append.1 hn with hn | hn
          · exact hp n hn
          · rw [List.map_singleton, List.mem_singleton] at hn
            rw [hn]; exact hsz
        · rw [hst.population] at hn
          exact hp n hn
  · rintro _ s ⟨e, h1, h2, h3, h4, h5, h6, h7, h8, h9⟩
    exact ⟨e, by omega, h3, h4, h5, h6, h7, h8, h9⟩

/-- Either the run returns and its outcome is as stated, or it raises an error in `Er`. -/
theorem Algo.LOkE.solve {A : Algo c X Y} {J : Nat → Y → Prop} {J0 J1 : Y → Prop} {i1 i2 b1 b2 lo hi : Nat}
    (hA : A.LOkE Er I J J0 J1 i1 i2 b1 b2 lo hi) (hE : c.E.Lawful) (hpos : 0 < c.popSize)
    (hep : 0 < c.epoch) (o : RunOpts K) (hst : FeasibleStart c o.starting) (b : Base c) (hb : b.log = []) :
    match Mealpy.solve A o b with
    | .ok (s, h) => LRun I (i1 + b1) (i2 + b2) lo hi s h
    | .error e => Er e := by
  obtain ⟨o', bb, ho, hos, hosp, hlog, hnone, hsome⟩ := startTermination_ok o b
  have hl1 : bb.log = [] := by rw [hlog, hb]
  have hinit : Wp Er (initialPop A o') bb (fun r b2 => I.size r.1.length ∧ J1 r.2 ∧
      (∀ x ∈ b2.log, I.pos x) ∧ i1 ≤ b2.log.length ∧ b2.log.length ≤ i2) := by
    unfold initialPop
    refine Wp.bind (Wp.liftD hA.initVars ?_)
    intro y r v hy
    rw [hos]
    cases hstart : o.starting with
    | notArray => rw [hstart] at hst; exact hst.elim
    | flat n => rw [hstart] at hst; exact hst.elim
    | none =>
      refine Wp.bind (Wp.pure ?_)
      refine Wp.mono (hA.init y none _ hy (by simp)) ?_
      rintro r b2 ⟨h1, h3, new, g1, g2, g3, g4⟩
      have g1 : b2.log = new := by rw [g1]; show bb.log ++ new = new; rw [hl1]; rfl
      rw [g1]
      exact ⟨h1, h3, g2, by simpa using g3, by simpa using g4⟩
    | rows l =>
      rw [hstart] at hst
      obtain ⟨hl, hrows⟩ := hst
      obtain ⟨xs, hx1, hx2, hx3, hx4⟩ := mapM_rowVec hrows
      refine Wp.bind (Wp.mono (beforeInit_rows hE (F := fun _ => True) hl hpos hx1 hx2 hx3
        (fun x hx => hA.mkExt x (hx4 x hx)) _) ?_)
      rintro p b2 ⟨pop, rfl, hp1, hp2, ⟨new0, hn1, hn2⟩, hp4⟩
      have hn1 : b2.log = new0 := by rw [hn1]; show bb.log ++ _ = _; rw [hl1]; rfl
      have hpl : pop.length = xs.length := by rw [← hp1]; simp
      refine Wp.mono (hA.init y (some pop) _ hy ?_) ?_
      · rintro pop' h
        injection h with h
        subst h
        omega
      · rintro r b3 ⟨h1, h3, new, g1, g2, g3, g4⟩
        have hnl := hn2.length_eq
        simp only [Option.getD_some] at g3 g4
        refine ⟨h1, h3, ?_, ?_, ?_⟩
        · rw [g1, hn1]
          intro x hx
          rcases List.mem_append.1 hx with hx | hx
          · exact hA.box x (hx4 x (hn2.mem_iff.1 hx))
          · exact g2 x hx
        · rw [g1, hn1, List.length_append]; omega
        · rw [g1, hn1, List.length_append]; omega
  unfold Mealpy.solve solveInit
  rw [ho]
  simp only [bind, Except.bind]
  unfold Wp at hinit
  cases hi1 : initialPop A o' bb with
  | error e => rw [hi1] at hinit; exact hinit
  | ok q =>
  rw [hi1] at hinit
  obtain ⟨⟨pop0, y⟩, bb2⟩ := q
  obtain ⟨hp1, hp3, hp4, hp5, hp6⟩ := hinit
  dsimp only at hp1 hp3 ⊢
  have hne0 : pop0 ≠ [] := by
    intro h
    have := hA.nonempty _ hp1
    rw [h] at this
    simp at this
  obtain ⟨s0, hs0⟩ := afterInit_total (sf := A.sortFlag) (y := y) (b := bb2) hE hne0
  obtain ⟨best, worst, hbest, hworst, hs0e⟩ := afterInit_ok hE hs0
  have hinv0 : LHolds { I with attr := J1 } s0 := by
    refine ⟨?_, by rw [hs0e]; exact hp3, by rw [hs0e]; simp, by rw [hs0e]; simp, by rw [hs0e]; simp, by rw [hs0e]; simp⟩
    rw [hs0e]
    dsimp only
    split
    · rw [getSorted_length hE.argsortLaw]; exact hp1
    · exact hp1
  have hb0 : s0.base = bb2 := by rw [hs0e]
  rw [hs0]
  simp only
  have hbm := hA.before s0 hinv0
  unfold Wp at hbm
  cases hbe : A.beforeMain s0 with
  | error e => rw [hbe] at hbm; exact hbm
  | ok q =>
  rw [hbe] at hbm
  obtain ⟨⟨⟩, s1⟩ := q
  simp only [pure, Except.pure] at hbm ⊢
  obtain ⟨new, e1, e2, e3, e4⟩ := hbm.evals
  have hd1 : s1.hist.diversity = [] := by rw [hbm.diversity, hs0e]
  have hpp1 : s1.hist.population = [] := by
    have := hbm.population
    rw [hs0e] at this
    exact List.map_eq_nil_iff.1 this
  have hloop := hA.loop hE o' (i1 + b1) (i2 + b2) s1 hbm.inv (by
      intro x hx
      rw [e1, hb0] at hx
      rcases List.mem_append.1 hx with hx | hx
      · exact hp4 x hx
      · exact e4 x hx) (by rw [e1, hb0, List.length_append]; omega) (by rw [e1, hb0, List.length_append]; omega) hd1 hpp1
  unfold Wp at hloop
  cases hml : mainLoop A o' c.epoch 1 s1 with
  | error e => rw [hml] at hloop; exact hloop
  | ok q =>
  rw [hml] at hloop
  obtain ⟨⟨⟩, s⟩ := q
  obtain ⟨e, k1, k2, k3, k4, k5, k6, k7, k8⟩ := hloop
  simp only
  have hdne : s.hist.diversity ≠ [] := by
    intro h
    rw [h] at k7
    have := k2 hep
    simp at k7; omega
  obtain ⟨m, hm⟩ := listMax_isSome hdne
  obtain ⟨h, hh⟩ : ∃ h, trackProcess s.hist = .ok h := by
    unfold trackProcess
    rw [hm]
    exact ⟨_, rfl⟩
  have hte := trackProcess_ok hh
  rw [hh]
  simp only
  have hepoch : h.epoch = e := by rw [hte.1, k7]
  exact {
    log := k4
    size := k3.len
    budget_lo := by rw [hepoch]; exact k5
    budget_hi := by rw [hepoch]; exact k6
    epochs := by rw [hepoch]; have := k2 hep; omega
    sizes := fun pop hpop => by rw [hte.2.2.2.2.2.2.2.2.2.1] at hpop; exact k8 _ (List.mem_map_of_mem hpop) }

theorem Algo.LOk.loop {A : Algo c X Y} {J0 J1 : Y → Prop} {i1 i2 b1 b2 lo hi : Nat}
    (hA : A.LOk Er I J0 J1 i1 i2 b1 b2 lo hi) (hE : c.E.Lawful) (o : RunOpts K) (n1 n2 : Nat) (s1 : St c X Y)
    (hs : LHolds I s1) (hlog : ∀ x ∈ s1.base.log, I.pos x) (h1 : n1 ≤ s1.base.log.length) (h2 : s1.base.log.length ≤ n2)
    (hd : s1.hist.diversity = []) (hp : s1.hist.population = []) :
    Wp Er (mainLoop A o c.epoch 1) s1 (fun _ s => ∃ e, e ≤ c.epoch ∧ (0 < c.epoch → 0 < e) ∧ LHolds I s ∧
      (∀ x ∈ s.base.log, I.pos x) ∧ n1 + e * lo ≤ s.base.log.length ∧ s.base.log.length ≤ n2 + e * hi ∧
      s.hist.diversity.length = e ∧ ∀ n ∈ s.hist.population.map List.length, I.size n) :=
  hA.each.loop hE o n1 n2 s1 hs hlog h1 h2 hd hp

/-- Either the run returns and its outcome is as stated, or it raises an error in `Er`. -/
theorem Algo.LOk.solve {A : Algo c X Y} {J0 J1 : Y → Prop} {i1 i2 b1 b2 lo hi : Nat}
    (hA : A.LOk Er I J0 J1 i1 i2 b1 b2 lo hi) (hE : c.E.Lawful) (hpos : 0 < c.popSize)
    (hep : 0 < c.epoch) (o : RunOpts K) (hst : FeasibleStart c o.starting) (b : Base c) (hb : b.log = []) :
    match Mealpy.solve A o b with
    | .ok (s, h) => LRun I (i1 + b1) (i2 + b2) lo hi s h
    | .error e => Er e := hA.each.solve hE hpos hep o hst b hb

/-- An algorithm that keeps the default `initialization` and `before_main_loop`. -/
theorem Algo.std_lok (hE : c.E.Lawful) (hP : c.P.Lawful) {A : Algo c X Y} {lo hi : Nat}
    (hsize : I.size c.popSize) (hne : ∀ n, I.size n → 0 < n) (hbox : ∀ x, Feas c x → I.pos x)
    (hi' : A.initialization = defaultInit A.mkExt) (hb : A.beforeMain = Pure.pure ())
    (hm : ∀ x, DT Er (A.mkExt x) (fun _ => True)) (hv : DT Er A.initVars I.attr)
    (h : ∀ ep, 1 ≤ ep → ep ≤ c.epoch → LT Er I lo hi (A.evolve ep) (fun _ => True)) :
    A.LOk Er I I.attr I.attr c.popSize c.popSize 0 0 lo hi where
  box := hbox
  nonempty := hne
  mkExt := fun x _ => hm x
  initVars := hv
  init := by
    intro y p b hy hp
    rw [hi']
    unfold defaultInit
    cases p with
    | some pop =>
      have h1 := hp pop rfl
      exact Wp.pure ⟨by rw [h1]; exact hsize, hy, [], by simp, by simp, by simp [h1], by simp [h1]⟩
    | none =>
      refine Wp.bind (Wp.mono (generatePopulation_spec hE hP c.popSize (F := fun _ => True) (fun x hx => hm x)) ?_)
      rintro pop b' ⟨h1, h2, ⟨new, h3, h3'⟩, -⟩
      have hl : new.length = c.popSize := by rw [h3'.length_eq]; simp [h1]
      refine Wp.pure ⟨by rw [h1]; exact hsize, hy, new, h3, ?_, by simp [hl], by simp [hl]⟩
      intro x hx
      obtain ⟨a, ha, rfl⟩ := List.mem_map.1 (h3'.mem_iff.1 hx)
      exact hbox _ (h2 a ha).1
  before := by
    intro s hs
    rw [hb]
    exact Wp.pure (.refl hs)
  evolve := h

/-- An algorithm without attributes that keeps the default `initialization` and `before_main_loop`. -/
theorem Algo.plain_lok (hE : c.E.Lawful) (hP : c.P.Lawful) {sf : Bool} {ev : Nat → M c Unit Unit Unit} {lo hi : Nat} {pos : Vec d K → Prop}
    (hpos : 0 < c.popSize) (hbox : ∀ x, Feas c x → pos x)
    (h : ∀ ep, 1 ≤ ep → ep ≤ c.epoch → LT Er (⟨pos, fun n => n = c.popSize, JT⟩ : LInv d K Unit) lo hi (ev ep) (fun _ => True)) :
    (Algo.plain sf ev).LOk Er (⟨pos, fun n => n = c.popSize, JT⟩ : LInv d K Unit) JT JT c.popSize c.popSize 0 0 lo hi :=
  Algo.std_lok hE hP rfl (fun n hn => by have : n = c.popSize := hn; omega) hbox rfl rfl (fun _ => DT.pure trivial) (DT.pure trivial) h

/-- An algorithm that keeps the default `initialization` and sets attributes in `before_main_loop`. -/
theorem Algo.pre_lok (hE : c.E.Lawful) (hP : c.P.Lawful) {sf : Bool} {mkExt : Vec d K → D c X} {init : D c Y} {before : St c X Y → D c Y}
    {ev : Nat → M c X Y Unit} {lo hi : Nat} {J0 : Y → Prop}
    (hsize : I.size c.popSize) (hne : ∀ n, I.size n → 0 < n) (hbox : ∀ x, Feas c x → I.pos x)
    (hm : ∀ x, DT Er (mkExt x) (fun _ => True)) (hv : DT Er init J0)
    (hb : ∀ s, LHolds { I with attr := J0 } s → DT Er (before s) I.attr)
    (h : ∀ ep, 1 ≤ ep → ep ≤ c.epoch → LT Er I lo hi (ev ep) (fun _ => True)) :
    (Algo.pre sf mkExt init before ev).LOk Er I J0 J0 c.popSize c.popSize 0 0 lo hi := by
  have h0 := Algo.std_lok (Er := Er) (I := { I with attr := J0 }) (lo := 0) (hi := 0)
    (A := { Algo.pre sf mkExt init before ev with beforeMain := Pure.pure (), evolve := fun _ => Pure.pure () }) hE hP hsize hne hbox rfl rfl hm hv
    (fun ep _ _ => LT.pure trivial)
  refine ⟨h0.box, h0.nonempty, h0.mkExt, h0.initVars, h0.init, ?_, h⟩
  intro s hs
  refine Wp.bind (Wp.get (Wp.bind (Wp.draw (hb s hs) fun y r v hy => Wp.modify ?_)))
  exact ⟨⟨hs.len, hy, hs.gbest, hs.worst, hs.cbest, hs.cworst⟩, .refl rfl, rfl, rfl⟩

end Mealpy
