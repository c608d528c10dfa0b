import Verif.Alg.Rules

/-!
# The basic contract of an algorithm

`Algo.Ok` (in `Verif.Contract`) covers algorithms that never forget a good point.  Many algorithms do
forget; the contract here asks less: agents keep `target = objective(solution)`, evaluated positions
are feasible, the population keeps its size, the number of evaluations is bounded, and only errors in
`Er` occur.  `WT Er I lo hi m R` is the judgement for one piece of code.
-/

set_option linter.unusedSectionVars false
set_option linter.unusedVariables false

namespace Mealpy
open Spec

variable {d : Nat} {K : Type} [Num K] {c : Cfg d K} {X Y : Type} {α β : Type} {Er : Err → Prop}

/-- what is asked of evaluated positions, of the population's size, of agents and of the attributes -/
structure Inv (c : Cfg d K) (X Y : Type) where
  pos : Vec d K → Prop
  size : Nat → Prop
  agent : Agent d K X → Prop
  attr : Y → Prop

/-- a coherent agent: its target is the objective at its solution; and what `I` asks of it -/
def Inv.Ag (I : Inv c X Y) (a : Agent d K X) : Prop := a.tgt = c.P.target a.sol ∧ I.agent a

/-- the usual case: everything feasible, `pop_size` agents -/
def Inv.std (c : Cfg d K) (X : Type) {Y : Type} (J : Y → Prop) : Inv c X Y :=
  ⟨Feas c, fun n => n = c.popSize, FA c, J⟩

/-- a coherent feasible agent -/
def CF (c : Cfg d K) (a : Agent d K X) : Prop := a.tgt = c.P.target a.sol ∧ Feas c a.sol

structure WInv (I : Inv c X Y) (s : St c X Y) : Prop where
  len : I.size s.pop.length
  pop : ∀ a ∈ s.pop, I.Ag a
  ext : I.attr s.ext
  gbest : I.Ag s.gbest
  record : ∃ g, s.hist.globalBest.getLast? = some g ∧ I.Ag g
  worst : s.hist.globalWorst ≠ []
  cbest : s.hist.currentBest ≠ []
  cworst : s.hist.currentWorst ≠ []

/-- between `lo` and `hi` evaluations, all allowed -/
def WEv (I : Inv c X Y) (lo hi : Nat) (b b' : Base c) : Prop :=
  ∃ new, b'.log = b.log ++ new ∧ lo ≤ new.length ∧ new.length ≤ hi ∧ ∀ x ∈ new, I.pos x

structure WStep (I : Inv c X Y) (lo hi : Nat) (s s' : St c X Y) : Prop where
  inv : WInv I s'
  evals : WEv I lo hi s.base s'.base
  hist : HistStep c.P.mm s.hist s'.hist

/-- code that keeps the invariant -/
def WT (Er : Err → Prop) (I : Inv c X Y) (lo hi : Nat) (m : M c X Y α) (R : α → Prop) : Prop :=
  ∀ s, WInv I s → Wp Er m s (fun a s' => WStep I lo hi s s' ∧ R a)

variable {I : Inv c X Y}

theorem WEv.refl {b b' : Base c} (h : b'.log = b.log) : WEv I 0 0 b b' :=
  ⟨[], by simp [h], by simp, by simp, by simp⟩

theorem WEv.trans {l1 h1 l2 h2 : Nat} {b b' b'' : Base c} (h : WEv I l1 h1 b b') (h' : WEv I l2 h2 b' b'') :
    WEv I (l1 + l2) (h1 + h2) b b'' := by
  obtain ⟨n1, a1, a2, a3, a4⟩ := h
  obtain ⟨n2, b1, b2, b3, b4⟩ := h'
  refine ⟨n1 ++ n2, by rw [b1, a1, List.append_assoc], by simp; omega, by simp; omega, ?_⟩
  intro x hx
  rcases List.mem_append.1 hx with hx | hx
  · exact a4 x hx
  · exact b4 x hx

theorem WEv.weaken {l1 h1 l2 h2 : Nat} {b b' : Base c} (h : WEv I l1 h1 b b') (hl : l2 ≤ l1) (hh : h1 ≤ h2) :
    WEv I l2 h2 b b' := by
  obtain ⟨n1, a1, a2, a3, a4⟩ := h
  exact ⟨n1, a1, by omega, by omega, a4⟩

theorem WStep.trans {l1 h1 l2 h2 : Nat} {s s' s'' : St c X Y} (h : WStep I l1 h1 s s') (h' : WStep I l2 h2 s' s'') :
    WStep I (l1 + l2) (h1 + h2) s s'' :=
  ⟨h'.inv, h.evals.trans h'.evals, h.hist.trans h'.hist⟩

theorem WStep.weaken {l1 h1 l2 h2 : Nat} {s s' : St c X Y} (h : WStep I l1 h1 s s') (hl : l2 ≤ l1) (hh : h1 ≤ h2) :
    WStep I l2 h2 s s' := ⟨h.inv, h.evals.weaken hl hh, h.hist⟩

theorem WInv.base {s : St c X Y} (h : WInv I s) (b : Base c) : WInv I { s with base := b } :=
  ⟨h.len, h.pop, h.ext, h.gbest, h.record, h.worst, h.cbest, h.cworst⟩

theorem WStep.base {lo hi : Nat} {s : St c X Y} (h : WInv I s) {b : Base c} (hb : WEv I lo hi s.base b) :
    WStep I lo hi s { s with base := b } := ⟨h.base b, hb, .rfl⟩

theorem WStep.pop {s : St c X Y} (h : WInv I s) {l : List (Agent d K X)} (h1 : I.size l.length) (h2 : ∀ a ∈ l, I.Ag a) :
    WStep I 0 0 s { s with pop := l } :=
  ⟨⟨h1, h2, h.ext, h.gbest, h.record, h.worst, h.cbest, h.cworst⟩, .refl rfl, .rfl⟩

theorem WT.pure {a : α} {R : α → Prop} (h : R a) : WT Er I 0 0 (pure a : M c X Y α) R :=
  fun s hs => Wp.pure ⟨WStep.base hs (.refl rfl), h⟩

theorem WT.mono {lo hi : Nat} {m : M c X Y α} {R Q : α → Prop} (h : WT Er I lo hi m R) (hQ : ∀ a, R a → Q a) :
    WT Er I lo hi m Q :=
  fun s hs => Wp.mono (h s hs) fun a s' h => ⟨h.1, hQ a h.2⟩

theorem WT.weaken {lo hi lo' hi' : Nat} {m : M c X Y α} {R : α → Prop} (h : WT Er I lo hi m R)
    (h1 : lo' ≤ lo) (h2 : hi ≤ hi') : WT Er I lo' hi' m R :=
  fun s hs => Wp.mono (h s hs) fun a s' h => ⟨h.1.weaken h1 h2, h.2⟩

theorem WT.bind {l1 h1 l2 h2 : Nat} {m : M c X Y α} {f : α → M c X Y β} {R : α → Prop} {Q : β → Prop}
    (h : WT Er I l1 h1 m R) (h' : ∀ a, R a → WT Er I l2 h2 (f a) Q) : WT Er I (l1 + l2) (h1 + h2) (m >>= f) Q := by
  intro s hs
  refine Wp.bind (Wp.mono (h s hs) ?_)
  rintro a s' ⟨g1, g2⟩
  refine Wp.mono (h' a g2 s' g1.inv) ?_
  rintro b s'' ⟨k1, k2⟩
  exact ⟨g1.trans k1, k2⟩

theorem WT.bind0 {l h : Nat} {m : M c X Y α} {f : α → M c X Y β} {R : α → Prop} {Q : β → Prop}
    (hm : WT Er I 0 0 m R) (h' : ∀ a, R a → WT Er I l h (f a) Q) : WT Er I l h (m >>= f) Q := by
  have := WT.bind hm h'
  rwa [Nat.zero_add, Nat.zero_add] at this

theorem WT.bindS {lo hi l1 h1 : Nat} {m : M c X Y α} {f : α → M c X Y β} {R : α → Prop} {Q : β → Prop}
    (h : WT Er I l1 h1 m R) (hle : h1 ≤ hi) (h' : ∀ a, R a → WT Er I (lo - l1) (hi - h1) (f a) Q) :
    WT Er I lo hi (m >>= f) Q :=
  WT.weaken (WT.bind h h') (by omega) (by omega)

theorem WT.ite {p : Prop} [Decidable p] {lo hi : Nat} {m n : M c X Y α} {R : α → Prop}
    (h : p → WT Er I lo hi m R) (h' : ¬ p → WT Er I lo hi n R) : WT Er I lo hi (if p then m else n) R :=
  fun s hs => Wp.ite (fun hp => h hp s hs) (fun hp => h' hp s hs)

theorem WT.get : WT Er I 0 0 (get : M c X Y _) (WInv I) :=
  fun s hs => Wp.get ⟨WStep.base hs (.refl rfl), hs⟩

theorem WT.draw {m : D c α} {R : α → Prop} (h : DT Er m R) : WT Er I 0 0 (draw m : M c X Y α) R :=
  fun s hs => Wp.draw h fun a r v hR => ⟨WStep.base hs (.refl rfl), hR⟩

theorem WT.bindD {l h : Nat} {m : D c α} {f : α → M c X Y β} {Q : β → Prop}
    (hm : DT Er m (fun _ => True)) (h' : ∀ a, WT Er I l h (f a) Q) : WT Er I l h (Mealpy.draw m >>= f) Q :=
  WT.bind0 (WT.draw hm) (fun a _ => h' a)

theorem WT.throw {e : Err} {lo hi : Nat} {R : α → Prop} (h : Er e) : WT Er I lo hi (mthrow e : M c X Y α) R := fun _ _ => h

theorem WT.iter {f : Nat → α → M c X Y α} {lo hi : Nat} (P : Nat → α → Prop) : ∀ (n : Nat) {a : α}, P 0 a →
    (∀ (i : Nat) (a : α), i < n → P i a → WT Er I lo hi (f i a) (P (i + 1))) →
    WT Er I (n * lo) (n * hi) (Mealpy.iter n f a) (P n)
  | 0, a, h0, _ => by
    rw [Nat.zero_mul, Nat.zero_mul]
    exact WT.pure h0
  | n + 1, a, h0, hf => by
    have := WT.bind (WT.iter P n h0 (fun i a hi => hf i a (by omega))) (fun a ha => hf n a (by omega) ha)
    rw [Nat.succ_mul, Nat.succ_mul]
    exact this

theorem WT.iterU {f : Nat → Unit → M c X Y Unit} {n : Nat} (k1 k2 : Nat) {lo hi : Nat} (hl : lo ≤ n * k1) (hh : n * k2 ≤ hi)
    (hf : ∀ i, i < n → WT Er I k1 k2 (f i ()) (fun _ => True)) :
    WT Er I lo hi (Mealpy.iter n f ()) (fun _ => True) :=
  WT.weaken (WT.iter (fun _ _ => True) n trivial (fun i _ hi _ => hf i hi)) hl hh

/-- a loop collecting values -/
theorem WT.iterL {f : Nat → List α → M c X Y (List α)} {n : Nat} (k1 k2 : Nat) {lo hi : Nat} (Q : α → Prop)
    (hl : lo ≤ n * k1) (hh : n * k2 ≤ hi)
    (hf : ∀ i (l : List α), i < n → l.length = i → (∀ a ∈ l, Q a) →
      WT Er I k1 k2 (f i l) (fun l' => l'.length = i + 1 ∧ ∀ a ∈ l', Q a)) :
    WT Er I lo hi (Mealpy.iter n f []) (fun l => l.length = n ∧ ∀ a ∈ l, Q a) :=
  WT.weaken (WT.iter (fun i l => l.length = i ∧ ∀ a ∈ l, Q a) n (by simp)
    (fun i l hi h => hf i l hi h.1 h.2)) hl hh

theorem WT.getTarget {x : Vec d K} (hx : I.pos x) :
    WT Er I 1 1 (liftB (getTarget x) : M c X Y _) (fun t => t = c.P.target x) :=
  fun s hs => Wp.liftB (Wp.getTarget ⟨WStep.base hs ⟨[x], rfl, by simp, by simp, by simpa using hx⟩, rfl⟩)

theorem WT.agentOf {x : Vec d K} (hx : I.pos x) {mkExt : Vec d K → D c X}
    (hmk : DT Er (mkExt x) (fun e => I.agent ⟨x, c.P.target x, e⟩)) :
    WT Er I 1 1 (liftB (agentOf mkExt x) : M c X Y _) (fun a => I.Ag a ∧ a.sol = x) := by
  intro s hs
  refine Wp.liftB (Wp.mono (agentOf_spec hmk) ?_)
  rintro a b' ⟨h1, h2, h3, h4, h5⟩
  exact ⟨WStep.base hs ⟨[x], h4, by simp, by simp, by simpa using hx⟩, ⟨by rw [h2, h1], h3⟩, h1⟩

/-- `I` accepts whatever is generated inside the box -/
def Inv.Box (I : Inv c X Y) (Er : Err → Prop) (mkExt : Vec d K → D c X) : Prop :=
  ∀ x, Feas c x → I.pos x ∧ DT Er (mkExt x) (fun e => I.agent ⟨x, c.P.target x, e⟩)

theorem WT.generateAgent (hP : c.P.Lawful) {mkExt : Vec d K → D c X} (hB : I.Box Er mkExt) :
    WT Er I 1 1 (liftB (generateAgent mkExt) : M c X Y _) I.Ag := by
  intro s hs
  refine Wp.liftB (Wp.mono (generateAgent_spec hP (F := I.agent) (fun x hx => (hB x hx).2)) ?_)
  rintro a b' ⟨h1, h2, h3, h4, h5⟩
  exact ⟨WStep.base hs ⟨[a.sol], h4, by simp, by simp, by simpa using (hB _ h1).1⟩, h2, h3⟩

theorem WT.generatePopulation (hE : c.E.Lawful) (hP : c.P.Lawful) {mkExt : Vec d K → D c X} (hB : I.Box Er mkExt) {n : Nat} :
    WT Er I n n (liftB (generatePopulation mkExt n) : M c X Y _) (fun l => l.length = n ∧ ∀ a ∈ l, I.Ag a) := by
  intro s hs
  refine Wp.liftB (Wp.mono (generatePopulation_spec hE hP n (F := I.agent) (fun x hx => (hB x hx).2)) ?_)
  rintro pop b' ⟨h1, h2, ⟨new, h3, h3'⟩, -⟩
  have hl : new.length = n := by rw [h3'.length_eq]; simp [h1]
  refine ⟨WStep.base hs ⟨new, h3, by omega, by omega, ?_⟩, h1, fun a ha => ⟨(h2 a ha).2.1, (h2 a ha).2.2⟩⟩
  intro x hx
  obtain ⟨a, ha, rfl⟩ := List.mem_map.1 (h3'.mem_iff.1 hx)
  exact (hB _ (h2 a ha).1).1

/-- what `mk` has to deliver -/
def Inv.Mk (I : Inv c X Y) (p : Vec d K × X) : Prop := I.pos p.1 ∧ I.agent ⟨p.1, c.P.target p.1, p.2⟩

theorem evaluated_ag {pend : List (Vec d K × X)} (hp : ∀ p ∈ pend, I.Mk p) : ∀ a ∈ evaluated c pend, I.Ag a := by
  intro a ha
  obtain ⟨p, hpm, rfl⟩ := List.mem_map.1 ha
  exact ⟨rfl, (hp p hpm).2⟩

theorem WT.updateTargets (hE : c.E.Lawful) (hm : c.swarmLike = true) {pend : List (Vec d K × X)} (hp : ∀ p ∈ pend, I.Mk p) :
    WT Er I pend.length pend.length (liftB (updateTargets pend) : M c X Y _)
      (fun l => l.length = pend.length ∧ ∀ a ∈ l, I.Ag a) := by
  intro s hs
  refine Wp.liftB (Wp.mono (updateTargets_spec hE hm pend s.base) ?_)
  rintro new b' ⟨rfl, xs, h1, h2, h3⟩
  have hl : xs.length = pend.length := by rw [h1.length_eq]; simp
  refine ⟨WStep.base hs ⟨xs, h2, by omega, by omega, ?_⟩, by simp [evaluated], evaluated_ag hp⟩
  intro x hx
  obtain ⟨p, hpm, rfl⟩ := List.mem_map.1 (h1.mem_iff.1 hx)
  exact (hp p hpm).1

theorem WT.setPop {l : List (Agent d K X)} (h1 : I.size l.length) (h2 : ∀ a ∈ l, I.Ag a) :
    WT Er I 0 0 (setPop l : M c X Y Unit) (fun _ => True) :=
  fun s hs => Wp.modify ⟨WStep.pop hs h1 h2, trivial⟩

/-- an arbitrary change of the population computed from the state -/
theorem WT.modifyPop {f : St c X Y → List (Agent d K X)}
    (h : ∀ s, WInv I s → I.size (f s).length ∧ ∀ a ∈ f s, I.Ag a) :
    WT Er I 0 0 (modify (fun s => { s with pop := f s }) : M c X Y PUnit) (fun _ => True) :=
  fun s hs => Wp.modify ⟨WStep.pop hs (h s hs).1 (h s hs).2, trivial⟩

theorem WT.setExt {f : Y → Y} (h : ∀ y, I.attr y → I.attr (f y)) :
    WT Er I 0 0 (modify (fun s => { s with ext := f s.ext }) : M c X Y PUnit) (fun _ => True) :=
  fun s hs => Wp.modify ⟨⟨⟨hs.len, hs.pop, h _ hs.ext, hs.gbest, hs.record, hs.worst, hs.cbest, hs.cworst⟩, .refl rfl, .rfl⟩, trivial⟩

/-- the new attributes are a value -/
theorem WT.putExt {y : Y} (h : I.attr y) :
    WT Er I 0 0 (modify (fun s => { s with ext := y }) : M c X Y PUnit) (fun _ => True) :=
  WT.setExt (f := fun _ => y) (fun _ _ => h)

theorem WT.setGbest {a : Agent d K X} (h : I.Ag a) :
    WT Er I 0 0 (modify (fun s => { s with gbest := a }) : M c X Y PUnit) (fun _ => True) :=
  fun s hs => Wp.modify ⟨⟨⟨hs.len, hs.pop, hs.ext, h, hs.record, hs.worst, hs.cbest, hs.cworst⟩, .refl rfl, .rfl⟩, trivial⟩

theorem WT.popAt {i : Nat} (hi : ∀ n, I.size n → i < n) : WT Er I 0 0 (popAt i : M c X Y _) I.Ag :=
  fun s hs => Wp.popAt (hi _ hs.len) ⟨WStep.base hs (.refl rfl), hs.pop _ (List.getElem_mem _)⟩

theorem WT.setAt {i : Nat} (hi : ∀ n, I.size n → i < n) {a : Agent d K X} (ha : I.Ag a) :
    WT Er I 0 0 (setAt i a : M c X Y Unit) (fun _ => True) := by
  intro s hs
  refine Wp.setAt (hi _ hs.len) ⟨WStep.pop hs (by rw [List.length_set]; exact hs.len) ?_, trivial⟩
  intro b hb
  rcases mem_set_iff hb with rfl | hb
  · exact ha
  · exact hs.pop b hb

/-- the requirement on agents survives overwriting position and target together -/
def Inv.Upd (I : Inv c X Y) : Prop :=
  ∀ (a : Agent d K X) (x : Vec d K), I.agent a → I.pos x → I.agent { a with sol := x, tgt := c.P.target x }

theorem WT.updateAt {i : Nat} (hi : ∀ n, I.size n → i < n) (hU : I.Upd) {x : Vec d K} {t : Target K} (hx : I.pos x)
    (ht : t = c.P.target x) : WT Er I 0 0 (updateAt i x t : M c X Y Unit) (fun _ => True) := by
  intro s hs
  subst ht
  refine Wp.updateAt (hi _ hs.len) ⟨WStep.pop hs (by rw [List.length_set]; exact hs.len) ?_, trivial⟩
  intro b hb
  rcases mem_set_iff hb with rfl | hb
  · exact ⟨rfl, hU _ x (hs.pop _ (List.getElem_mem _)).2 hx⟩
  · exact hs.pop b hb

theorem better_ag {a b : Agent d K X} {mm : MinMax} (ha : I.Ag a) (hb : I.Ag b) : I.Ag (getBetterAgent a b mm) := by
  rcases (getBetterAgent_cases a b mm).1 with h | h <;> rw [h] <;> assumption

theorem WT.tryBetter {i : Nat} (hi : ∀ n, I.size n → i < n) {p : Vec d K × X} (hp : I.Mk p) :
    WT Er I 1 1 (tryBetter i p : M c X Y Unit) (fun _ => True) := by
  refine WT.bindS (WT.getTarget hp.1) (by omega) ?_
  rintro t rfl
  refine WT.bind0 (WT.popAt hi) fun old ho => ?_
  exact WT.setAt hi (better_ag ⟨rfl, hp.2⟩ ho)

theorem WT.tryCompare {i : Nat} (hi : ∀ n, I.size n → i < n) {mkExt : Vec d K → D c X} {x : Vec d K} (hx : I.pos x)
    (hmk : DT Er (mkExt x) (fun e => I.agent ⟨x, c.P.target x, e⟩)) :
    WT Er I 1 1 (tryCompare mkExt i x : M c X Y Unit) (fun _ => True) := by
  refine WT.bindS (WT.agentOf hx hmk) (by omega) ?_
  rintro a ⟨ha, -⟩
  refine WT.bind0 (WT.popAt hi) fun old ho => ?_
  exact WT.ite (fun _ => WT.setAt hi ha) (fun _ => WT.pure trivial)

theorem WT.selectGreedy {new : List (Agent d K X)} (hl : ∀ n, I.size n → n = new.length) (hn : ∀ a ∈ new, I.Ag a) :
    WT Er I 0 0 (selectGreedy new : M c X Y Unit) (fun _ => True) := by
  intro s hs
  have hlen := hl _ hs.len
  refine Wp.of_ok (a := ()) (s' := { s with pop := List.zipWith (greedyPick c.P.mm) s.pop new }) ?_
    ⟨WStep.pop hs ?_ ?_, trivial⟩
  · unfold Mealpy.selectGreedy
    rw [greedySelection_ok hlen]
  · rw [List.length_zipWith, ← hlen, Nat.min_self]
    exact hs.len
  · intro a ha
    obtain ⟨i, hi, rfl⟩ := List.mem_iff_getElem.1 ha
    rw [List.length_zipWith] at hi
    rw [List.getElem_zipWith]
    rcases (greedyPick_cases c.P.mm (s.pop[i]'(by omega)) (new[i]'(by omega))).1 with h | h
    · rw [h]; exact hs.pop _ (List.getElem_mem _)
    · rw [h]; exact hn _ (List.getElem_mem _)

theorem WT.draw_pending {n : Nat} {mk : Nat → D c (Vec d K × X)} (hmk : ∀ i, i < n → DT Er (mk i) I.Mk) :
    WT Er I 0 0 (Mealpy.draw (buildPending n mk) : M c X Y _) (fun l => l.length = n ∧ ∀ p ∈ l, I.Mk p) :=
  WT.draw (buildPending_dt hmk)

theorem WT.greedyLoop (hE : c.E.Lawful) {n : Nat} (hn : ∀ m, I.size m → m = n) {mk : St c X Y → Nat → D c (Vec d K × X)}
    (hmk : ∀ (s : St c X Y) (i : Nat), WInv I s → s.pop.length = n → i < n → DT Er (mk s i) I.Mk) :
    WT Er I n n (greedyLoop n mk) (fun _ => True) := by
  unfold Mealpy.greedyLoop
  refine WT.ite (fun hm => ?_) (fun hm => ?_)
  · refine WT.bind0 WT.get fun s hs => ?_
    refine WT.bind0 (WT.draw_pending (fun i hi => hmk s i hs (hn _ hs.len) hi)) fun pend hp => ?_
    refine WT.bindS (WT.updateTargets hE hm hp.2) (by omega) fun new hnew => ?_
    exact WT.weaken (WT.selectGreedy (fun m h => by rw [hn m h, hnew.1, hp.1]) hnew.2) (by omega) (by omega)
  · refine WT.iterU 1 1 (by omega) (by omega) fun i hi => ?_
    refine WT.bind0 WT.get fun s hs => ?_
    refine WT.bind0 (WT.draw (hmk s i hs (hn _ hs.len) hi)) fun p hp => ?_
    exact WT.tryBetter (fun m h => by rw [hn m h]; exact hi) hp

theorem WT.replaceLoop (hE : c.E.Lawful) {n : Nat} (hn : ∀ m, I.size m ↔ m = n) (hU : I.Upd)
    {mk : St c X Y → Nat → D c (Vec d K × X)}
    (hmk : ∀ (s : St c X Y) (i : Nat), WInv I s → s.pop.length = n → i < n → DT Er (mk s i) I.Mk) :
    WT Er I n n (replaceLoop n mk) (fun _ => True) := by
  unfold Mealpy.replaceLoop
  refine WT.ite (fun hm => ?_) (fun hm => ?_)
  · refine WT.bind0 WT.get fun s hs => ?_
    refine WT.bind0 (WT.draw_pending (fun i hi => hmk s i hs ((hn _).1 hs.len) hi)) fun pend hp => ?_
    refine WT.bindS (WT.updateTargets hE hm hp.2) (by omega) fun new hnew => ?_
    exact WT.weaken (WT.setPop ((hn _).2 (by rw [hnew.1, hp.1])) hnew.2) (by omega) (by omega)
  · refine WT.iterU 1 1 (by omega) (by omega) fun i hi => ?_
    refine WT.bind0 WT.get fun s hs => ?_
    refine WT.bind0 (WT.draw (hmk s i hs ((hn _).1 hs.len) hi)) fun p hp => ?_
    refine WT.bindS (WT.getTarget hp.1) (by omega) fun t ht => ?_
    exact WT.weaken (WT.updateAt (fun m h => by rw [(hn m).1 h]; exact hi) hU hp.1 ht) (by omega) (by omega)

theorem WT.rebindLoop (hE : c.E.Lawful) {n : Nat} (hn : ∀ m, I.size m ↔ m = n)
    {mk : St c X Y → Nat → D c (Vec d K × X)}
    (hmk : ∀ (s : St c X Y) (i : Nat), WInv I s → s.pop.length = n → i < n → DT Er (mk s i) I.Mk) :
    WT Er I n n (rebindLoop n mk) (fun _ => True) := by
  unfold Mealpy.rebindLoop
  refine WT.ite (fun hm => ?_) (fun hm => ?_)
  · refine WT.bind0 WT.get fun s hs => ?_
    refine WT.bind0 (WT.draw_pending (fun i hi => hmk s i hs ((hn _).1 hs.len) hi)) fun pend hp => ?_
    refine WT.bindS (WT.updateTargets hE hm hp.2) (by omega) fun new hnew => ?_
    exact WT.weaken (WT.setPop ((hn _).2 (by rw [hnew.1, hp.1])) hnew.2) (by omega) (by omega)
  · refine WT.iterU 1 1 (by omega) (by omega) fun i hi => ?_
    refine WT.bind0 WT.get fun s hs => ?_
    refine WT.bind0 (WT.draw (hmk s i hs ((hn _).1 hs.len) hi)) fun p hp => ?_
    refine WT.bindS (WT.getTarget hp.1) (by omega) fun t ht => ?_
    exact WT.weaken (WT.setAt (fun m h => by rw [(hn m).1 h]; exact hi) ⟨ht, by rw [ht]; exact hp.2⟩) (by omega) (by omega)

theorem WT.buildEval (hE : c.E.Lawful) {n : Nat} {mk : St c X Y → Nat → D c (Vec d K × X)}
    (hmk : ∀ (s : St c X Y) (i : Nat), WInv I s → i < n → DT Er (mk s i) I.Mk) :
    WT Er I n n (buildEval n mk) (fun l => l.length = n ∧ ∀ a ∈ l, I.Ag a) := by
  unfold Mealpy.buildEval
  refine WT.ite (fun hm => ?_) (fun hm => ?_)
  · refine WT.bind0 WT.get fun s hs => ?_
    refine WT.bind0 (WT.draw_pending (fun i hi => hmk s i hs hi)) fun pend hp => ?_
    refine WT.weaken (WT.mono (WT.updateTargets hE hm hp.2) fun l hl => ?_) (by omega) (by omega)
    exact ⟨by rw [hl.1, hp.1], hl.2⟩
  · refine WT.iterL 1 1 I.Ag (by omega) (by omega) fun i l hi hl hq => ?_
    refine WT.bind0 WT.get fun s hs => ?_
    refine WT.bind0 (WT.draw (hmk s i hs hi)) fun p hp => ?_
    refine WT.bindS (WT.getTarget hp.1) (by omega) fun t ht => ?_
    refine WT.pure ⟨by simp [hl], ?_⟩
    intro a ha
    rcases List.mem_append.1 ha with ha | ha
    · exact hq a ha
    · rw [List.mem_singleton.1 ha]
      exact ⟨ht, by rw [ht]; exact hp.2⟩

theorem WT.mergeTrim (hE : c.E.Lawful) {n : Nat} {new : List (Agent d K X)}
    (hl : ∀ m, I.size m → I.size (min n (m + new.length))) (hn : ∀ a ∈ new, I.Ag a) :
    WT Er I 0 0 (mergeTrim n new : M c X Y Unit) (fun _ => True) := by
  refine WT.modifyPop (f := fun s => getSortedTrimmed c.E.argsort (s.pop ++ new) n c.P.mm) fun s hs => ⟨?_, ?_⟩
  · rw [trimmed_length hE, List.length_append]
    exact hl _ hs.len
  · intro a ha
    rcases List.mem_append.1 (trimmed_mem hE ha) with h | h
    · exact hs.pop a h
    · exact hn a h

theorem getLast?_setLast {l : List α} {x : α} : (setLast l x).getLast? = some x := by simp [setLast]

theorem setLast_ne {l : List α} {x : α} : setLast l x ≠ [] := by simp [setLast]

/-- `self.update_global_best_agent(pop, save=False)` -/
theorem WT.updateNoSave (hE : c.E.Lawful) {pop : List (Agent d K X)} (h0 : 0 < pop.length) (hp : ∀ a ∈ pop, I.Ag a) :
    WT Er I 0 0 (updateGlobalBestNoSave pop : M c X Y _)
      (fun r => r.1.length = pop.length ∧ (∀ a ∈ r.1, I.Ag a) ∧ I.Ag r.2) := by
  intro s hs
  have hmem : ∀ a, a ∈ (getSorted c.E.argsort pop c.P.mm).1 ↔ a ∈ pop := fun a => getSorted_mem hE.argsortLaw
  have hlen := getSorted_length hE.argsortLaw pop c.P.mm
  have hne : (getSorted c.E.argsort pop c.P.mm).1 ≠ [] := by
    intro h; rw [h] at hlen; simp at hlen; omega
  obtain ⟨cb, hcb⟩ : ∃ cb, (getSorted c.E.argsort pop c.P.mm).1.head? = some cb :=
    ⟨_, List.head?_eq_some_head hne⟩
  obtain ⟨cw, hcw⟩ : ∃ cb, (getSorted c.E.argsort pop c.P.mm).1.getLast? = some cb :=
    ⟨_, List.getLast?_eq_some_getLast hne⟩
  obtain ⟨lb, hlb⟩ : ∃ cb, s.hist.currentBest.getLast? = some cb := ⟨_, List.getLast?_eq_some_getLast hs.cbest⟩
  obtain ⟨lw, hlw⟩ : ∃ cb, s.hist.currentWorst.getLast? = some cb := ⟨_, List.getLast?_eq_some_getLast hs.cworst⟩
  obtain ⟨gw, hgw⟩ : ∃ cb, s.hist.globalWorst.getLast? = some cb := ⟨_, List.getLast?_eq_some_getLast hs.worst⟩
  obtain ⟨gb, hgb, hgbA⟩ := hs.record
  have hcbA : I.Ag cb := hp _ ((hmem _).1 (List.mem_of_head? hcb))
  have hbA : I.Ag (getBetterAgent cb gb c.P.mm) := better_ag hcbA hgbA
  have hfr := Framed.updateGlobalBestNoSave (c := c) (X := X) (Y := Y) (pop := pop) s
  have hok : ∃ s', updateGlobalBestNoSave pop s =
      .ok (((getSorted c.E.argsort pop c.P.mm).1, getBetterAgent cb gb c.P.mm), s') ∧
      s'.pop = s.pop ∧ s'.ext = s.ext ∧ s'.gbest = s.gbest ∧ s'.base = s.base ∧
      s'.hist.globalBest = setLast s.hist.globalBest (getBetterAgent cb gb c.P.mm) ∧
      s'.hist.globalWorst ≠ [] ∧ s'.hist.currentBest ≠ [] ∧ s'.hist.currentWorst ≠ [] := by
    unfold updateGlobalBestNoSave
    simp only [hcb, hcw, hlb, hgb, hlw, hgw]
    exact ⟨_, rfl, rfl, rfl, rfl, rfl, rfl, setLast_ne, setLast_ne, setLast_ne⟩
  obtain ⟨s', hrun, e1, e2, e3, e4, e5, e6, e7, e8⟩ := hok
  have hfr' := Wp.elim hfr hrun
  refine Wp.of_ok hrun ⟨⟨⟨by rw [e1]; exact hs.len, by rw [e1]; exact hs.pop, by rw [e2]; exact hs.ext,
    by rw [e3]; exact hs.gbest, ⟨_, by rw [e5]; exact getLast?_setLast, hbA⟩, e6, e7, e8⟩, .refl (by rw [e4]), hfr'.hist⟩,
    hlen, ?_, hbA⟩
  intro a ha
  exact hp a ((hmem a).1 ha)

/-! ## Whole runs -/

/-- The basic contract: `i1..i2` evaluations of the initial population, `b1..b2` in `before_main_loop`,
`lo..hi` per epoch. -/
structure Algo.WOk (A : Algo c X Y) (Er : Err → Prop) (I : Inv c X Y) (J0 J1 : Y → Prop)
    (i1 i2 b1 b2 lo hi : Nat) : Prop where
  box : ∀ x, Feas c x → I.pos x
  nonempty : ∀ n, I.size n → 0 < n
  mkExt : ∀ x, Feas c x → DT Er (A.mkExt x) (fun e => I.agent ⟨x, c.P.target x, e⟩)
  initVars : DT Er A.initVars J0
  init : ∀ y p b, J0 y → (∀ pop, p = some pop → pop.length = c.popSize ∧ ∀ a ∈ pop, I.Ag a) →
    Wp Er (A.initialization y p) b (fun r b' => I.size r.1.length ∧ (∀ a ∈ r.1, I.Ag a) ∧ J1 r.2 ∧
      ∃ new, b'.log = b.log ++ new ∧ (∀ x ∈ new, I.pos x) ∧ i1 ≤ new.length + (p.getD []).length ∧
        new.length + (p.getD []).length ≤ i2)
  before : ∀ s, WInv { I with attr := J1 } s → Wp Er A.beforeMain s (fun _ s' => WStep I b1 b2 s s')
  evolve : ∀ ep, 1 ≤ ep → ep ≤ c.epoch → WT Er I lo hi (A.evolve ep) (fun _ => True)

/-- Outcome of a run that returned (empty log before). -/
structure WRun (I : Inv c X Y) (n1 n2 lo hi : Nat) (s : St c X Y) (h : FinalHist d K X) : Prop where
  log : ∀ x ∈ s.base.log, I.pos x
  gbest : I.Ag s.gbest
  pop : ∀ a ∈ s.pop, I.Ag a
  size : I.size s.pop.length
  ext : I.attr s.ext
  budget_lo : n1 + h.epoch * lo ≤ s.base.log.length
  budget_hi : s.base.log.length ≤ n2 + h.epoch * hi
  epochs : 1 ≤ h.epoch ∧ h.epoch ≤ c.epoch
  sizes : ∀ pop ∈ h.population, I.size pop.length

theorem Algo.WOk.loop {A : Algo c X Y} {J0 J1 : Y → Prop} {i1 i2 b1 b2 lo hi : Nat}
    (hA : A.WOk Er I J0 J1 i1 i2 b1 b2 lo hi) (hE : c.E.Lawful) (o : RunOpts K) (n1 n2 : Nat) (s1 : St c X Y)
    (hs : WInv I s1) (hlog : ∀ x ∈ s1.base.log, I.pos x) (h1 : n1 ≤ s1.base.log.length) (h2 : s1.base.log.length ≤ n2)
    (hd : s1.hist.diversity = []) (hp : s1.hist.population = []) :
    Wp Er (mainLoop A o c.epoch 1) s1 (fun _ s => ∃ e, e ≤ c.epoch ∧ (0 < c.epoch → 0 < e) ∧ WInv I s ∧
      (∀ x ∈ s.base.log, I.pos x) ∧ n1 + e * lo ≤ s.base.log.length ∧ s.base.log.length ≤ n2 + e * hi ∧
      s.hist.diversity.length = e ∧ ∀ pop ∈ s.hist.population, I.size pop.length) := by
  refine Wp.mono (mainLoop_wp (Er := Er) (A := A) (o := o) (fun k s => WInv I s ∧
      (∀ x ∈ s.base.log, I.pos x) ∧ n1 + k * lo ≤ s.base.log.length ∧ s.base.log.length ≤ n2 + k * hi ∧
      s.hist.diversity.length = k ∧ ∀ pop ∈ s.hist.population, I.size pop.length) ?_ c.epoch 0 s1
      ⟨hs, hlog, by simpa using h1, by simpa using h2, by simp [hd], by simp [hp]⟩ (by omega)) ?_
  · rintro k s ⟨hs, hlog, h1, h2, hd, hp⟩ hk
    refine Wp.mono (epochStep_wp (R := fun s1 => WStep I lo hi s s1) hE ?_ (.inr ?_)) ?_
    · intro r v
      refine Wp.mono (hA.evolve (k + 1) (by omega) (by omega) _ (hs.base _)) ?_
      rintro _ s1 ⟨h, -⟩
      exact ⟨h.inv, h.evals, h.hist⟩
    · intro s1 h
      refine ⟨?_, ?_, h.inv.worst⟩
      · intro hnil
        have := hA.nonempty _ h.inv.len
        rw [hnil] at this
        simp at this
      · obtain ⟨g, hg, -⟩ := h.inv.record
        intro hnil
        rw [hnil] at hg
        simp at hg
    · rintro f s' ⟨s1, hst, hend, -⟩
      obtain ⟨cb, cw, gb, gw, tm, hcb, hcw, hgb, hgw, hgbest, hhist⟩ := hend.hist
      obtain ⟨new, n1', n2', n3', n4'⟩ := hst.evals
      have hmem : ∀ a, a ∈ s'.pop ↔ a ∈ s1.pop := by
        intro a
        rw [hend.pop]
        split
        · exact getSorted_mem hE.argsortLaw
        · rfl
      have hsz : I.size s'.pop.length := by
        rw [hend.pop]
        split
        · rw [getSorted_length hE.argsortLaw]; exact hst.inv.len
        · exact hst.inv.len
      have hbA : I.Ag (getBetterAgent cb gb c.P.mm) := by
        obtain ⟨g, hg, hgA⟩ := hst.inv.record
        rw [hg] at hgb
        obtain rfl := Option.some.inj hgb
        exact better_ag (hst.inv.pop _ hcb.1) hgA
      refine ⟨⟨hsz, fun a ha => hst.inv.pop a ((hmem a).1 ha), by rw [hend.ext]; exact hst.inv.ext,
        by rw [hgbest]; exact hbA, ⟨_, by rw [hhist]; simp, hbA⟩, by rw [hhist]; simp, by rw [hhist]; simp,
        by rw [hhist]; simp⟩, ?_, ?_, ?_, ?_, ?_⟩
      · intro x hx
        rw [hend.log, n1'] at hx
        rcases List.mem_append.1 hx with hx | hx
        · exact hlog x hx
        · exact n4' x hx
      · rw [hend.log, n1', List.length_append, Nat.add_mul]; omega
      · rw [hend.log, n1', List.length_append, Nat.add_mul]; omega
      · rw [hhist]
        simp only [List.length_append, List.length_singleton]
        rw [hst.hist.diversity, hd]
      · rw [hhist]
        dsimp only
        rw [hst.hist.population]
        intro pop hpop
        split at hpop
        · rcases List.mem_append.1 hpop with hpop | hpop
          · exact hp pop hpop
          · rw [List.mem_singleton.1 hpop]; exact hsz
        · exact hp pop hpop
  · rintro _ s ⟨e, h1, h2, h3, h4, h5, h6, h7, h8, h9⟩
    exact ⟨e, by omega, h3, h4, h5, h6, h7, h8, h9⟩

/-- Either the run returns and its outcome is as stated, or it raises an error in `Er`. -/
theorem Algo.WOk.solve {A : Algo c X Y} {J0 J1 : Y → Prop} {i1 i2 b1 b2 lo hi : Nat}
    (hA : A.WOk Er I J0 J1 i1 i2 b1 b2 lo hi) (hE : c.E.Lawful) (hpos : 0 < c.popSize)
    (hep : 0 < c.epoch) (o : RunOpts K) (hst : FeasibleStart c o.starting) (b : Base c) (hb : b.log = []) :
    match Mealpy.solve A o b with
    | .ok (s, h) => WRun I (i1 + b1) (i2 + b2) lo hi s h
    | .error e => Er e := by
  obtain ⟨o', bb, ho, hos, hosp, hlog, hnone, hsome⟩ := startTermination_ok o b
  have hl1 : bb.log = [] := by rw [hlog, hb]
  have hinit : Wp Er (initialPop A o') bb (fun r b2 => I.size r.1.length ∧ (∀ a ∈ r.1, I.Ag a) ∧ J1 r.2 ∧
      (∀ x ∈ b2.log, I.pos x) ∧ i1 ≤ b2.log.length ∧ b2.log.length ≤ i2) := by
    unfold initialPop
    refine Wp.bind (Wp.liftD hA.initVars ?_)
    intro y r v hy
    rw [hos]
    cases hstart : o.starting with
    | notArray => rw [hstart] at hst; exact hst.elim
    | flat n => rw [hstart] at hst; exact hst.elim
    | none =>
      refine Wp.bind (Wp.pure ?_)
      refine Wp.mono (hA.init y none _ hy (by simp)) ?_
      rintro r b2 ⟨h1, h2, h3, new, g1, g2, g3, g4⟩
      have g1 : b2.log = new := by rw [g1]; show bb.log ++ new = new; rw [hl1]; rfl
      rw [g1]
      exact ⟨h1, h2, h3, g2, by simpa using g3, by simpa using g4⟩
    | rows l =>
      rw [hstart] at hst
      obtain ⟨hl, hrows⟩ := hst
      obtain ⟨xs, hx1, hx2, hx3, hx4⟩ := mapM_rowVec hrows
      refine Wp.bind (Wp.mono (beforeInit_rows hE (F := I.agent) hl hpos hx1 hx2 hx3
        (fun x hx => hA.mkExt x (hx4 x hx)) _) ?_)
      rintro p b2 ⟨pop, rfl, hp1, hp2, ⟨new0, hn1, hn2⟩, hp4⟩
      have hn1 : b2.log = new0 := by rw [hn1]; show bb.log ++ _ = _; rw [hl1]; rfl
      have hpl : pop.length = xs.length := by rw [← hp1]; simp
      refine Wp.mono (hA.init y (some pop) _ hy ?_) ?_
      · rintro pop' h
        injection h with h
        subst h
        exact ⟨by omega, fun a ha => hp2 a ha⟩
      · rintro r b3 ⟨h1, h2, h3, new, g1, g2, g3, g4⟩
        have hnl := hn2.length_eq
        simp only [Option.getD_some] at g3 g4
        refine ⟨h1, h2, h3, ?_, ?_, ?_⟩
        · rw [g1, hn1]
          intro x hx
          rcases List.mem_append.1 hx with hx | hx
          · exact hA.box x (hx4 x (hn2.mem_iff.1 hx))
          · exact g2 x hx
        · rw [g1, hn1, List.length_append]; omega
        · rw [g1, hn1, List.length_append]; omega
  unfold Mealpy.solve solveInit
  rw [ho]
  simp only [bind, Except.bind]
  unfold Wp at hinit
  cases hi1 : initialPop A o' bb with
  | error e => rw [hi1] at hinit; exact hinit
  | ok q =>
  rw [hi1] at hinit
  obtain ⟨⟨pop0, y⟩, bb2⟩ := q
  obtain ⟨hp1, hp2, hp3, hp4, hp5, hp6⟩ := hinit
  dsimp only at hp1 hp2 hp3 ⊢
  have hne0 : pop0 ≠ [] := by
    intro h
    have := hA.nonempty _ hp1
    rw [h] at this
    simp at this
  obtain ⟨s0, hs0⟩ := afterInit_total (sf := A.sortFlag) (y := y) (b := bb2) hE hne0
  obtain ⟨best, worst, hbest, hworst, hs0e⟩ := afterInit_ok hE hs0
  have hmem : ∀ a, a ∈ s0.pop ↔ a ∈ pop0 := by
    intro a
    rw [hs0e]
    dsimp only
    split
    · exact getSorted_mem hE.argsortLaw
    · rfl
  have hinv0 : WInv { I with attr := J1 } s0 := by
    refine ⟨?_, fun a ha => hp2 a ((hmem a).1 ha), by rw [hs0e]; exact hp3, by rw [hs0e]; exact hp2 _ hbest.1,
      ⟨best, by rw [hs0e]; rfl, hp2 _ hbest.1⟩, by rw [hs0e]; simp, by rw [hs0e]; simp, by rw [hs0e]; simp⟩
    rw [hs0e]
    dsimp only
    split
    · rw [getSorted_length hE.argsortLaw]; exact hp1
    · exact hp1
  have hb0 : s0.base = bb2 := by rw [hs0e]
  rw [hs0]
  simp only
  have hbm := hA.before s0 hinv0
  unfold Wp at hbm
  cases hbe : A.beforeMain s0 with
  | error e => rw [hbe] at hbm; exact hbm
  | ok q =>
  rw [hbe] at hbm
  obtain ⟨⟨⟩, s1⟩ := q
  simp only [pure, Except.pure] at hbm ⊢
  obtain ⟨new, e1, e2, e3, e4⟩ := hbm.evals
  have hd1 : s1.hist.diversity = [] := by rw [hbm.hist.diversity, hs0e]
  have hpp1 : s1.hist.population = [] := by rw [hbm.hist.population, hs0e]
  have hloop := hA.loop hE o' (i1 + b1) (i2 + b2) s1 hbm.inv (by
      intro x hx
      rw [e1, hb0] at hx
      rcases List.mem_append.1 hx with hx | hx
      · exact hp4 x hx
      · exact e4 x hx) (by rw [e1, hb0, List.length_append]; omega) (by rw [e1, hb0, List.length_append]; omega) hd1 hpp1
  unfold Wp at hloop
  cases hml : mainLoop A o' c.epoch 1 s1 with
  | error e => rw [hml] at hloop; exact hloop
  | ok q =>
  rw [hml] at hloop
  obtain ⟨⟨⟩, s⟩ := q
  obtain ⟨e, k1, k2, k3, k4, k5, k6, k7, k8⟩ := hloop
  simp only
  have hdne : s.hist.diversity ≠ [] := by
    intro h
    rw [h] at k7
    have := k2 hep
    simp at k7; omega
  obtain ⟨m, hm⟩ := listMax_isSome hdne
  obtain ⟨h, hh⟩ : ∃ h, trackProcess s.hist = .ok h := by
    unfold trackProcess
    rw [hm]
    exact ⟨_, rfl⟩
  have hte := trackProcess_ok hh
  rw [hh]
  simp only
  have hepoch : h.epoch = e := by rw [hte.1, k7]
  exact {
    log := k4
    gbest := k3.gbest
    pop := k3.pop
    size := k3.len
    ext := k3.ext
    budget_lo := by rw [hepoch]; exact k5
    budget_hi := by rw [hepoch]; exact k6
    epochs := by rw [hepoch]; have := k2 hep; omega
    sizes := by rw [hte.2.2.2.2.2.2.2.2.2.1]; exact k8 }

/-- An algorithm that keeps the default `initialization` and `before_main_loop`. -/
theorem Algo.std_wok (hE : c.E.Lawful) (hP : c.P.Lawful) {A : Algo c X Y} {lo hi : Nat}
    (hpos : 0 < c.popSize) (hsize : I.size c.popSize) (hne : ∀ n, I.size n → 0 < n)
    (hi' : A.initialization = defaultInit A.mkExt) (hb : A.beforeMain = Pure.pure ())
    (hB : I.Box Er A.mkExt) (hv : DT Er A.initVars I.attr)
    (h : ∀ ep, 1 ≤ ep → ep ≤ c.epoch → WT Er I lo hi (A.evolve ep) (fun _ => True)) :
    A.WOk Er I I.attr I.attr c.popSize c.popSize 0 0 lo hi where
  box := fun x hx => (hB x hx).1
  nonempty := hne
  mkExt := fun x hx => (hB x hx).2
  initVars := hv
  init := by
    intro y p b hy hp
    rw [hi']
    unfold defaultInit
    cases p with
    | some pop =>
      obtain ⟨h1, h2⟩ := hp pop rfl
      exact Wp.pure ⟨by rw [h1]; exact hsize, h2, hy, [], by simp, by simp, by simp [h1], by simp [h1]⟩
    | none =>
      refine Wp.bind (Wp.mono (generatePopulation_spec hE hP c.popSize (F := I.agent) (fun x hx => (hB x hx).2)) ?_)
      rintro pop b' ⟨h1, h2, ⟨new, h3, h3'⟩, -⟩
      have hl : new.length = c.popSize := by rw [h3'.length_eq]; simp [h1]
      refine Wp.pure ⟨by rw [h1]; exact hsize, fun a ha => ⟨(h2 a ha).2.1, (h2 a ha).2.2⟩, hy, new, h3, ?_, by simp [hl], by simp [hl]⟩
      intro x hx
      obtain ⟨a, ha, rfl⟩ := List.mem_map.1 (h3'.mem_iff.1 hx)
      exact (hB _ (h2 a ha).1).1
  before := by
    intro s hs
    rw [hb]
    exact Wp.pure (WStep.base hs (.refl rfl))
  evolve := h

end Mealpy

namespace Mealpy
open Spec
variable {d : Nat} {K : Type} [Num K] {c : Cfg d K} {X Y : Type} {α β : Type} {Er : Err → Prop}

/-! ## The usual invariant -/

theorem Inv.std_mk {J : Y → Prop} {p : Vec d K × X} (h : Feas c p.1) : (Inv.std c X J).Mk p := ⟨h, h⟩

theorem Inv.std_ag {J : Y → Prop} {a : Agent d K X} (h : CF c a) : (Inv.std c X J).Ag a := h

theorem Inv.std_upd {J : Y → Prop} : (Inv.std c X J).Upd := fun _ _ _ h => h

theorem Inv.std_box {J : Y → Prop} {mkExt : Vec d K → D c X} (h : ∀ x, Feas c x → DT Er (mkExt x) (fun _ => True)) :
    (Inv.std c X J).Box Er mkExt := fun x hx => ⟨hx, DT.mono (h x hx) fun _ _ => hx⟩

theorem Inv.std_box_unit {J : Y → Prop} : (Inv.std c Unit J).Box Er (fun _ => Pure.pure ()) :=
  Inv.std_box fun _ _ => DT.pure trivial

theorem WInv.len_std {J : Y → Prop} {s : St c X Y} (h : WInv (Inv.std c X J) s) : s.pop.length = c.popSize := h.len

macro_rules
  | `(tactic| dfin) => `(tactic| first
    | exact Inv.std_mk (by assumption)
    | exact Inv.std_ag (by assumption))

/-- population indices are in range -/
syntax "wsz" : tactic
macro_rules
  | `(tactic| wsz) => `(tactic| (intro n hn; change n = _ at hn; omega))

/-- one step of code keeping the usual invariant -/
syntax "wstep" : tactic
macro_rules
  | `(tactic| wstep) => `(tactic|
    first
      | (at_bind MonadState.get; refine WT.bind0 WT.get (fun s hs => ?_); have hlen := WInv.len_std hs)
      | (at_bind draw; refine WT.bind0 (WT.draw (by dprim)) (fun _ _ => ?_))
      | (at_bind draw; refine WT.bindD ?_ (fun _ => ?_); focus (dgo; done))
      | (at_head greedyLoop; refine WT.weaken (WT.greedyLoop (by assumption) (fun _ h => h) ?_) (by omega) (by omega); mkgo)
      | (at_bind greedyLoop; refine WT.bindS (WT.greedyLoop (by assumption) (fun _ h => h) ?_) (by omega) (fun _ _ => ?_); focus (mkgo; done))
      | (at_head replaceLoop; refine WT.weaken (WT.replaceLoop (by assumption) (fun _ => Iff.rfl) Inv.std_upd ?_) (by omega) (by omega); mkgo)
      | (at_bind replaceLoop; refine WT.bindS (WT.replaceLoop (by assumption) (fun _ => Iff.rfl) Inv.std_upd ?_) (by omega) (fun _ _ => ?_); focus (mkgo; done))
      | (at_head rebindLoop; refine WT.weaken (WT.rebindLoop (by assumption) (fun _ => Iff.rfl) ?_) (by omega) (by omega); mkgo)
      | (at_bind rebindLoop; refine WT.bindS (WT.rebindLoop (by assumption) (fun _ => Iff.rfl) ?_) (by omega) (fun _ _ => ?_); focus (mkgo; done))
      | (at_bind buildEval; refine WT.bindS (WT.buildEval (by assumption) ?_) (by omega) (fun _ _ => ?_); focus (intro s i hs hi; have hlen := WInv.len_std hs; dgo; done))
      | (at_bind popAt; refine WT.bind0 (WT.popAt (by wsz)) (fun _ _ => ?_))
      | (at_bind modify; refine WT.bind0 (WT.setExt (by intro _ h; first | exact trivial | exact h)) (fun _ _ => ?_))
      | (at_head modify; refine WT.weaken (WT.setExt (by intro _ h; first | exact trivial | exact h)) (by omega) (by omega))
      | (at_bind tryBetter; refine WT.bindS (WT.tryBetter (by wsz) (by dfin)) (by omega) (fun _ _ => ?_))
      | (at_head tryBetter; exact WT.weaken (WT.tryBetter (by wsz) (by dfin)) (by omega) (by omega))
      | (at_head tryCompare; exact WT.weaken (WT.tryCompare (by wsz) (by dfin) (DT.pure (by dfin))) (by omega) (by omega))
      | (at_bind tryCompare; refine WT.bindS (WT.tryCompare (by wsz) (by dfin) (DT.pure (by dfin))) (by omega) (fun _ _ => ?_))
      | (at_head Pure.pure; exact WT.weaken (WT.pure (by dfin)) (by omega) (by omega))
      | (at_head ite; refine WT.ite (fun _ => ?_) (fun _ => ?_)))

/-- walk over code keeping the usual invariant -/
syntax "wwalk" : tactic
macro_rules
  | `(tactic| wwalk) => `(tactic| repeat' wstep)

theorem JT.ok {α : Type} {y : α} : (JT : α → Prop) y := trivial

/-- An algorithm that overrides only `evolve`: the basic contract. -/
theorem Algo.plain_wok (hE : c.E.Lawful) (hP : c.P.Lawful) (hpos : 0 < c.popSize) {sf : Bool}
    {ev : Nat → M c Unit Unit Unit} {lo hi : Nat}
    (h : ∀ ep, 1 ≤ ep → ep ≤ c.epoch → WT Er (Inv.std c Unit JT) lo hi (ev ep) (fun _ => True)) :
    (Algo.plain sf ev).WOk Er (Inv.std c Unit JT) JT JT c.popSize c.popSize 0 0 lo hi :=
  Algo.std_wok (I := Inv.std c Unit JT) hE hP hpos rfl (fun n hn => by change n = _ at hn; omega) rfl rfl
    Inv.std_box_unit (DT.pure trivial) h

end Mealpy
