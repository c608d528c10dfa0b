import Mathlib.Data.List.Sort
import Verif.Alg.Kit6

/-! # More shared pieces -/

set_option linter.unusedSectionVars false
set_option linter.unusedVariables false

namespace Mealpy
open Spec

variable {d : Nat} {K : Type} [Num K] {c : Cfg d K} {X Y : Type} {α β : Type}
variable {F : Agent d K X → Prop} {J : Y → Prop} {Er : Err → Prop}

/-- `generator.choice(n, k, replace=False)` where the arithmetic that yields `k` guarantees `k ≤ n`; the bound is
built in (for example `mealpy/bio_based/APO.py:103`) -/
def subset (n k : Nat) : D c (List Nat) := choice n (min k n) false

theorem DT.subset (hE : c.E.Lawful) {n k : Nat} (h : 0 < n) :
    DT Er (Mealpy.subset n k : D c (List Nat)) (fun l => l.length ≤ n ∧ ∀ i ∈ l, i < n) := by
  refine DT.mono (DT.choice hE (choiceErr_false h (by omega))) ?_
  intro l hl
  exact ⟨by omega, hl.2.1⟩

/-- python's `int(x)`, which numpy applies to the bounds of `integers` -/
def Num.trunc (x : K) : Int := if x < 0 then Num.ceil x else Num.floor x

/-- positions for some of the indices below `n`, in order -/
def gatherSome (n : Nat) (mk : Nat → D c (Option (Vec d K × X))) : D c (List (Nat × (Vec d K × X))) :=
  iter n (fun i acc => do
    let r ← mk i
    match r with
    | some p => pure (acc ++ [(i, p)])
    | none => pure acc) []

/-- `self.pop[i] = self.get_better_agent(a, self.pop[i], minmax)` for each pair -/
def placeAll : List (Nat × Agent d K X) → M c X Y Unit
  | [] => pure ()
  | (i, a) :: l => do
    (do let old ← popAt i; setAt i (getBetterAgent a old c.P.mm))
    placeAll l

/-- `greedyLoop` whose body makes a position for some indices only (`mealpy/swarm_based/BWO.py:117-139`,
`mealpy/human_based/SPBO.py` and others) -/
def greedySome (n : Nat) (mk : St c X Y → Nat → D c (Option (Vec d K × X))) : M c X Y Unit :=
  if c.swarmLike then do
    let s ← get
    let pend ← draw (gatherSome n (mk s))
    let new ← liftB (updateTargets (pend.map (·.2)))
    placeAll ((pend.map (·.1)).zip new)
  else
    iter n (fun i _ => do
      let s ← get
      let r ← draw (mk s i)
      match r with
      | some p => tryBetter i p
      | none => pure ()) ()

/-- what the body delivers, if anything -/
def OptOk {α : Type} (Q : α → Prop) (r : Option α) : Prop := ∀ p, r = some p → Q p

theorem DT.gatherSome {n : Nat} {mk : Nat → D c (Option (Vec d K × X))} {Q : Vec d K × X → Prop}
    (h : ∀ i, i < n → DT Er (mk i) (OptOk Q)) :
    DT Er (Mealpy.gatherSome n mk : D c (List (Nat × (Vec d K × X)))) (fun l => l.length ≤ n ∧ ∀ p ∈ l, p.1 < n ∧ Q p.2) := by
  unfold Mealpy.gatherSome
  refine DT.mono (DT.iter (fun i (l : List (Nat × (Vec d K × X))) => l.length ≤ i ∧ ∀ p ∈ l, p.1 < n ∧ Q p.2) n (by simp) ?_) fun l hl => hl
  rintro i l hi ⟨h1, h2⟩
  refine DT.bind (h i hi) fun r hr => ?_
  cases r with
  | none => exact DT.pure ⟨by omega, h2⟩
  | some p =>
    refine DT.pure ⟨by simp; omega, fun q hq => ?_⟩
    rcases List.mem_append.1 hq with g | g
    · exact h2 q g
    · rw [List.mem_singleton.1 g]; exact ⟨hi, hr p rfl⟩

theorem HJ.placeAll : ∀ {l : List (Nat × Agent d K X)} (_ : ∀ p ∈ l, p.1 < c.popSize),
    HJ F J 0 0 (l.map (·.2)) (Mealpy.placeAll l : M c X Y Unit) (fun _ => []) (fun _ => True)
  | [], _ => HJ.pure rfl trivial
  | (i, a) :: l, h => by
    unfold Mealpy.placeAll
    refine HJ.bind0 (HJ.slotBetter (h (i, a) (by simp)) (a := a) (G' := l.map (·.2)) (by simp) ?_ ?_) fun _ _ =>
      HJ.placeAll fun p hp => h p (by simp [hp])
    · intro b hb
      rcases List.mem_cons.1 hb with rfl | g
      · exact .inr NoWorse.rfl
      · exact .inl g
    · intro b hb
      exact List.mem_cons_of_mem _ hb

theorem zip_map_snd {α β : Type} {l : List α} {l' : List β} (h : l.length = l'.length) : (l.zip l').map (·.2) = l' := by
  have := List.map_snd_zip (l₁ := l) (l₂ := l') (by omega)
  simpa using this

theorem IT.greedySome (hE : c.E.Lawful) {n : Nat} (hn : n ≤ c.popSize) {mk : St c X Y → Nat → D c (Option (Vec d K × X))}
    (hmk : ∀ (s : St c X Y) (i : Nat), Mid F J s → s.pop.length = c.popSize → i < n → DT noErr (mk s i) (OptOk (MkOk F c))) :
    IT F J 0 n (Mealpy.greedySome n mk : M c X Y Unit) (fun _ => True) := by
  unfold Mealpy.greedySome
  by_cases hsw : c.swarmLike
  · rw [if_pos hsw]
    refine HJ.it ?_
    refine HJ.bind0 (HJ.ofIT IT.get) fun s hs => ?_
    refine HJ.bind0 (HJ.draw (DT.gatherSome fun i hi => hmk s i hs hs.len hi)) fun pend hp => ?_
    have hq : ∀ p ∈ pend.map (·.2), MkOk F c p := by
      intro p hp'
      obtain ⟨q, hq, rfl⟩ := List.mem_map.1 hp'
      exact (hp.2 q hq).2
    refine HJ.lenEq (k := pend.length + 0) ?_ ⟨by omega, by omega⟩
    have hu := HJ.updateTargets (F := F) (J := J) (Y := Y) hE hsw (G := []) hq
    rw [List.length_map] at hu
    refine HJ.bind hu fun new hnew => ?_
    have hl : (pend.map (·.1)).length = new.length := by simp [hnew.1]
    have := HJ.placeAll (F := F) (J := J) (c := c) (Y := Y) (l := (pend.map (·.1)).zip new) (fun p hp' => by
      have := (List.of_mem_zip hp').1
      obtain ⟨q, hq, hq2⟩ := List.mem_map.1 this
      rw [← hq2]
      exact lt_of_lt_of_le (hp.2 q hq).1 hn)
    rw [zip_map_snd hl] at this
    simpa only [List.nil_append] using this
  · rw [if_neg hsw]
    refine IT.iterS 0 1 (by omega) (by omega) fun i hi => ?_
    refine IT.bind0 IT.get fun s hs => IT.bind0 (IT.draw (hmk s i hs hs.len hi)) fun r hr => ?_
    cases r with
    | none => exact IT.weaken (IT.pure trivial) (by omega) (by omega)
    | some p => exact IT.weaken (IT.tryBetter (by omega) (hr p rfl)) (by omega) (by omega)

theorem Framed.placeAll {q : Bool} : ∀ {l : List (Nat × Agent d K X)}, Framed q (Mealpy.placeAll l : M c X Y Unit)
  | [] => .pure
  | (i, a) :: l => .bind (.bind .popAt fun _ => .setAt) fun _ => Framed.placeAll

theorem Framed.greedySome {q : Bool} (hE : c.E.Lawful) {n : Nat} {mk : St c X Y → Nat → D c (Option (Vec d K × X))} :
    Framed q (Mealpy.greedySome n mk : M c X Y Unit) := by
  unfold Mealpy.greedySome
  refine .ite (.bind .get fun _ => .bind .draw fun _ => .bind (.liftB (.updateTargets hE)) fun _ => .placeAll) ?_
  refine .iter fun _ _ => .bind .get fun _ => .bind .draw fun r => ?_
  cases r with
  | none => exact .pure
  | some p => exact .bind (.liftB .getTarget) fun _ => .bind .popAt fun _ => .setAt

/-- one more round of `pop_new = self.update_target_for_population(pop_new)` with `pend` appended to the agents `acc` evaluated before:
the pool modes evaluate all of them again, `single` mode only the new ones (`mealpy/swarm_based/FA.py:114-118`) -/
def evalMore (acc : List (Agent d K X)) (pend : List (Vec d K × X)) : M c X Y (List (Agent d K X)) :=
  if c.swarmLike then liftB (updateTargets (acc.map (fun a => (a.sol, a.ext)) ++ pend)) else do
    let l ← evalSeq pend
    pure (acc ++ l)

theorem HJ.evalMore (hE : c.E.Lawful) {acc : List (Agent d K X)} {pend : List (Vec d K × X)} (hp : ∀ p ∈ pend, MkOk (FA c) c p) :
    HJ (FA c) J pend.length (acc.length + pend.length) acc (Mealpy.evalMore acc pend : M c X Y _) (fun r => r)
      (fun r => r.length = acc.length + pend.length) := by
  unfold Mealpy.evalMore
  refine HJ.ite (fun hm => ?_) fun hm => ?_
  · intro s0 s l k hs0 hs
    have hall : ∀ p ∈ acc.map (fun a => (a.sol, a.ext)) ++ pend, MkOk (FA c) c p := by
      intro p h
      rcases List.mem_append.1 h with h | h
      · obtain ⟨a, ha, rfl⟩ := List.mem_map.1 h
        exact FA.mkOk (hs.held a ha).2
      · exact hp p h
    have hb := updateTargets_batch (Er := noErr) hE hm hall s
    have hsp : Wp noErr (liftB (Mealpy.updateTargets (acc.map (fun a => (a.sol, a.ext)) ++ pend)) : M c X Y _) s
        (fun new _ => new = evaluated c (acc.map (fun a => (a.sol, a.ext)) ++ pend)) :=
      Wp.liftB (Wp.mono (updateTargets_spec hE hm _ s.base) fun _ _ h => h.1)
    revert hb hsp
    unfold Wp
    cases (liftB (Mealpy.updateTargets (acc.map (fun a => (a.sol, a.ext)) ++ pend)) : M c X Y _) s with
    | error e => exact fun h _ => h
    | ok r =>
      rintro ⟨h1, h2⟩ h3
      have hbt := hs.trans (ImpH.ofBatch hs.good h2)
      rw [h1] at hbt
      refine ⟨((hbt.swap (H' := r.1) ?_ fun a ha => hbt.held a (List.mem_append_right _ ha)).weaken (by simp) (by simp)), by simp [h1]⟩
      intro a ha
      rcases List.mem_append.1 ha with h | h
      · refine ⟨a, ?_, NoWorse.rfl⟩
        rw [h3]
        refine List.mem_map.2 ⟨(a.sol, a.ext), List.mem_append_left _ (List.mem_map.2 ⟨a, h, rfl⟩), ?_⟩
        have := (hs.held a h).1.1
        cases a
        simp only at this
        rw [this]
      · exact ⟨a, h, NoWorse.rfl⟩
  · refine HJ.weaken (HJ.bind (HJ.evalSeq hp) fun l hl => HJ.pure (a := acc ++ l) rfl ?_) (by omega) (by omega)
    simp [hl.1]

theorem Framed.evalMore {q : Bool} (hE : c.E.Lawful) {acc : List (Agent d K X)} {pend : List (Vec d K × X)} :
    Framed q (Mealpy.evalMore acc pend : M c X Y _) :=
  .ite (.liftB (.updateTargets hE)) (.bind .evalSeq fun _ => .pure)

/-! ## New populations made of new and old agents

`RJ` and `RT` with a list `P` of agents known since the start, which may be mixed with the new ones. -/

/-- agents evaluated before -/
def Known (F : Agent d K X → Prop) (P : List (Agent d K X)) (s : St c X Y) : Prop := ∀ a ∈ P, Evald c s.base.log a ∧ F a

/-- `RJ` with agents known from the start -/
def RK (F : Agent d K X → Prop) (J : Y → Prop) (P : List (Agent d K X)) (lo hi : Nat) (G : List (Agent d K X)) (m : M c X Y α)
    (H : α → List (Agent d K X)) (R : α → Prop) : Prop :=
  ∀ s0 s l h, Mid F J s0 → Known F P s0 → RepH F J l h s0 s G →
    Wp noErr m s (fun a s' => RepH F J (l + lo) (h + hi) s0 s' (H a) ∧ R a)

/-- `RT` with agents known from the start -/
def RL (F : Agent d K X → Prop) (J : Y → Prop) (P : List (Agent d K X)) (lo hi : Nat) (G : List (Agent d K X)) (m : M c X Y α)
    (R : α → Prop) : Prop :=
  ∀ s0 s l h, Mid F J s0 → Known F P s0 → RepH F J l h s0 s G →
    Wp noErr m s (fun a s' => Post F J (l + lo) (h + hi) s0 s' ∧ Mid F J s' ∧ R a)

theorem RL.pt {lo hi : Nat} {f : St c X Y → M c X Y α} {R : α → Prop} (h : ∀ s, Mid F J s → RL F J s.pop lo hi [] (f s) R) :
    PT F J lo hi ((MonadState.get : M c X Y _) >>= f) R := by
  intro s hs
  have h0 : RepH F J 0 0 s s [] := ⟨hs.toGoodPop, rfl, rfl, ⟨[], by simp, by simp, by simp, by simp, by simp⟩, by simp⟩
  refine Wp.bind (Wp.get ?_)
  exact Wp.mono (h s hs s s 0 0 hs (fun a ha => ⟨hs.ev a ha, hs.feas a ha⟩) h0) fun a s' h => ⟨h.1.weaken (by omega) (by omega), h.2⟩

theorem RK.of {P : List (Agent d K X)} {lo hi : Nat} {G : List (Agent d K X)} {m : M c X Y α} {H : α → List (Agent d K X)} {R : α → Prop}
    (h : RJ F J lo hi G m H R) : RK F J P lo hi G m H R := fun s0 s l k hs0 _ hs => h s0 s l k hs0 hs

theorem RL.of {P : List (Agent d K X)} {lo hi : Nat} {G : List (Agent d K X)} {m : M c X Y α} {R : α → Prop}
    (h : RT F J lo hi G m R) : RL F J P lo hi G m R := fun s0 s l k hs0 _ hs => h s0 s l k hs0 hs

theorem RK.bind {P : List (Agent d K X)} {l1 h1 l2 h2 : Nat} {G : List (Agent d K X)} {m : M c X Y α} {f : α → M c X Y β}
    {H : α → List (Agent d K X)} {H' : β → List (Agent d K X)} {R : α → Prop} {Q : β → Prop} (hm : RK F J P l1 h1 G m H R)
    (h' : ∀ a, R a → RK F J P l2 h2 (H a) (f a) H' Q) : RK F J P (l1 + l2) (h1 + h2) G (m >>= f) H' Q := by
  intro s0 s l k hs0 hk hs
  refine Wp.bind (Wp.mono (hm s0 s l k hs0 hk hs) ?_)
  rintro a s1 ⟨g1, g2⟩
  refine Wp.mono (h' a g2 s0 s1 _ _ hs0 hk g1) ?_
  rintro b s2 ⟨g3, g4⟩
  exact ⟨by rw [← Nat.add_assoc, ← Nat.add_assoc]; exact g3, g4⟩

theorem RK.bind0 {P : List (Agent d K X)} {l h : Nat} {G : List (Agent d K X)} {m : M c X Y α} {f : α → M c X Y β}
    {H : α → List (Agent d K X)} {H' : β → List (Agent d K X)} {R : α → Prop} {Q : β → Prop} (hm : RK F J P 0 0 G m H R)
    (h' : ∀ a, R a → RK F J P l h (H a) (f a) H' Q) : RK F J P l h G (m >>= f) H' Q := by
  have := RK.bind hm h'
  rwa [Nat.zero_add, Nat.zero_add] at this

theorem RK.weaken {P : List (Agent d K X)} {lo hi lo' hi' : Nat} {G : List (Agent d K X)} {m : M c X Y α} {H : α → List (Agent d K X)}
    {R : α → Prop} (h : RK F J P lo hi G m H R) (h1 : lo' ≤ lo) (h2 : hi ≤ hi') : RK F J P lo' hi' G m H R := by
  intro s0 s l k hs0 hk hs
  refine Wp.mono (h s0 s l k hs0 hk hs) ?_
  rintro a s1 ⟨g1, g2⟩
  exact ⟨g1.weaken (by omega) (by omega), g2⟩

/-- the held agents may be exchanged for at least as good ones, which are held or known -/
theorem RK.pure {P : List (Agent d K X)} {G : List (Agent d K X)} {a : α} {H : α → List (Agent d K X)} {R : α → Prop}
    (h1 : ∀ b ∈ H a, b ∈ G ∨ b ∈ P) (h2 : ∀ b ∈ G, ∃ b' ∈ H a, NoWorse c.P.mm b'.fit b.fit) (h : R a) :
    RK F J P 0 0 G (Pure.pure a : M c X Y α) H R := by
  intro s0 s l k hs0 hk hs
  refine Wp.pure ⟨?_, h⟩
  obtain ⟨n1, a1, a2, a3, a4, a5⟩ := hs.evals
  refine ⟨hs.good, hs.hist, hs.gbest, ⟨n1, a1, a2, a3, a4, fun x hx => ?_⟩, fun b hb => ?_⟩
  · obtain ⟨g1, b, g2, g3⟩ := a5 x hx
    obtain ⟨b', g4, g5⟩ := h2 b g2
    exact ⟨g1, b', g4, g5.trans g3⟩
  · rcases h1 b hb with g | g
    · exact hs.held b g
    · exact ⟨(hk b g).1.mono hs.log_sub, (hk b g).2⟩

theorem RK.iter {P : List (Agent d K X)} {f : Nat → α → M c X Y α} {lo hi : Nat} (H : α → List (Agent d K X)) (Q : Nat → α → Prop) :
    ∀ (n : Nat) {a : α}, Q 0 a → (∀ (i : Nat) (a : α), i < n → Q i a → RK F J P lo hi (H a) (f i a) H (Q (i + 1))) →
    RK F J P (n * lo) (n * hi) (H a) (Mealpy.iter n f a) H (Q n)
  | 0, a, h0, _ => by
    rw [Nat.zero_mul, Nat.zero_mul]
    exact RK.of (RJ.pure rfl h0)
  | n + 1, a, h0, hf => by
    have := RK.bind (RK.iter H Q n h0 (fun i a hi => hf i a (by omega))) (fun a ha => hf n a (by omega) ha)
    rw [Nat.succ_mul, Nat.succ_mul]
    exact this

theorem RL.bindS {P : List (Agent d K X)} {lo hi l1 h1 : Nat} {G : List (Agent d K X)} {m : M c X Y α} {f : α → M c X Y β}
    {H : α → List (Agent d K X)} {R : α → Prop} {Q : β → Prop}
    (h : RK F J P l1 h1 G m H R) (hle : h1 ≤ hi) (h' : ∀ a, R a → RL F J P (lo - l1) (hi - h1) (H a) (f a) Q) :
    RL F J P lo hi G (m >>= f) Q := by
  intro s0 s l k hs0 hk hs
  refine Wp.bind (Wp.mono (h s0 s l k hs0 hk hs) ?_)
  rintro a s1 ⟨g1, g2⟩
  exact Wp.mono (h' a g2 s0 s1 _ _ hs0 hk g1) fun b s2 g => ⟨g.1.weaken (by omega) (by omega), g.2⟩

theorem RL.bind0 {P : List (Agent d K X)} {lo hi : Nat} {G : List (Agent d K X)} {m : M c X Y α} {f : α → M c X Y β}
    {H : α → List (Agent d K X)} {R : α → Prop} {Q : β → Prop}
    (h : RK F J P 0 0 G m H R) (h' : ∀ a, R a → RL F J P lo hi (H a) (f a) Q) : RL F J P lo hi G (m >>= f) Q :=
  RL.bindS h (by omega) h'

theorem RL.weaken {P : List (Agent d K X)} {lo hi lo' hi' : Nat} {G : List (Agent d K X)} {m : M c X Y α} {R : α → Prop}
    (h : RL F J P lo hi G m R) (h1 : lo' ≤ lo) (h2 : hi ≤ hi') : RL F J P lo' hi' G m R := by
  intro s0 s l k hs0 hk hs
  exact Wp.mono (h s0 s l k hs0 hk hs) fun a s1 g => ⟨g.1.weaken (by omega) (by omega), g.2⟩

theorem RL.ite {P : List (Agent d K X)} {p : Prop} [Decidable p] {lo hi : Nat} {G : List (Agent d K X)} {m n : M c X Y α} {R : α → Prop}
    (h : p → RL F J P lo hi G m R) (h' : ¬ p → RL F J P lo hi G n R) : RL F J P lo hi G (if p then m else n) R :=
  fun s0 s l k hs0 hk hs => Wp.ite (fun hp => h hp s0 s l k hs0 hk hs) (fun hp => h' hp s0 s l k hs0 hk hs)

/-- the new population is made of held and known agents and loses none of the held ones -/
theorem RL.setPop {P G l : List (Agent d K X)} (h1 : l.length = c.popSize) (h2 : ∀ a ∈ l, a ∈ G ∨ a ∈ P)
    (h3 : ∀ a ∈ G, ∃ a' ∈ l, NoWorse c.P.mm a'.fit a.fit) :
    RL F J P 0 0 G (Mealpy.setPop l : M c X Y Unit) (fun _ => True) := by
  intro s0 s l' k hs0 hk hs
  obtain ⟨n1, a1, a2, a3, a4, a5⟩ := hs.evals
  have hev : ∀ a ∈ l, Evald c s.base.log a ∧ F a := by
    intro a ha
    rcases h2 a ha with g | g
    · exact hs.held a g
    · exact ⟨(hk a g).1.mono hs.log_sub, (hk a g).2⟩
  have hmid := hs.mid hs0
  refine Wp.modify ⟨⟨⟨h1, fun a ha => (hev a ha).1, fun a ha => (hev a ha).2, hs.good.ext⟩, hs.hist, n1, a1, by omega, by omega, a4, ?_⟩, ?_, trivial⟩
  · intro x hx
    obtain ⟨g1, a, g2, g3⟩ := a5 x hx
    obtain ⟨a', g4, g5⟩ := h3 a g2
    exact ⟨g1, .inr ⟨a', g4, g5.trans g3⟩⟩
  · exact ⟨⟨h1, fun a ha => (hev a ha).1, fun a ha => (hev a ha).2, hs.good.ext⟩, hmid.gev, hmid.gfeas⟩

/-- replacing code followed by improving code -/
theorem RL.thenIT {P : List (Agent d K X)} {lo hi l1 h1 : Nat} {G : List (Agent d K X)} {m : M c X Y α} {f : α → M c X Y β} {R : α → Prop}
    {Q : β → Prop} (h : RL F J P l1 h1 G m R) (hle : h1 ≤ hi) (h' : ∀ a, R a → IT F J (lo - l1) (hi - h1) (f a) Q) :
    RL F J P lo hi G (m >>= f) Q := by
  intro s0 s l k hs0 hk hs
  refine Wp.bind (Wp.mono (h s0 s l k hs0 hk hs) ?_)
  rintro a s' ⟨g1, g2, g3⟩
  refine Wp.mono (h' a g3 s' g2) ?_
  rintro b s'' ⟨k1, k2⟩
  refine ⟨⟨k1.good, by rw [k1.hist, g1.hist], ?_⟩, k1.toStep.mid g2, k2⟩
  obtain ⟨n1, a1, a2, a3, a4, a5⟩ := g1.evals
  obtain ⟨n2, b1, b2, b3, b4, b5⟩ := k1.evals
  refine ⟨n1 ++ n2, by rw [b1, a1, List.append_assoc], by simp; omega, by simp; omega,
    by simp; omega, ?_⟩
  intro x hx
  rcases List.mem_append.1 hx with hx | hx
  · exact ⟨(a5 x hx).1, (a5 x hx).2.imp k1⟩
  · exact b5 x hx

macro_rules
  | `(tactic| dprim) => `(tactic| (at_head subset; exact DT.subset (by assumption) (by dside)))

macro_rules
  | `(tactic| fprim) => `(tactic| first
    | (at_last placeAll; exact Framed.placeAll)
    | (at_last evalMore; exact Framed.evalMore (by assumption))
    | (at_last greedySome; exact Framed.greedySome (by assumption)))

theorem HJ.post {lo hi : Nat} {G : List (Agent d K X)} {m : M c X Y α} {H : α → List (Agent d K X)} {R R' : α → Prop}
    (h : HJ F J lo hi G m H R) (hR : ∀ a, R a → R' a) : HJ F J lo hi G m H R' :=
  fun s0 s l k hm hi => (h s0 s l k hm hi).mono fun a s' h => ⟨h.1, hR a h.2⟩

theorem OptOk.none {Q : α → Prop} : OptOk Q (none : Option α) := fun p hp => by cases hp

theorem OptOk.some {Q : α → Prop} {a : α} (h : Q a) : OptOk Q (Option.some a) := fun p hp => by cases hp; exact h

/-- `greedyLoop` that also delivers the new agents (`mealpy/physics_based/ASO.py:145-160`) -/
def greedyNew (n : Nat) (mk : St c X Y → Nat → D c (Vec d K × X)) : M c X Y (List (Agent d K X)) :=
  if c.swarmLike then do
    let s ← get
    let pend ← draw (buildPending n (mk s))
    let new ← liftB (updateTargets pend)
    selectGreedy new
    pure new
  else
    iter n (fun i acc => do
      let s ← get
      let p ← draw (mk s i)
      let t ← liftB (getTarget p.1)
      let old ← popAt i
      setAt i (getBetterAgent ⟨p.1, t, p.2⟩ old c.P.mm)
      pure (acc ++ [⟨p.1, t, p.2⟩])) []

theorem WT.greedyNew (hE : c.E.Lawful) {mk : St c X Y → Nat → D c (Vec d K × X)}
    (hmk : ∀ (s : St c X Y) (i : Nat), WInv (Inv.std c X J) s → s.pop.length = c.popSize → i < c.popSize →
      DT Er (mk s i) (Inv.std c X J).Mk) :
    WT Er (Inv.std c X J) c.popSize c.popSize (Mealpy.greedyNew c.popSize mk : M c X Y _)
      (fun l => l.length = c.popSize ∧ ∀ a ∈ l, CF c a) := by
  unfold Mealpy.greedyNew
  refine WT.ite (fun hm => ?_) (fun hm => ?_)
  · refine WT.bind0 WT.get fun s hs => ?_
    refine WT.bind0 (WT.draw_pending (fun i hi => hmk s i hs hs.len hi)) fun pend hp => ?_
    refine WT.bindS (WT.updateTargets hE hm hp.2) (by omega) fun new hnew => ?_
    refine WT.bindS (WT.selectGreedy (fun m h => by change m = c.popSize at h; rw [h, hnew.1, hp.1]) hnew.2) (by omega) fun _ _ => ?_
    exact WT.weaken (WT.pure ⟨by rw [hnew.1, hp.1], hnew.2⟩) (by omega) (by omega)
  · refine WT.iterL 1 1 (CF c) (by omega) (by omega) fun i l hi hl hq => ?_
    refine WT.bind0 WT.get fun s hs => WT.bind0 (WT.draw (hmk s i hs hs.len hi)) fun p hp => ?_
    have hp1 : Spec.InBox c.P.lb c.P.ub p.1 := hp.1
    refine WT.getTarget_std hp1 (by omega) ?_
    have hcf : CF c (⟨p.1, c.P.target p.1, p.2⟩ : Agent d K X) := CF.mk' hp1
    refine WT.bind0 (WT.popAt (by wsz)) fun old hold => ?_
    refine WT.bind0 (WT.setAt (by wsz) (Inv.std_ag (CF.better hcf hold))) fun _ _ => ?_
    refine WT.weaken (WT.pure ⟨by simp [hl], fun b hb => ?_⟩) (by omega) (by omega)
    rcases List.mem_append.1 hb with h | h
    · exact hq b h
    · rw [List.mem_singleton.1 h]; exact hcf

theorem Framed.greedyNew {q : Bool} (hE : c.E.Lawful) {n : Nat} {mk : St c X Y → Nat → D c (Vec d K × X)} :
    Framed q (Mealpy.greedyNew n mk : M c X Y _) :=
  .ite (.bind .get fun _ => .bind .draw fun _ => .bind (.liftB (.updateTargets hE)) fun _ => .bind .selectGreedy fun _ => .pure)
    (.iter fun _ _ => .bind .get fun _ => .bind .draw fun _ => .bind (.liftB .getTarget) fun _ => .bind .popAt fun _ => .bind .setAt fun _ => .pure)

/-! ## Numbers -/

/-- `np.std(l)` -/
def stdL (l : List K) : K := Num.sqrt (meanL (l.map (fun x => (x - meanL l) * (x - meanL l))))

/-- `np.percentile(l, q)` for `q` between 0 and 100, by linear interpolation -/
def percentile (l : List K) (q : K) : K :=
  let s := l.insertionSort (fun a b => a ≤ b)
  let v : K := ♯(l.length - 1) * (q / 100)
  let i := (Num.floor v).toNat
  let a := s.getD i 0
  a + (s.getD (i + 1) a - a) * (v - Num.ofInt (Num.floor v))

/-- rounding does not reverse the order, which the Python builtin satisfies -/
def RoundMono (K : Type) [Num K] : Prop :=
  ∀ x y : K, x ≤ y → Num.floor (Num.ufunc "round" x) ≤ Num.floor (Num.ufunc "round" y)

macro_rules
  | `(tactic| dprim) => `(tactic| (at_head repM; exact DT.repMT (fun _ _ => by dgo)))

macro_rules
  | `(tactic| dfin) => `(tactic| first
    | (at_last Option.none; exact OptOk.none)
    | (at_last Option.some; exact OptOk.some (by dfin)))

macro_rules
  | `(tactic| istep) => `(tactic| first
    | (at_bind greedySome; refine IT.bindS (IT.greedySome (by assumption) (by omega) ?_) (by omega) (fun _ _ => ?_); focus (mkgo; done))
    | (at_head greedySome; refine IT.weaken (IT.greedySome (by assumption) (by omega) ?_) (by omega) (by omega); mkgo))

macro_rules
  | `(tactic| fprim) => `(tactic| (at_last greedyNew; exact Framed.greedyNew (by assumption)))

end Mealpy
