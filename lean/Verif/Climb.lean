import Verif.Alg.Kit9
import Verif.Alg.Kit10
import Verif.Alg.Kit12
import Verif.Alg.Kit13
import Verif.Alg.Kit14
import Verif.Alg.Kit17
import Verif.RunLemmas
import Verif.Alg.Kit11

/-!
# Populations that never lose ground

`Up q m`: when `m` runs from a population `q`, the population afterwards is as large, and for every fitness `t` it has at least as
many agents that are at least as good as `t`.  `Still m R`: `m` leaves the population alone and returns something with `R`.
The tactic `climb` proves `Up` by walking over an algorithm's code.
-/

set_option linter.unusedSectionVars false
set_option linter.unusedVariables false

namespace Mealpy
open Spec

variable {d : Nat} {K : Type} [Num K] {c : Cfg d K} {X Y α β : Type}

/-- the number of agents at least as good as `t` -/
def goodAgents (mm : MinMax) (t : K) (l : List (Agent d K X)) : Nat := l.countP (fun a => decide (NoWorse mm a.fit t))

/-- `q'` is as large as `q` and has as many agents above every threshold -/
def Climbed (mm : MinMax) (q q' : List (Agent d K X)) : Prop :=
  q'.length = q.length ∧ ∀ t, goodAgents mm t q ≤ goodAgents mm t q'

theorem Climbed.rfl {mm : MinMax} {q : List (Agent d K X)} : Climbed mm q q := ⟨_root_.rfl, fun _ => le_rfl⟩

theorem Climbed.trans {mm : MinMax} {q q' q'' : List (Agent d K X)} (h : Climbed mm q q') (h' : Climbed mm q' q'') : Climbed mm q q'' :=
  ⟨h'.1.trans h.1, fun t => (h.2 t).trans (h'.2 t)⟩

theorem Climbed.perm {mm : MinMax} {q q' : List (Agent d K X)} (h : q'.Perm q) : Climbed mm q q' :=
  ⟨h.length_eq, fun t => (h.countP_eq _).ge⟩

theorem Climbed.sorted (hE : c.E.Lawful) {q l r : List (Agent d K X)} (hr : r = (getSorted c.E.argsort l c.P.mm).1) (hl : l = q) : Climbed c.P.mm q r := by
  rw [hr, hl]
  exact .perm (getSorted_perm hE.argsortLaw q c.P.mm)

theorem Climbed.append {mm : MinMax} {q q' r r' : List (Agent d K X)} (h : Climbed mm q q') (h' : Climbed mm r r') :
    Climbed mm (q ++ r) (q' ++ r') :=
  ⟨by rw [List.length_append, List.length_append, h.1, h'.1], fun t => by
    have h1 := h.2 t
    have h2 := h'.2 t
    unfold goodAgents at *
    rw [List.countP_append, List.countP_append]
    omega⟩

theorem Climbed.zip {mm : MinMax} {f : Agent d K X → Agent d K X → Agent d K X} (hf : ∀ o n, NoWorse mm (f o n).fit o.fit) :
    ∀ {q r : List (Agent d K X)}, r.length = q.length → Climbed mm q (List.zipWith f q r)
  | [], [], _ => .rfl
  | a :: q, b :: r, h => by
    have ih := Climbed.zip hf (q := q) (r := r) (by simpa using h)
    refine ⟨by simp [ih.1], fun t => ?_⟩
    have h1 := ih.2 t
    unfold goodAgents at *
    rw [List.zipWith_cons_cons, List.countP_cons, List.countP_cons]
    have h2 : (if decide (NoWorse mm a.fit t) = true then 1 else 0) ≤ (if decide (NoWorse mm (f a b).fit t) = true then 1 else 0) := by
      by_cases g : NoWorse mm a.fit t
      · rw [if_pos (by simpa using g), if_pos (by simpa using (hf a b).trans g)]
      · rw [if_neg (by simpa using g)]; omega
    omega

theorem Climbed.set {mm : MinMax} : ∀ {q : List (Agent d K X)} {i : Nat} {old a : Agent d K X}, q[i]? = some old → NoWorse mm a.fit old.fit →
    Climbed mm q (q.set i a)
  | [], _, _, _, h, _ => by simp at h
  | b :: q, 0, old, a, h, hn => by
    obtain rfl : b = old := by simpa using h
    refine ⟨by simp, fun t => ?_⟩
    unfold goodAgents
    rw [List.set_cons_zero, List.countP_cons, List.countP_cons]
    have h2 : (if decide (NoWorse mm b.fit t) = true then 1 else 0) ≤ (if decide (NoWorse mm a.fit t) = true then 1 else 0) := by
      by_cases g : NoWorse mm b.fit t
      · rw [if_pos (by simpa using g), if_pos (by simpa using hn.trans g)]
      · rw [if_neg (by simpa using g)]; omega
    omega
  | b :: q, i + 1, old, a, h, hn => by
    have ih := Climbed.set (q := q) (i := i) (by simpa using h) hn
    rw [List.set_cons_succ]
    exact Climbed.append (q := [b]) (q' := [b]) .rfl ih

theorem Climbed.update {mm : MinMax} {q : List (Agent d K X)} {i : Nat} {old : Agent d K X} (x : Vec d K) (t : Target K) (h : q[i]? = some old)
    (hn : NoWorse mm t.fitness old.fit) : Climbed mm q (q.set i { old with sol := x, tgt := t }) := Climbed.set h hn

theorem Climbed.mapExt {mm : MinMax} {f : Nat → Agent d K X → X} : ∀ {q : List (Agent d K X)}, Climbed mm q (q.mapIdx (fun i a => { a with ext := f i a }))
  | [] => .rfl
  | a :: q => by
    rw [List.mapIdx_cons]
    exact Climbed.append (q := [a]) (q' := [{ a with ext := f 0 a }]) ⟨_root_.rfl, fun t => le_rfl⟩ (Climbed.mapExt (f := fun i a => f (i + 1) a))

/-- a best-first list loses no more agents above a threshold than it must -/
theorem countP_take_sorted {mm : MinMax} {t : K} : ∀ {l : List (Agent d K X)} (n : Nat), l.Pairwise (fun a b => NoWorse mm a.fit b.fit) →
    min n (goodAgents mm t l) ≤ goodAgents mm t (l.take n)
  | [], n, _ => by simp [goodAgents]
  | a :: l, 0, _ => by simp
  | a :: l, n + 1, h => by
    have ih := countP_take_sorted (t := t) n (List.pairwise_cons.1 h).2
    unfold goodAgents at *
    rw [List.take_succ_cons, List.countP_cons, List.countP_cons]
    by_cases g : NoWorse mm a.fit t
    · rw [if_pos (by simpa using g)]; omega
    · have : l.countP (fun a => decide (NoWorse mm a.fit t)) = 0 := by
        rw [List.countP_eq_zero]
        intro b hb
        simp only [decide_eq_true_eq]
        intro hb'
        exact g (((List.pairwise_cons.1 h).1 b hb).trans hb')
      omega

theorem Climbed.trim (hE : c.E.Lawful) {q l : List (Agent d K X)} (hl : ∀ t, goodAgents c.P.mm t q ≤ goodAgents c.P.mm t l) (hlen : q.length ≤ l.length) :
    Climbed c.P.mm q (getSortedTrimmed c.E.argsort l q.length c.P.mm) := by
  refine ⟨by rw [trimmed_length hE]; omega, fun t => ?_⟩
  unfold getSortedTrimmed
  have h1 := countP_take_sorted (t := t) q.length (getSorted_bestFirst hE.argsortLaw l c.P.mm)
  have h2 : goodAgents c.P.mm t (getSorted c.E.argsort l c.P.mm).1 = goodAgents c.P.mm t l := (getSorted_perm hE.argsortLaw l c.P.mm).countP_eq _
  have h3 := hl t
  have h4 : goodAgents c.P.mm t q ≤ q.length := List.countP_le_length
  rw [h2] at h1
  omega

theorem greedyPick_noWorse (mm : MinMax) (o n : Agent d K X) : NoWorse mm (greedyPick mm o n).fit o.fit := by
  cases mm <;> simp only [greedyPick, NoWorse] <;> split <;> rename_i h
  · exact le_of_lt h
  · exact le_rfl
  · exact le_of_lt h
  · exact le_rfl

theorem greedyPick_noWorse' (mm : MinMax) (o n : Agent d K X) : NoWorse mm (greedyPick mm o n).fit n.fit := by
  cases mm <;> simp only [greedyPick, NoWorse] <;> split <;> rename_i h
  · exact le_rfl
  · exact le_of_not_gt h
  · exact le_rfl
  · exact le_of_not_gt h

theorem updateTargets_length (hE : c.E.Lawful) {pend : List (Vec d K × X)} {b b' : Base c} {l : List (Agent d K X)}
    (h : updateTargets pend b = .ok (l, b')) : l.length = pend.length := by
  cases hm : c.swarmLike
  · rw [updateTargets_single hm] at h
    cases h
  · have := Wp.elim (updateTargets_spec (Er := fun _ => True) hE hm pend b) h
    rw [this.1]
    simp [evaluated]

/-! ## leaving the population alone -/

def Still (R : α → Prop) (m : M c X Y α) : Prop := ∀ s, Wp (fun _ => True) m s (fun a s' => s'.pop = s.pop ∧ R a)

/-- nothing is known of the result -/
def Any : α → Prop := fun _ => True

section still
variable {R : α → Prop} {R' : β → Prop}

theorem Still.any {m : M c X Y α} (h : Still R m) : Still Any m := fun s => Wp.mono (h s) fun _ _ h => ⟨h.1, trivial⟩

theorem Still.pure {a : α} (h : R a) : Still R (pure a : M c X Y α) := fun s => Wp.pure ⟨rfl, h⟩

theorem Still.bind {m : M c X Y α} {f : α → M c X Y β} (h : Still R m) (h' : ∀ a, R a → Still R' (f a)) : Still R' (m >>= f) := fun s =>
  Wp.bind (Wp.mono (h s) fun a s1 h1 => Wp.mono (h' a h1.2 s1) fun b s2 h2 => ⟨h2.1.trans h1.1, h2.2⟩)

theorem Still.ite {p : Prop} [Decidable p] {m n : M c X Y α} (h : Still R m) (h' : Still R n) : Still R (if p then m else n) := by
  split <;> assumption

theorem Still.mthrow {e : Err} : Still R (mthrow e : M c X Y α) := fun s => trivial

theorem Still.get : Still Any (get : M c X Y _) := fun s => Wp.get ⟨rfl, trivial⟩

theorem Still.modify {f : St c X Y → St c X Y} (h : ∀ s, (f s).pop = s.pop) : Still Any (modify f : M c X Y PUnit) := fun s => Wp.modify ⟨h s, trivial⟩

theorem Still.modExt {f : Y → Y} : Still Any (modExt f : M c X Y Unit) := Still.modify fun _ => rfl

theorem Still.liftB {m : B c α} (h : ∀ b, Wp (fun _ => True) m b (fun a _ => R a)) : Still R (liftB m : M c X Y α) := fun s =>
  Wp.liftB (Wp.mono (h s.base) fun a b hb => ⟨rfl, hb⟩)

theorem Still.liftB' {m : B c α} : Still Any (Mealpy.liftB m : M c X Y α) := Still.liftB fun b => Wp.any fun _ _ _ => trivial

theorem Still.draw {m : D c α} : Still Any (Mealpy.draw m : M c X Y α) := Still.liftB'

theorem Still.popAt {i : Nat} : Still Any (popAt i : M c X Y _) := fun s => Wp.any (by
  intro a s' h
  unfold Mealpy.popAt at h
  split at h
  · injection h with h
    obtain ⟨rfl, rfl⟩ := Prod.mk.inj h
    exact ⟨rfl, trivial⟩
  · cases h)

theorem Still.noSaveR {l : List (Agent d K X)} : Still (fun r : List (Agent d K X) × Agent d K X => r.1 = (getSorted c.E.argsort l c.P.mm).1)
    (updateGlobalBestNoSave l : M c X Y _) := fun s => Wp.any (by
  intro a s' h
  unfold Mealpy.updateGlobalBestNoSave at h
  simp only at h
  split at h
  · injection h with h
    obtain ⟨rfl, rfl⟩ := Prod.mk.inj h
    exact ⟨rfl, rfl⟩
  · cases h)

theorem Still.noSave {l : List (Agent d K X)} : Still Any (updateGlobalBestNoSave l : M c X Y _) := Still.any Still.noSaveR

theorem Still.iter {f : Nat → α → M c X Y α} {n : Nat} {a : α} (h : ∀ i a, Still Any (f i a)) : Still Any (iter n f a : M c X Y α) := fun s =>
  Wp.mono (Wp.iter (fun _ _ s' => s'.pop = s.pop) n rfl fun i a s1 _ hs => Wp.mono (h i a s1) fun _ _ h => h.1.trans hs) fun _ _ h => ⟨h, trivial⟩

/-- with the number of rounds -/
theorem Still.iterN {f : Nat → α → M c X Y α} {n : Nat} {a : α} (I : Nat → α → Prop) (h0 : I 0 a)
    (h : ∀ i a, I i a → Still (I (i + 1)) (f i a)) : Still (I n) (Mealpy.iter n f a : M c X Y α) := fun s =>
  Wp.iter (fun i a s' => s'.pop = s.pop ∧ I i a) n ⟨rfl, h0⟩ fun i a s1 _ hs => Wp.mono (h i a hs.2 s1) fun _ _ h => ⟨h.1.trans hs.1, h.2⟩

theorem Still.mapM {f : α → M c X Y β} {l : List α} (h : ∀ a, Still Any (f a)) : Still Any (l.mapM f) := by
  induction l with
  | nil => rw [List.mapM_nil]; exact .pure trivial
  | cons a l ih => rw [List.mapM_cons]; exact .bind (h a) fun _ _ => .bind ih fun _ _ => .pure trivial

theorem Still.evalSeq : ∀ {pend : List (Vec d K × X)}, Still (fun l : List (Agent d K X) => l.length = pend.length) (Mealpy.evalSeq pend : M c X Y _)
  | [] => .pure rfl
  | p :: ps => by
    unfold Mealpy.evalSeq
    exact .bind Still.liftB' fun t _ => .bind Still.evalSeq fun l hl => .pure (by simp [hl])

theorem buildPending_len {n : Nat} {mk : Nat → D c (Vec d K × X)} : DT (fun _ => True) (buildPending n mk : D c _) (fun l => l.length = n) := by
  unfold buildPending
  exact DT.iter (fun i (l : List (Vec d K × X)) => l.length = i) n rfl fun i l _ hl => DT.bind (R := fun _ => True) (fun g => Wp.any fun _ _ _ => trivial) fun p _ => DT.pure (by simp [hl])

theorem Still.updateTargets (hE : c.E.Lawful) {pend : List (Vec d K × X)} :
    Still (fun l : List (Agent d K X) => l.length = pend.length) (Mealpy.liftB (Mealpy.updateTargets pend) : M c X Y _) :=
  Still.liftB fun b => Wp.any fun l b' h => updateTargets_length hE h

theorem Still.drawR {m : D c α} (h : DT (fun _ => True) m R) : Still R (Mealpy.draw m : M c X Y α) := fun s => Wp.draw h fun a r v ha => ⟨rfl, ha⟩

theorem Still.buildEval (hE : c.E.Lawful) {n : Nat} {mk : St c X Y → Nat → D c (Vec d K × X)} :
    Still (fun l : List (Agent d K X) => l.length = n) (buildEval n mk : M c X Y _) := by
  unfold Mealpy.buildEval
  split
  · exact .bind .get fun s _ => .bind (.drawR buildPending_len) fun pend hp => fun s => Wp.mono (Still.updateTargets hE s) fun l s' h => ⟨h.1, h.2.trans hp⟩
  · exact Still.iterN (fun i (l : List (Agent d K X)) => l.length = i) rfl fun i l hl =>
      .bind .get fun s _ => .bind .draw fun p _ => .bind .liftB' fun t _ => .pure (by simp [hl])

theorem Still.evalAll (hE : c.E.Lawful) {pend : List (Vec d K × X)} :
    Still (fun l : List (Agent d K X) => l.length = pend.length) (evalAll pend : M c X Y _) := Still.buildEval hE

end still

/-! ## never losing ground -/

def Up (q : List (Agent d K X)) (m : M c X Y α) : Prop := q.length = c.popSize → ∀ s, s.pop = q → Wp (fun _ => True) m s (fun _ s' => Climbed c.P.mm q s'.pop)

section up
variable {q : List (Agent d K X)} {R : α → Prop}

theorem Up.ofStill {m : M c X Y α} (h : Still R m) : Up q m := fun _ s hs => Wp.mono (h s) fun a s' h => by rw [h.1, hs]; exact .rfl

theorem Up.pure {a : α} : Up q (pure a : M c X Y α) := fun _ s hs => Wp.pure (by rw [hs]; exact .rfl)

theorem Up.mthrow {e : Err} : Up q (mthrow e : M c X Y α) := fun _ _ _ => trivial

theorem Up.bind {m : M c X Y α} {f : α → M c X Y β} (h : Up q m) (h' : ∀ a q', Climbed c.P.mm q q' → Up q' (f a)) : Up q (m >>= f) := fun hl s hs =>
  Wp.bind (Wp.mono (h hl s hs) fun a s1 h1 => Wp.mono (h' a s1.pop h1 (h1.1.trans hl) s1 rfl) fun b s2 h2 => h1.trans h2)

theorem Up.bindS {m : M c X Y α} {f : α → M c X Y β} (h : Still R m) (h' : ∀ a, R a → Up q (f a)) : Up q (m >>= f) := fun hl s hs =>
  Wp.bind (Wp.mono (h s) fun a s1 h1 => h' a h1.2 hl s1 (h1.1.trans hs))

theorem Up.bindGet {f : St c X Y → M c X Y β} (h' : ∀ s : St c X Y, s.pop = q → Up q (f s)) : Up q (get >>= f) := fun hl s hs =>
  Wp.bind (Wp.get (h' s hs hl s hs))

theorem Up.bindPop {i : Nat} {f : Agent d K X → M c X Y β} (h' : ∀ a, q[i]? = some a → Up q (f a)) : Up q (popAt i >>= f) := fun hl s hs => Wp.bind (Wp.any (by
  intro a s' h
  unfold Mealpy.popAt at h
  split at h
  · rename_i b hb
    injection h with h
    obtain ⟨rfl, rfl⟩ := Prod.mk.inj h
    exact h' b (hs ▸ hb) hl s hs
  · cases h))

theorem Up.ite {p : Prop} [Decidable p] {m n : M c X Y α} (h : p → Up q m) (h' : ¬ p → Up q n) : Up q (if p then m else n) := by
  split
  · exact h ‹_›
  · exact h' ‹_›

theorem Up.iter {f : Nat → α → M c X Y α} {n : Nat} {a : α} (h : ∀ i a q', Climbed c.P.mm q q' → Up q' (f i a)) : Up q (Mealpy.iter n f a : M c X Y α) := fun hl s hs =>
  Wp.iter (fun _ _ s' => Climbed c.P.mm q s'.pop) n (by rw [hs]; exact .rfl) fun i a s1 _ h1 =>
    Wp.mono (h i a s1.pop h1 (h1.1.trans hl) s1 rfl) fun _ _ h2 => h1.trans h2

theorem Up.setAt {i : Nat} {old a : Agent d K X} (ho : q[i]? = some old) (h : NoWorse c.P.mm a.fit old.fit) : Up q (setAt i a : M c X Y Unit) := fun hl s hs => Wp.any (by
  intro u s' h1
  unfold Mealpy.setAt at h1
  split at h1
  · injection h1 with h1
    obtain ⟨-, rfl⟩ := Prod.mk.inj h1
    rw [hs]
    exact Climbed.set ho h
  · cases h1)

theorem Up.updateAt {i : Nat} {old : Agent d K X} {x : Vec d K} {t : Target K} (ho : q[i]? = some old) (h : NoWorse c.P.mm t.fitness old.fit) :
    Up q (updateAt i x t : M c X Y Unit) := fun hl s hs => Wp.any (by
  intro u s' h1
  unfold Mealpy.updateAt at h1
  split at h1
  · rename_i b hb
    injection h1 with h1
    obtain ⟨-, rfl⟩ := Prod.mk.inj h1
    rw [hs] at hb
    obtain rfl : old = b := by rw [ho] at hb; exact Option.some.inj hb
    rw [hs]
    exact Climbed.update x t ho h
  · cases h1)

theorem Up.reshape {f : List (Agent d K X) → List (Agent d K X)} (h : q.length = c.popSize → Climbed c.P.mm q (f q)) : Up q (reshape f : M c X Y Unit) := fun hl s hs => by
  unfold Mealpy.reshape
  exact Wp.modify (by rw [hs]; exact h hl)

theorem Up.setPop {l : List (Agent d K X)} (h : q.length = c.popSize → Climbed c.P.mm q l) : Up q (setPop l : M c X Y Unit) := fun hl s hs => by
  unfold Mealpy.setPop
  exact Wp.modify (h hl)

theorem Up.sortPop (hE : c.E.Lawful) : Up q (sortPop : M c X Y Unit) := by
  unfold Mealpy.sortPop
  exact Up.reshape fun _ => .perm (getSorted_perm hE.argsortLaw q c.P.mm)

theorem Up.mapExt {f : Nat → Agent d K X → X} : Up q (mapExt f : M c X Y Unit) := by
  unfold Mealpy.mapExt
  exact Up.reshape fun _ => .mapExt

theorem Up.setExtAt {i : Nat} {f : Agent d K X → X} : Up q (setExtAt i f : M c X Y Unit) := Up.mapExt

theorem Up.mergeTrim (hE : c.E.Lawful) {new : List (Agent d K X)} : Up q (mergeTrim c.popSize new : M c X Y Unit) := fun hl s hs => by
  unfold Mealpy.mergeTrim
  refine Wp.modify ?_
  rw [hs, ← hl]
  refine Climbed.trim hE (fun t => ?_) (by simp)
  unfold goodAgents
  rw [List.countP_append]
  omega

theorem Up.mergeFront (hE : c.E.Lawful) {new : List (Agent d K X)} : Up q (mergeFront c.popSize new : M c X Y Unit) := by
  unfold Mealpy.mergeFront
  refine Up.reshape fun hl => ?_
  rw [← hl]
  refine Climbed.trim hE (fun t => ?_) (by simp)
  unfold goodAgents
  rw [List.countP_append]
  omega

theorem Up.better {i : Nat} {old a : Agent d K X} (ho : q[i]? = some old) : Up q (Mealpy.setAt i (getBetterAgent a old c.P.mm) : M c X Y Unit) :=
  Up.setAt ho (getBetterAgent_cases a old c.P.mm).2.2

theorem Up.betterR {i : Nat} {old a : Agent d K X} (ho : q[i]? = some old) : Up q (Mealpy.setAt i (getBetterAgent old a c.P.mm) : M c X Y Unit) :=
  Up.setAt ho (getBetterAgent_cases old a c.P.mm).2.1

theorem Up.tryBetter {i : Nat} {p : Vec d K × X} : Up q (tryBetter i p : M c X Y Unit) :=
  .bindS .liftB' fun t _ => .bindPop fun old ho => .better ho

theorem Up.tryBetterR {i : Nat} {p : Vec d K × X} : Up q (tryBetterR i p : M c X Y Unit) :=
  .bindS .liftB' fun t _ => .bindPop fun old ho => .betterR ho

theorem Up.slotComp {i : Nat} {a : Agent d K X} : Up q (slotComp i a : M c X Y Unit) :=
  .bindPop fun old ho => .ite (fun h => .setAt ho (compareTarget_true h)) fun _ => .pure

theorem Up.slotTest {i : Nat} {a : Agent d K X} : Up q (slotTest i a : M c X Y Bool) :=
  .bindPop fun old ho => .ite (fun h => .bind (.setAt ho (compareTarget_true h)) fun _ _ _ => .pure) fun _ => .pure

theorem Up.tryCompare {mkExt : Vec d K → D c X} {i : Nat} {x : Vec d K} : Up q (tryCompare mkExt i x : M c X Y Unit) :=
  .bindS .liftB' fun a _ => .slotComp

theorem Up.tryComp {mkExt : Vec d K → D c X} {i : Nat} {x : Vec d K} : Up q (tryComp mkExt i x : M c X Y Bool) :=
  .bindS .liftB' fun a _ => .slotTest

theorem Up.tryUpd {i : Nat} {x : Vec d K} : Up q (tryUpd i x : M c X Y Bool) :=
  .bindS .liftB' fun t _ => .bindPop fun old ho => .ite (fun h => .bind (.updateAt ho (compareTarget_true h)) fun _ _ _ => .pure) fun _ => .pure

theorem Up.tryPair {mkExt : Vec d K → D c X} {i j : Nat} {x y : Vec d K} : Up q (tryPair mkExt i x j y : M c X Y Unit) :=
  .bindS .liftB' fun a _ => .bindS .liftB' fun b _ => .bind .slotComp fun _ _ _ => .slotComp

theorem Up.slotBest (hE : c.E.Lawful) {i : Nat} {new : List (Agent d K X)} : Up q (slotBest i new : M c X Y Unit) :=
  .bindPop fun old ho => .setAt ho ((headBest_spec hE (a := old) (l := old :: new) (by simp)).2 old (by simp))

theorem Up.slotTop {i : Nat} {new : List (Agent d K X)} : Up q (slotTop i new : M c X Y Unit) :=
  .bindS .draw fun b _ => .bindPop fun old ho => .better ho

theorem Up.selectGreedy {new : List (Agent d K X)} : Up q (selectGreedy new : M c X Y Unit) := fun hl s hs => Wp.any (by
  intro u s' h
  unfold Mealpy.selectGreedy at h
  split at h
  · rename_i pop hpop
    injection h with h
    obtain ⟨-, rfl⟩ := Prod.mk.inj h
    rw [hs] at hpop
    by_cases hlen : q.length = new.length
    · have : pop = List.zipWith (greedyPick c.P.mm) q new := by
        unfold greedySelection at hpop
        rw [if_neg (by simpa using hlen)] at hpop
        cases hm : c.P.mm <;> rw [hm] at hpop <;> exact (Except.ok.inj hpop).symm
      rw [this]
      exact Climbed.zip (greedyPick_noWorse _) hlen.symm
    · unfold greedySelection at hpop
      rw [if_pos hlen] at hpop
      cases hpop
  · cases h)

theorem Up.zipGreedy {new : List (Agent d K X)} (h : new.length = c.popSize) : Up q (Mealpy.reshape (fun pop => zipGreedy c.P.mm pop new) : M c X Y Unit) :=
  Up.reshape fun hl => Climbed.zip (greedyPick_noWorse _) (h.trans hl.symm)

theorem Up.greedyLoop {n : Nat} {mk : St c X Y → Nat → D c (Vec d K × X)} : Up q (greedyLoop n mk : M c X Y Unit) :=
  .ite (fun _ => .bindGet fun _ _ => .bindS .draw fun _ _ => .bindS .liftB' fun _ _ => .selectGreedy)
    fun _ => .iter fun _ _ _ _ => .bindGet fun _ _ => .bindS .draw fun _ _ => .tryBetter

theorem Up.greedyLoopR {n : Nat} {mk : St c X Y → Nat → D c (Vec d K × X)} : Up q (greedyLoopR n mk : M c X Y Unit) :=
  .ite (fun _ => .bindGet fun _ _ => .bindS .draw fun _ _ => .bindS .liftB' fun _ _ => .selectGreedy)
    fun _ => .iter fun _ _ _ _ => .bindGet fun _ _ => .bindS .draw fun _ _ => .tryBetterR

theorem Up.greedyLoopAt {n : Nat} {mk : St c X Y → Nat → D c (Nat × (Vec d K × X))} : Up q (greedyLoopAt n mk : M c X Y Unit) :=
  .ite (fun _ => .bindGet fun _ _ => .bindS .draw fun _ _ => .bindS .liftB' fun _ _ => .selectGreedy)
    fun _ => .iter fun _ _ _ _ => .bindGet fun _ _ => .bindS .draw fun _ _ => .tryBetter

theorem Up.greedyTwice {n : Nat} {mk : St c X Y → Nat → D c (Vec d K × X)} : Up q (greedyTwice n mk : M c X Y Unit) :=
  .ite (fun _ => .bindGet fun _ _ => .bindS (.iter fun _ _ => .bind .draw fun _ _ => .bind .liftB' fun _ _ => .pure trivial) fun _ _ => .bindS .liftB' fun _ _ => .selectGreedy)
    fun _ => .iter fun _ _ _ _ => .bindGet fun _ _ => .bindS .draw fun _ _ => .bindS .liftB' fun _ _ => .tryBetterR

theorem Up.greedyNew {n : Nat} {mk : St c X Y → Nat → D c (Vec d K × X)} : Up q (greedyNew n mk : M c X Y _) :=
  .ite (fun _ => .bindGet fun _ _ => .bindS .draw fun _ _ => .bindS .liftB' fun _ _ => .bind .selectGreedy fun _ _ _ => .pure)
    fun _ => .iter fun _ _ _ _ => .bindGet fun _ _ => .bindS .draw fun _ _ => .bindS .liftB' fun _ _ => .bindPop fun old ho => .bind (.better ho) fun _ _ _ => .pure

theorem Up.greedyLoopM {rev : Bool} {n : Nat} {mk : Nat → M c X Y (Vec d K × X)} (h : ∀ i, Still Any (mk i)) : Up q (greedyLoopM rev n mk : M c X Y Unit) :=
  .ite (fun _ => .bindS (.iter fun i _ => .bind (h i) fun _ _ => .pure trivial) fun _ _ => .bindS .liftB' fun _ _ => .selectGreedy)
    fun _ => .iter fun i _ _ _ => .bindS (h i) fun p _ => .ite (fun _ => .tryBetterR) fun _ => .tryBetter

theorem Up.compareLoop {n : Nat} {new : List (Agent d K X)} {upd els : Nat → Agent d K X → Y → Y} : Up q (compareLoop n new upd els : M c X Y Unit) :=
  .iter fun _ _ _ _ => .bindS .draw fun _ _ => .bindPop fun old ho => .ite (fun h => .bindS (.modify fun _ => rfl) fun _ _ => .setAt ho (compareTarget_true h)) fun _ => .ofStill (.modify fun _ => rfl)

theorem Up.placeAll : ∀ {l : List (Nat × Agent d K X)} {q : List (Agent d K X)}, Up q (placeAll l : M c X Y Unit)
  | [], _ => .pure
  | (i, a) :: l, q => .bind (.bindPop fun old ho => .better ho) fun _ q' _ => Up.placeAll (q := q')

theorem Up.greedySome {n : Nat} {mk : St c X Y → Nat → D c (Option (Vec d K × X))} : Up q (greedySome n mk : M c X Y Unit) :=
  .ite (fun _ => .bindGet fun _ _ => .bindS .draw fun _ _ => .bindS .liftB' fun _ _ => .placeAll)
    fun _ => .iter fun _ _ _ _ => .bindGet fun _ _ => .bindS .draw fun r _ => by
      cases r
      · exact .pure
      · exact .tryBetter

theorem Up.evalBetter (hE : c.E.Lawful) {mk : St c X Y → Nat → D c (Vec d K × X)} : Up q (evalBetter mk : M c X Y Unit) := by
  unfold Mealpy.evalBetter
  refine .bindS (.buildEval hE) fun new hn => .reshape fun hl => ?_
  have hn' : new.length = c.popSize := hn
  split
  · exact Climbed.zip (greedyPick_noWorse _) (hn'.trans hl.symm)
  · unfold zipBetter
    rw [List.zipWith_comm]
    exact Climbed.zip (f := fun o n => getBetterAgent n o c.P.mm) (fun o n => (getBetterAgent_cases n o c.P.mm).2.2) (hn'.trans hl.symm)

theorem Up.greedyLoopS (hE : c.E.Lawful) {mk : St c X Y → Nat → D c (Vec d K × X)} : Up q (greedyLoopS mk : M c X Y Unit) := by
  unfold Mealpy.greedyLoopS
  refine .ite (fun _ => .bindGet fun s _ => .bindS (.drawR buildPending_len) fun pend hp => .bindS (.updateTargets hE) fun new hn => .reshape fun hl => ?_)
    fun _ => .iter fun _ _ _ _ => .bindGet fun _ _ => .bindS .draw fun _ _ => .tryBetter
  unfold Mealpy.zipGreedy
  rw [List.zipWith_comm]
  exact Climbed.zip (f := fun o n => greedyPick c.P.mm n o) (fun o n => greedyPick_noWorse' c.P.mm n o) ((hn.trans hp).trans hl.symm)

theorem Up.greedyFirst (hE : c.E.Lawful) {k : Nat} (hk : k ≤ c.popSize) {mk : St c X Y → Nat → D c (Vec d K × X)} : Up q (greedyFirst k mk : M c X Y Unit) := by
  unfold Mealpy.greedyFirst
  refine .ite (fun _ => .bindGet fun s _ => .bindS (.drawR buildPending_len) fun pend hp => .bindS (.updateTargets hE) fun new hn => .reshape fun hl => ?_)
    fun _ => .iter fun _ _ _ _ => .bindGet fun _ _ => .bindS .draw fun _ _ => .tryBetter
  unfold greedyPrefix
  have h1 : Climbed c.P.mm (q.take k ++ q.drop k) (Mealpy.zipGreedy c.P.mm (q.take k) new ++ q.drop k) :=
    Climbed.append (Climbed.zip (greedyPick_noWorse _) (by rw [List.length_take, hn, hp]; omega)) .rfl
  rwa [List.take_append_drop] at h1

theorem Up.trimPop (hE : c.E.Lawful) {new : List (Agent d K X)} :
    Up q (Mealpy.reshape (fun pop => getSortedTrimmed c.E.argsort (pop ++ new) c.popSize c.P.mm) : M c X Y Unit) :=
  Up.reshape fun hl => by
    rw [← hl]
    refine Climbed.trim hE (fun t => ?_) (by simp)
    unfold goodAgents
    rw [List.countP_append]
    omega

theorem Up.trimFront (hE : c.E.Lawful) {new : List (Agent d K X)} :
    Up q (Mealpy.reshape (fun pop => getSortedTrimmed c.E.argsort (new ++ pop) c.popSize c.P.mm) : M c X Y Unit) := Up.mergeFront hE

theorem Climbed.zipNew {mm : MinMax} {q new : List (Agent d K X)} (h : new.length = q.length) : Climbed mm q (Mealpy.zipBetter mm new q) := by
  unfold Mealpy.zipBetter
  rw [List.zipWith_comm]
  exact Climbed.zip (f := fun o n => getBetterAgent n o mm) (fun o n => (getBetterAgent_cases n o mm).2.2) h

theorem Climbed.zipOld {mm : MinMax} {q new : List (Agent d K X)} (h : new.length = q.length) : Climbed mm q (Mealpy.zipBetter mm q new) :=
  Climbed.zip (f := fun o n => getBetterAgent o n mm) (fun o n => (getBetterAgent_cases o n mm).2.1) h

theorem Up.zipBetter {new : List (Agent d K X)} (h : new.length = c.popSize) : Up q (Mealpy.reshape (fun pop => zipBetter c.P.mm new pop) : M c X Y Unit) :=
  Up.reshape fun hl => .zipNew (h.trans hl.symm)

theorem Up.betterSuffix {sw : Bool} {k : Nat} {new : List (Agent d K X)} (h : new.length = c.popSize - k) :
    Up q (Mealpy.reshape (betterSuffix sw c.P.mm k new) : M c X Y Unit) := Up.reshape fun hl => by
  unfold Mealpy.betterSuffix
  have hn : new.length = (q.drop k).length := by rw [List.length_drop, hl]; exact h
  have h1 : Climbed c.P.mm (q.take k ++ q.drop k) (q.take k ++ (if sw then Mealpy.zipGreedy c.P.mm (q.drop k) new else Mealpy.zipBetter c.P.mm (q.drop k) new)) := by
    refine Climbed.append .rfl ?_
    split
    · exact Climbed.zip (greedyPick_noWorse _) hn
    · exact .zipOld hn
  rwa [List.take_append_drop] at h1

end up

/-! ## the tactics -/

section
open Lean Elab Tactic Meta

/-- unfold the head constant of the goal's last argument -/
elab "unfold_last" : tactic => withMainContext do
  let g ← getMainGoal
  let e := Mealpy.Tactics.strip (← instantiateMVars (← g.getType))
  let a := e.getAppArgs
  if a.size < 1 then throwError "not a judgement"
  let m := Mealpy.Tactics.strip a[a.size - 1]!
  let some n := m.getAppFn.constName? | throwError "no constant"
  unless n.getRoot == `Mealpy do throwError "not ours"
  if ← isMatcher n then throwError "a match"
  let some m' ← unfoldDefinition? m | throwError "does not unfold"
  let e' := mkAppN e.getAppFn (a.set! (a.size - 1) (Mealpy.Tactics.strip m'))
  let g' ← g.replaceTargetDefEq e'
  replaceMainGoal [g']

/-- run a tactic on the first goal and fail unless it closes it -/
elab "closing " t:tacticSeq : tactic => do
  let g :: rest ← getGoals | throwError "no goals"
  let left ← evalTacticAt t g
  unless left.isEmpty do throwError "not closed"
  setGoals rest

end

/-- further steps, added by later files -/
syntax "cprim" : tactic
macro_rules
  | `(tactic| cprim) => `(tactic| fail)

syntax "still" : tactic
macro_rules
  | `(tactic| still) => `(tactic|
    repeat' (first
      | assumption
      | cprim
      | (at_last Bind.bind; refine Still.bind (R := Any) ?_ (fun _ _ => ?_))
      | (at_last Pure.pure; exact Still.pure trivial)
      | (at_last draw; exact Still.draw)
      | (at_last MonadState.get; exact Still.get)
      | (at_last getThe; exact Still.get)
      | (at_last mthrow; exact Still.mthrow)
      | (at_last popAt; exact Still.popAt)
      | (at_last modExt; exact Still.modExt)
      | (at_last buildEval; exact (Still.buildEval (by assumption)).any)
      | (at_last evalAll; exact (Still.buildEval (by assumption)).any)
      | (at_last updateGlobalBestNoSave; exact Still.noSave)
      | (at_last evalSeq; exact Still.evalSeq.any)
      | (at_last modify; exact Still.modify (fun _ => rfl))
      | (at_last liftB; exact Still.liftB')
      | (at_last iter; refine Still.iter (fun _ _ => ?_))
      | (at_last List.mapM; refine Still.mapM (fun _ => ?_))
      | (at_last ite; refine Still.ite ?_ ?_)
      | unfold_last
      | split))

syntax "climb" : tactic
macro_rules
  | `(tactic| climb) => `(tactic|
    repeat' (first
      | assumption
      | cprim
      | (at_last Bind.bind; first
          | with_reducible_and_instances refine Up.bindGet (fun _ _ => ?_)
          | with_reducible_and_instances refine Up.bindPop (fun _ _ => ?_)
          | with_reducible_and_instances refine Up.bindS (Still.buildEval (by assumption)) (fun _ _ => ?_)
          | with_reducible_and_instances refine Up.bindS Still.noSaveR (fun _ _ => ?_)
          | with_reducible_and_instances refine Up.bindS (Still.evalAll (by assumption)) (fun _ _ => ?_)
          | (refine Up.bindS (R := Any) ?_ (fun _ _ => ?_); closing still)
          | refine Up.bind ?_ (fun _ _ _ => ?_))
      | (at_last Pure.pure; exact Up.pure)
      | (at_last draw; exact Up.ofStill Still.draw)
      | (at_last mthrow; exact Up.mthrow)
      | (at_last setAt; first | exact Up.better (by assumption) | exact Up.betterR (by assumption) | exact Up.setAt (by assumption) (compareTarget_true (by assumption)) | (refine Up.setAt (by assumption) ?_; exact NoWorse.rfl))
      | (at_last reshape; first
          | with_reducible exact Up.trimPop (by assumption)
          | with_reducible exact Up.trimFront (by assumption)
          | with_reducible exact Up.zipBetter (by assumption)
          | with_reducible exact Up.betterSuffix (by assumption))
      | (at_last setPop; exact Up.setPop (fun _ => Climbed.sorted (by assumption) (by assumption) (by assumption)))
      | (at_last greedyFirst; exact Up.greedyFirst (by assumption) (by omega))
      | (at_last updateAt; exact Up.updateAt (by assumption) (compareTarget_true (by assumption)))
      | (at_last tryBetter; exact Up.tryBetter)
      | (at_last tryBetterR; exact Up.tryBetterR)
      | (at_last tryCompare; exact Up.tryCompare)
      | (at_last tryComp; exact Up.tryComp)
      | (at_last tryUpd; exact Up.tryUpd)
      | (at_last tryPair; exact Up.tryPair)
      | (at_last slotComp; exact Up.slotComp)
      | (at_last slotTest; exact Up.slotTest)
      | (at_last slotBest; exact Up.slotBest (by assumption))
      | (at_last slotTop; exact Up.slotTop)
      | (at_last selectGreedy; exact Up.selectGreedy)
      | (at_last greedyLoop; exact Up.greedyLoop)
      | (at_last greedyLoopR; exact Up.greedyLoopR)
      | (at_last greedyLoopAt; exact Up.greedyLoopAt)
      | (at_last greedyLoopM; refine Up.greedyLoopM (fun _ => ?_); closing still)
      | (at_last greedyLoopS; exact Up.greedyLoopS (by assumption))
      | (at_last greedyTwice; exact Up.greedyTwice)
      | (at_last greedyNew; exact Up.greedyNew)
      | (at_last greedySome; exact Up.greedySome)
      | (at_last placeAll; exact Up.placeAll)
      | (at_last compareLoop; exact Up.compareLoop)
      | (at_last evalBetter; exact Up.evalBetter (by assumption))
      | (at_last mergeTrim; exact Up.mergeTrim (by assumption))
      | (at_last mergeFront; exact Up.mergeFront (by assumption))
      | (at_last sortPop; exact Up.sortPop (by assumption))
      | (at_last mapExt; exact Up.mapExt)
      | (at_last setExtAt; exact Up.setExtAt)
      | (at_last iter; refine Up.iter (fun _ _ _ _ => ?_))
      | (at_last ite; refine Up.ite (fun _ => ?_) (fun _ => ?_))
      | (refine Up.ofStill (R := Any) ?_; closing still)
      | unfold_last
      | split))

/-! ## whole runs -/

/-- consecutive recorded populations -/
def Rising (mm : MinMax) (n : Nat) (l : List (List (Agent d K X))) : Prop :=
  ∀ i p p', l[i]? = some p → l[i + 1]? = some p' → p.length = n → Climbed mm p p'

theorem Rising.snoc {mm : MinMax} {n : Nat} {l : List (List (Agent d K X))} {p' : List (Agent d K X)} (h : Rising mm n l)
    (hp : ∀ p, l.getLast? = some p → p.length = n → Climbed mm p p') : Rising mm n (l ++ [p']) := by
  intro i p p'' h1 h2 hl
  rcases Nat.lt_or_ge (i + 1) l.length with hi | hi
  · rw [List.getElem?_append_left (by omega)] at h1 h2
    exact h i p p'' h1 h2 hl
  · have hi' : i + 1 = l.length := by
      have := (List.getElem?_eq_some_iff.1 h2).1
      simp at this
      omega
    rw [List.getElem?_append_left (by omega)] at h1
    rw [hi', List.getElem?_append_right le_rfl] at h2
    obtain rfl : p' = p'' := by simpa using h2
    refine hp p ?_ hl
    rw [List.getLast?_eq_getElem?, ← hi', Nat.add_sub_cancel]
    exact h1

theorem Algo.rising (hE : c.E.Lawful) {A : Algo c X Y} (hA : ∀ ep q, Up q (A.evolve ep)) {b : Bool} (hf : Disciplined b A) {o : RunOpts K}
    (ho : o.savePop = true) {b0 : Base c} {s : St c X Y} {h : FinalHist d K X} (hs : solve A o b0 = .ok (s, h)) : Rising c.P.mm c.popSize h.population := by
  obtain ⟨o', b1, pop0, y, b2, s0, s1, h1, h2, h3, h4, h5, h6⟩ := solve_ok hs
  have hsv : o'.savePop = true := by
    obtain ⟨o2, b3, h7, -, h8, -⟩ := startTermination_ok o b0
    rw [h7] at h1
    obtain ⟨rfl, -⟩ := Prod.mk.inj (Except.ok.inj h1)
    exact h8.trans ho
  have hp1 : s1.hist.population = [] := by
    obtain ⟨_, _, -, -, rfl⟩ := afterInit_ok hE h3
    exact (Wp.elim (hf.before _) h4).hist.population
  have hloop := mainLoop_wp (Er := fun _ => True) (A := A) (o := o')
    (fun k s => Rising c.P.mm c.popSize s.hist.population ∧ (0 < k → s.hist.population.getLast? = some s.pop) ∧ (k = 0 → s.hist.population = []))
    (fun k s hk _ => by
      refine Wp.mono (epochStep_wp hE (R := fun s2 => s2.hist.population = s.hist.population ∧ (s.pop.length = c.popSize → Climbed c.P.mm s.pop s2.pop)) (fun r v => ?_) (.inl fun _ => trivial)) ?_
      · by_cases hl : s.pop.length = c.popSize
        · exact Wp.and (Wp.mono (hf.evolve (k + 1) { s with base := { s.base with rng := r, vg := v } }) fun _ s2 h => h.hist.population)
            (Wp.mono (hA (k + 1) s.pop hl { s with base := { s.base with rng := r, vg := v } } rfl) fun _ s2 h _ => h)
        · exact Wp.mono (hf.evolve (k + 1) { s with base := { s.base with rng := r, vg := v } }) fun _ s2 h => ⟨h.hist.population, fun h => absurd h hl⟩
      · rintro f s' ⟨s2, ⟨hpop, hup⟩, he, -⟩
        obtain ⟨_, _, _, _, _, -, -, -, -, -, hh⟩ := he.hist
        have hh' : s'.hist.population = s.hist.population ++ [s'.pop] := by rw [hh]; simp [hsv, hpop]
        refine ⟨?_, fun _ => by rw [hh']; simp, fun h => by omega⟩
        rw [hh']
        refine hk.1.snoc fun p hp hl => ?_
        rcases Nat.eq_zero_or_pos k with rfl | hk0
        · rw [hk.2.2 rfl] at hp
          cases hp
        · rw [hk.2.1 hk0] at hp
          obtain rfl := Option.some.inj hp
          refine (hup hl).trans ?_
          rw [he.pop]
          split
          · exact .perm (getSorted_perm hE.argsortLaw _ _)
          · exact .rfl) c.epoch 0 s1 (by rw [hp1]; exact ⟨fun i p p' h => by simp at h, fun h => by omega, fun _ => rfl⟩) (by omega)
  obtain ⟨e, -, -, -, hr, -⟩ := Wp.elim hloop h5
  rw [(trackProcess_ok h6).2.2.2.2.2.2.2.2.2.1]
  exact hr

end Mealpy
