import Mathlib.Data.List.Sort
import Verif.Alg.Kit9

/-! # More program pieces, part 10

Loops that use up a batch one agent at a time, weighted draws without replacement. -/

set_option linter.unusedSectionVars false
set_option linter.unusedVariables false

namespace Mealpy
open Spec

variable {d : Nat} {K : Type} [Num K] {c : Cfg d K} {X Y : Type} {α β : Type} {Er : Err → Prop}
variable {F : Agent d K X → Prop} {J : Y → Prop}

/-! ## Using up a batch -/

/-- a loop whose held agents depend on the step -/
theorem HJ.iterI {f : Nat → α → M c X Y α} {lo hi : Nat} (H : Nat → List (Agent d K X)) (P : Nat → α → Prop) : ∀ (n : Nat) {a : α},
    P 0 a → (∀ (i : Nat) (a : α), i < n → P i a → HJ F J lo hi (H i) (f i a) (fun _ => H (i + 1)) (P (i + 1))) →
    HJ F J (n * lo) (n * hi) (H 0) (Mealpy.iter n f a) (fun _ => H n) (P n)
  | 0, a, h0, _ => by
    rw [Nat.zero_mul, Nat.zero_mul]
    exact HJ.pure rfl h0
  | n + 1, a, h0, hf => by
    have := HJ.bind (HJ.iterI H P n h0 (fun i a hi => hf i a (by omega))) (fun a ha => hf n a (by omega) ha)
    rw [Nat.succ_mul, Nat.succ_mul]
    exact this

/-- `if self.compare_target(a.target, self.pop[i].target, minmax): self.pop[i] = a`, with the answer -/
def slotTest (i : Nat) (a : Agent d K X) : M c X Y Bool := do
  let old ← popAt i
  if compareTarget a.tgt old.tgt c.P.mm then do
    setAt i a
    pure true
  else pure false

theorem slotTest_eq (i : Nat) (a : Agent d K X) (s : St c X Y) (hi : i < s.pop.length) :
    (slotTest i a : M c X Y Bool) s = (slotComp i a s).bind (fun r => .ok (compareTarget a.tgt (s.pop[i]).tgt c.P.mm, r.2)) := by
  unfold slotTest slotComp
  simp only [bind, StateT.bind, Except.bind, popAt, List.getElem?_eq_getElem hi]
  by_cases h : compareTarget a.tgt (s.pop[i]).tgt c.P.mm = true
  · rw [if_pos h, if_pos h, h]
    simp only [bind, StateT.bind, Except.bind, setAt, pure, StateT.pure, Except.pure, if_pos hi]
  · rw [if_neg h, if_neg h]
    simp only [Bool.not_eq_true] at h
    simp [pure, StateT.pure, Except.pure, h]

theorem HJ.slotTest {i : Nat} (hi : i < c.popSize) {G G' : List (Agent d K X)} {a : Agent d K X} (ha : a ∈ G)
    (hG : ∀ b ∈ G, b ∈ G' ∨ NoWorse c.P.mm a.fit b.fit) (hG' : ∀ b ∈ G', b ∈ G) :
    HJ F J 0 0 G (slotTest i a : M c X Y Bool) (fun _ => G') (fun _ => True) := by
  intro s0 s l k hs0 hs
  have hlen := (hs.mid hs0).len
  have h := HJ.slotComp (F := F) (J := J) (Y := Y) hi ha hG hG' s0 s l k hs0 hs
  unfold Wp at h ⊢
  rw [slotTest_eq i a s (by omega)]
  cases hr : Mealpy.slotComp i a s with
  | error e => rw [hr] at h; exact h
  | ok r => rw [hr] at h; exact ⟨h.1, trivial⟩

theorem WT.slotTest {I : Inv c X Y} {i : Nat} (hi : ∀ n, I.size n → i < n) {a : Agent d K X} (ha : I.Ag a) :
    WT Er I 0 0 (slotTest i a : M c X Y Bool) (fun _ => True) := by
  refine WT.bind0 (WT.popAt hi) fun old ho => ?_
  exact WT.ite (fun _ => WT.bind0 (WT.setAt hi ha) fun _ _ => WT.pure trivial) (fun _ => WT.pure trivial)

theorem Framed.slotTest {q : Bool} {i : Nat} {a : Agent d K X} : Framed q (slotTest i a : M c X Y _) :=
  .bind .popAt fun _ => .ite (.bind .setAt fun _ => .pure) .pure

macro_rules
  | `(tactic| fprim) => `(tactic| (at_last slotTest; exact Framed.slotTest))

/-- one agent of a batch after the other is offered to the slot of its index; a refused one is followed by more code -/
def offerLoop (new : List (Agent d K X)) (k : Nat → Agent d K X → M c X Y Unit) : M c X Y Unit :=
  iter new.length (fun i _ => do
    let a ← draw (nth new i)
    let ok ← slotTest i a
    if ok then pure () else k i a) ()

theorem nth_get {l : List α} {i : Nat} (h : i < l.length) : DT Er (nth (c := c) l i : D c α) (fun a => a = l[i]) := by
  unfold nth
  rw [List.getElem?_eq_getElem h]
  exact DT.pure rfl

theorem HJ.offerLoop {new : List (Agent d K X)} {lo hi : Nat} {k : Nat → Agent d K X → M c X Y Unit} (hn : new.length ≤ c.popSize)
    (hk : ∀ i a, i < new.length → a ∈ new → IT F J lo hi (k i a) (fun _ => True)) (hlo : lo = 0) :
    HJ F J 0 (new.length * hi) new (Mealpy.offerLoop new k : M c X Y Unit) (fun _ => []) (fun _ => True) := by
  subst hlo
  unfold Mealpy.offerLoop
  have h := HJ.iterI (F := F) (J := J) (c := c) (Y := Y) (lo := 0) (hi := hi) (fun i => new.drop i) (fun _ (_ : Unit) => True) new.length
    (f := fun i _ => do
      let a ← Mealpy.draw (nth new i)
      let ok ← Mealpy.slotTest i a
      if ok then Pure.pure () else k i a) (a := ()) trivial ?_
  · rw [List.drop_zero, List.drop_length, Nat.mul_zero] at h
    exact h
  · intro i _ hi' _
    refine HJ.bind0 (HJ.draw (nth_get hi')) fun a ha => ?_
    have hd : new.drop i = a :: new.drop (i + 1) := by rw [ha]; exact List.drop_eq_getElem_cons hi'
    refine HJ.bind0 (HJ.slotTest (G' := new.drop (i + 1)) (by omega) (by rw [hd]; simp) ?_ ?_) fun ok _ => ?_
    · intro b hb
      rw [hd] at hb
      rcases List.mem_cons.1 hb with rfl | hb
      · exact .inr NoWorse.rfl
      · exact .inl hb
    · intro b hb
      rw [hd]
      exact List.mem_cons_of_mem _ hb
    · refine HJ.ite (fun _ => ?_) fun _ => ?_
      · exact HJ.weaken (HJ.pure rfl trivial) (by omega) (by omega)
      · exact HJ.ofIT (hk i a hi' (by rw [ha]; exact List.getElem_mem _))

theorem Framed.offerLoop {q : Bool} {new : List (Agent d K X)} {k : Nat → Agent d K X → M c X Y Unit} (h : ∀ i a, Framed q (k i a)) :
    Framed q (offerLoop new k : M c X Y Unit) :=
  .iter fun i _ => .bind .draw fun a => .bind .slotTest fun _ => .ite .pure (h i a)

/-! ## Weighted draws -/

/-- `generator.choice(n, 3, replace=False, p=ps)` with `n = len(ps)`: an index already drawn gets weight zero -/
def choice3P (ps : List K) : D c (Nat × Nat × Nat) := do
  let i ← choiceP ps
  let j ← choiceP (ps.set i 0)
  let k ← choiceP ((ps.set i 0).set j 0)
  pure (i, j, k)

theorem DT.choice3P (hE : c.E.Lawful) {ps : List K} (h : 0 < ps.length) :
    DT Er (Mealpy.choice3P ps : D c _) (fun q => q.1 < ps.length ∧ q.2.1 < ps.length ∧ q.2.2 < ps.length) := by
  unfold Mealpy.choice3P
  refine DT.bind (DT.choiceP hE h) fun i hi => DT.bind (DT.choiceP hE (by rw [List.length_set]; exact h)) fun j hj => ?_
  refine DT.bind (DT.choiceP hE (by rw [List.length_set, List.length_set]; exact h)) fun k hk => ?_
  rw [List.length_set] at hj
  rw [List.length_set, List.length_set] at hk
  exact DT.pure ⟨hi, hj, hk⟩

/-- `np.sort(l)` -/
def sortL (l : List K) : List K := l.insertionSort (fun a b => a ≤ b)

/-- `x[i] = v` on a copy -/
def Vec.put (x : Vec d K) (i : Nat) (v : K) : Vec d K := fun j => if j.val = i then v else x j

end Mealpy
