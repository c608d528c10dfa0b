import Verif.Opt
import Verif.SelectLemmas

/-!
# Reasoning about the optimizer monads

`Wp Er m s Q`: running `m` from `s` either returns and the result satisfies `Q`, or raises an error
allowed by `Er`.  With `Er = fun _ => False` this is total correctness: the code does not raise.
-/

set_option linter.unusedSectionVars false
set_option linter.unusedVariables false

namespace Mealpy

/-- outcome of a state-and-exception computation -/
def Wp {S α : Type} (Er : Err → Prop) (m : StateT S (Except Err) α) (s : S) (Q : α → S → Prop) : Prop :=
  match m s with
  | .ok (a, s') => Q a s'
  | .error e => Er e

section Rules
variable {S α β : Type} {Er : Err → Prop}

theorem Wp.pure {a : α} {s : S} {Q : α → S → Prop} (h : Q a s) : Wp Er (pure a) s Q := h

theorem Wp.bind {m : StateT S (Except Err) α} {f : α → StateT S (Except Err) β} {s : S}
    {Q : β → S → Prop} (h : Wp Er m s (fun a s' => Wp Er (f a) s' Q)) : Wp Er (m >>= f) s Q := by
  unfold Wp at *
  show match (m s >>= fun p => f p.1 p.2) with
    | .ok (a, s') => Q a s'
    | .error e => Er e
  cases hm : m s with
  | error e => rw [hm] at h; exact h
  | ok p => rw [hm] at h; exact h

theorem Wp.mono {m : StateT S (Except Err) α} {s : S} {Q R : α → S → Prop}
    (h : Wp Er m s Q) (hQ : ∀ a s', Q a s' → R a s') : Wp Er m s R := by
  unfold Wp at *
  cases hm : m s with
  | error e => rw [hm] at h; exact h
  | ok p => rw [hm] at h; exact hQ _ _ h

theorem Wp.get {s : S} {Q : S → S → Prop} (h : Q s s) : Wp Er get s Q := h

theorem Wp.set {s t : S} {Q : PUnit → S → Prop} (h : Q ⟨⟩ t) : Wp Er (set t) s Q := h

theorem Wp.modify {s : S} {f : S → S} {Q : PUnit → S → Prop} (h : Q ⟨⟩ (f s)) :
    Wp Er (modify f) s Q := h

theorem Wp.ite {p : Prop} [Decidable p] {m n : StateT S (Except Err) α} {s : S} {Q : α → S → Prop}
    (h₁ : p → Wp Er m s Q) (h₂ : ¬ p → Wp Er n s Q) : Wp Er (if p then m else n) s Q := by
  split
  · exact h₁ ‹_›
  · exact h₂ ‹_›

theorem Wp.ok {m : StateT S (Except Err) α} {s : S} {Q : α → S → Prop}
    (h : Wp (fun _ => False) m s Q) : ∃ a s', m s = .ok (a, s') ∧ Q a s' := by
  unfold Wp at h
  cases hm : m s with
  | error e => rw [hm] at h; exact h.elim
  | ok p => rw [hm] at h; exact ⟨p.1, p.2, rfl, h⟩

theorem Wp.of_ok {m : StateT S (Except Err) α} {s s' : S} {a : α} {Q : α → S → Prop}
    (h : m s = .ok (a, s')) (hQ : Q a s') : Wp Er m s Q := by
  unfold Wp; rw [h]; exact hQ

theorem Wp.of_err {m : StateT S (Except Err) α} {s : S} {e : Err} {Q : α → S → Prop}
    (h : m s = .error e) (he : Er e) : Wp Er m s Q := by
  unfold Wp; rw [h]; exact he

theorem Wp.elim {m : StateT S (Except Err) α} {s s' : S} {a : α} {Q : α → S → Prop}
    (h : Wp Er m s Q) (hm : m s = .ok (a, s')) : Q a s' := by
  unfold Wp at h; rw [hm] at h; exact h

theorem Wp.total_of {Er : Err → Prop} {m : StateT S (Except Err) α} {s : S} {Q : α → S → Prop}
    (h : Wp (fun _ => False) m s Q) : Wp Er m s Q := by
  obtain ⟨a, s', hm, hQ⟩ := h.ok
  exact Wp.of_ok hm hQ

/-- loop rule: `I i a s` holds before iteration `i` -/
theorem Wp.iter {f : Nat → α → StateT S (Except Err) α} (I : Nat → α → S → Prop) :
    ∀ (n : Nat) {a : α} {s : S}, I 0 a s →
    (∀ (i : Nat) (a : α) (s : S), i < n → I i a s → Wp Er (f i a) s (fun a' s' => I (i + 1) a' s')) →
    Wp Er (iter n f a) s (fun a' s' => I n a' s')
  | 0, _, _, h0, _ => h0
  | n + 1, _, _, h0, hs => by
    refine Wp.bind ?_
    refine Wp.mono (Wp.iter I n h0 (fun i a s hi => hs i a s (by omega))) ?_
    intro a' s' h
    exact hs n a' s' (by omega) h

end Rules

variable {d : Nat} {K : Type} {c : Cfg d K}

/-- generator code: every outcome satisfies `Q` -/
def DT {α : Type} (Er : Err → Prop) (m : D c α) (Q : α → Prop) : Prop :=
  ∀ g, Wp Er m g (fun a _ => Q a)

section DTRules
variable {α β : Type} {Er : Err → Prop}

theorem DT.pure {a : α} {Q : α → Prop} (h : Q a) : DT Er (pure a : D c α) Q := fun _ => h

theorem DT.bind {m : D c α} {f : α → D c β} {R : α → Prop} {Q : β → Prop}
    (h : DT Er m R) (hf : ∀ a, R a → DT Er (f a) Q) : DT Er (m >>= f) Q :=
  fun g => Wp.bind ((h g).mono fun a s' ha => hf a ha s')

theorem DT.mono {m : D c α} {Q R : α → Prop} (h : DT Er m Q) (hQ : ∀ a, Q a → R a) : DT Er m R :=
  fun g => (h g).mono fun a _ ha => hQ a ha

theorem DT.triv {m : D c α} {Q : α → Prop} (h : DT Er m Q) : DT Er m (fun _ => True) :=
  h.mono fun _ _ => trivial

theorem DT.map {m : D c α} {f : α → β} {Q : β → Prop} (h : DT Er m (fun a => Q (f a))) :
    DT Er (f <$> m) Q := DT.bind h (fun _ ha => DT.pure ha)

theorem DT.ite {p : Prop} [Decidable p] {m n : D c α} {Q : α → Prop}
    (h₁ : p → DT Er m Q) (h₂ : ¬ p → DT Er n Q) : DT Er (if p then m else n) Q := by
  split
  · exact h₁ ‹_›
  · exact h₂ ‹_›

theorem DT.rngCall {f : c.E.σ → α × c.E.σ} {Q : α → Prop} (h : ∀ s, Q (f s).1) :
    DT Er (rngCall f) Q := fun g => h g.1

theorem DT.vgCall {f : c.P.S → α × c.P.S} {Q : α → Prop} (h : ∀ s, Q (f s).1) :
    DT Er (vgCall f) Q := fun g => h g.2

theorem DT.vecM {α : Type} : ∀ {n : Nat} {m : Fin n → D c α} {Q : Fin n → α → Prop},
    (∀ j, DT Er (m j) (Q j)) → DT Er (vecM m) (fun v => ∀ j, Q j (v j))
  | 0, _, _, _ => DT.pure (fun j => j.elim0)
  | n + 1, m, Q, h => by
    refine DT.bind (h 0) fun a ha => DT.bind (DT.vecM (fun i => h i.succ)) fun t ht => DT.pure ?_
    intro j
    refine Fin.cases ?_ (fun i => ?_) j
    · exact ha
    · exact ht i

theorem DT.vecM_true {α : Type} {n : Nat} {m : Fin n → D c α}
    (h : ∀ j, DT Er (m j) (fun _ => True)) : DT Er (Mealpy.vecM m) (fun _ => True) :=
  (DT.vecM h).triv

theorem DT.iter {α : Type} {f : Nat → α → D c α} (I : Nat → α → Prop) (n : Nat) {a : α}
    (h0 : I 0 a) (hs : ∀ (i : Nat) (a : α), i < n → I i a → DT Er (f i a) (I (i + 1))) :
    DT Er (Mealpy.iter n f a) (I n) := fun g =>
  Wp.iter (fun i a _ => I i a) n h0 (fun i a s hi h => hs i a hi h s)

theorem DT.mapM {α β : Type} {Q : β → Prop} {f : α → D c β} : ∀ {l : List α},
    (∀ a ∈ l, DT Er (f a) Q) → DT Er (l.mapM f) (fun r => r.length = l.length ∧ ∀ b ∈ r, Q b)
  | [], _ => by
    rw [List.mapM_nil]
    exact DT.pure (by simp)
  | a :: l, h => by
    rw [List.mapM_cons]
    refine DT.bind (h a (by simp)) fun b hb =>
      DT.bind (DT.mapM (fun x hx => h x (by simp [hx]))) fun r hr => DT.pure ?_
    refine ⟨by simp [hr.1], ?_⟩
    intro x hx
    rcases List.mem_cons.1 hx with rfl | hx
    · exact hb
    · exact hr.2 x hx

theorem DT.mapM' {α β : Type} {Q : α → β → Prop} {f : α → D c β} : ∀ {l : List α},
    (∀ a ∈ l, DT Er (f a) (Q a)) → DT Er (l.mapM f) (fun r => List.Forall₂ Q l r)
  | [], _ => by
    rw [List.mapM_nil]
    exact DT.pure List.Forall₂.nil
  | a :: l, h => by
    rw [List.mapM_cons]
    refine DT.bind (h a (by simp)) fun b hb =>
      DT.bind (DT.mapM' (fun x hx => h x (by simp [hx]))) fun r hr => DT.pure ?_
    exact List.Forall₂.cons hb hr

theorem DT.nth {l : List α} {i : Nat} {Q : α → Prop} (h : i < l.length) (hQ : Q (l[i])) :
    DT Er (nth (c := c) l i) Q := by
  unfold Mealpy.nth
  rw [List.getElem?_eq_getElem h]
  exact DT.pure hQ

theorem DT.nth_mem {l : List α} {i : Nat} (h : i < l.length) :
    DT Er (Mealpy.nth (c := c) l i) (fun a => a ∈ l) := DT.nth h (List.getElem_mem h)

/-- an error allowed by `Er` -/
theorem DT.throw {e : Err} {Q : α → Prop} (h : Er e) : DT Er (dthrow (c := c) e) Q := fun _ => h

theorem DT.and {m : D c α} {Q R : α → Prop} (h : DT Er m Q) (h' : DT Er m R) :
    DT Er m (fun a => Q a ∧ R a) := fun g => by
  have h1 := h g
  have h2 := h' g
  unfold Wp at *
  cases hm : m g with
  | error e => rw [hm] at h1; exact h1
  | ok p => rw [hm] at h1 h2; exact ⟨h1, h2⟩

end DTRules

section NumDraws
variable [Num K] {Er : Err → Prop}

theorem DT.random (hE : c.E.Lawful) : DT Er (random : D c K) (fun x => 0 ≤ x ∧ x < 1) :=
  DT.rngCall fun s => ⟨hE.random_ge s, hE.random_lt s⟩

theorem DT.random' : DT Er (Mealpy.random : D c K) (fun _ => True) := DT.rngCall fun _ => trivial
theorem DT.randomVec : DT Er (Mealpy.randomVec : D c (Vec d K)) (fun _ => True) :=
  DT.vecM_true fun _ => DT.random'
theorem DT.randomVec01 (hE : c.E.Lawful) :
    DT Er (Mealpy.randomVec : D c (Vec d K)) (fun v => ∀ j, 0 ≤ v j ∧ v j < 1) :=
  DT.vecM fun _ => DT.random hE
theorem DT.uniform' {lo hi : K} : DT Er (uniform lo hi : D c K) (fun _ => True) :=
  DT.rngCall fun _ => trivial
theorem DT.uniform (hE : c.E.Lawful) {lo hi : K} (h : lo ≤ hi) :
    DT Er (Mealpy.uniform lo hi : D c K) (fun x => lo ≤ x ∧ x ≤ hi) :=
  DT.rngCall fun s => ⟨hE.uniform_ge lo hi s h, hE.uniform_le lo hi s h⟩
theorem DT.uniformVec' {lo hi : Vec d K} : DT Er (Mealpy.uniformVec lo hi : D c (Vec d K)) (fun _ => True) :=
  DT.vecM_true fun _ => DT.uniform'
theorem DT.normal {a b : K} : DT Er (Mealpy.normal a b : D c K) (fun _ => True) :=
  DT.rngCall fun _ => trivial
theorem DT.normalVec {a b : K} : DT Er (Mealpy.normalVec a b : D c (Vec d K)) (fun _ => True) :=
  DT.vecM_true fun _ => DT.normal
theorem DT.dist {n : String} {l : List K} : DT Er (Mealpy.dist n l : D c K) (fun _ => True) :=
  DT.rngCall fun _ => trivial
theorem DT.clock : DT Er (Mealpy.clock : D c K) (fun _ => True) := DT.rngCall fun _ => trivial
theorem DT.integers (hE : c.E.Lawful) {lo hi : Int} (h : lo < hi) :
    DT Er (Mealpy.integers lo hi : D c Int) (fun x => lo ≤ x ∧ x < hi) := by
  unfold Mealpy.integers
  rw [if_pos h]
  exact DT.rngCall fun s => ⟨hE.integers_ge lo hi s h, hE.integers_lt lo hi s h⟩
theorem DT.index (hE : c.E.Lawful) {n : Nat} (h : 0 < n) :
    DT Er (Mealpy.index n : D c Nat) (fun x => x < n) :=
  DT.bind (DT.integers hE (by exact_mod_cast h)) fun i hi => DT.pure (by omega)
theorem DT.choice (hE : c.E.Lawful) {n k : Nat} {r : Bool} (h : choiceErr n k r = false) :
    DT Er (Mealpy.choice n k r : D c (List Nat)) (fun l => l.length = k ∧ (∀ i ∈ l, i < n) ∧
      (r = false → l.Nodup)) := by
  unfold Mealpy.choice
  rw [if_neg (by simp [h])]
  refine DT.rngCall fun s => ⟨hE.choice_length _ _ _ _, ?_, ?_⟩
  · intro i hi
    refine hE.choice_lt n k r s ?_ i hi
    by_contra h0
    have hn : n = 0 := by omega
    subst hn
    have hl := hE.choice_length 0 k r s
    have hk : k ≠ 0 := by
      rintro rfl
      have := List.length_eq_zero_iff.1 hl
      rw [this] at hi
      cases hi
    simp [choiceErr, hk] at h
  · rintro rfl
    refine hE.choice_nodup n k s ?_
    simp [choiceErr] at h
    omega
theorem DT.choice1 (hE : c.E.Lawful) {n : Nat} (h : 0 < n) :
    DT Er (Mealpy.choice1 n : D c Nat) (fun x => x < n) := by
  refine DT.bind (DT.choice hE (by simp [choiceErr]; omega)) fun l hl => ?_
  obtain ⟨h1, h2, -⟩ := hl
  match l, h1, h2 with
  | i :: _, _, h2 => exact DT.pure (h2 i (by simp))
theorem DT.permutation (hE : c.E.Lawful) {n : Nat} :
    DT Er (Mealpy.permutation n : D c (List Nat)) (fun l => l.Perm (List.range n)) :=
  DT.rngCall fun s => hE.permutation_perm n s
theorem DT.genSolution (hP : c.P.Lawful) :
    DT Er (Mealpy.genSolution : D c (Vec d K)) (fun x => Spec.InBox c.P.lb c.P.ub x) :=
  DT.vgCall fun s => hP.generate_in s
theorem DT.genSolution' : DT Er (Mealpy.genSolution : D c (Vec d K)) (fun _ => True) :=
  DT.vgCall fun _ => trivial
theorem DT.amendClip {x : Vec d K} : DT Er (Mealpy.amendClip x : D c (Vec d K)) (fun _ => True) :=
  DT.pure trivial
theorem DT.amendRandom {x : Vec d K} : DT Er (Mealpy.amendRandom x : D c (Vec d K)) (fun _ => True) :=
  DT.bind DT.uniformVec' fun _ _ => DT.pure trivial
theorem DT.correctWith (hP : c.P.Lawful) {amend : Vec d K → D c (Vec d K)} {x : Vec d K}
    (h : DT Er (amend x) (fun _ => True)) :
    DT Er (Mealpy.correctWith amend x : D c (Vec d K)) (fun x => Spec.InBox c.P.lb c.P.ub x) :=
  DT.bind h fun y _ => DT.vgCall fun s => hP.correct_in y s
theorem DT.correct (hP : c.P.Lawful) {x : Vec d K} :
    DT Er (Mealpy.correct x : D c (Vec d K)) (fun x => Spec.InBox c.P.lb c.P.ub x) :=
  DT.correctWith hP DT.amendClip

end NumDraws

/-! ## Lifting -/

section Lift
variable {α : Type} {X Y : Type} {Er : Err → Prop}

theorem Wp.liftD {m : D c α} {b : Base c} {Q : α → Base c → Prop} {R : α → Prop} (h : DT Er m R)
    (hQ : ∀ a r v, R a → Q a { b with rng := r, vg := v }) : Wp Er (liftD m) b Q := by
  have h1 := h (b.rng, b.vg)
  unfold Wp Mealpy.liftD at *
  cases hm : m (b.rng, b.vg) with
  | error e => rw [hm] at h1; exact h1
  | ok p => rw [hm] at h1; exact hQ _ _ _ h1

theorem Wp.liftB {m : B c α} {s : St c X Y} {Q : α → St c X Y → Prop}
    (h : Wp Er m s.base (fun a b => Q a { s with base := b })) : Wp Er (liftB m) s Q := by
  unfold Wp Mealpy.liftB at *
  cases hm : m s.base with
  | error e => rw [hm] at h; exact h
  | ok p => rw [hm] at h; exact h

theorem Wp.draw {m : D c α} {s : St c X Y} {Q : α → St c X Y → Prop} {R : α → Prop} (h : DT Er m R)
    (hQ : ∀ a r v, R a → Q a { s with base := { s.base with rng := r, vg := v } }) :
    Wp Er (draw m) s Q :=
  Wp.liftB (Wp.liftD h hQ)

theorem Wp.getTarget {x : Vec d K} {b : Base c} {Q : Target K → Base c → Prop}
    (h : Q (c.P.target x) { b with log := b.log ++ [x], nfe := b.nfe + 1 }) :
    Wp Er (getTarget x) b Q := h

theorem Wp.getTarget' {x : Vec d K} {b : Base c} {Q : Target K → Base c → Prop}
    (h : Q (c.P.target x) { b with log := b.log ++ [x] }) :
    Wp Er (Mealpy.getTarget x (counted := false)) b Q := h

end Lift

end Mealpy
