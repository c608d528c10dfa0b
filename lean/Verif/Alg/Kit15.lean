import Verif.Alg.Kit14

/-! # Kit 15: code whose number of evaluations depends on its result -/

set_option linter.unusedSectionVars false
set_option linter.unusedVariables false

namespace Mealpy
open Spec

variable {d : Nat} {K : Type} [Num K] {c : Cfg d K} {X Y : Type} {α β : Type} {Er : Err → Prop} {I : Inv c X Y}

/-- code that keeps the invariant, returns `a` and makes `k` evaluations with `R a k` -/
def WC (Er : Err → Prop) (I : Inv c X Y) (m : M c X Y α) (R : α → Nat → Prop) : Prop :=
  ∀ s, WInv I s → Wp Er m s (fun a s' => ∃ k, WStep I k k s s' ∧ R a k)

theorem WC.of {k : Nat} {m : M c X Y α} {R : α → Prop} (h : WT Er I k k m R) : WC Er I m (fun a n => n = k ∧ R a) :=
  fun s hs => Wp.mono (h s hs) fun a s' h => ⟨k, h.1, rfl, h.2⟩

theorem WC.mono {m : M c X Y α} {R Q : α → Nat → Prop} (h : WC Er I m R) (hQ : ∀ a k, R a k → Q a k) : WC Er I m Q :=
  fun s hs => Wp.mono (h s hs) fun a s' ⟨k, h1, h2⟩ => ⟨k, h1, hQ a k h2⟩

theorem WC.pure {a : α} {R : α → Nat → Prop} (h : R a 0) : WC Er I (pure a : M c X Y α) R :=
  WC.mono (WC.of (WT.pure (R := fun x => x = a) rfl)) fun _ _ ⟨h1, h2⟩ => by rw [h1, h2]; exact h

theorem WC.bind {m : M c X Y α} {f : α → M c X Y β} {R : α → Nat → Prop} {Q : β → Nat → Prop} (h : WC Er I m R)
    (h' : ∀ a k, R a k → WC Er I (f a) (fun b n => Q b (k + n))) : WC Er I (m >>= f) Q := by
  intro s hs
  refine Wp.bind (Wp.mono (h s hs) ?_)
  rintro a s' ⟨k, g1, g2⟩
  refine Wp.mono (h' a k g2 s' g1.inv) ?_
  rintro b s'' ⟨n, k1, k2⟩
  exact ⟨k + n, g1.trans k1, k2⟩

/-- a first part without evaluations -/
theorem WC.bind0 {m : M c X Y α} {f : α → M c X Y β} {R : α → Prop} {Q : β → Nat → Prop} (h : WT Er I 0 0 m R)
    (h' : ∀ a, R a → WC Er I (f a) Q) : WC Er I (m >>= f) Q :=
  WC.bind (WC.of h) fun a k ⟨hk, ha⟩ => WC.mono (h' a ha) fun b n hn => by rw [hk, Nat.zero_add]; exact hn

theorem WC.ite {p : Prop} [Decidable p] {m n : M c X Y α} {R : α → Nat → Prop}
    (h : p → WC Er I m R) (h' : ¬ p → WC Er I n R) : WC Er I (if p then m else n) R :=
  fun s hs => Wp.ite (fun hp => h hp s hs) (fun hp => h' hp s hs)

theorem WC.iter {f : Nat → α → M c X Y α} (P : Nat → α → Nat → Prop) : ∀ (n : Nat) {a : α}, P 0 a 0 →
    (∀ (i : Nat) (a : α) (k : Nat), i < n → P i a k → WC Er I (f i a) (fun b j => P (i + 1) b (k + j))) →
    WC Er I (Mealpy.iter n f a) (P n)
  | 0, a, h0, _ => WC.pure h0
  | n + 1, a, h0, hf => WC.bind (WC.iter P n h0 (fun i a k hi => hf i a k (by omega))) fun a k h => hf n a k (by omega) h

theorem WC.wt {lo hi : Nat} {m : M c X Y α} {R : α → Prop} (h : WC Er I m (fun a k => lo ≤ k ∧ k ≤ hi ∧ R a)) : WT Er I lo hi m R :=
  fun s hs => Wp.mono (h s hs) fun a s' ⟨k, h1, h2, h3, h4⟩ => ⟨h1.weaken h2 h3, h4⟩

end Mealpy
