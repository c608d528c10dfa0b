import Verif.Alg.Kit13

/-! # More shapes: in-place moves, evaluation during initialization -/

set_option linter.unusedSectionVars false
set_option linter.unusedVariables false

namespace Mealpy
open Spec

variable {d : Nat} {K : Type} [Num K] {c : Cfg d K} {X Y : Type} {Er : Err → Prop}

/-! ## Evaluation at the level of `B` -/

theorem BT.getTarget {x : Vec d K} (hx : Feas c x) : BT Er 1 1 (Mealpy.getTarget x : B c _) (fun t => t = c.P.target x) :=
  fun b => Wp.getTarget ⟨⟨[x], rfl, by simp, by simp, by simpa using hx⟩, rfl⟩

theorem BT.updateTargets (hE : c.E.Lawful) (hm : c.swarmLike = true) {pend : List (Vec d K × X)} (hp : ∀ p ∈ pend, Feas c p.1) :
    BT Er pend.length pend.length (Mealpy.updateTargets pend : B c _) (fun l => l.length = pend.length ∧ ∀ a ∈ l, CF c a) := by
  intro b
  refine Wp.mono (updateTargets_spec hE hm pend b) ?_
  rintro new b' ⟨rfl, xs, h1, h2, h3⟩
  have hl : xs.length = pend.length := by rw [h1.length_eq]; simp
  refine ⟨⟨xs, h2, by omega, by omega, ?_⟩, by simp [evaluated], ?_⟩
  · intro x hx
    obtain ⟨p, hpm, rfl⟩ := List.mem_map.1 (h1.mem_iff.1 hx)
    exact hp p hpm
  · intro a ha
    obtain ⟨p, hpm, rfl⟩ := List.mem_map.1 ha
    exact ⟨rfl, hp p hpm⟩

/-- `buildEval` for `initialization`:

```
for idx in range(n):
    ...                                   # mk
    pop_new.append(agent)
    if self.mode not in self.AVAILABLE_MODES:
        pop_new[-1].target = self.get_target(pos_new)
pop_new = self.update_target_for_population(pop_new)
``` -/
def buildB (n : Nat) (mk : Nat → D c (Vec d K × X)) : B c (List (Agent d K X)) :=
  if c.swarmLike then do
    let pend ← liftD (repM n mk)
    updateTargets pend
  else
    iter n (fun i acc => do
      let p ← liftD (mk i)
      let t ← getTarget p.1
      pure (acc ++ [⟨p.1, t, p.2⟩])) []

theorem BT.buildB (hE : c.E.Lawful) {n : Nat} {mk : Nat → D c (Vec d K × X)} (hmk : ∀ i, i < n → DT Er (mk i) (fun p => Feas c p.1)) :
    BT Er n n (Mealpy.buildB n mk : B c _) (fun l => l.length = n ∧ ∀ a ∈ l, CF c a) := by
  unfold Mealpy.buildB
  refine BT.ite (fun hm => ?_) fun _ => ?_
  · refine BT.bind0 (BT.liftD (DT.repM hmk)) fun pend hpend => ?_
    have h := BT.updateTargets (Er := Er) hE hm hpend.2
    rw [hpend.1] at h
    exact h
  · have h := BT.iter (Er := Er) (c := c) (lo := 1) (hi := 1) (f := fun i (acc : List (Agent d K X)) => do
      let p ← Mealpy.liftD (mk i)
      let t ← Mealpy.getTarget p.1
      Pure.pure (acc ++ [(⟨p.1, t, p.2⟩ : Agent d K X)])) (fun i (l : List (Agent d K X)) => l.length = i ∧ ∀ a ∈ l, CF c a) n (a := []) (by simp) fun i l hi hl => ?_
    · rw [Nat.mul_one] at h
      exact h
    · refine BT.bind0 (BT.liftD (hmk i hi)) fun p hp => BT.bindS (BT.getTarget hp) le_rfl fun t ht => BT.weaken (BT.pure ⟨by simp [hl.1], ?_⟩) (by omega) (by omega)
      intro a ha
      rcases List.mem_append.1 ha with g | g
      · exact hl.2 a g
      · rw [List.mem_singleton.1 g]
        exact ⟨ht, hp⟩

/-! ## In-place moves

The agents of the population are moved one after the other, later moves see earlier ones; `mk` gives a slot and its new position. -/

/-- the moves before the evaluation, on the positions -/
def movePos (n : Nat) (mk : List (Vec d K) → Nat → D c (Nat × Vec d K)) (ps : List (Vec d K)) : D c (List (Vec d K)) :=
  iter n (fun i ps => do
    let q ← mk ps i
    pure (ps.set q.1 q.2)) ps

/-- evaluate a list chunk by chunk, `k` chunks of `m` agents (`mealpy/human_based/BSO.py:126-128`) -/
def evalChunks (k m : Nat) (pend : List (Vec d K × X)) : M c X Y (List (Agent d K X)) :=
  iter k (fun i acc => do
    let new ← evalAll ((pend.drop (i * m)).take m)
    pure (acc ++ new)) []

theorem WT.evalChunks {I : Inv c X Y} (hE : c.E.Lawful) {k m : Nat} {pend : List (Vec d K × X)} (hl : pend.length = k * m) (hp : ∀ p ∈ pend, I.Mk p) :
    WT Er I (k * m) (k * m) (Mealpy.evalChunks k m pend : M c X Y _) (fun l => l.length = k * m ∧ ∀ a ∈ l, I.Ag a) := by
  unfold Mealpy.evalChunks
  refine WT.iter (fun i (l : List (Agent d K X)) => l.length = i * m ∧ ∀ a ∈ l, I.Ag a) k (by simp) fun i l hi hl' => ?_
  have hlen : ((pend.drop (i * m)).take m).length = m := by
    have : (i + 1) * m ≤ k * m := Nat.mul_le_mul_right m hi
    rw [List.length_take, List.length_drop, hl]
    rw [Nat.add_mul, Nat.one_mul] at this
    omega
  have h := WT.evalAll (Er := Er) (I := I) hE (pend := (pend.drop (i * m)).take m) fun p hpm => hp p (List.mem_of_mem_drop (List.mem_of_mem_take hpm))
  rw [hlen] at h
  refine WT.bindS h le_rfl fun new hnew => WT.weaken (WT.pure ⟨?_, fun a ha => ?_⟩) (by omega) (by omega)
  · rw [List.length_append, hl'.1, hnew.1, Nat.add_mul, Nat.one_mul]
  · rcases List.mem_append.1 ha with g | g
    · exact hl'.2 a g
    · exact hnew.2 a g

theorem Framed.evalChunks {q : Bool} (hE : c.E.Lawful) {k m : Nat} {pend : List (Vec d K × X)} : Framed q (Mealpy.evalChunks k m pend : M c X Y _) := by
  unfold Mealpy.evalChunks; framed

macro_rules
  | `(tactic| fprim) => `(tactic| (at_last Mealpy.evalChunks; exact Framed.evalChunks (by assumption)))

theorem DT.movePos {n : Nat} {mk : List (Vec d K) → Nat → D c (Nat × Vec d K)} {Q : Vec d K → Prop} {ps : List (Vec d K)} {N : Nat} (hl : ps.length = N)
    (h0 : ∀ x ∈ ps, Q x) (hmk : ∀ ps i, ps.length = N → (∀ x ∈ ps, Q x) → i < n → DT Er (mk ps i) (fun q => q.1 < N ∧ Q q.2)) :
    DT Er (Mealpy.movePos n mk ps : D c _) (fun l => l.length = N ∧ ∀ x ∈ l, Q x) := by
  unfold Mealpy.movePos
  refine DT.iter (fun _ (l : List (Vec d K)) => l.length = N ∧ ∀ x ∈ l, Q x) n ⟨hl, h0⟩ fun i l hi h => DT.bind (hmk l i h.1 h.2 hi) fun q hq => DT.pure ⟨?_, fun x hx => ?_⟩
  · rw [List.length_set]; exact h.1
  · rcases List.mem_or_eq_of_mem_set hx with g | g
    · exact h.2 x g
    · rw [g]; exact hq.2

end Mealpy
