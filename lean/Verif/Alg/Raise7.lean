import Verif.Alg.Raise4

/-! # The elite variants of `GA` with a tournament that is too small -/

set_option linter.unusedSectionVars false
set_option linter.unusedVariables false

namespace Mealpy
open Spec

variable {d : Nat} {K : Type} [Num K] {c : Cfg d K} {X Y : Type}

theorem lt_iter_never {Er : Err → Prop} {I : LInv d K Y} {α : Type} {f : Nat → α → M c X Y α} {a : α} (h : LT Er I 0 0 (f 0 a) (fun _ => False)) :
    ∀ n, LT Er I 0 0 (iter (n + 1) f a : M c X Y α) (fun _ => False)
  | 0 => LT.bind0 (R := fun x => x = a) (LT.pure rfl) fun x hx => by rw [hx]; exact h
  | n + 1 => LT.neverBind (lt_iter_never h n)

namespace GA

/-- two parents cannot be taken from a tournament of one or none (`mealpy/evolutionary_based/GA.py:169-170`) -/
theorem parents_never (hE : c.E.Lawful) {p : Params K} (hs : p.sel = .tournament) {pop : List (Agent d K Nat)} (h0 : 0 ≤ p.kway.size pop.length)
    (h1 : p.kway.size pop.length ≤ 1) (hl : 1 ≤ pop.length) {Q : Nat × Nat → Prop} : DT (fun x => x = Err.value) (parents p pop : D c _) Q := by
  unfold parents
  rw [hs]
  refine DT.bind (DT.kwayIdx hE (by omega) h0 (by omega)) fun l hl => ?_
  have : l.length ≤ 1 := by omega
  match l, this with
  | [], _ => exact DT.throw rfl
  | [_], _ => exact DT.throw rfl

/-- one parent cannot be taken from an empty tournament (`mealpy/evolutionary_based/GA.py:191-192`) -/
theorem parent_never (hE : c.E.Lawful) {p : Params K} (hs : p.sel = .tournament) {pop : List (Agent d K Nat)} (h0 : p.kway.size pop.length = 0)
    {Q : Nat → Prop} : DT (fun x => x = Err.index) (parent p pop : D c _) Q := by
  unfold parent
  rw [hs]
  refine DT.bind (DT.kwayIdx hE (by omega) (by omega) (by omega)) fun l hl => DT.nth_never (by omega) rfl

theorem elite_never {er : Err} {p : Params K} {e : Elite} (hb : e.nBest < c.popSize)
    (h : ∀ pop : List (Agent d K Nat), pop.length = c.popSize → DT (fun x => x = er) (eliteParents p e pop : D c _) (fun _ => False)) {ep : Nat} :
    LT (fun x => x = er) (TI c) 1 0 (eliteEvolve p e ep : M c Nat Nat Unit) (fun _ => True) := by
  unfold eliteEvolve
  obtain ⟨n, hn⟩ : ∃ n, c.popSize - e.nBest = n + 1 := ⟨c.popSize - e.nBest - 1, by omega⟩
  rw [hn]
  refine LT.neverBind (lo := 0) (hi := 0) (lt_iter_never ?_ n)
  refine LT.neverBind (lo := 0) (hi := 0) ?_
  unfold single
  exact LT.bind0 LT.get fun s hs => LT.neverBind (lo := 0) (hi := 0) (LT.draw (h s.pop hs.len))

theorem elite_raises (hE : c.E.Lawful) (hP : c.P.Lawful) (hc : Accepted c 5) {er : Err} {p : Params K} {e : Elite} (hb : e.nBest < c.popSize)
    (h : ∀ pop : List (Agent d K Nat), pop.length = c.popSize → DT (fun x => x = er) (eliteParents p e pop : D c _) (fun _ => False))
    (o : RunOpts K) (hst : FeasibleStart c o.starting) (b : Base c) (h0 : b.log = []) :
    solve (Algo.tagged true (eliteEvolve p e) : Algo c Nat Nat) o b = .error er := by
  have hpop := hc.pop
  exact (Algo.tagged_lok hE hP (by omega) (fun x h => h) fun _ _ _ => elite_never hb h).raises hE (by omega) hc.epoch.1 o hst b h0

theorem elite_same_never (hE : c.E.Lawful) {p : Params K} {e : Elite} (hs : p.sel = .tournament) (h0 : e.strategy = 0) (hb : e.nBest < c.popSize)
    (hk0 : 0 ≤ p.kway.size (c.popSize - e.nBest)) (hk : p.kway.size (c.popSize - e.nBest) ≤ 1) (pop : List (Agent d K Nat)) (hl : pop.length = c.popSize) :
    DT (fun x => x = Err.value) (eliteParents p e pop : D c _) (fun _ => False) := by
  have hd : (pop.drop e.nBest).length = c.popSize - e.nBest := by rw [List.length_drop, hl]
  unfold eliteParents
  rw [if_pos h0]
  exact DT.neverBind (parents_never hE hs (by rw [hd]; exact hk0) (by rw [hd]; exact hk) (by omega))

theorem elite_two_never (hE : c.E.Lawful) {p : Params K} {e : Elite} (hs : p.sel = .tournament) (h0 : e.strategy ≠ 0) (hb : e.nBest + e.nWorst ≤ c.popSize)
    (hk : p.kway.size e.nWorst = 0) (pop : List (Agent d K Nat)) (hl : pop.length = c.popSize) :
    DT (fun x => x = Err.index) (eliteParents p e pop : D c _) (fun _ => False) := by
  have hd : ((pop.drop e.nBest).take e.nWorst).length = e.nWorst := by rw [List.length_take, List.length_drop, hl]; omega
  unfold eliteParents
  rw [if_neg h0]
  exact DT.neverBind (parent_never hE hs (by rw [hd]; exact hk))

end GA

end Mealpy
