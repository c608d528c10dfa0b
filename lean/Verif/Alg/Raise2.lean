import Verif.Alg.Raise
import Verif.Alg.Simple4
import Verif.Witness

/-! # More runs that always raise, and the arithmetic assumption of `OriginalIWO` -/

set_option linter.unusedSectionVars false
set_option linter.unusedVariables false

namespace Mealpy
open Spec

variable {d : Nat} {K : Type} [Num K] {c : Cfg d K} {X Y : Type} {e : Err}

/-- the usual loop raises if making the `k`-th position does -/
theorem greedyLoop_raisesAt {k : Nat} (hk : k < c.popSize) {mk : St c X Y → Nat → D c (Vec d K × X)} (s : St c X Y)
    (hs : s.pop.length = c.popSize)
    (h : ∀ (s : St c X Y) i, s.pop.length = c.popSize → i < k → DT (fun x => x = e) (mk s i) (fun _ => True))
    (h' : ∀ (s : St c X Y), s.pop.length = c.popSize → DT (fun x => x = e) (mk s k) (fun _ => False)) :
    Wp (fun x => x = e) (greedyLoop c.popSize mk) s (fun _ _ => False) := by
  have hany : ∀ (s : St c X Y) i, s.pop.length = c.popSize → i ≤ k → DT (fun x => x = e) (mk s i) (fun _ => i < k) := by
    intro s i hs hi
    rcases Nat.lt_or_eq_of_le hi with h1 | rfl
    · exact DT.mono (h s i hs h1) fun _ _ => h1
    · exact DT.mono (h' s hs) fun _ h => h.elim
  unfold greedyLoop
  by_cases hm : c.swarmLike = true
  · rw [if_pos hm]
    refine Wp.bind (Wp.get ?_)
    refine Wp.bind (Wp.draw (R := fun _ => False) ?_ fun _ _ _ h => h.elim)
    intro g
    refine Wp.mono (Wp.iter (fun i _ _ => i ≤ k) c.popSize (Nat.zero_le k) ?_) fun _ _ h => by omega
    rintro i a g' hi hik
    exact Wp.bind (Wp.mono (hany s i hs hik g') fun _ _ h => Wp.pure (by omega))
  · rw [if_neg hm]
    refine Wp.mono (Wp.iter (fun i _ (s' : St c X Y) => i ≤ k ∧ s'.pop.length = c.popSize) c.popSize ⟨Nat.zero_le k, hs⟩ ?_) fun _ _ h => by omega
    rintro i a s' hi ⟨hik, hl⟩
    refine Wp.bind (Wp.get ?_)
    refine Wp.bind (Wp.draw (hany s' i hl hik) fun p r v h1 => ?_)
    unfold tryBetter
    refine Wp.bind (Wp.liftB (Wp.getTarget ?_))
    refine Wp.bind (Wp.popAt (by show i < s'.pop.length; omega) ?_)
    refine Wp.setAt (by show i < s'.pop.length; omega) ⟨by omega, by simpa using hl⟩

/-- when the clans do not use up the population the first epoch raises IndexError (`mealpy/swarm_based/EHO.py:91-98`) -/
theorem OriginalEHO.raises (hE : c.E.Lawful) (hP : c.P.Lawful) (hc : Accepted c 5) (p : OriginalEHO.Params K) (h0 : 0 < p.nInd)
    (hlt : p.nClans * p.nInd < c.popSize) (o : RunOpts K) (hst : FeasibleStart c o.starting) (b : Base c) (hlog : b.log = []) :
    solve (OriginalEHO.algo p) o b = .error .index := by
  have hep := hc.epoch
  have hpop := hc.pop
  refine solve_raises hE hP (by omega) (by omega) rfl rfl (fun _ => DT.pure trivial) (DT.pure trivial) (fun ep s hl => ?_) o hst b hlog
  show Wp _ (OriginalEHO.evolve p ep) s _
  unfold OriginalEHO.evolve
  obtain ⟨g1, -, g3, -⟩ := C22_groups s.pop p.nClans p.nInd
  have g3 := g3 (by omega)
  refine Wp.bind (Wp.get ?_)
  refine Wp.bind (Wp.mono (greedyLoop_raisesAt hlt s hl ?_ ?_) fun _ _ h => h.elim)
  · intro s' i hl' hi
    have h1 : i / p.nInd < p.nClans := Nat.div_lt_of_lt_mul (by rw [Nat.mul_comm]; omega)
    have h3 : i % p.nInd < p.nInd := Nat.mod_lt _ h0
    refine DT.bind (DT.nth_mem (by omega)) fun g hg => ?_
    have := g3 g hg
    refine DT.bind (DT.nth_mem (by omega)) fun x _ => DT.bind (DT.nth_mem (by omega)) fun y _ => ?_
    dgo
  · intro s' hl' g
    refine Wp.bind (Wp.of_err (e := .index) ?_ rfl)
    unfold nth
    rw [Nat.mul_div_cancel _ h0, List.getElem?_eq_none (by omega)]
    rfl

/-- over ℚ the assumption `OriginalIWO.Sows` holds for every accepted `seed_min` and `seed_max` -/
theorem OriginalIWO.sows_rat (p : OriginalIWO.Params ℚ) (h1 : 1 ≤ p.seedMin) (h2 : p.seedMin ≤ p.seedMax) : OriginalIWO.Sows p where
  ratio f w b h hne := by
    rcases h with ⟨h3, h4⟩ | ⟨h3, h4⟩
    · exact div_nonneg (by linarith) (by linarith)
    · exact div_nonneg_of_nonpos (by linarith) (by linarith)
  one r hr := by
    have e1 : (1 : ℚ) ≤ p.seedMin := by exact_mod_cast h1
    have e2 : (p.seedMin : ℚ) ≤ p.seedMax := by exact_mod_cast h2
    have : (1 : ℚ) ≤ p.seedMin + (p.seedMax - p.seedMin) * r := by nlinarith [mul_nonneg (sub_nonneg.2 e2) hr]
    show 1 ≤ -⌊-((p.seedMin : ℚ) + (p.seedMax - p.seedMin) * r)⌋
    have : ⌊-((p.seedMin : ℚ) + (p.seedMax - p.seedMin) * r)⌋ ≤ -1 := by
      have h5 : (⌊-((p.seedMin : ℚ) + (p.seedMax - p.seedMin) * r)⌋ : ℚ) ≤ -((p.seedMin : ℚ) + (p.seedMax - p.seedMin) * r) := Int.floor_le _
      have : (⌊-((p.seedMin : ℚ) + (p.seedMax - p.seedMin) * r)⌋ : ℚ) ≤ ((-1 : Int) : ℚ) := by push_cast; linarith
      exact_mod_cast this
    omega

end Mealpy
