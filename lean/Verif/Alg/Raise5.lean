import Verif.Alg.Raise4
import Verif.Alg.Simple17
import Verif.Alg.Simple18

/-! # Populations that become too short for the next loop -/

set_option linter.unusedSectionVars false
set_option linter.unusedVariables false

namespace Mealpy
open Spec

variable {d : Nat} {K : Type} [Num K] {c : Cfg d K} {X Y α β : Type} {e : Err} {Er : Err → Prop}

/-- code that does not lengthen a population of at most `k` agents -/
def Cap (Er : Err → Prop) (k : Nat) (m : M c X Y α) : Prop :=
  ∀ s : St c X Y, s.pop.length ≤ k → Wp Er m s (fun _ s' => s'.pop.length ≤ k)

namespace Cap
variable {k : Nat}

theorem pure {a : α} : Cap Er k (Pure.pure a : M c X Y α) := fun _ hs => Wp.pure hs

theorem bind {m : M c X Y α} {f : α → M c X Y β} (h : Cap Er k m) (h' : ∀ a, Cap Er k (f a)) : Cap Er k (m >>= f) :=
  fun s hs => Wp.bind (Wp.mono (h s hs) fun a s' hs' => h' a s' hs')

theorem get : Cap Er k (MonadState.get : M c X Y _) := fun _ hs => Wp.get hs

theorem ite {p : Prop} [Decidable p] {m n : M c X Y α} (h : Cap Er k m) (h' : Cap Er k n) : Cap Er k (if p then m else n) :=
  fun s hs => Wp.ite (fun _ => h s hs) fun _ => h' s hs

theorem draw {m : D c α} {R : α → Prop} (h : DT Er m R) : Cap Er k (Mealpy.draw m : M c X Y α) :=
  fun _ hs => Wp.draw h fun _ _ _ _ => hs

theorem modExt {f : Y → Y} : Cap Er k (Mealpy.modExt f : M c X Y Unit) := fun _ hs => Wp.modify hs

theorem popAt {i : Nat} (he : Er .index) : Cap Er k (Mealpy.popAt i : M c X Y _) := by
  intro s hs
  by_cases hi : i < s.pop.length
  · exact Wp.popAt hi hs
  · unfold Wp Mealpy.popAt
    rw [List.getElem?_eq_none (by omega)]
    exact he

theorem setAt {i : Nat} {a : Agent d K X} (he : Er .index) : Cap Er k (Mealpy.setAt i a : M c X Y Unit) := by
  intro s hs
  unfold Wp Mealpy.setAt
  by_cases hi : i < s.pop.length
  · rw [if_pos hi]
    show (s.pop.set i a).length ≤ k
    rwa [List.length_set]
  · rw [if_neg hi]
    exact he

theorem agentOf {mkExt : Vec d K → D c X} {x : Vec d K} (h : DT Er (mkExt x) (fun _ => True)) : Cap Er k (liftB (Mealpy.agentOf mkExt x) : M c X Y _) :=
  fun _ hs => Wp.liftB (Wp.mono (agentOf_spec (F := fun _ => True) h) fun _ _ _ => hs)

theorem generateAgent (hP : c.P.Lawful) {mkExt : Vec d K → D c X} (h : ∀ x, DT Er (mkExt x) (fun _ => True)) :
    Cap Er k (liftB (Mealpy.generateAgent mkExt) : M c X Y _) :=
  fun _ hs => Wp.liftB (Wp.mono (generateAgent_spec hP (F := fun _ => True) fun x _ => h x) fun _ _ _ => hs)

theorem iter {n : Nat} {f : Nat → α → M c X Y α} {a : α} (h : ∀ i a, i < n → Cap Er k (f i a)) : Cap Er k (Mealpy.iter n f a) :=
  fun s hs => Wp.iter (fun _ _ (s' : St c X Y) => s'.pop.length ≤ k) n hs fun i a s' hi hs' => h i a hi s' hs'

/-- a loop whose last rounds index past the end -/
theorem iterNever {n j : Nat} {f : Nat → α → M c X Y α} {a : α} (hj : j < n) (h : ∀ i a, i < j → Cap Er k (f i a))
    (h' : ∀ a (s : St c X Y), s.pop.length ≤ k → Wp Er (f j a) s (fun _ _ => False)) (s : St c X Y) (hs : s.pop.length ≤ k) :
    Wp Er (Mealpy.iter n f a) s (fun _ _ => False) := by
  refine Wp.mono (Wp.iter (fun i _ (s' : St c X Y) => i ≤ j ∧ s'.pop.length ≤ k) n ⟨Nat.zero_le j, hs⟩ ?_) fun _ _ h => by omega
  rintro i a s' hi ⟨hij, hs'⟩
  rcases Nat.lt_or_eq_of_le hij with hlt | rfl
  · exact Wp.mono (h i a hlt s' hs') fun _ _ h => ⟨hlt, h⟩
  · exact Wp.mono (h' a s' hs') fun _ _ h => h.elim

end Cap

namespace OriginalBFO

theorem halves_le {α : Type} (o : List Nat) (l : List α) : (halves (c := c) o l).length ≤ 2 * (c.popSize / 2) := by
  unfold halves
  have h : ((o.take (c.popSize / 2)).filterMap (fun i => l[i]?)).length ≤ c.popSize / 2 :=
    le_trans (List.length_filterMap_le _ _) (by rw [List.length_take]; exact min_le_left _ _)
  simp only [List.length_append]
  omega

theorem cap_stroke (hP : c.P.Lawful) {k : Nat} {p : Params K} {idx : Nat} {cst : K} {q : Bool × K} : Cap (fun x => x = Err.index) k (stroke p idx cst q : M c Unit (Cells K) _) := by
  unfold stroke tryComp
  exact Cap.ite Cap.pure (Cap.bind (Cap.draw (R := fun _ => True) (by dprim)) fun r => Cap.bind (Cap.popAt rfl) fun a => Cap.bind (Cap.draw (DT.correct hP)) fun pos =>
    Cap.bind (Cap.bind (Cap.agentOf (DT.pure trivial)) fun a => Cap.bind (Cap.popAt rfl) fun old => Cap.ite (Cap.bind (Cap.setAt rfl) fun _ => Cap.pure) Cap.pure) fun won =>
      Cap.ite (Cap.bind Cap.modExt fun _ => Cap.pure) Cap.pure)

theorem cap_swim (hP : c.P.Lawful) {k : Nat} {p : Params K} {idx : Nat} : Cap (fun x => x = Err.index) k (swim p idx : M c Unit (Cells K) _) := by
  unfold swim
  exact Cap.bind Cap.get fun s => Cap.bind (Cap.popAt rfl) fun a => Cap.bind (Cap.iter fun i q _ => cap_stroke hP) fun q => Cap.modExt

theorem cap_disperse (hP : c.P.Lawful) {k : Nat} {p : Params K} {idc : Nat} : Cap (fun x => x = Err.index) k (disperse p idc : M c Unit (Cells K) _) := by
  unfold disperse
  exact Cap.bind (Cap.draw (R := fun _ => True) (by dprim)) fun u => Cap.ite (Cap.bind (Cap.generateAgent hP fun _ => DT.pure trivial) fun a => Cap.bind (Cap.setAt rfl) fun _ => Cap.modExt) Cap.pure

/-- the swimming is over every slot up to `pop_size`, whatever the length of the population -/
theorem swim_never (hP : c.P.Lawful) {k : Nat} {p : Params K} (hk : k < c.popSize) (s : St c Unit (Cells K)) (hs : s.pop.length ≤ k) :
    Wp (fun x => x = Err.index) (iter c.popSize (fun idx _ => swim p idx) () : M c Unit (Cells K) _) s (fun _ _ => False) := by
  refine Cap.iterNever (j := k) hk (fun i _ _ => cap_swim hP) (fun _ s hs => ?_) s hs
  unfold swim
  refine Wp.bind (Wp.get (Wp.bind ?_))
  unfold Wp popAt
  rw [List.getElem?_eq_none hs]

/-- with an odd `pop_size` the halving loses a cell, and the next chemotactic step indexes it (`mealpy/swarm_based/BFO.py:149-170`) -/
theorem raises (hE : c.E.Lawful) (hP : c.P.Lawful) (hc : Accepted c 5) (p : Params K) (h : c.popSize % 2 = 1) (hn : 2 ≤ p.nc)
    (o : RunOpts K) (hst : FeasibleStart c o.starting) (b : Base c) (hb : b.log = []) : solve (algo p : Algo c Unit (Cells K)) o b = .error .index := by
  have hpop := hc.pop
  have hep := hc.epoch
  have hlt : 2 * (c.popSize / 2) < c.popSize := by omega
  refine (Algo.std_lok (Er := fun x => x = Err.index) (I := (⟨fun _ => True, fun n => n = c.popSize, JT⟩ : LInv d K (Cells K)))
    (lo := 1) (hi := 0) hE hP rfl (fun n hn => by have : n = c.popSize := hn; omega) (fun _ _ => trivial) rfl rfl (fun _ => DT.pure trivial) (DT.pure trivial) fun ep _ _ => ?_).raises hE (by omega) (by omega) o hst b hb
  show LT _ _ _ _ (evolve p ep) _
  intro s hs
  unfold evolve
  refine Wp.mono (Wp.iter (fun i _ (s' : St c Unit (Cells K)) => i ≤ 1 ∧ (i = 1 → s'.pop.length ≤ 2 * (c.popSize / 2))) p.nc ⟨Nat.zero_le 1, fun h => by omega⟩ ?_) fun _ _ h => by omega
  rintro i a s' hi ⟨hi1, hs'⟩
  unfold chem
  rcases Nat.lt_or_eq_of_le hi1 with hlt1 | rfl
  · refine Wp.bind (Wp.mono (Cap.iter (fun i _ _ => cap_swim hP) s' le_rfl) fun _ s2 _ => Wp.bind (Wp.get (Wp.bind (Wp.modify (Wp.bind (Wp.modify ?_))))))
    exact Wp.mono (Cap.iter (fun i _ _ => cap_disperse hP) _ (halves_le _ s2.pop)) fun _ s3 h3 => ⟨by omega, fun _ => h3⟩
  · exact Wp.bind (Wp.mono (swim_never hP hlt s' (hs' rfl)) fun _ _ h => h.elim)

end OriginalBFO

namespace CleverBookBeesA

/-- with one decision variable there is no index below `n_dims - 1` to draw (`mealpy/swarm_based/BeesA.py:98-99`) -/
theorem raises (hE : c.E.Lawful) (hP : c.P.Lawful) (hc : Accepted c 5) (p : Params K) (hd : d = 1) (h1 : 1 ≤ p.sites) (h2 : 1 ≤ p.elites) (h3 : 1 ≤ p.others)
    (o : RunOpts K) (hst : FeasibleStart c o.starting) (b : Base c) (hb : b.log = []) : solve (algo p : Algo c Unit Unit) o b = .error .value := by
  have hpop := hc.pop
  have hep := hc.epoch
  have hs0 : LT (fun x => x = Err.value) (⟨fun _ => True, fun n => n = c.popSize, JT⟩ : LInv d K Unit) 0 0 (scout p 0 : M c Unit Unit _) (fun _ => False) := by
    unfold scout
    rw [if_pos (by omega)]
    refine LT.bind0 (LT.popAt fun n hn => by have : n = c.popSize := hn; omega) fun a _ => LT.neverBind (lo := 0) (hi := 0) (LT.buildEvalNever (by split <;> omega) fun s hs => ?_)
    unfold neighbour
    exact DT.neverBind (DT.integers_never (by omega) rfl)
  refine (Algo.std_lok (Er := fun x => x = Err.value) (I := (⟨fun _ => True, fun n => n = c.popSize, JT⟩ : LInv d K Unit))
    (lo := 1) (hi := 0) hE hP rfl (fun n hn => by have : n = c.popSize := hn; omega) (fun _ _ => trivial) rfl rfl (fun _ => DT.pure trivial) (DT.pure trivial) fun ep _ _ => ?_).raises hE (by omega) (by omega) o hst b hb
  show LT _ _ _ _ (evolve p ep) _
  unfold evolve
  refine LT.ite (fun _ => LT.neverBind (lo := 0) (hi := 0) ?_) fun _ => ?_
  · exact LT.iterNever (l1 := 0) (h1 := 0) (lo := 0) (hi := 0) (k := 0) (by omega) (fun i _ hi => absurd hi (Nat.not_lt_zero i)) fun _ => LT.neverBind hs0
  · exact LT.iterNever (l1 := 0) (h1 := 0) (lo := 0) (hi := 0) (k := 0) (by omega) (fun i _ hi => absurd hi (Nat.not_lt_zero i)) fun _ => LT.neverBind hs0

end CleverBookBeesA

end Mealpy
