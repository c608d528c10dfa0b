import Verif.Alg.GA
import Verif.Alg.HBO
import Verif.Alg.Kit21
import Verif.Alg.Sharing

/-! # Genetic algorithms and the heap-based optimizer with any setting

What holds when mutations write into the arrays of the parents, and when sizes or dimensions do not suit the operators. -/

set_option linter.unusedSectionVars false
set_option linter.unusedVariables false

namespace Mealpy
open Spec

variable {d : Nat} {K : Type} [Num K] {c : Cfg d K} {X Y : Type} {Er : Err → Prop}

theorem LT.reshape {I : LInv d K Y} {f : List (Agent d K X) → List (Agent d K X)} (h : ∀ pop, I.size pop.length → I.size (f pop).length) :
    LT Er I 0 0 (Mealpy.reshape f : M c X Y Unit) (fun _ => True) :=
  fun s hs => Wp.modify ⟨.pop hs (h _ hs.len), trivial⟩

theorem LT.write {I : LInv d K Y} {a : Arr d K} {v : Vec d K} : LT Er I 0 0 (Arr.write a v : M c Nat Y _) (fun _ => True) := by
  unfold Arr.write
  split
  · exact LT.bind0 LT.poke fun _ _ => LT.pure trivial
  · exact LT.bind0 (LT.pure (R := fun _ => True) trivial) fun _ _ => LT.pure trivial

namespace GA

variable {p : Params K} {e : Elite}

theorem dt_parents_tol (hE : c.E.Lawful) (hv : Er .value) {pop : List (Agent d K Nat)} :
    DT Er (parents p pop : D c (Nat × Nat)) (fun _ => True) := by
  unfold parents
  split
  · exact DT.bind (DT.rouletteIdx_tol hE hv) fun i _ => DT.bind (DT.pickWithout_tol hE hv) fun j _ => DT.pure trivial
  · exact DT.mono (DT.choose2_tol hE hv) fun _ _ => trivial
  · exact DT.bind (DT.kwayIdx_tol hE (by omega) hv) fun l _ => DT.mono (DT.unpack2_tol hv) fun _ _ => trivial

theorem dt_parent_tol (hE : c.E.Lawful) (hv : Er .value) (hi : Er .index) {pop : List (Agent d K Nat)} :
    DT Er (parent p pop : D c Nat) (fun _ => True) := by
  unfold parent
  split
  · exact DT.mono (DT.rouletteIdx_tol hE hv) fun _ _ => trivial
  · exact DT.mono (DT.index_tol hE hv) fun _ _ => trivial
  · exact DT.bind (DT.kwayIdx_tol hE (by omega) hv) fun l _ => DT.mono (DT.nth_tol hi) fun _ _ => trivial

theorem dt_cross_tol (hE : c.E.Lawful) (hv : Er .value) {r : K} {x y : Agent d K Nat} :
    DT Er (cross p r x y : D c (Arr d K × Arr d K)) (fun _ => True) := by
  unfold cross
  refine DT.ite (fun _ => DT.bind (R := fun _ => True) ?_ fun _ _ => DT.pure trivial) fun _ => DT.pure trivial
  unfold crossover
  split
  · exact DT.bind DT.uniform' fun _ _ => DT.pure trivial
  · exact DT.bind (DT.integers_tol hE hv) fun _ _ => DT.pure trivial
  · exact DT.bind (DT.choose2_tol hE hv) fun _ _ => DT.pure trivial
  · exact DT.bind (DT.vecM (Q := fun _ _ => True) fun j => DT.mono (DT.integers_tol hE hv) fun _ _ => trivial) fun _ _ => DT.pure trivial

theorem lt_mutate {I : LInv d K Nat} (hE : c.E.Lawful) (hP : c.P.Lawful) (hv : Er .value) {a : Arr d K} :
    LT Er I 0 0 (mutate p a : M c Nat Nat (Arr d K)) (fun _ => True) := by
  unfold mutate
  refine LT.ite (fun _ => ?_) fun _ => ?_
  · split
    · exact LT.bind0 (LT.draw (DT.pickWithout_tol hE hv)) fun _ _ => LT.write
    · exact LT.bind0 (LT.draw (DT.genSolution hP)) fun x _ => LT.bind0 (LT.draw DT.uniformVec') fun u _ => LT.pure trivial
  · split
    · exact LT.bind0 (LT.draw (DT.choose2_tol hE hv)) fun _ _ => LT.write
    · exact LT.bind0 (LT.draw (DT.choose2_tol hE hv)) fun _ _ => LT.write
    · exact LT.bind0 (LT.draw (DT.choose2_tol hE hv)) fun _ _ => LT.bind0 (LT.draw (DT.permutation hE)) fun _ _ => LT.write
    · exact LT.bind0 (LT.draw (DT.index_tol hE hv)) fun _ _ => LT.bind0 (LT.draw DT.uniform') fun _ _ => LT.write

theorem lt_pair (hE : c.E.Lawful) (hP : c.P.Lawful) (hv : Er .value) (hi : Er .index) :
    LT Er (TI c) 0 0 (pair p : M c Nat Nat _) (fun l => l.length = 2 ∧ ∀ q ∈ l, Feas c q.1) := by
  unfold pair
  refine LT.bind0 LT.get fun s _ => LT.bind0 (LT.draw (dt_parents_tol hE hv)) ?_
  rintro ⟨i, j⟩ _
  refine LT.bind0 (LT.draw (DT.nth_tol hi)) fun x _ => LT.bind0 (LT.draw (DT.nth_tol hi)) fun y _ => ?_
  refine LT.bind0 (LT.draw DT.random') fun r _ => LT.bind0 (LT.draw (dt_cross_tol hE hv)) ?_
  rintro ⟨a, b⟩ _
  refine LT.bind0 (lt_mutate hE hP hv) fun a _ => LT.bind0 (lt_mutate hE hP hv) fun b _ => ?_
  refine LT.bind0 (LT.draw (DT.correct hP)) fun x1 h1 => LT.bind0 (LT.draw (DT.correct hP)) fun x2 h2 => ?_
  refine LT.bind0 (LT.fresh fun _ _ => trivial) fun r1 _ => LT.bind0 (LT.fresh fun _ _ => trivial) fun r2 _ => LT.pure ⟨rfl, fun q hq => ?_⟩
  simp only [List.mem_cons, List.not_mem_nil, or_false] at hq
  rcases hq with rfl | rfl
  · exact h1
  · exact h2

theorem lt_survive (hE : c.E.Lawful) (hv : Er .value) (hi : Er .index) {new : List (Agent d K Nat)} :
    LT Er (TI c) 0 0 (survive new : M c Nat Nat Unit) (fun _ => True) := by
  unfold survive
  refine LT.bind0 LT.get fun s hs => ?_
  have hlen : s.pop.length = c.popSize := hs.len
  refine LT.bind0 (LT.draw (R := fun l => l.length = c.popSize ∧ ∀ i ∈ l, i < c.popSize) (DT.repM fun i _ => ?_)) fun ids hids => ?_
  · refine DT.bind (DT.kwayIdx_tol hE (by omega) hv) fun l hl => ?_
    exact DT.mono (DT.nth_tol hi) fun q hq => by have := hl _ hq; omega
  refine LT.ite (fun h => LT.throw hi) fun hn => LT.reshape fun pop hpl => ?_
  have hpl : pop.length = c.popSize := hpl
  show (List.filterMap _ _).length = c.popSize
  rw [List.length_filterMap_eq_countP, List.countP_eq_length.2, List.length_zip]
  · omega
  · rintro ⟨a, i⟩ hq
    have : i < pop.length := by rw [hpl]; exact hids.2 i (List.of_mem_zip hq).2
    simp [this]

theorem lt_evolve (hE : c.E.Lawful) (hP : c.P.Lawful) {ep : Nat} :
    LT (only [.value, .index]) (TI c) (c.popSize - 1) c.popSize (evolve p ep : M c Nat Nat Unit) (fun _ => True) := by
  have hv : only [.value, .index] .value := by simp [only]
  have hi : only [.value, .index] .index := by simp [only]
  unfold evolve
  refine LT.bind0 (LT.weaken (LT.iter (lo := 0) (hi := 0)
    (fun i (l : List (Vec d K × Nat)) => l.length = 2 * i ∧ ∀ q ∈ l, Feas c q.1) _ ⟨rfl, by simp⟩ fun i acc hi' hacc => ?_)
      (by omega) (by omega)) fun kids hk => ?_
  · refine LT.bind0 (lt_pair hE hP hv hi) fun l hl => LT.pure ⟨by rw [List.length_append]; omega, fun q hq => ?_⟩
    rcases List.mem_append.1 hq with h | h
    · exact hacc.2 q h
    · exact hl.2 q h
  · exact LT.weaken (LT.bindL (LT.evalAll hE hk.2) fun new _ => lt_survive hE hv hi) (by omega) (by omega)

theorem dt_eliteParents_tol (hE : c.E.Lawful) (hv : Er .value) (hi : Er .index) {pop : List (Agent d K Nat)} :
    DT Er (eliteParents p e pop : D c _) (fun _ => True) := by
  unfold eliteParents
  refine DT.ite (fun hs => ?_) fun hs => ?_
  · refine DT.bind (dt_parents_tol hE hv) ?_
    rintro ⟨i, j⟩ _
    exact DT.bind (DT.nth_tol hi) fun x _ => DT.bind (DT.nth_tol hi) fun y _ => DT.pure trivial
  · refine DT.bind (dt_parent_tol hE hv hi) fun i _ => DT.bind (dt_parent_tol hE hv hi) fun j _ => ?_
    exact DT.bind (DT.nth_tol hi) fun x _ => DT.bind (DT.nth_tol hi) fun y _ => DT.pure trivial

theorem lt_eliteEvolve (hE : c.E.Lawful) (hP : c.P.Lawful) (hm : c.swarmLike = false) {ep : Nat} :
    LT (only [.value, .index]) (TI c) (c.popSize - e.nBest) (c.popSize - e.nBest) (eliteEvolve p e ep : M c Nat Nat Unit) (fun _ => True) := by
  have hv : only [.value, .index] .value := by simp [only]
  have hi : only [.value, .index] .index := by simp [only]
  unfold eliteEvolve
  refine LT.bind0 (LT.weaken (LT.iter (lo := 0) (hi := 0)
    (fun i (l : List (Vec d K × Nat)) => l.length = i ∧ ∀ q ∈ l, Feas c q.1) _ ⟨rfl, by simp⟩ fun i acc hi' hacc => ?_)
      (by omega) (by omega)) fun kids hk => ?_
  · unfold single
    simp only [bind_assoc, pure_bind]
    refine LT.bind0 LT.get fun s _ => LT.bind0 (LT.draw (dt_eliteParents_tol hE hv hi)) ?_
    rintro ⟨x, y⟩ _
    refine LT.bind0 (LT.draw DT.uniform') fun r _ => LT.bind0 (LT.draw (dt_cross_tol hE hv)) ?_
    rintro ⟨a, b⟩ _
    refine LT.bind0 (LT.draw DT.random') fun r _ => LT.bind0 (lt_mutate hE hP hv) fun a _ => ?_
    refine LT.bind0 (LT.draw (DT.correct hP)) fun x1 h1 => LT.bind0 (LT.fresh fun _ _ => trivial) fun r1 _ => ?_
    refine LT.pure ⟨by simp [hacc.1], fun q' hq' => ?_⟩
    rcases List.mem_append.1 hq' with h | h
    · exact hacc.2 _ h
    · rw [List.mem_singleton.1 h]; exact h1
  · refine LT.ite (fun h => absurd h (by simp [hm])) fun _ => ?_
    refine LT.weaken (LT.bind (LT.evalAll hE hk.2) fun new hn => LT.reshape fun pop hpl => ?_) (by omega) (by omega)
    have hpl : pop.length = c.popSize := hpl
    show (pop.take e.nBest ++ new).length = c.popSize
    rw [List.length_append, List.length_take]
    omega

end GA

theorem BaseGA.lok (hE : c.E.Lawful) (hP : c.P.Lawful) (hc : Accepted c 5) (p : GA.Params K) :
    (BaseGA.algo p : Algo c Nat Nat).LOk (only [.value, .index]) (TI c) JT JT c.popSize c.popSize 0 0 (c.popSize - 1) c.popSize :=
  Algo.tagged_lok hE hP (by have := hc.pop; omega) (fun x h => h) fun _ _ _ => GA.lt_evolve hE hP

theorem MultiGA.lok (hE : c.E.Lawful) (hP : c.P.Lawful) (hc : Accepted c 5) (p : GA.Params K) :
    (MultiGA.algo p : Algo c Nat Nat).LOk (only [.value, .index]) (TI c) JT JT c.popSize c.popSize 0 0 (c.popSize - 1) c.popSize :=
  Algo.tagged_lok hE hP (by have := hc.pop; omega) (fun x h => h) fun _ _ _ => GA.lt_evolve hE hP

theorem SingleGA.lok (hE : c.E.Lawful) (hP : c.P.Lawful) (hc : Accepted c 5) (p : GA.Params K) :
    (SingleGA.algo p : Algo c Nat Nat).LOk (only [.value, .index]) (TI c) JT JT c.popSize c.popSize 0 0 (c.popSize - 1) c.popSize :=
  Algo.tagged_lok hE hP (by have := hc.pop; omega) (fun x h => h) fun _ _ _ => GA.lt_evolve hE hP

theorem EliteSingleGA.lok (hE : c.E.Lawful) (hP : c.P.Lawful) (hc : Accepted c 5) (p : GA.Params K) (e : GA.Elite) (hm : c.swarmLike = false) :
    (EliteSingleGA.algo p e : Algo c Nat Nat).LOk (only [.value, .index]) (TI c) JT JT c.popSize c.popSize 0 0
      (c.popSize - e.nBest) (c.popSize - e.nBest) :=
  Algo.tagged_lok hE hP (by have := hc.pop; omega) (fun x h => h) fun _ _ _ => GA.lt_eliteEvolve hE hP hm

theorem EliteMultiGA.lok (hE : c.E.Lawful) (hP : c.P.Lawful) (hc : Accepted c 5) (p : GA.Params K) (e : GA.Elite) (hm : c.swarmLike = false) :
    (EliteMultiGA.algo p e : Algo c Nat Nat).LOk (only [.value, .index]) (TI c) JT JT c.popSize c.popSize 0 0
      (c.popSize - e.nBest) (c.popSize - e.nBest) :=
  Algo.tagged_lok hE hP (by have := hc.pop; omega) (fun x h => h) fun _ _ _ => GA.lt_eliteEvolve hE hP hm

namespace OriginalHBO

theorem mem_swap {α : Type} {l : List α} {i j : Nat} {x : α} (h : x ∈ swap l i j) : x ∈ l := by
  unfold swap at h
  split at h
  · rename_i a b ha hb
    rcases List.mem_or_eq_of_mem_set h with h | h
    · rcases List.mem_or_eq_of_mem_set h with h | h
      · exact h
      · rw [h]; exact List.mem_of_getElem? hb
    · rw [h]; exact List.mem_of_getElem? ha
  · exact h

theorem mem_siftUp {degree : Nat} {pop : List (Agent d K Nat)} {q : Target K × Nat} : ∀ (fuel : Nat) (t : Int) (heap : List (Target K × Nat)),
    q ∈ siftUp (c := c) degree pop fuel t heap → q ∈ heap
  | 0, _, _, h => h
  | fuel + 1, t, heap, h => by
    unfold siftUp at h
    split at h
    · exact h
    · dsimp only at h
      split at h
      · split at h
        · exact h
        · exact mem_swap (mem_siftUp fuel _ _ h)
      · exact h

theorem mem_settle {degree : Nat} {q : Target K × Nat} : ∀ (fuel t : Nat) (heap : List (Target K × Nat)),
    q ∈ settle (c := c) degree fuel t heap → q ∈ heap
  | 0, _, _, h => h
  | fuel + 1, t, heap, h => by
    unfold settle at h
    split at h
    · exact h
    · dsimp only at h
      split at h
      · split at h
        · exact h
        · exact mem_swap (mem_settle fuel _ _ h)
      · exact h

theorem mem_heapify {degree : Nat} {pop : List (Agent d K Nat)} {q : Target K × Nat} (h : q ∈ heapify (c := c) degree pop) : q.2 < pop.length := by
  unfold heapify at h
  have key : ∀ (l : List (Agent d K Nat × Nat)) (heap : List (Target K × Nat)), (∀ x ∈ l, x.2 < pop.length) → (∀ x ∈ heap, x.2 < pop.length) →
      ∀ x ∈ l.foldl (fun heap q => siftUp (c := c) degree pop (q.2 + 1) q.2 (heap ++ [(q.1.tgt, q.2)])) heap, x.2 < pop.length := by
    intro l
    induction l with
    | nil => exact fun heap _ hh => hh
    | cons y l ih =>
      intro heap hl hh
      refine ih _ (fun x hx => hl x (List.mem_cons_of_mem _ hx)) fun x hx => ?_
      rcases List.mem_append.1 (mem_siftUp _ _ _ hx) with h | h
      · exact hh x h
      · rw [List.mem_singleton.1 h]
        exact hl y List.mem_cons_self
  refine key _ _ (fun x hx => ?_) (by simp) q h
  exact List.snd_lt_of_mem_zipIdx hx

/-- entries of the heap refer to agents of the population -/
abbrev HI (c : Cfg d K) : LInv d K (Vars K) := ⟨Feas c, fun n => n = c.popSize, fun y => ∀ q ∈ y.heap, q.2 < c.popSize⟩

theorem lt_step (hE : c.E.Lawful) (hP : c.P.Lawful) {degree : Nat} {table : Nat → Int × Int} {ep k : Nat} :
    LT (only [.value, .index]) (HI c) 1 1 (step degree table ep k : M c Nat (Vars K) Unit) (fun _ => True) := by
  have hv : only [.value, .index] .value := by simp [only]
  have hi : only [.value, .index] .index := by simp [only]
  unfold step
  dsimp only
  refine LT.bind0 LT.get fun s hs => ?_
  have hat : ∀ q ∈ s.ext.heap, q.2 < c.popSize := hs.ext
  refine LT.bind0 (LT.draw (DT.nthI_tol hi)) fun q hq => LT.bind0 (LT.draw (DT.nth_tol hi)) fun me hme => ?_
  refine LT.bind0 (LT.popAt fun n hn => by have : n = c.popSize := hn; rw [this]; exact hat _ hme) fun cur _ => ?_
  refine LT.bind0 (LT.popAt fun n hn => by have : n = c.popSize := hn; rw [this]; exact hat _ hq) fun par _ => ?_
  refine LT.bind0 (LT.draw (R := fun _ => True) (DT.ite (fun _ => DT.pure trivial) fun _ =>
    DT.bind (DT.index_tol hE hv) fun _ _ => DT.mono (DT.nth_tol hi) fun _ _ => trivial)) fun fi _ => ?_
  refine LT.bind0 (LT.draw (DT.nthI_tol hi)) fun fr hfr => ?_
  refine LT.bind0 (LT.popAt fun n hn => by have : n = c.popSize := hn; rw [this]; exact hat _ hfr) fun fri _ => ?_
  refine LT.bind0 (LT.draw DT.randomVec) fun rr _ => LT.bind0 (LT.draw DT.randomVec) fun rn _ => ?_
  refine LT.bind0 LT.poke fun _ _ => LT.bind0 (LT.draw (DT.correct hP)) fun x hx => LT.bind0 LT.get fun s' _ => ?_
  refine LT.bind0 (LT.modExt fun y hy => hy) fun _ _ => LT.bindL (LT.getTarget hx) fun t _ => ?_
  have hset : LT (only [.value, .index]) (HI c) 0 0 (modExt (fun y => { y with heap := settle (c := c) degree (k + 1) k y.heap }) : M c Nat (Vars K) Unit)
      (fun _ => True) := LT.modExt fun y hy q hq => hy q (mem_settle _ _ _ hq)
  split
  · refine LT.bind0 (LT.setAt fun n hn => by have : n = c.popSize := hn; rw [this]; exact hat _ hme) fun _ _ => ?_
    refine LT.bind0 (LT.modExt fun y hy q hq => ?_) fun _ _ => hset
    rcases List.mem_or_eq_of_mem_set hq with h | h
    · exact hy q h
    · rw [h]; exact hat me hme
  · exact hset

theorem lok (hE : c.E.Lawful) (hP : c.P.Lawful) (hc : Accepted c 5) (degree : Nat) (table : Nat → Int × Int) :
    (algo degree table : Algo c Nat (Vars K)).LOk (only [.value, .index]) (HI c) JT JT c.popSize c.popSize 0 0 (c.popSize - 1) (c.popSize - 1) where
  box := fun x h => h
  nonempty := fun n hn => by have : n = c.popSize := hn; have := hc.pop; omega
  mkExt := fun x _ => DT.pure trivial
  initVars := DT.pure trivial
  init := by
    intro y p b _ hp
    have h0 := (Algo.tagged_lok (c := c) (Er := only [.value, .index]) (sf := false) (ev := fun _ => Pure.pure ()) (lo := 0) (hi := 0) (pos := Feas c) hE hP
      (by have := hc.pop; omega) (fun x h => h) fun _ _ _ => LT.pure trivial).init 0 p b trivial hp
    refine Wp.bind (Wp.mono h0 ?_)
    rintro r b' ⟨h1, -, h3⟩
    exact Wp.pure ⟨h1, trivial, h3⟩
  before := by
    intro s hs
    refine Wp.bind (Wp.get (Wp.modify ⟨⟨hs.len, ?_, hs.gbest, hs.worst, hs.cbest, hs.cworst⟩, .refl rfl, rfl, rfl⟩))
    intro q hq
    have := mem_heapify hq
    have hl : s.pop.length = c.popSize := hs.len
    omega
  evolve := fun ep _ _ => LT.iterU 1 1 (by omega) (by omega) fun i _ => lt_step hE hP

end OriginalHBO

end Mealpy
