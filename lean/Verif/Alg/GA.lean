import Verif.Alg.Alias

/-! # Genetic algorithms

`mealpy/evolutionary_based/GA.py`. Selection returns the solution arrays of the parents themselves (145, 171, 195). When the crossover is
skipped, the mutations other than the multi-point flip write into these arrays, which the parents, `g_best` and the history still hold; the
model keeps track of the arrays (`Verif.Alg.Alias`). -/

set_option linter.unusedSectionVars false
set_option linter.unusedVariables false

namespace Mealpy
open Spec

variable {d : Nat} {K : Type} [Num K] {c : Cfg d K}

namespace GA

/-- `selection` -/
inductive Sel where
  | tournament | random | roulette

/-- `crossover` -/
inductive Cx where
  | onePoint | multiPoints | uniform | arithmetic

/-- `mutation` -/
inductive Mut where
  | flip | swap | scramble | inversion

/-- the parameters (`mealpy/evolutionary_based/GA.py:98-120`); `multi` is `mutation_multipoints` -/
structure Params (K : Type) where
  pc : K
  pm : K
  kway : KWay
  sel : Sel
  cx : Cx
  mutation : Mut
  multi : Bool

/-- two different parents (`mealpy/evolutionary_based/GA.py:135-145,160-171`). The roulette redraws the second parent until it differs from
the first one: modelled as one draw of another agent (the loop does not end if all the weight is on one agent). -/
def parents (p : Params K) (pop : List (Agent d K Nat)) : D c (Nat × Nat) :=
  match p.sel with
  | .roulette => do
    let i ← rouletteIdx (pop.map Agent.fit)
    let j ← pickWithout pop.length [i]
    pure (i, j)
  | .random => choose2 pop.length
  | .tournament => do
    let l ← kwayIdx pop p.kway 2 false
    unpack2 l

/-- one parent from each group (`mealpy/evolutionary_based/GA.py:183-195`) -/
def parent (p : Params K) (pop : List (Agent d K Nat)) : D c Nat :=
  match p.sel with
  | .roulette => rouletteIdx (pop.map Agent.fit)
  | .random => index pop.length
  | .tournament => do
    let l ← kwayIdx pop p.kway 1 false
    nth l 0

/-- `crossover_process__` (`mealpy/evolutionary_based/GA.py:197-227`) -/
def crossover (p : Params K) (x y : Vec d K) : D c (Vec d K × Vec d K) :=
  match p.cx with
  | .arithmetic => do
    let r ← uniform 0 1
    pure (crossoverArithmetic r x y)
  | .onePoint => do
    let cut ← integers 1 ((d : Int) - 1)
    pure (fun j => if (j.val : Int) < cut then x j else y j, fun j => if (j.val : Int) < cut then y j else x j)
  | .multiPoints => do
    let (i, j) ← choose2 (d - 2)
    let a := min i j + 1
    let b := max i j + 1
    pure (fun k => if a ≤ k.val ∧ k.val < b then y k else x k, fun k => if a ≤ k.val ∧ k.val < b then x k else y k)
  | .uniform => do
    let f ← vecM (fun _ : Fin d => integers 0 2)
    pure (fun j => x j * Num.ofInt (f j) + y j * (1 - Num.ofInt (f j)), fun j => y j * Num.ofInt (f j) + x j * (1 - Num.ofInt (f j)))

/-- exchange two coordinates -/
def swapped (x : Vec d K) (i j : Nat) : Vec d K := fun k =>
  if k.val = i then x.at j else if k.val = j then x.at i else x k

/-- `mutation_process__` (`mealpy/evolutionary_based/GA.py:229-281`; `SingleGA`, 418-452 and `MultiGA`, 672-693 fix `multi`). The multi-point
swap returns in its first round. All but the multi-point flip write into the array. -/
def mutate (p : Params K) (a : Arr d K) : M c Nat Nat (Arr d K) :=
  if p.multi then
    match p.mutation with
    | .swap => do
      let i ← draw (pickWithout d [0])
      a.write (swapped a.val 0 i)
    | _ => do
      let x ← draw genSolution
      let u ← draw (uniformVec (fun _ => 0) (fun _ => 1))
      pure ⟨none, fun j => if u j < p.pm then x j else a.val j⟩
  else
    match p.mutation with
    | .swap => do
      let (i, j) ← draw (choose2 d)
      a.write (swapped a.val i j)
    | .inversion => do
      let (i, j) ← draw (choose2 d)
      a.write (fun k => if i ≤ k.val ∧ k.val < j then a.val.at (i + j - 1 - k.val) else a.val k)
    | .scramble => do
      let (i, j) ← draw (choose2 d)
      let l ← draw (permutation (j - i))
      a.write (fun k => if i ≤ k.val ∧ k.val < j then a.val.at (i + l.getD (k.val - i) 0) else a.val k)
    | .flip => do
      let i ← draw (index d)
      let u ← draw (uniform (Vec.at c.P.lb i) (Vec.at c.P.ub i))
      a.write (fun k => if k.val = i then u else a.val k)

/-- parents' arrays, or after a crossover new ones -/
def cross (p : Params K) (r : K) (x y : Agent d K Nat) : D c (Arr d K × Arr d K) :=
  if r < p.pc then do
    let (u, v) ← crossover p x.sol y.sol
    pure (⟨none, u⟩, ⟨none, v⟩)
  else pure (⟨some x.ext, x.sol⟩, ⟨some y.ext, y.sol⟩)

/-- two children (`mealpy/evolutionary_based/GA.py:312-327`) -/
def pair (p : Params K) : M c Nat Nat (List (Vec d K × Nat)) := do
  let s ← get
  let (i, j) ← draw (parents p s.pop)
  let x ← draw (nth s.pop i)
  let y ← draw (nth s.pop j)
  let r ← draw random
  let (a, b) ← draw (cross p r x y)
  let a ← mutate p a
  let b ← mutate p (a.seen b)
  let x1 ← draw (correct (b.seen a).val)
  let x2 ← draw (correct b.val)
  let r1 ← fresh
  let r2 ← fresh
  pure [(x1, r1), (x2, r2)]

/-- `survivor_process__` (`mealpy/evolutionary_based/GA.py:283-299`): a child against the worst of a tournament among the old agents -/
def survive (new : List (Agent d K Nat)) : M c Nat Nat Unit := do
  let s ← get
  let ids ← draw (repM c.popSize (fun _ => do
    let l ← kwayIdx s.pop (.frac (1 / 10)) 1 true
    nth l 0))
  if new.length < c.popSize then mthrow .index
  else reshape (fun pop => (new.zip ids).filterMap (fun q => pop[q.2]?.map (fun a => getBetterAgent q.1 a c.P.mm)))

/-- `BaseGA.evolve` (`mealpy/evolutionary_based/GA.py:301-337`); the children are evaluated together, in the order in which `single` mode
evaluates them -/
def evolve (p : Params K) (ep : Nat) : M c Nat Nat Unit := do
  let kids ← iter (c.popSize / 2) (fun _ acc => do
    let l ← pair p
    pure (acc ++ l)) []
  let new ← evalAll kids
  survive new

/-- what `EliteSingleGA` and `EliteMultiGA` add (`mealpy/evolutionary_based/GA.py:528-541,756-769`) -/
structure Elite where
  nBest : Nat
  nWorst : Nat
  strategy : Nat

/-- the two parents of one child (`mealpy/evolutionary_based/GA.py:551-555,570-574`) -/
def eliteParents (p : Params K) (e : Elite) (pop : List (Agent d K Nat)) : D c (Agent d K Nat × Agent d K Nat) :=
  if e.strategy = 0 then do
    let old := pop.drop e.nBest
    let (i, j) ← parents p old
    let x ← nth old i
    let y ← nth old j
    pure (x, y)
  else do
    let dad := (pop.drop e.nBest).take e.nWorst
    let mom := pop.drop (e.nBest + e.nWorst)
    let i ← parent p dad
    let j ← parent p mom
    let x ← nth dad i
    let y ← nth mom j
    pure (x, y)

/-- one child (`mealpy/evolutionary_based/GA.py:553-567,572-586`) -/
def single (p : Params K) (e : Elite) : M c Nat Nat (Vec d K × Nat) := do
  let s ← get
  let (x, y) ← draw (eliteParents p e s.pop)
  let r ← draw (uniform 0 1)
  let (a, b) ← draw (cross p r x y)
  let r ← draw random
  let a ← mutate p (if r ≤ 0.5 then a else b)
  let x ← draw (correct a.val)
  let r ← fresh
  pure (x, r)

/-- `evolve` of the elite variants (`mealpy/evolutionary_based/GA.py:543-587,771-815`). In the parallel modes the elite is evaluated
again. -/
def eliteEvolve (p : Params K) (e : Elite) (ep : Nat) : M c Nat Nat Unit := do
  let kids ← iter (c.popSize - e.nBest) (fun _ acc => do
    let q ← single p e
    pure (acc ++ [q])) []
  if c.swarmLike then do
    let s ← get
    let new ← evalAll ((s.pop.take e.nBest).map (fun a => (a.sol, a.ext)) ++ kids)
    setPop new
  else do
    let new ← evalAll kids
    reshape (fun pop => pop.take e.nBest ++ new)

/-! ## What holds without writes into arrays -/

/-- the mutation writes into no array -/
def Params.Pure (p : Params K) : Prop := p.multi = true ∧ (match p.mutation with | .swap => False | _ => True)

/-- two parents can be selected from `n` agents -/
def Params.Two (p : Params K) (n : Nat) : Prop :=
  match p.sel with
  | .tournament => 2 ≤ p.kway.size n ∧ p.kway.size n ≤ n
  | _ => 2 ≤ n

/-- one parent can be selected from `n` agents -/
def Params.One (p : Params K) (n : Nat) : Prop :=
  match p.sel with
  | .tournament => 1 ≤ p.kway.size n ∧ p.kway.size n ≤ n
  | _ => 1 ≤ n

/-- there are enough dimensions for the crossover -/
def Params.Dims (p : Params K) (d : Nat) : Prop :=
  match p.cx with
  | .onePoint => 3 ≤ d
  | .multiPoints => 4 ≤ d
  | _ => True

variable {p : Params K}

theorem dt_parents {Er : Err → Prop} (hE : c.E.Lawful) {pop : List (Agent d K Nat)} (h : p.Two pop.length) :
    DT Er (parents p pop : D c (Nat × Nat)) (fun q => q.1 < pop.length ∧ q.2 < pop.length) := by
  unfold parents
  unfold Params.Two at h
  split
  · rename_i hs
    simp only [hs] at h
    refine DT.bind (DT.rouletteIdx hE (by simp; omega)) fun i hi => ?_
    refine DT.bind (DT.pickWithout hE (by simp; omega)) fun j hj => DT.pure ⟨by simpa using hi, hj.1⟩
  · rename_i hs
    simp only [hs] at h
    exact DT.mono (DT.choose2 hE h) fun q hq => ⟨hq.1, hq.2.1⟩
  · rename_i hs
    simp only [hs] at h
    refine DT.bind (DT.kwayIdx hE (by omega) (by omega) h.2) fun l hl => ?_
    exact DT.mono (DT.unpack2 (by omega)) fun q hq => ⟨hl.2 _ hq.1, hl.2 _ hq.2.1⟩

theorem dt_parent {Er : Err → Prop} (hE : c.E.Lawful) {pop : List (Agent d K Nat)} (h : p.One pop.length) :
    DT Er (parent p pop : D c Nat) (fun q => q < pop.length) := by
  unfold parent
  unfold Params.One at h
  split
  · rename_i hs
    simp only [hs] at h
    exact DT.mono (DT.rouletteIdx hE (by simp; omega)) fun i hi => by simpa using hi
  · rename_i hs
    simp only [hs] at h
    exact DT.index hE h
  · rename_i hs
    simp only [hs] at h
    refine DT.bind (DT.kwayIdx hE (by omega) (by omega) h.2) fun l hl => ?_
    exact DT.mono (DT.nth_mem (by omega)) fun q hq => hl.2 _ hq

theorem dt_crossover {Er : Err → Prop} (hE : c.E.Lawful) (h : p.Dims d) {x y : Vec d K} :
    DT Er (crossover p x y : D c (Vec d K × Vec d K)) (fun _ => True) := by
  unfold crossover
  unfold Params.Dims at h
  split
  · exact DT.bind DT.uniform' fun _ _ => DT.pure trivial
  · rename_i hs
    simp only [hs] at h
    exact DT.bind (DT.integers hE (by omega)) fun _ _ => DT.pure trivial
  · rename_i hs
    simp only [hs] at h
    exact DT.bind (DT.choose2 hE (by omega)) fun _ _ => DT.pure trivial
  · exact DT.bind (DT.vecM (Q := fun _ _ => True) fun j => DT.mono (DT.integers hE (lo := 0) (hi := 2) (by omega)) fun _ _ => trivial) fun _ _ => DT.pure trivial

theorem dt_cross {Er : Err → Prop} (hE : c.E.Lawful) (h : p.Dims d) {r : K} {x y : Agent d K Nat} :
    DT Er (cross p r x y : D c (Arr d K × Arr d K)) (fun _ => True) := by
  unfold cross
  exact DT.ite (fun _ => DT.bind (dt_crossover hE h) fun _ _ => DT.pure trivial) fun _ => DT.pure trivial

theorem rj_mutate (hP : c.P.Lawful) (hp : p.Pure) {G : List (Agent d K Nat)} {a : Arr d K} :
    RJ (FA c) JT 0 0 G (mutate p a : M c Nat Nat (Arr d K)) (fun _ => G) (fun _ => True) := by
  obtain ⟨h1, h2⟩ := hp
  unfold mutate
  rw [if_pos h1]
  split
  · rename_i hs
    simp [hs] at h2
  · exact RJ.bind0 (RJ.draw (DT.genSolution hP)) fun x _ => RJ.bind0 (RJ.draw DT.uniformVec') fun u _ => RJ.pure rfl trivial

theorem framed_mutate {q : Bool} (hp : p.Pure) {a : Arr d K} : Framed q (mutate p a : M c Nat Nat (Arr d K)) := by
  obtain ⟨h1, h2⟩ := hp
  unfold mutate
  rw [if_pos h1]
  split
  · rename_i hs
    simp [hs] at h2
  · framed

macro_rules
  | `(tactic| fprim) => `(tactic| (at_last GA.mutate; exact GA.framed_mutate (by assumption)))

theorem rj_pair (hE : c.E.Lawful) (hP : c.P.Lawful) (hp : p.Pure) (h2 : p.Two c.popSize) (hd : p.Dims d) {G : List (Agent d K Nat)} :
    RJ (FA c) JT 0 0 G (pair p : M c Nat Nat _) (fun _ => G) (fun l => l.length = 2 ∧ ∀ q ∈ l, MkOk (FA c) c q) := by
  unfold pair
  refine RJ.bind0 RJ.get fun s hs => ?_
  have hlen := hs.toGoodPop.len
  refine RJ.bind0 (RJ.draw (dt_parents hE (by rw [hlen]; exact h2))) ?_
  rintro ⟨i, j⟩ ⟨hi, hj⟩
  refine RJ.bind0 (RJ.draw (DT.nth_mem hi)) fun x _ => RJ.bind0 (RJ.draw (DT.nth_mem hj)) fun y _ => ?_
  refine RJ.bind0 (RJ.draw DT.random') fun r _ => RJ.bind0 (RJ.draw (dt_cross hE hd)) ?_
  rintro ⟨a, b⟩ _
  refine RJ.bind0 (rj_mutate hP hp) fun a _ => RJ.bind0 (rj_mutate hP hp) fun b _ => ?_
  refine RJ.bind0 (RJ.draw (DT.correct hP)) fun x1 h1 => RJ.bind0 (RJ.draw (DT.correct hP)) fun x2 h2 => ?_
  refine RJ.bind0 RJ.fresh fun r1 _ => RJ.bind0 RJ.fresh fun r2 _ => RJ.pure rfl ⟨rfl, fun q hq => ?_⟩
  simp only [List.mem_cons, List.not_mem_nil, or_false] at hq
  rcases hq with rfl | rfl
  · exact FA.mkOk h1
  · exact FA.mkOk h2

theorem framed_pair {q : Bool} (hp : p.Pure) : Framed q (pair p : M c Nat Nat _) := by
  unfold pair; framed

macro_rules
  | `(tactic| fprim) => `(tactic| (at_last GA.pair; exact GA.framed_pair (by assumption)))

theorem rt_survive (hE : c.E.Lawful) (h10 : 10 ≤ c.popSize) {new : List (Agent d K Nat)} (hn : new.length = c.popSize) :
    RT (FA c) JT 0 0 new (survive new : M c Nat Nat Unit) (fun _ => True) := by
  unfold survive
  refine RT.bind0 RJ.get fun s hs => ?_
  have hlen := hs.toGoodPop.len
  have hk0 : 1 ≤ (KWay.frac (1 / 10)).size s.pop.length := by
    simp only [KWay.size]
    rw [Rat.le_floor_iff, hlen]
    have : (10 : ℚ) ≤ c.popSize := by exact_mod_cast h10
    push_cast
    linarith
  have hk1 : (KWay.frac (1 / 10)).size s.pop.length ≤ s.pop.length := by
    simp only [KWay.size]
    have h : ((1 / 10 * (s.pop.length : ℚ)).floor : ℚ) ≤ 1 / 10 * (s.pop.length : ℚ) := Rat.floor_le _
    have h0 : (0 : ℚ) ≤ s.pop.length := by positivity
    have : ((1 / 10 * (s.pop.length : ℚ)).floor : ℚ) ≤ (s.pop.length : ℚ) := by linarith
    exact_mod_cast this
  refine RT.bind0 (RJ.draw (R := fun l => l.length = c.popSize ∧ ∀ i ∈ l, i < c.popSize) (DT.repM fun i hi => ?_)) fun ids hids => ?_
  · refine DT.bind (DT.kwayIdx hE (by omega) (by omega) hk1) fun l hl => ?_
    exact DT.mono (DT.nth_mem (by omega)) fun q hq => by have := hl.2 _ hq; omega
  refine RT.ite (fun h => absurd h (by omega)) fun _ => ?_
  refine RT.reshape fun pop hpl => ⟨?_, fun a ha => ?_, fun a ha => ?_⟩
  · rw [List.length_filterMap_eq_countP, List.countP_eq_length.2, List.length_zip]
    · omega
    · rintro ⟨a, i⟩ hq
      have : i < pop.length := by rw [hpl]; exact hids.2 i (List.of_mem_zip hq).2
      simp [this]
  · obtain ⟨⟨b, i⟩, hq, hb⟩ := List.mem_filterMap.1 ha
    have hi : i < pop.length := by rw [hpl]; exact hids.2 i (List.of_mem_zip hq).2
    simp only [List.getElem?_eq_getElem hi, Option.map_some, Option.some.injEq] at hb
    rcases (getBetterAgent_cases b pop[i] c.P.mm).1 with e | e <;> rw [e] at hb
    · exact .inr (hb ▸ (List.of_mem_zip hq).1)
    · exact .inl (hb ▸ List.getElem_mem hi)
  · obtain ⟨k, hk, rfl⟩ := List.mem_iff_getElem.1 ha
    have hki : k < ids.length := by omega
    have hi : ids[k] < pop.length := by rw [hpl]; exact hids.2 _ (List.getElem_mem _)
    refine ⟨getBetterAgent new[k] pop[ids[k]] c.P.mm, List.mem_filterMap.2 ⟨(new[k], ids[k]), ?_, ?_⟩, ?_⟩
    · refine List.mem_iff_getElem.2 ⟨k, by simp; omega, by simp⟩
    · simp [List.getElem?_eq_getElem hi]
    · exact (getBetterAgent_cases _ _ _).2.1

theorem framed_survive {q : Bool} {new : List (Agent d K Nat)} : Framed q (survive new : M c Nat Nat Unit) := by
  unfold survive; framed

macro_rules
  | `(tactic| fprim) => `(tactic| (at_last GA.survive; exact GA.framed_survive))

theorem pt_evolve (hE : c.E.Lawful) (hP : c.P.Lawful) (h10 : 10 ≤ c.popSize) (hev : c.popSize % 2 = 0) (hp : p.Pure) (h2 : p.Two c.popSize)
    (hd : p.Dims d) {ep : Nat} : PT (FA c) JT c.popSize c.popSize (evolve p ep : M c Nat Nat Unit) (fun _ => True) := by
  unfold evolve
  refine RT.pt (RT.bind0 (RJ.weaken (RJ.iter (lo := 0) (hi := 0) (fun _ => [])
    (fun i (l : List (Vec d K × Nat)) => l.length = 2 * i ∧ ∀ q ∈ l, MkOk (FA c) c q) _ ⟨rfl, by simp⟩ fun i acc hi hacc => ?_)
      (by omega) (by omega)) fun kids hk => ?_)
  · refine RJ.bind0 (rj_pair hE hP hp h2 hd) fun l hl => RJ.pure rfl ⟨by rw [List.length_append]; omega, fun q hq => ?_⟩
    rcases List.mem_append.1 hq with h | h
    · exact hacc.2 q h
    · exact hl.2 q h
  · refine RT.bindS (RJ.evalAll hE hk.2) (by omega) fun new hn => ?_
    exact RT.weaken (rt_survive hE h10 (by simp; omega)) (by omega) (by omega)

theorem framed_evolve {q : Bool} (hE : c.E.Lawful) (hp : p.Pure) {ep : Nat} : Framed q (evolve p ep : M c Nat Nat Unit) := by
  unfold evolve; framed

/-! ## The elite variants -/

/-- the groups are large enough for the selection -/
def Elite.Fits (e : Elite) (p : Params K) (n : Nat) : Prop :=
  e.nBest ≤ n ∧ (e.strategy = 0 → p.Two (n - e.nBest)) ∧
    (e.strategy ≠ 0 → e.nBest + e.nWorst ≤ n ∧ p.One e.nWorst ∧ p.One (n - (e.nBest + e.nWorst)))

variable {e : Elite}

theorem dt_eliteParents {Er : Err → Prop} (hE : c.E.Lawful) {pop : List (Agent d K Nat)} (h : e.Fits p pop.length) :
    DT Er (eliteParents p e pop : D c _) (fun _ => True) := by
  obtain ⟨h0, h1, h2⟩ := h
  unfold eliteParents
  refine DT.ite (fun hs => ?_) fun hs => ?_
  · have := h1 hs
    refine DT.bind (dt_parents hE (by rw [List.length_drop]; exact this)) ?_
    rintro ⟨i, j⟩ ⟨hi, hj⟩
    exact DT.bind (DT.nth_mem hi) fun x _ => DT.bind (DT.nth_mem hj) fun y _ => DT.pure trivial
  · obtain ⟨g0, g1, g2⟩ := h2 hs
    have l1 : ((pop.drop e.nBest).take e.nWorst).length = e.nWorst := by rw [List.length_take, List.length_drop]; omega
    have l2 : (pop.drop (e.nBest + e.nWorst)).length = pop.length - (e.nBest + e.nWorst) := List.length_drop
    refine DT.bind (dt_parent hE (by rw [l1]; exact g1)) fun i hi => DT.bind (dt_parent hE (by rw [l2]; exact g2)) fun j hj => ?_
    exact DT.bind (DT.nth_mem hi) fun x _ => DT.bind (DT.nth_mem hj) fun y _ => DT.pure trivial

theorem rj_single (hE : c.E.Lawful) (hP : c.P.Lawful) (hp : p.Pure) (he : e.Fits p c.popSize) (hd : p.Dims d) {G : List (Agent d K Nat)} :
    RJ (FA c) JT 0 0 G (single p e : M c Nat Nat _) (fun _ => G) (fun q => MkOk (FA c) c q) := by
  unfold single
  refine RJ.bind0 RJ.get fun s hs => ?_
  have hlen := hs.toGoodPop.len
  refine RJ.bind0 (RJ.draw (dt_eliteParents hE (by rw [hlen]; exact he))) ?_
  rintro ⟨x, y⟩ _
  refine RJ.bind0 (RJ.draw DT.uniform') fun r _ => RJ.bind0 (RJ.draw (dt_cross hE hd)) ?_
  rintro ⟨a, b⟩ _
  refine RJ.bind0 (RJ.draw DT.random') fun r _ => RJ.bind0 (rj_mutate hP hp) fun a _ => ?_
  exact RJ.bind0 (RJ.draw (DT.correct hP)) fun x1 h1 => RJ.bind0 RJ.fresh fun r1 _ => RJ.pure rfl (FA.mkOk h1)

theorem framed_single {q : Bool} (hp : p.Pure) : Framed q (single p e : M c Nat Nat _) := by
  unfold single; framed

macro_rules
  | `(tactic| fprim) => `(tactic| (at_last GA.single; exact GA.framed_single (by assumption)))

theorem pt_eliteEvolve (hE : c.E.Lawful) (hP : c.P.Lawful) (hp : p.Pure) (he : e.Fits p c.popSize)
    (hd : p.Dims d) {ep : Nat} : PT (FA c) JT (c.popSize - e.nBest) c.popSize (eliteEvolve p e ep : M c Nat Nat Unit) (fun _ => True) := by
  unfold eliteEvolve
  have he0 := he.1
  refine RT.pt (RT.bind0 (RJ.weaken (RJ.iter (lo := 0) (hi := 0) (fun _ => [])
    (fun i (l : List (Vec d K × Nat)) => l.length = i ∧ ∀ q ∈ l, MkOk (FA c) c q) _ ⟨rfl, by simp⟩ fun i acc hi hacc => ?_)
      (by omega) (by omega)) fun kids hk => ?_)
  · refine RJ.bind0 (rj_single hE hP hp he hd) fun l hl => RJ.pure rfl ⟨by simp [hacc.1], fun q hq => ?_⟩
    rcases List.mem_append.1 hq with h | h
    · exact hacc.2 q h
    · rw [List.mem_singleton.1 h]; exact hl
  · refine RT.ite (fun _ => ?_) fun _ => ?_
    · refine RT.bind0 RJ.get fun s hs => ?_
      have hlen := hs.toGoodPop.len
      have hl : ((s.pop.take e.nBest).map (fun a => (a.sol, a.ext)) ++ kids).length = c.popSize := by
        rw [List.length_append, List.length_map, List.length_take]; omega
      refine RT.bindS (RJ.evalAll hE (fun q hq => ?_)) (by rw [hl]) fun new hn => ?_
      · rcases List.mem_append.1 hq with h | h
        · obtain ⟨a, ha, rfl⟩ := List.mem_map.1 h
          exact FA.mkOk (hs.toGoodPop.feas a (List.mem_of_mem_take ha))
        · exact hk.2 q h
      · refine RT.weaken (RT.setPop (by omega) (fun a ha => ha) fun a ha => ⟨a, ha, NoWorse.rfl⟩) (by omega) (by omega)
    · refine RT.bindS (RJ.evalAll hE hk.2) (by omega) fun new hn => ?_
      refine RT.weaken (RT.reshape fun pop hpl => ⟨?_, fun a ha => ?_, fun a ha => ⟨a, List.mem_append_right _ ha, NoWorse.rfl⟩⟩)
        (by omega) (by omega)
      · rw [List.length_append, List.length_take]; omega
      · rcases List.mem_append.1 ha with h | h
        · exact .inl (List.mem_of_mem_take h)
        · exact .inr h

theorem framed_eliteEvolve {q : Bool} (hE : c.E.Lawful) (hp : p.Pure) {ep : Nat} : Framed q (eliteEvolve p e ep : M c Nat Nat Unit) := by
  unfold eliteEvolve; framed

end GA

namespace BaseGA

/-- `BaseGA` (`mealpy/evolutionary_based/GA.py:12-337`) -/
def algo (p : GA.Params K) : Algo c Nat Nat := Algo.tagged false (GA.evolve p)

theorem ok (hE : c.E.Lawful) (hP : c.P.Lawful) (hc : Accepted c 5) (p : GA.Params K) (h10 : 10 ≤ c.popSize) (hev : c.popSize % 2 = 0)
    (hp : p.Pure) (h2 : p.Two c.popSize) (hd : p.Dims d) : (algo p : Algo c Nat Nat).Ok (FA c) JT JT JT c.popSize c.popSize c.popSize :=
  Algo.tagged_ok hE hP fun _ _ _ => GA.pt_evolve hE hP h10 hev hp h2 hd

theorem framed (hE : c.E.Lawful) (p : GA.Params K) (hp : p.Pure) (ep : Nat) : Framed true ((algo p : Algo c Nat Nat).evolve ep) :=
  GA.framed_evolve (ep := ep) hE hp

end BaseGA

namespace MultiGA

/-- `MultiGA` (`mealpy/evolutionary_based/GA.py:590-693`) -/
def algo (p : GA.Params K) : Algo c Nat Nat := Algo.tagged false (GA.evolve { p with multi := true })

theorem ok (hE : c.E.Lawful) (hP : c.P.Lawful) (hc : Accepted c 5) (p : GA.Params K) (h10 : 10 ≤ c.popSize) (hev : c.popSize % 2 = 0)
    (hp : ({ p with multi := true } : GA.Params K).Pure) (h2 : p.Two c.popSize) (hd : p.Dims d) :
    (algo p : Algo c Nat Nat).Ok (FA c) JT JT JT c.popSize c.popSize c.popSize :=
  Algo.tagged_ok hE hP fun _ _ _ => GA.pt_evolve (p := { p with multi := true }) hE hP h10 hev hp h2 hd

theorem framed (hE : c.E.Lawful) (p : GA.Params K) (hp : ({ p with multi := true } : GA.Params K).Pure) (ep : Nat) :
    Framed true ((algo p : Algo c Nat Nat).evolve ep) :=
  GA.framed_evolve (ep := ep) hE hp

end MultiGA

namespace SingleGA

/-- `SingleGA` (`mealpy/evolutionary_based/GA.py:340-452`); every mutation writes into an array -/
def algo (p : GA.Params K) : Algo c Nat Nat := Algo.tagged false (GA.evolve { p with multi := false })

end SingleGA

namespace EliteSingleGA

/-- `EliteSingleGA` (`mealpy/evolutionary_based/GA.py:455-587`); every mutation writes into an array -/
def algo (p : GA.Params K) (e : GA.Elite) : Algo c Nat Nat := Algo.tagged true (GA.eliteEvolve { p with multi := false } e)

end EliteSingleGA

namespace EliteMultiGA

/-- `EliteMultiGA` (`mealpy/evolutionary_based/GA.py:696-815`) -/
def algo (p : GA.Params K) (e : GA.Elite) : Algo c Nat Nat := Algo.tagged true (GA.eliteEvolve { p with multi := true } e)

theorem ok (hE : c.E.Lawful) (hP : c.P.Lawful) (hc : Accepted c 5) (p : GA.Params K) (e : GA.Elite)
    (hp : ({ p with multi := true } : GA.Params K).Pure) (he : e.Fits { p with multi := true } c.popSize) (hd : p.Dims d) :
    (algo p e : Algo c Nat Nat).Ok (FA c) JT JT JT c.popSize (c.popSize - e.nBest) c.popSize :=
  Algo.tagged_ok hE hP fun _ _ _ => GA.pt_eliteEvolve (p := { p with multi := true }) hE hP hp he hd

theorem framed (hE : c.E.Lawful) (p : GA.Params K) (e : GA.Elite) (hp : ({ p with multi := true } : GA.Params K).Pure) (ep : Nat) :
    Framed true ((algo p e : Algo c Nat Nat).evolve ep) :=
  GA.framed_eliteEvolve (ep := ep) hE hp

end EliteMultiGA

namespace OriginalGA

/-- `OriginalGA` (`mealpy/evolutionary_based/GA.py:818-916`) inherits `Optimizer.evolve`, which does nothing (`mealpy/optimizer.py:160-161`) -/
def algo : Algo c Unit Unit := Algo.plain false (fun _ => pure ())

theorem ok (hE : c.E.Lawful) (hP : c.P.Lawful) (hc : Accepted c 5) :
    (algo : Algo c Unit Unit).Ok (FA c) JT JT JT c.popSize 0 0 := by
  unfold algo
  exact Algo.plain_ok' hE hP fun _ _ _ => IT.pt (IT.pure trivial)

theorem framed (hE : c.E.Lawful) (ep : Nat) : Framed true ((algo : Algo c Unit Unit).evolve ep) := Framed.pure

end OriginalGA

end Mealpy
