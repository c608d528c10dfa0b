import Verif.Frame
import Verif.Tactics

/-!
# Helpers for the algorithm models

Small idioms that recur in the `evolve` methods, with their rules, and the tactic `dgo` that
discharges the obligations of position-building code.
-/

set_option linter.unusedSectionVars false
set_option linter.unusedVariables false

namespace Mealpy
open Spec

variable {d : Nat} {K : Type} [Num K] {c : Cfg d K} {X Y : Type} {Er : Err → Prop}

/-- `np.pi` -/
def Num.pi : K := 3.141592653589793

/-- `Optimizer.EPSILON` (`mealpy/optimizer.py:43`) -/
def Num.EPSILON : K := 1e-10

/-- `np.mean` of a list of positions, `axis=0` -/
def meanPos (l : List (Vec d K)) : Vec d K := fun j => meanL (l.map (fun x => x j))

/-- a row of coordinates as a list -/
def Vec.toList (x : Vec d K) : List K := List.ofFn x

/-- `get_special_agents(pop, n_best=n)[1]` (`mealpy/optimizer.py:504-535`) -/
def bestAgents (pop : List (Agent d K X)) (n : Nat) : D c (List (Agent d K X)) :=
  pure (((getSpecial c.E.argsort pop (some n) none c.P.mm).2.1).getD [])

/-- `get_sorted_population(pop)[0]` (`mealpy/optimizer.py:460-474`), `get_special_agents(pop)[0]` -/
def sortedPop (pop : List (Agent d K X)) : D c (List (Agent d K X)) :=
  pure (getSorted c.E.argsort pop c.P.mm).1

/-- `get_special_agents(pop, n_worst=n)[2]` -/
def worstAgents (pop : List (Agent d K X)) (n : Nat) : D c (List (Agent d K X)) :=
  pure (((getSpecial c.E.argsort pop none (some n) c.P.mm).2.2).getD [])

/-- `_, (b0, b1, b2), _ = get_special_agents(pop, n_best=3)`, used as `list_best[0]`, `list_best[1]`,
`list_best[2]` -/
def best3 (pop : List (Agent d K X)) : D c (Agent d K X × Agent d K X × Agent d K X) := do
  let l ← bestAgents pop 3
  let b0 ← nth l 0
  let b1 ← nth l 1
  let b2 ← nth l 2
  pure (b0, b1, b2)

/-- `get_best_agent(pop)` (`mealpy/optimizer.py:476-488`) -/
def bestAgent (pop : List (Agent d K X)) : D c (Agent d K X) := fun g =>
  match getBest c.E.argsort pop c.P.mm with
  | .ok (a, _) => .ok (a, g)
  | .error e => .error e

/-- `get_worst_agent(pop)` (`mealpy/optimizer.py:490-502`) -/
def worstAgent (pop : List (Agent d K X)) : D c (Agent d K X) := fun g =>
  match getWorst c.E.argsort pop c.P.mm with
  | .ok (a, _) => .ok (a, g)
  | .error e => .error e

/-- `a, b = l` -/
def unpack2 {α : Type} (l : List α) : D c (α × α) :=
  match l with
  | [a, b] => pure (a, b)
  | _ => dthrow .value

/-- `a, b, c = l` -/
def unpack3 {α : Type} (l : List α) : D c (α × α × α) :=
  match l with
  | [x, y, z] => pure (x, y, z)
  | _ => dthrow .value

/-- `a, b = generator.choice(range(0, n), 2, replace=False)` -/
def choose2 (n : Nat) : D c (Nat × Nat) := do
  let l ← choice n 2 false
  unpack2 l

/-- `a, b, c = generator.choice(range(0, n), 3, replace=False)` -/
def choose3 (n : Nat) : D c (Nat × Nat × Nat) := do
  let l ← choice n 3 false
  unpack3 l

/-- `generator.choice(l)` for a list -/
def pick {α : Type} (l : List α) : D c α := do
  let i ← choice1 l.length
  nth l i

/-- `list(set(range(0, n)) - set(excl))` (python iterates a set of small integers in increasing
order) -/
def rangeWithout (n : Nat) (excl : List Nat) : List Nat := (List.range n).filter (fun i => i ∉ excl)

/-- `generator.choice(list(set(range(0, n)) - set(excl)), k, replace=r)` -/
def choiceWithout (n : Nat) (excl : List Nat) (k : Nat) (r : Bool) : D c (List Nat) := do
  let l := rangeWithout n excl
  let is ← choice l.length k r
  pure (is.filterMap (fun i => l[i]?))

/-- `generator.choice(list(set(range(0, n)) - set(excl)))` -/
def pickWithout (n : Nat) (excl : List Nat) : D c Nat := pick (rangeWithout n excl)

/-- two different indices outside `excl` -/
def choose2Without (n : Nat) (excl : List Nat) : D c (Nat × Nat) := do
  let l ← choiceWithout n excl 2 false
  unpack2 l

/-- three different indices outside `excl` -/
def choose3Without (n : Nat) (excl : List Nat) : D c (Nat × Nat × Nat) := do
  let l ← choiceWithout n excl 3 false
  unpack3 l

/-- `get_index_roulette_wheel_selection(fits)` (`mealpy/optimizer.py:674-694`) -/
def rouletteIdx (fits : List K) : D c Nat := fun g =>
  match @roulette K _ _ _ _ ⟨0⟩ c.E fits c.P.mm g.1 with
  | .ok (i, s) => .ok (i, (s, g.2))
  | .error e => .error e

/-- `get_index_kway_tournament_selection(...)` (`mealpy/optimizer.py:696-717`) -/
def kwayIdx (pop : List (Agent d K X)) (k : KWay) (output : Nat) (reverse : Bool) : D c (List Nat) := fun g =>
  match tournament c.E pop k output reverse c.P.mm g.1 with
  | .ok (l, s) => .ok (l, (s, g.2))
  | .error e => .error e

/-- `sigma_u` of `get_levy_flight_step` (`mealpy/optimizer.py:742`) -/
def levySigma (beta : K) : K :=
  Num.pow (Num.ufunc "gamma" (1 + beta) * Num.sin (Num.pi * beta / 2) /
    (Num.ufunc "gamma" ((1 + beta) / 2) * beta * Num.pow 2 ((beta - 1) / 2))) (1 / beta)

/-- last lines of `get_levy_flight_step` (`mealpy/optimizer.py:749-755`): the common factor -/
def levyFactor (case : Int) : D c K :=
  if case = 0 then random else if case = 1 then normal 0 1 else pure 1

/-- `get_levy_flight_step(beta, multiplier, size=None, case)` (`mealpy/optimizer.py:719-756`) -/
def levy (beta multiplier : K) (case : Int) : D c K := do
  let u ← normal 0 (levySigma beta)
  let v ← normal 0 1
  let s := u / Num.pow (Num.abs v + Num.EPSILON) (1 / beta)
  let f ← levyFactor case
  pure (if case = 0 ∨ case = 1 then multiplier * s * f else multiplier * s)

/-- `get_levy_flight_step(beta, multiplier, size=n_dims, case)` (`mealpy/optimizer.py:719-756`).
(With `n_dims = 1` the code returns the scalar itself; positions are arrays either way.) -/
def levyVec (beta multiplier : K) (case : Int) : D c (Vec d K) := do
  let u ← normalVec 0 (levySigma beta)
  let v ← normalVec 0 1
  let f ← levyFactor case
  pure (fun j =>
    let s := u j / Num.pow (Num.abs (v j) + Num.EPSILON) (1 / beta)
    if case = 0 ∨ case = 1 then multiplier * s * f else multiplier * s)

/-- `generate_opposition_solution(agent, g_best)` (`mealpy/optimizer.py:758-768`) -/
def oppositionSol (a g : Vec d K) (amend : Vec d K → D c (Vec d K) := amendClip) : D c (Vec d K) := do
  let u ← random
  correctWith amend (fun j => c.P.lb j + c.P.ub j - g j + u * (g j - a j))

/-- the constructor's checks of `epoch` and `pop_size`: `check_int("epoch", epoch, [1, 100000])`,
`check_int("pop_size", pop_size, [lo, 10000])`. A few classes allow up to 100000 agents, so that is the bound here. -/
structure Accepted (c : Cfg d K) (lo : Nat) : Prop where
  epoch : 1 ≤ c.epoch ∧ c.epoch ≤ 100000
  pop : lo ≤ c.popSize ∧ c.popSize ≤ 100000

/-- the agents of an algorithm without extra attributes only have to be feasible -/
def FA (c : Cfg d K) : Agent d K X → Prop := fun a => Feas c a.sol

/-- nothing is asked of the attributes -/
def JT : Y → Prop := fun _ => True

/-! ## Rules -/

section
theorem DT.bestAgents (hE : c.E.Lawful) {pop : List (Agent d K X)} {n : Nat} :
    DT Er (Mealpy.bestAgents pop n : D c _) (fun l => l.length = min n pop.length ∧ ∀ a ∈ l, a ∈ pop) := by
  refine DT.pure ⟨?_, ?_⟩
  · simp only [getSpecial, Option.map_some, Option.getD_some, List.length_take]
    rw [getSorted_length hE.argsortLaw]
  · intro a ha
    simp only [getSpecial, Option.map_some, Option.getD_some] at ha
    exact (getSorted_mem hE.argsortLaw).1 (List.mem_of_mem_take ha)

theorem DT.worstAgents (hE : c.E.Lawful) {pop : List (Agent d K X)} {n : Nat} :
    DT Er (Mealpy.worstAgents pop n : D c _) (fun l => l.length = min n pop.length ∧ ∀ a ∈ l, a ∈ pop) := by
  refine DT.pure ⟨?_, ?_⟩
  · simp only [getSpecial, Option.map_some, Option.getD_some, List.length_take, List.length_reverse]
    rw [getSorted_length hE.argsortLaw]
  · intro a ha
    simp only [getSpecial, Option.map_some, Option.getD_some] at ha
    exact (getSorted_mem hE.argsortLaw).1 (List.mem_reverse.1 (List.mem_of_mem_take ha))

theorem DT.sortedPop (hE : c.E.Lawful) {pop : List (Agent d K X)} :
    DT Er (Mealpy.sortedPop pop : D c _) (fun l => l.length = pop.length ∧ ∀ a, a ∈ l ↔ a ∈ pop) :=
  DT.pure ⟨getSorted_length hE.argsortLaw pop c.P.mm, fun a => getSorted_mem hE.argsortLaw⟩

theorem DT.best3 (hE : c.E.Lawful) {pop : List (Agent d K X)} (h : 3 ≤ pop.length) :
    DT Er (Mealpy.best3 pop : D c _) (fun b => b.1 ∈ pop ∧ b.2.1 ∈ pop ∧ b.2.2 ∈ pop) := by
  refine DT.bind (DT.bestAgents hE) ?_
  rintro l ⟨h1, h2⟩
  refine DT.bind (DT.nth_mem (by omega)) fun b0 g0 => ?_
  refine DT.bind (DT.nth_mem (by omega)) fun b1 g1 => ?_
  refine DT.bind (DT.nth_mem (by omega)) fun b2 g2 => ?_
  exact DT.pure ⟨h2 _ g0, h2 _ g1, h2 _ g2⟩

theorem DT.bestAgent (hE : c.E.Lawful) {pop : List (Agent d K X)} (h : 0 < pop.length) :
    DT Er (Mealpy.bestAgent pop : D c _) (fun a => a ∈ pop) := by
  have hl := getSorted_length hE.argsortLaw pop c.P.mm
  have hi : (getSorted c.E.argsort pop c.P.mm).2.length = pop.length := by
    have := (sortedIdx_perm hE.argsortLaw pop c.P.mm).length_eq
    rw [List.length_range] at this
    exact this
  intro g
  have : getBest c.E.argsort pop c.P.mm =
      .ok ((getSorted c.E.argsort pop c.P.mm).1[0]'(by omega), (getSorted c.E.argsort pop c.P.mm).2[0]'(by omega)) := by
    unfold getBest
    simp only
    rw [List.getElem?_eq_getElem (by omega), List.getElem?_eq_getElem (by omega)]
  refine Wp.of_ok (a := (getSorted c.E.argsort pop c.P.mm).1[0]'(by omega)) (s' := g) ?_ ?_
  · unfold Mealpy.bestAgent
    rw [this]
  · exact (getSorted_mem hE.argsortLaw).1 (List.getElem_mem _)

theorem DT.worstAgent (hE : c.E.Lawful) {pop : List (Agent d K X)} (h : 0 < pop.length) :
    DT Er (Mealpy.worstAgent pop : D c _) (fun a => a ∈ pop) := by
  have hl := getSorted_length hE.argsortLaw pop c.P.mm
  have hi : (getSorted c.E.argsort pop c.P.mm).2.length = pop.length := by
    have := (sortedIdx_perm hE.argsortLaw pop c.P.mm).length_eq
    rw [List.length_range] at this
    exact this
  have h1 : (getSorted c.E.argsort pop c.P.mm).1 ≠ [] := by
    intro h0; rw [h0] at hl; simp at hl; omega
  have h2 : (getSorted c.E.argsort pop c.P.mm).2 ≠ [] := by
    intro h0; rw [h0] at hi; simp at hi; omega
  intro g
  have : getWorst c.E.argsort pop c.P.mm =
      .ok ((getSorted c.E.argsort pop c.P.mm).1.getLast h1, (getSorted c.E.argsort pop c.P.mm).2.getLast h2) := by
    unfold getWorst
    simp only
    rw [List.getLast?_eq_getLast_of_ne_nil h1, List.getLast?_eq_getLast_of_ne_nil h2]
  refine Wp.of_ok (a := (getSorted c.E.argsort pop c.P.mm).1.getLast h1) (s' := g) ?_ ?_
  · unfold Mealpy.worstAgent
    rw [this]
  · exact (getSorted_mem hE.argsortLaw).1 (List.getLast_mem _)

theorem DT.unpack2 {α : Type} {l : List α} (h : l.length = 2) :
    DT Er (Mealpy.unpack2 l : D c _) (fun p => p.1 ∈ l ∧ p.2 ∈ l ∧ l = [p.1, p.2]) := by
  match l, h with
  | [a, b], _ => exact DT.pure (by simp)

theorem DT.unpack3 {α : Type} {l : List α} (h : l.length = 3) :
    DT Er (Mealpy.unpack3 l : D c _) (fun p => p.1 ∈ l ∧ p.2.1 ∈ l ∧ p.2.2 ∈ l ∧ l = [p.1, p.2.1, p.2.2]) := by
  match l, h with
  | [a, b, z], _ => exact DT.pure (by simp)

theorem DT.choose2 (hE : c.E.Lawful) {n : Nat} (h : 2 ≤ n) :
    DT Er (Mealpy.choose2 n : D c _) (fun p => p.1 < n ∧ p.2 < n ∧ p.1 ≠ p.2) := by
  refine DT.bind (DT.choice hE (by simp [choiceErr]; omega)) ?_
  rintro l ⟨h1, h2, h3⟩
  refine DT.mono (DT.unpack2 h1) ?_
  rintro p ⟨a, b, e⟩
  refine ⟨h2 _ a, h2 _ b, ?_⟩
  have := h3 rfl
  rw [e] at this
  simpa using this

theorem DT.choose3 (hE : c.E.Lawful) {n : Nat} (h : 3 ≤ n) :
    DT Er (Mealpy.choose3 n : D c _) (fun p => p.1 < n ∧ p.2.1 < n ∧ p.2.2 < n) := by
  refine DT.bind (DT.choice hE (by simp [choiceErr]; omega)) ?_
  rintro l ⟨h1, h2, h3⟩
  refine DT.mono (DT.unpack3 h1) ?_
  rintro p ⟨a, b, z, e⟩
  exact ⟨h2 _ a, h2 _ b, h2 _ z⟩

theorem DT.pick (hE : c.E.Lawful) {α : Type} {l : List α} (h : 0 < l.length) :
    DT Er (Mealpy.pick l : D c _) (fun a => a ∈ l) :=
  DT.bind (DT.choice1 hE h) fun i hi => DT.nth_mem hi

theorem rangeWithout_length (n : Nat) (excl : List Nat) : n ≤ (rangeWithout n excl).length + excl.length := by
  have hnd : (List.range n).Nodup := List.nodup_range
  have h1 : (List.range n).length = ((List.range n).filter (fun i => i ∉ excl)).length +
      ((List.range n).filter (fun i => i ∈ excl)).length := by
    have := List.length_eq_length_filter_add (l := List.range n) (fun i => decide (i ∉ excl))
    simpa using this
  have h2 : ((List.range n).filter (fun i => i ∈ excl)).length ≤ excl.length := by
    refine List.Subperm.length_le (List.Nodup.subperm (hnd.filter _) ?_)
    intro i hi
    simpa using (List.mem_filter.1 hi).2
  rw [List.length_range] at h1
  unfold rangeWithout
  omega

theorem rangeWithout_mem {n : Nat} {excl : List Nat} {i : Nat} : i ∈ rangeWithout n excl ↔ i < n ∧ i ∉ excl := by
  simp [rangeWithout]

theorem choiceErr_false {n k : Nat} {r : Bool} (h : 0 < n) (hk : k ≤ n) : choiceErr n k r = false := by
  unfold choiceErr
  rw [Bool.or_eq_false_iff, Bool.and_eq_false_iff, Bool.and_eq_false_iff]
  exact ⟨Or.inl (by simp; omega), Or.inr (by simp; omega)⟩

theorem DT.choiceWithout (hE : c.E.Lawful) {n : Nat} {excl : List Nat} {k : Nat} {r : Bool}
    (h : k + excl.length ≤ n) (h0 : excl.length < n) :
    DT Er (Mealpy.choiceWithout n excl k r : D c _) (fun l => l.length = k ∧ (∀ i ∈ l, i < n ∧ i ∉ excl) ∧
      (r = false → l.Nodup)) := by
  have hr := rangeWithout_length n excl
  have hpos : 0 < (rangeWithout n excl).length := by omega
  have hnd : (rangeWithout n excl).Nodup := List.nodup_range.filter _
  refine DT.bind (DT.choice hE (choiceErr_false hpos (by omega))) ?_
  rintro l ⟨h1, h2, h3⟩
  refine DT.pure ⟨?_, ?_, ?_⟩
  · rw [length_filterMap_get h2]; exact h1
  · intro i hi
    rw [List.mem_filterMap] at hi
    obtain ⟨j, -, hj⟩ := hi
    exact rangeWithout_mem.1 (List.mem_of_getElem? hj)
  · intro hr
    exact nodup_filterMap_get hnd (h3 hr)

theorem DT.pickWithout (hE : c.E.Lawful) {n : Nat} {excl : List Nat} (h : excl.length < n) :
    DT Er (Mealpy.pickWithout n excl : D c _) (fun i => i < n ∧ i ∉ excl) := by
  have hr := rangeWithout_length n excl
  exact DT.mono (DT.pick hE (by omega)) fun i hi => rangeWithout_mem.1 hi

theorem DT.choose2Without (hE : c.E.Lawful) {n : Nat} {excl : List Nat} (h : 2 + excl.length ≤ n) :
    DT Er (Mealpy.choose2Without n excl : D c _) (fun p => p.1 < n ∧ p.2 < n ∧ p.1 ≠ p.2 ∧ p.1 ∉ excl ∧ p.2 ∉ excl) := by
  refine DT.bind (DT.choiceWithout hE h (by omega)) ?_
  rintro l ⟨h1, h2, h3⟩
  refine DT.mono (DT.unpack2 h1) ?_
  rintro p ⟨a, b, e⟩
  refine ⟨(h2 _ a).1, (h2 _ b).1, ?_, (h2 _ a).2, (h2 _ b).2⟩
  have := h3 rfl
  rw [e] at this
  simpa using this

theorem DT.choose3Without (hE : c.E.Lawful) {n : Nat} {excl : List Nat} (h : 3 + excl.length ≤ n) :
    DT Er (Mealpy.choose3Without n excl : D c _) (fun p => p.1 < n ∧ p.2.1 < n ∧ p.2.2 < n) := by
  refine DT.bind (DT.choiceWithout hE h (by omega)) ?_
  rintro l ⟨h1, h2, h3⟩
  refine DT.mono (DT.unpack3 h1) ?_
  rintro p ⟨a, b, z, e⟩
  exact ⟨(h2 _ a).1, (h2 _ b).1, (h2 _ z).1⟩

theorem rouletteProb_length (fits : List K) (mm : MinMax) :
    (@rouletteProb K _ _ _ _ ⟨0⟩ fits mm).length = fits.length := by
  unfold rouletteProb
  cases mm <;> simp only [List.length_map] <;> split <;> simp

theorem DT.rouletteIdx (hE : c.E.Lawful) {fits : List K} (h : 0 < fits.length) :
    DT Er (Mealpy.rouletteIdx fits : D c _) (fun i => i < fits.length) := by
  have hne : fits ≠ [] := List.length_pos_iff.1 h
  obtain ⟨mx, hmx⟩ := listMax_isSome hne
  obtain ⟨mn, hmn⟩ := listMin_isSome hne
  intro g
  unfold Mealpy.rouletteIdx roulette
  rw [hmx, hmn]
  simp only
  unfold Wp
  split_ifs
  · have h1 := hE.integers_ge 0 fits.length g.1 (by exact_mod_cast h)
    have h2 := hE.integers_lt 0 fits.length g.1 (by exact_mod_cast h)
    change ((c.E.integers 0 fits.length g.1).1).toNat < _
    omega
  · change (c.E.choiceP (@rouletteProb K _ _ _ _ ⟨0⟩ fits c.P.mm) g.1).1 < _
    have hl := rouletteProb_length fits c.P.mm
    have := hE.choiceP_lt (@rouletteProb K _ _ _ _ ⟨0⟩ fits c.P.mm) g.1
      (List.length_pos_iff.1 (by omega))
    omega

theorem DT.sampleOne (hE : c.E.Lawful) {n ex k : Nat} {r : Bool} (h : k + 1 ≤ n) (h1 : 1 < n) (hex : ex < n) :
    DT Er (Mealpy.sampleOne n ex k r : D c _) (fun l => l.length = k ∧ ∀ i ∈ l, i < n ∧ i ≠ ex) := by
  intro g
  have hc : choiceErr (n - 1) k r = false := choiceErr_false (by omega) (by omega)
  have he : sampleExcludeOne c.E n ex k r g.1 = .ok (shiftExclude ex (c.E.choice (n - 1) k r g.1).1,
      (c.E.choice (n - 1) k r g.1).2) := by
    unfold sampleExcludeOne
    rw [if_neg (by omega), hc]
    rfl
  refine Wp.of_ok (a := shiftExclude ex (c.E.choice (n - 1) k r g.1).1)
    (s' := ((c.E.choice (n - 1) k r g.1).2, g.2)) ?_ ⟨?_, ?_⟩
  · unfold Mealpy.sampleOne
    rw [he]
  · simp [shiftExclude, hE.choice_length]
  · intro i hi
    simp only [shiftExclude, List.mem_map] at hi
    obtain ⟨j, hj, rfl⟩ := hi
    have := hE.choice_lt (n - 1) k r g.1 (by omega) j hj
    split <;> omega

theorem DT.levyFactor {case : Int} : DT Er (Mealpy.levyFactor case : D c K) (fun _ => True) :=
  DT.ite (fun _ => DT.random') fun _ => DT.ite (fun _ => DT.normal) fun _ => DT.pure trivial
theorem DT.levy {b m : K} {case : Int} : DT Er (Mealpy.levy b m case : D c K) (fun _ => True) :=
  DT.bind DT.normal fun _ _ => DT.bind DT.normal fun _ _ => DT.bind DT.levyFactor fun _ _ => DT.pure trivial
theorem DT.levyVec {b m : K} {case : Int} : DT Er (Mealpy.levyVec b m case : D c (Vec d K)) (fun _ => True) :=
  DT.bind DT.normalVec fun _ _ => DT.bind DT.normalVec fun _ _ => DT.bind DT.levyFactor fun _ _ => DT.pure trivial
theorem DT.oppositionSol (hP : c.P.Lawful) {a g : Vec d K} :
    DT Er (Mealpy.oppositionSol a g : D c (Vec d K)) (fun x => Spec.InBox c.P.lb c.P.ub x) :=
  DT.bind DT.random' fun _ _ => DT.correct hP
end

theorem FA.mkOk {x : Vec d K} {e : X} (h : Spec.InBox c.P.lb c.P.ub x) : MkOk (FA c) c (x, e) := ⟨h, h⟩

/-- side conditions -/
syntax "dside" : tactic
macro_rules
  | `(tactic| dside) => `(tactic| first
    | assumption
    | omega
    | (simp only [List.length_cons, List.length_nil, List.length_map, List.length_append, List.length_range,
        List.length_take, List.length_drop] at *; omega))

theorem DT.bindT {Er : Err → Prop} {α β : Type} {m : D c α} {f : α → D c β} {Q : β → Prop}
    (h : DT Er m (fun _ => True)) (h' : ∀ a, DT Er (f a) Q) : DT Er (m >>= f) Q :=
  DT.bind h (fun a _ => h' a)

/-- one primitive step -/
syntax "dprim" : tactic
macro_rules
  | `(tactic| dprim) => `(tactic| first
    | (at_head random; exact DT.random')
    | (at_head randomVec; exact DT.randomVec)
    | (at_head uniform; exact DT.uniform')
    | (at_head uniformVec; exact DT.uniformVec')
    | (at_head normal; exact DT.normal)
    | (at_head normalVec; exact DT.normalVec)
    | (at_head dist; exact DT.dist)
    | (at_head clock; exact DT.clock)
    | (at_head correct; exact DT.correct (by assumption))
    | (at_head correctWith; exact DT.correctWith (by assumption) DT.amendRandom)
    | (at_head nth; exact DT.nth_mem (by dside))
    | (at_head index; exact DT.index (by assumption) (by dside))
    | (at_head integers; exact DT.integers (by assumption) (by dside))
    | (at_head choice; exact DT.choice (by assumption) (choiceErr_false (by dside) (by dside)))
    | (at_head choice1; exact DT.choice1 (by assumption) (by dside))
    | (at_head choose2; exact DT.choose2 (by assumption) (by dside))
    | (at_head choose3; exact DT.choose3 (by assumption) (by dside))
    | (at_head pickWithout; exact DT.pickWithout (by assumption) (by dside))
    | (at_head choose2Without; exact DT.choose2Without (by assumption) (by dside))
    | (at_head choose3Without; exact DT.choose3Without (by assumption) (by dside))
    | (at_head choiceWithout; exact DT.choiceWithout (by assumption) (by dside) (by dside))
    | (at_head sampleOne; exact DT.sampleOne (by assumption) (by dside) (by dside) (by dside))
    | (at_head pick; exact DT.pick (by assumption) (by dside))
    | (at_head unpack2; exact DT.unpack2 (by dside))
    | (at_head unpack3; exact DT.unpack3 (by dside))
    | (at_head permutation; exact DT.permutation (by assumption))
    | (at_head genSolution; exact DT.genSolution (by assumption))
    | (at_head bestAgents; exact DT.bestAgents (by assumption))
    | (at_head best3; exact DT.best3 (by assumption) (by dside))
    | (at_head sortedPop; exact DT.sortedPop (by assumption))
    | (at_head worstAgents; exact DT.worstAgents (by assumption))
    | (at_head bestAgent; exact DT.bestAgent (by assumption) (by dside))
    | (at_head worstAgent; exact DT.worstAgent (by assumption) (by dside))
    | (at_head rouletteIdx; exact DT.rouletteIdx (by assumption) (by dside))
    | (at_head levy; exact DT.levy)
    | (at_head levyVec; exact DT.levyVec)
    | (at_head oppositionSol; exact DT.oppositionSol (by assumption)))

/-- goals closed by facts collected on the way -/
syntax "dfin" : tactic
macro_rules
  | `(tactic| dfin) => `(tactic| first
    | exact trivial
    | assumption
    | exact FA.mkOk (by assumption)
    | exact ⟨by assumption, by assumption⟩)

/-- further steps, added by later files -/
syntax "dext" : tactic
macro_rules
  | `(tactic| dext) => `(tactic| fail)

theorem DT.iterT {α : Type} {f : Nat → α → D c α} {n : Nat} {a : α}
    (hf : ∀ i a, i < n → DT Er (f i a) (fun _ => True)) : DT Er (Mealpy.iter n f a) (fun _ => True) :=
  DT.iter (fun _ _ => True) n trivial fun i a hi _ => hf i a hi

/-- walk over position-building code -/
syntax "dgo" : tactic
macro_rules
  | `(tactic| dgo) => `(tactic|
    repeat' (first
      | dfin
      | (at_head Pure.pure; refine DT.pure ?_; dfin)
      | (at_head Bind.bind; refine DT.bind (by dprim) (fun _ _ => ?_))
      | (at_head Bind.bind; refine DT.bindT ?_ (fun _ => ?_))
      | (refine DT.mono (by dprim) ?_; intro _ _; dfin)
      | (at_head vecM; refine DT.vecM_true (fun _ => ?_))
      | (at_head ite; refine DT.ite (fun _ => ?_) (fun _ => ?_))
      | (at_head iter; refine DT.iterT (fun _ _ _ => ?_))
      | dext
      | split))

/-- An algorithm that overrides only `evolve` and keeps agents plain. -/
theorem Algo.plain_ok (hE : c.E.Lawful) (hP : c.P.Lawful) {sf : Bool} {ev : Nat → M c Unit Unit Unit} {lo hi : Nat}
    (h : ∀ ep s, 1 ≤ ep → ep ≤ c.epoch → Good (FA c) JT s →
      Wp noErr (ev ep) s (fun _ s' => Post (FA c) JT lo hi s s')) :
    (Algo.plain sf ev).Ok (FA c) JT JT JT c.popSize lo hi where
  mkExt := fun x hx => DT.pure hx
  initVars := DT.pure trivial
  init := fun y p b hy hp => defaultInit_spec hE hP (fun x hx => DT.pure hx) y p b hy hp
  before := fun s hs => Wp.pure (by
    have := (Imp.refl hs.toGoodPop s.base.rng s.base.vg).toStep
    exact this)
  evolve := h

end Mealpy
