import Verif.Props.Solve
import Mathlib.Algebra.Order.BigOperators.Group.List
import Mathlib.Data.List.OfFn
import Mathlib.Tactic.FieldSimp

/-!
# C34, C36, C37, C38: diversity, pools, starting solutions
-/

set_option linter.unusedSectionVars false
set_option linter.unusedVariables false

namespace Mealpy
open Spec

/-! ## C34 -/

section C34
variable {d : Nat} {X Y : Type}

theorem sumL_rat (l : List ℚ) : sumL l = l.sum := by
  have : ∀ (l : List ℚ) (a : ℚ), l.foldl (· + ·) a = a + l.sum := by
    intro l
    induction l with
    | nil => simp
    | cons x l ih => intro a; simp only [List.foldl_cons, List.sum_cons]; rw [ih]; ring
  have h := this l 0
  rw [zero_add] at h
  exact h

theorem meanL_rat (l : List ℚ) : meanL l = l.sum / (l.length : ℚ) := by
  unfold meanL
  rw [sumL_rat]
  rfl

theorem abs_rat (x : ℚ) : Num.abs x = |x| := by
  show (if x < 0 then -x else x) = |x|
  split
  · rw [abs_of_neg ‹_›]
  · rw [abs_of_nonneg (not_lt.1 ‹_›)]

theorem meanL_nonneg {l : List ℚ} (h : ∀ x ∈ l, 0 ≤ x) : 0 ≤ meanL l := by
  rw [meanL_rat]
  exact div_nonneg (List.sum_nonneg h) (Nat.cast_nonneg _)

theorem meanL_eq_zero {l : List ℚ} (h : ∀ x ∈ l, 0 ≤ x) (hne : l ≠ []) : meanL l = 0 ↔ ∀ x ∈ l, x = 0 := by
  rw [meanL_rat]
  have hl : (l.length : ℚ) ≠ 0 := by
    have := List.length_pos_iff.2 hne
    positivity
  constructor
  · intro h0 x hx
    have hs : l.sum = 0 := by
      rcases div_eq_zero_iff.1 h0 with h0 | h0
      · exact h0
      · exact absurd h0 hl
    have := List.single_le_sum h x hx
    have := h x hx
    linarith
  · intro h0
    have hs : l.sum = 0 := List.sum_eq_zero h0
    rw [hs, zero_div]

/-- the median of a constant list -/
theorem medianL_const {l : List ℚ} (hne : l ≠ []) {v : ℚ} (h : ∀ x ∈ l, x = v) : medianL l = v := by
  unfold medianL
  have hlen : (l.mergeSort (fun a b => decide (a ≤ b))).length = l.length := List.length_mergeSort l
  have hpos := List.length_pos_iff.2 hne
  have hget : ∀ i, i < l.length → (l.mergeSort (fun a b => decide (a ≤ b))).getD i 0 = v := by
    intro i hi
    rw [List.getD_eq_getElem?_getD, List.getElem?_eq_getElem (by omega), Option.getD_some]
    exact h _ (List.mem_mergeSort.1 (List.getElem_mem _))
  dsimp only
  rw [hlen]
  split
  · exact hget _ (Nat.div_lt_self hpos (by omega))
  · have e1 := hget (l.length / 2 - 1) (by omega)
    have e2 := hget (l.length / 2) (by omega)
    rw [e1, e2]
    show (v + v) / 2 = v
    ring

/-- C34: diversity is non-negative. -/
theorem C34_diversity_nonneg (pop : List (Agent d ℚ X)) : 0 ≤ diversity pop := by
  unfold diversity
  refine meanL_nonneg ?_
  intro x hx
  obtain ⟨j, rfl⟩ := (List.mem_ofFn' _ _).1 hx
  refine meanL_nonneg ?_
  intro y hy
  obtain ⟨z, -, rfl⟩ := List.mem_map.1 hy
  rw [abs_rat]
  exact abs_nonneg _

/-- C34: diversity is zero exactly when all agents have the same solution. -/
theorem C34_diversity_zero_iff (hd : 0 < d) (pop : List (Agent d ℚ X)) (hp : pop ≠ []) :
    diversity pop = 0 ↔ ∀ a ∈ pop, ∀ a' ∈ pop, a.sol = a'.sol := by
  have hcol : ∀ j : Fin d, pop.map (fun a => a.sol j) ≠ [] := by intro j; simpa using hp
  have inner : ∀ j : Fin d, ∀ m : ℚ, ∀ x ∈ (pop.map (fun a => a.sol j)).map (fun x => Num.abs (m - x)), 0 ≤ x := by
    intro j m y hy
    obtain ⟨z, -, rfl⟩ := List.mem_map.1 hy
    rw [abs_rat]
    exact abs_nonneg _
  unfold diversity
  rw [meanL_eq_zero]
  · constructor
    · intro h a ha a' ha'
      funext j
      have hj := h _ ((List.mem_ofFn' _ _).2 ⟨j, rfl⟩)
      rw [meanL_eq_zero (inner j _) (by simpa using hp)] at hj
      have key : ∀ a ∈ pop, medianL (pop.map (fun a => a.sol j)) = a.sol j := by
        intro a ha
        have := hj _ (List.mem_map.2 ⟨a.sol j, List.mem_map.2 ⟨a, ha, rfl⟩, rfl⟩)
        rw [abs_rat, abs_eq_zero] at this
        linarith
      rw [← key a ha, ← key a' ha']
    · intro h x hx
      obtain ⟨j, rfl⟩ := (List.mem_ofFn' _ _).1 hx
      obtain ⟨a0, ha0⟩ := List.exists_mem_of_ne_nil _ hp
      have hm : medianL (pop.map (fun a => a.sol j)) = a0.sol j := by
        refine medianL_const (hcol j) ?_
        intro x hx
        obtain ⟨a, ha, rfl⟩ := List.mem_map.1 hx
        rw [h a ha a0 ha0]
      rw [meanL_eq_zero (inner j _) (by simpa using hp)]
      intro x hx
      obtain ⟨y, hy, rfl⟩ := List.mem_map.1 hx
      obtain ⟨a, ha, rfl⟩ := List.mem_map.1 hy
      rw [abs_rat, hm, h a ha a0 ha0, sub_self, abs_zero]
  · intro x hx
    obtain ⟨j, rfl⟩ := (List.mem_ofFn' _ _).1 hx
    exact meanL_nonneg (inner j _)
  · intro h
    have := congrArg List.length h
    simp at this
    omega

/-- C34: if some epoch has positive diversity then every exploration percentage lies in `[0, 100]`,
one of them is 100, and exploration and exploitation add up to 100 at every epoch. -/
theorem C34_percentages {c : Cfg d ℚ} (hE : c.E.Lawful) {q : Bool} {A : Algo c X Y} (hA : Disciplined q A)
    {o : RunOpts ℚ} {b : Base c} {s : St c X Y} {h : FinalHist d ℚ X} (hs : solve A o b = .ok (s, h))
    (hpos : ∃ v ∈ h.diversity, 0 < v) :
    (∀ x ∈ h.exploration, 0 ≤ x ∧ x ≤ 100) ∧ 100 ∈ h.exploration ∧
    h.exploration.length = h.diversity.length ∧ h.exploitation.length = h.exploration.length ∧
    (∀ (i : Nat) (x y : ℚ), h.exploration[i]? = some x → h.exploitation[i]? = some y → x + y = 100) ∧
    ∀ (i : Nat) (x v v' : ℚ), h.exploration[i]? = some x → h.diversity[i]? = some v → v' ∈ h.diversity →
      (∀ w ∈ h.diversity, w ≤ v') → x = 100 * (v / v') := by
  obtain ⟨pop0, o', L, h1, h2, h3, ⟨s0, h4⟩, h5, h6, h7, h8, h9, h10, inv⟩ := solve_record hE hA hs
  have hnn : ∀ v ∈ s.hist.diversity, 0 ≤ v := by
    intro v hv
    rw [inv.div] at hv
    obtain ⟨P, -, rfl⟩ := List.mem_map.1 hv
    exact C34_diversity_nonneg P
  unfold trackProcess at h9
  cases hm : listMax s.hist.diversity with
  | none => rw [hm] at h9; cases h9
  | some mx =>
  rw [hm] at h9
  dsimp only at h9
  injection h9 with h9
  obtain ⟨m1, m2⟩ := listMax_some hm
  obtain ⟨v, hv, hv0⟩ := hpos
  have hv' : v ∈ s.hist.diversity := by rw [← h9] at hv; exact hv
  have hmx : 0 < mx := lt_of_lt_of_le hv0 (m2 v hv')
  have ex : h.exploration = s.hist.diversity.map (fun x => (100 : ℚ) * (x / mx)) := by rw [← h9]
  have et : h.exploitation = h.exploration.map (fun x => (100 : ℚ) - x) := by rw [ex, ← h9]
  have dv : h.diversity = s.hist.diversity := by rw [← h9]
  refine ⟨?_, ?_, ?_, ?_, ?_, ?_⟩
  · intro x hx
    rw [ex] at hx
    obtain ⟨v, hv, rfl⟩ := List.mem_map.1 hx
    have a1 : 0 ≤ v / mx := div_nonneg (hnn v hv) hmx.le
    have a2 : v / mx ≤ 1 := (div_le_one hmx).2 (m2 v hv)
    constructor <;> linarith
  · rw [ex]
    refine List.mem_map.2 ⟨mx, m1, ?_⟩
    rw [div_self (ne_of_gt hmx), mul_one]
  · rw [ex, dv]; simp
  · rw [et]; simp
  · intro i x y hx hy
    rw [et, List.getElem?_map, hx] at hy
    simp at hy
    rw [← hy]; ring
  · intro i x v v' hx hv hv' hall
    rw [dv] at hv hv' hall
    have : v' = mx := le_antisymm (m2 v' hv') (hall mx m1)
    rw [ex, List.getElem?_map, hv] at hx
    simp at hx
    rw [← hx, this]

/-- the agents 0 and 4 on a line: positive diversity -/
example : 0 < diversity (d := 1) (K := ℚ) (X := Unit) [⟨fun _ => 0, ⟨[], 0⟩, ()⟩, ⟨fun _ => 4, ⟨[], 0⟩, ()⟩] := by
  refine lt_of_le_of_ne (C34_diversity_nonneg _) fun h => ?_
  have := (C34_diversity_zero_iff (by decide) _ (by simp)).1 h.symm _ (List.mem_cons_self ..) _
    (List.mem_cons_of_mem _ (List.mem_cons_self ..))
  have := congrFun this 0
  norm_num at this

end C34

variable {d : Nat} {K : Type} [Num K] {c : Cfg d K} {X Y : Type}

/-! ## C36 -/

/-- C36: whatever the order in which the workers of a pool finish, the results come back in the
order of the inputs. -/
theorem C36_pool_results_in_input_order {α β : Type} (f : α → β) (xs : List α) (finished : List Nat)
    (h : finished.Perm (List.range xs.length)) : poolMap f xs finished = (xs.map f).map some := by
  rw [poolMap_eq f xs h, List.map_map]
  rfl

/-- C36: `update_target_for_population` in the modes 'thread', 'process' and 'swarm' gives every agent
the target of its own position, in place, evaluates each position once, and counts them; the result
does not depend on the mode or the schedule. -/
theorem C36_parallel_evaluation (hE : c.E.Lawful) (hm : c.mode = .thread ∨ c.mode = .process ∨ c.mode = .swarm)
    (pending : List (Vec d K × X)) (b : Base c) :
    ∃ b', updateTargets pending b = .ok (pending.map (fun p => ⟨p.1, c.P.target p.1, p.2⟩), b') ∧
      (∃ calls, b'.log = b.log ++ calls ∧ calls.Perm (pending.map (·.1))) ∧
      b'.nfe = b.nfe + pending.length := by
  have hsw : c.swarmLike = true := by
    unfold Cfg.swarmLike
    rcases hm with h | h | h <;> rw [h]
  obtain ⟨pop, b', h1, rfl, new, h2, h3, h4⟩ := (updateTargets_spec (Er := noErr) hE hsw pending b).ok
  exact ⟨b', h1, ⟨new, h3, h2⟩, h4⟩

/-- a schedule in which the third worker finishes first -/
example : poolMap (fun n : Nat => n * n) [2, 3, 5] [2, 0, 1] = [some 4, some 9, some 25] := by decide

example : (exCfg .thread).mode = .thread ∨ (exCfg .thread).mode = .process ∨ (exCfg .thread).mode = .swarm :=
  .inl rfl

/-! ## C37 -/

/-- C37: in every mode `generate_population(n)` returns exactly `n` agents, inside the box, each with
the target of its own solution, and the objective was called once for each. -/
theorem C37_generates_n_evaluated_agents (hE : c.E.Lawful) (hP : c.P.Lawful) {mkExt : Vec d K → D c X}
    (hmk : ∀ x, DT noErr (mkExt x) (fun _ => True)) (n : Nat) (b : Base c) :
    ∃ pop b', generatePopulation mkExt n b = .ok (pop, b') ∧ pop.length = n ∧
      (∀ a ∈ pop, InBox c.P.lb c.P.ub a.sol ∧ a.tgt = c.P.target a.sol) ∧
      ∃ calls, b'.log = b.log ++ calls ∧ calls.Perm (pop.map Agent.sol) := by
  obtain ⟨pop, b', h1, h2, h3, h4, -⟩ := (generatePopulation_spec (Er := noErr) (F := fun _ => True) (b := b) hE hP n
    (fun x _ => hmk x)).ok
  exact ⟨pop, b', h1, h2, fun a ha => ⟨(h3 a ha).1, (h3 a ha).2.1⟩, h4⟩

/-- C37: in 'thread' mode the agents come in the order in which the workers finish. -/
theorem C37_thread_completion_order (hE : c.E.Lawful) {mkExt : Vec d K → D c X} (hm : c.mode = .thread)
    {n : Nat} {b b' : Base c} {pop : List (Agent d K X)} (h : generatePopulation mkExt n b = .ok (pop, b')) :
    ∃ made b1 finished, generateSeq mkExt n b = .ok (made, b1) ∧ finished.Perm (List.range n) ∧
      finished = (c.E.order n b1.rng).1 ∧ pop = finished.filterMap (fun i => made[i]?) := by
  unfold generatePopulation at h
  rw [hm] at h
  dsimp only at h
  change (generateSeq mkExt n b >>= fun p => _) = _ at h
  cases hg : generateSeq mkExt n b with
  | error e => rw [hg] at h; cases h
  | ok p =>
    rw [hg] at h
    obtain ⟨made, b1⟩ := p
    refine ⟨made, b1, _, rfl, hE.order_perm n b1.rng, rfl, ?_⟩
    injection h with h
    exact (Prod.mk.inj h).1.symm

theorem mapM_const_ok {α β ε : Type} {r : Except ε β} : ∀ {l : List α} {ys : List β},
    l.mapM (fun _ => r) = .ok ys → ∀ y ∈ ys, r = .ok y
  | [], ys, h, y, hy => by
    rw [List.mapM_nil] at h
    injection h with h
    subst h
    cases hy
  | a :: l, ys, h, y, hy => by
    rw [List.mapM_cons] at h
    cases r with
    | error e => cases h
    | ok z =>
      change ((l.mapM (fun _ => Except.ok z) : Except ε (List β)) >>= fun t => _) = _ at h
      cases ht : (l.mapM (fun _ => Except.ok z) : Except ε (List β)) with
      | error e => rw [ht] at h; cases h
      | ok t =>
        rw [ht] at h
        injection h with h
        subst h
        rcases List.mem_cons.1 hy with rfl | hy
        · rfl
        · exact mapM_const_ok ht y hy

/-- C37: in 'process' mode all generated agents are identical: every worker starts from the same
pickled generator state. -/
theorem C37_process_identical {mkExt : Vec d K → D c X} (hm : c.mode = .process)
    {n : Nat} {b b' : Base c} {pop : List (Agent d K X)} (h : generatePopulation mkExt n b = .ok (pop, b')) :
    ∀ a ∈ pop, ∀ a' ∈ pop, a = a' := by
  unfold generatePopulation at h
  rw [hm] at h
  dsimp only at h
  cases hg : (List.replicate n ()).mapM (fun _ => generateAgent mkExt b) with
  | error e => rw [hg] at h; cases h
  | ok tasks =>
    rw [hg] at h
    injection h with h
    obtain ⟨h1, -⟩ := Prod.mk.inj h
    have key : ∀ a ∈ pop, ∃ b1, generateAgent mkExt b = .ok (a, b1) := by
      intro a ha
      rw [← h1] at ha
      obtain ⟨i, -, hi⟩ := List.mem_filterMap.1 ha
      obtain ⟨p, hp, rfl⟩ := List.mem_map.1 (List.mem_of_getElem? hi)
      exact ⟨p.2, mapM_const_ok hg p hp⟩
    intro a ha a' ha'
    obtain ⟨b1, k1⟩ := key a ha
    obtain ⟨b2, k2⟩ := key a' ha'
    rw [k1] at k2
    injection k2 with k2
    exact (Prod.mk.inj k2).1

example : ∀ x : Vec 2 ℚ, DT noErr ((fun _ => pure ()) x : D (exCfg .process) Unit) (fun _ => True) :=
  fun _ => DT.pure trivial

/-! ## C38 -/

/-- C38: without `starting_solutions` nothing is prepared (the algorithm generates its population). -/
theorem C38_none (mkExt : Vec d K → D c X) (b : Base c) : beforeInit mkExt .none b = .ok (none, b) := rfl

/-- C38: `pop_size` rows of `n_dims` entries become the initial agents: exactly these rows, in order,
with their targets, whether or not they lie inside the bounds; each is evaluated once and counted. -/
theorem C38_rows_used_verbatim (hE : c.E.Lawful) {mkExt : Vec d K → D c X}
    (hmk : ∀ x, DT noErr (mkExt x) (fun _ => True)) (rows : List (List K)) (hlen : rows.length = c.popSize)
    (hpos : 0 < c.popSize) (hdim : ∀ r ∈ rows, r.length = d) (b : Base c) :
    ∃ pop b', beforeInit mkExt (.rows rows) b = .ok (some pop, b') ∧
      pop.map (fun a => List.ofFn a.sol) = rows ∧ (∀ a ∈ pop, a.tgt = c.P.target a.sol) ∧
      (∃ calls, b'.log = b.log ++ calls ∧ calls.Perm (pop.map Agent.sol)) ∧ b'.nfe = b.nfe + c.popSize := by
  have hx : ∃ xs : List (Vec d K), rows.mapM (rowVec (d := d)) = some xs ∧ xs.length = rows.length ∧
      List.Forall₂ (fun r x => rowVec r = some x) rows xs ∧ xs.map List.ofFn = rows := by
    clear hlen
    induction rows with
    | nil => exact ⟨[], rfl, rfl, .nil, rfl⟩
    | cons r l ih =>
      obtain ⟨xs, h1, h2, h3, h4⟩ := ih (fun r hr => hdim r (by simp [hr]))
      have hr : r.length = d := hdim r (by simp)
      have hv : rowVec (d := d) r = some (fun j => r[j]'(by omega)) := by
        unfold rowVec; rw [dif_pos hr]
      refine ⟨(fun j => r[j]'(by omega)) :: xs, ?_, by simp [h2], .cons hv h3, ?_⟩
      · rw [List.mapM_cons, hv, h1]; rfl
      · rw [List.map_cons, h4]
        congr 1
        apply List.ext_getElem
        · simp [hr]
        · intro i h1 h2; simp
  obtain ⟨xs, h1, h2, h3, h4⟩ := hx
  obtain ⟨p, b', k1, pop, rfl, k2, k3, ⟨new, k4, k5⟩, k6⟩ := (beforeInit_rows (Er := noErr) (F := fun _ => True) hE hlen hpos h1 h2 h3
    (fun x _ => hmk x) b).ok
  refine ⟨pop, b', k1, ?_, fun a ha => (k3 a ha).1, ⟨new, k4, by rw [k2]; exact k5⟩, by rw [k6]; omega⟩
  rw [← h4, ← k2, List.map_map]
  rfl

/-- C38: everything else is rejected with ValueError: no array, not `pop_size` rows, a first row that
is not an array or has not `n_dims` entries. -/
theorem C38_rejected (mkExt : Vec d K → D c X) (b : Base c) :
    beforeInit mkExt .notArray b = .error .value ∧
    (∀ n, beforeInit mkExt (.flat n) b = .error .value) ∧
    (∀ rows, rows.length ≠ c.popSize → beforeInit mkExt (.rows rows) b = .error .value) ∧
    (∀ r rows, (r :: rows).length = c.popSize → r.length ≠ d →
      beforeInit mkExt (.rows (r :: rows)) b = .error .value) := by
  refine ⟨rfl, fun _ => rfl, ?_, ?_⟩
  · intro rows h
    unfold beforeInit
    simp only
    rw [if_pos h]
  · intro r rows h h'
    unfold beforeInit
    simp only
    rw [if_neg (by simpa using h), if_pos h']

/-- C38: the rows are not clipped: `100` is kept although the box is `[-5, 5]`. -/
theorem C38_not_clipped : ∃ (c : Cfg 1 ℚ) (b b' : Base c) (a : Agent 1 ℚ Unit), c.E.Lawful ∧ c.P.Lawful ∧
    beforeInit (fun _ => pure ()) (.rows [[100]]) b = .ok (some [a], b') ∧ ¬ InBox c.P.lb c.P.ub a.sol := by
  refine ⟨⟨detEnv, sphereProb 1 .min, .single, 1, 1⟩, ⟨(0 : Nat), (0 : Nat), [], 1⟩, _, _, detEnv_lawful,
    sphereProb_lawful 1 .min, rfl, ?_⟩
  intro h
  have h' := (h 0).2
  revert h'
  decide +kernel

example : (∀ x : Vec 2 ℚ, DT noErr ((fun _ => pure ()) x : D (exCfg .swarm) Unit) (fun _ => True)) ∧
    ([[0, 0], [1, 2], [9, 9], [3, 4], [-7, 0]] : List (List ℚ)).length = (exCfg .swarm).popSize :=
  ⟨fun _ => DT.pure trivial, rfl⟩

end Mealpy
