import Verif.DrawLemmas

/-!
# C16-C27: comparison, sorting, selection and sampling helpers
-/

set_option linter.unusedSectionVars false
set_option linter.unusedSimpArgs false

namespace Mealpy
open Spec

variable {d : Nat} {K X : Type} [LinearOrder K]

/-- a one-dimensional agent with the given fitness, for the examples -/
def exAgent (f : ℚ) : Agent 1 ℚ Unit := ⟨fun _ => f, ⟨[f], f⟩, ()⟩
/-- an example population with a tie -/
def exPop : List (Agent 1 ℚ Unit) := [exAgent 3, exAgent 1, exAgent 2, exAgent 1]

/-! ## C16 -/

/-- C16: exactly one of better / equal / worse holds and `_compare_fitness` reports which. -/
theorem C16_compare_fitness (a b : Agent d K X) (mm : MinMax) :
    (agentCompare a b mm = -1 ↔ Better mm a.fit b.fit)
    ∧ (agentCompare a b mm = 0 ↔ a.fit = b.fit)
    ∧ (agentCompare a b mm = 1 ↔ Better mm b.fit a.fit)
    ∧ (agentCompare b a mm = - agentCompare a b mm) := by
  rcases lt_trichotomy a.fit b.fit with h | h | h
  · cases mm <;> simp [agentCompare, Better, h, h.ne, h.ne', h.le, not_lt.2 h.le]
  · cases mm <;> simp [agentCompare, Better, h]
  · cases mm <;> simp [agentCompare, Better, h, h.ne, h.ne', h.le, not_lt.2 h.le]

/-- C16: the six comparison helpers agree whenever the fitness values differ. -/
theorem C16_helpers_agree (a b : Agent d K X) (mm : MinMax) (h : Better mm a.fit b.fit) :
    isBetterThan a b mm = true ∧ isBetterThan b a mm = false
    ∧ getBetterSolution a b mm = a ∧ getBetterSolution b a mm = a
    ∧ compareTarget a.tgt b.tgt mm = true ∧ compareTarget b.tgt a.tgt mm = false
    ∧ compareFitness a.fit b.fit mm = true ∧ compareFitness b.fit a.fit mm = false
    ∧ getBetterAgent a b mm = a ∧ getBetterAgent b a mm = a
    ∧ getBetterAgent a b mm true = b ∧ getBetterAgent b a mm true = b := by
  cases mm <;> simp only [Better] at h <;>
    simp [isBetterThan, getBetterSolution, compareTarget, compareFitness, getBetterAgent,
      agentCompare, h.ne, h.ne', h, not_lt.2 h.le] <;>
    (try simp [Agent.fit] at h ⊢) <;> simp [h, h.le, not_lt.2 h.le]

/-- C16: what the helpers answer on a tie. -/
theorem C16_ties (a b : Agent d K X) (mm : MinMax) (h : a.fit = b.fit) :
    isBetterThan a b mm = false
    ∧ getBetterSolution a b mm = a
    ∧ compareTarget a.tgt b.tgt mm = decide (mm = .max)
    ∧ compareFitness a.fit b.fit mm = decide (mm = .max)
    ∧ getBetterAgent a b mm = (match mm with | .min => b | .max => a) := by
  have h' : a.tgt.fitness = b.tgt.fitness := h
  cases mm <;> simp [isBetterThan, getBetterSolution, compareTarget, compareFitness,
    getBetterAgent, agentCompare, h, h']

/-- C16: "better" is a strict total order on fitness (so the answers above are consistent over
any number of agents). -/
theorem C16_total_order (mm : MinMax) :
    (∀ a : K, ¬ Better mm a a)
    ∧ (∀ a b c : K, Better mm a b → Better mm b c → Better mm a c)
    ∧ (∀ a b : K, Better mm a b ∨ a = b ∨ Better mm b a) := by
  cases mm
  · exact ⟨fun a => lt_irrefl a, fun a b c => lt_trans, fun a b => lt_trichotomy a b⟩
  · refine ⟨fun a => lt_irrefl a, fun a b c h1 h2 => lt_trans h2 h1, fun a b => ?_⟩
    rcases lt_trichotomy a b with h | h | h
    · exact .inr (.inr h)
    · exact .inr (.inl h)
    · exact .inl h

example : getBetterAgent (exAgent 1) (exAgent 3) .min = exAgent 1 :=
  (C16_helpers_agree (exAgent 1) (exAgent 3) .min
    (by show (1 : ℚ) < 3; norm_num)).2.2.2.2.2.2.2.2.1

/-! ## C17 -/

/-- C17: `get_sorted_population` returns a rearrangement of the population, best first, and agent
`i` of it is the original agent number `indices[i]`; the indices are a rearrangement of all
positions.  `as` is any behaviour of `np.argsort` that numpy permits. -/
theorem C17_sorted_population {as : List K → List Nat} (has : ArgsortLaw as)
    (pop : List (Agent d K X)) (mm : MinMax) :
    (getSorted as pop mm).1.Perm pop
    ∧ BestFirst mm ((getSorted as pop mm).1.map Agent.fit)
    ∧ (getSorted as pop mm).2.Perm (List.range pop.length)
    ∧ ∀ i : Nat, (getSorted as pop mm).1[i]? = ((getSorted as pop mm).2[i]?).bind (fun j => pop[j]?) := by
  refine ⟨getSorted_perm has pop mm, ?_, ?_, getSorted_index has pop mm⟩
  · rw [BestFirst, List.pairwise_map]; exact getSorted_bestFirst has pop mm
  · rw [getSorted_eq]; exact sortedIdx_perm has pop mm

example : (getSorted stableArgsort exPop .max).1.Perm exPop :=
  (C17_sorted_population stableArgsort_law exPop .max).1

/-! ## C18 -/

/-- C18: on a non-empty population `get_best_agent` returns a member at the returned index, and no
member is strictly better. -/
theorem C18_best {as : List K → List Nat} (has : ArgsortLaw as) (pop : List (Agent d K X))
    (mm : MinMax) (hne : pop ≠ []) :
    ∃ a i, getBest as pop mm = .ok (a, i) ∧ pop[i]? = some a
      ∧ ∀ b ∈ pop, ¬ Better mm b.fit a.fit := by
  have hlen := getSorted_length has pop mm
  have hpos : 0 < (getSorted as pop mm).1.length := by
    rw [hlen]; exact List.length_pos_iff.2 hne
  have hidx := getSorted_index has pop mm 0
  obtain ⟨a, ha⟩ : ∃ a, (getSorted as pop mm).1[0]? = some a := ⟨_, List.getElem?_eq_getElem hpos⟩
  rw [ha] at hidx
  obtain ⟨i, hi, hia⟩ := Option.bind_eq_some_iff.1 hidx.symm
  refine ⟨a, i, ?_, hia, fun b hb => not_better.2 ((head_best has ha).2 b hb)⟩
  simp only [getBest]
  rw [ha, hi]

/-- C18: `get_worst_agent` likewise, from the other end. -/
theorem C18_worst {as : List K → List Nat} (has : ArgsortLaw as) (pop : List (Agent d K X))
    (mm : MinMax) (hne : pop ≠ []) :
    ∃ a i, getWorst as pop mm = .ok (a, i) ∧ pop[i]? = some a
      ∧ ∀ b ∈ pop, ¬ Better mm a.fit b.fit := by
  have hlen := getSorted_length has pop mm
  have hlen2 : (getSorted as pop mm).2.length = pop.length := by
    rw [getSorted_eq]; simpa using (sortedIdx_perm has pop mm).length_eq
  have hpos : pop.length ≠ 0 := by
    intro h; exact hne (List.length_eq_zero_iff.1 h)
  have hidx := getSorted_index has pop mm (pop.length - 1)
  obtain ⟨a, ha⟩ : ∃ a, (getSorted as pop mm).1[pop.length - 1]? = some a :=
    ⟨_, List.getElem?_eq_getElem (by omega)⟩
  rw [ha] at hidx
  obtain ⟨i, hi, hia⟩ := Option.bind_eq_some_iff.1 hidx.symm
  have ha' : (getSorted as pop mm).1.getLast? = some a := by
    rw [List.getLast?_eq_getElem?, hlen]; exact ha
  have hi' : (getSorted as pop mm).2.getLast? = some i := by
    rw [List.getLast?_eq_getElem?, hlen2]; exact hi
  refine ⟨a, i, ?_, hia, fun b hb => not_better.2 ((last_worst has ha').2 b hb)⟩
  simp only [getWorst]
  rw [ha', hi']

/-- C18: both raise IndexError on an empty population. -/
theorem C18_empty {as : List K → List Nat} (has : ArgsortLaw as) (mm : MinMax) :
    getBest as ([] : List (Agent d K X)) mm = .error .index
    ∧ getWorst as ([] : List (Agent d K X)) mm = .error .index := by
  have h1 : (getSorted as ([] : List (Agent d K X)) mm).1 = [] :=
    List.length_eq_zero_iff.1 (getSorted_length has _ mm)
  constructor
  · simp only [getBest, h1]; rfl
  · simp only [getWorst, h1]; rfl

example : ∃ a i, getBest stableArgsort exPop .min = .ok (a, i) ∧ exPop[i]? = some a
      ∧ ∀ b ∈ exPop, ¬ Better .min b.fit a.fit :=
  C18_best stableArgsort_law exPop .min (by simp [exPop])

/-! ## C19 -/

/-- C19: `best` and `worst` of `get_special_agents`. -/
theorem C19_special_agents {as : List K → List Nat} (has : ArgsortLaw as)
    (pop : List (Agent d K X)) (n m : Nat) (mm : MinMax) :
    ∃ sorted best worst, getSpecial as pop (some n) (some m) mm = (sorted, some best, some worst)
      ∧ sorted.Perm pop ∧ BestFirst mm (sorted.map Agent.fit)
      ∧ best.length = min n pop.length ∧ worst.length = min m pop.length
      ∧ BestFirst mm (best.map Agent.fit) ∧ BestFirst mm (worst.map Agent.fit).reverse
      ∧ (∃ rest, (best ++ rest).Perm pop ∧ ∀ b ∈ best, ∀ r ∈ rest, NoWorse mm b.fit r.fit)
      ∧ (∃ rest, (worst ++ rest).Perm pop ∧ ∀ w ∈ worst, ∀ r ∈ rest, NoWorse mm r.fit w.fit) := by
  have hp := getSorted_perm has pop mm
  have hs := getSorted_bestFirst has pop mm
  have hl := getSorted_length has pop mm
  refine ⟨(getSorted as pop mm).1, (getSorted as pop mm).1.take n,
    (getSorted as pop mm).1.reverse.take m, rfl, hp, ?_, ?_, ?_, ?_, ?_, ?_, ?_⟩
  · rw [BestFirst, List.pairwise_map]; exact hs
  · rw [List.length_take, hl]
  · rw [List.length_take, List.length_reverse, hl]
  · rw [BestFirst, List.pairwise_map]; exact hs.sublist (List.take_sublist _ _)
  · rw [BestFirst, List.pairwise_reverse, List.pairwise_map]
    exact (List.pairwise_reverse.2 hs).sublist (List.take_sublist _ _)
  · refine ⟨(getSorted as pop mm).1.drop n, by rwa [List.take_append_drop], ?_⟩
    rw [← List.take_append_drop n (getSorted as pop mm).1] at hs
    exact (List.pairwise_append.1 hs).2.2
  · refine ⟨(getSorted as pop mm).1.reverse.drop m, ?_, ?_⟩
    · rw [List.take_append_drop]; exact (List.reverse_perm _).trans hp
    · have hr := List.pairwise_reverse.2 hs
      rw [← List.take_append_drop m (getSorted as pop mm).1.reverse] at hr
      intro w hw r hr'
      exact (List.pairwise_append.1 hr).2.2 w hw r hr'

/-- C19: with `return_index=True` the index lists point to the same agents of the original
population, with no index repeated. -/
theorem C19_special_indices {as : List K → List Nat} (has : ArgsortLaw as)
    (pop : List (Agent d K X)) (n m : Nat) (mm : MinMax) :
    ∃ best worst bi wi sorted,
      getSpecial as pop (some n) (some m) mm = (sorted, some best, some worst)
      ∧ getSpecialIdx as pop (some n) (some m) mm = (sorted, some bi, some wi)
      ∧ bi.map (fun i => pop[i]?) = best.map some ∧ wi.map (fun i => pop[i]?) = worst.map some
      ∧ bi.Nodup ∧ wi.Nodup := by
  have hfm : (getSorted as pop mm).2.map (fun i => pop[i]?) = (getSorted as pop mm).1.map some := by
    rw [getSorted_eq]
    have hlt : ∀ j ∈ sortedIdx as pop mm, j < pop.length := by
      intro j hj
      simpa using (sortedIdx_perm has pop mm).mem_iff.1 hj
    generalize sortedIdx as pop mm = l at hlt
    induction l with
    | nil => simp
    | cons x xs ih =>
      have hx' : pop[x]? = some (pop[x]'(hlt x (by simp))) := List.getElem?_eq_getElem _
      simp only [List.map_cons, List.filterMap_cons_some hx', hx']
      rw [ih (fun j hj => hlt j (List.mem_cons_of_mem _ hj))]
  have hnd : (getSorted as pop mm).2.Nodup := by
    rw [getSorted_eq]; exact (sortedIdx_perm has pop mm).nodup_iff.2 List.nodup_range
  refine ⟨(getSorted as pop mm).1.take n, (getSorted as pop mm).1.reverse.take m,
    (getSorted as pop mm).2.take n, (getSorted as pop mm).2.reverse.take m,
    (getSorted as pop mm).1, rfl, rfl, ?_, ?_, ?_, ?_⟩
  · rw [List.map_take, List.map_take, hfm]
  · rw [List.map_take, List.map_take, List.map_reverse, List.map_reverse, hfm]
  · exact hnd.sublist (List.take_sublist _ _)
  · exact (List.nodup_reverse.2 hnd).sublist (List.take_sublist _ _)

/-- C19: `None` counts give `None` results. -/
theorem C19_none (as : List K → List Nat) (pop : List (Agent d K X)) (mm : MinMax) :
    (getSpecial as pop none none mm).2 = (none, none) := rfl

/-- C19: `get_special_fitness` returns the total, the best and the worst fitness. -/
theorem C19_special_fitness {as : List ℚ → List Nat} (has : ArgsortLaw as)
    (pop : List (Agent d ℚ X)) (mm : MinMax) (hne : pop ≠ []) :
    ∃ b w, getSpecialFitness as pop mm = .ok ((pop.map Agent.fit).sum, b, w)
      ∧ IsBestOf mm b (pop.map Agent.fit) ∧ IsWorstOf mm w (pop.map Agent.fit) := by
  have hpos : 0 < (getSorted as pop mm).1.length := by
    rw [getSorted_length has]; exact List.length_pos_iff.2 hne
  obtain ⟨a, ha⟩ : ∃ a, (getSorted as pop mm).1[0]? = some a := ⟨_, List.getElem?_eq_getElem hpos⟩
  obtain ⟨w, hw⟩ : ∃ w, (getSorted as pop mm).1.getLast? = some w :=
    ⟨_, List.getLast?_eq_some_getLast (List.length_pos_iff.1 hpos)⟩
  refine ⟨a.fit, w.fit, ?_, ⟨List.mem_map.2 ⟨a, (head_best has ha).1, rfl⟩, ?_⟩,
    ⟨List.mem_map.2 ⟨w, (last_worst has hw).1, rfl⟩, ?_⟩⟩
  · simp only [getSpecialFitness]
    rw [ha, hw, foldl_add_eq, zero_add]
  · intro v hv
    obtain ⟨b, hb, rfl⟩ := List.mem_map.1 hv
    exact (head_best has ha).2 b hb
  · intro v hv
    obtain ⟨b, hb, rfl⟩ := List.mem_map.1 hv
    exact (last_worst has hw).2 b hb

example : ∃ b w, getSpecialFitness stableArgsort exPop .max
      = .ok ((exPop.map Agent.fit).sum, b, w)
      ∧ IsBestOf .max b (exPop.map Agent.fit) ∧ IsWorstOf .max w (exPop.map Agent.fit) :=
  C19_special_fitness stableArgsort_law exPop .max (by simp [exPop])

/-! ## C20 -/

/-- C20: greedy selection of populations of equal length never makes a slot worse. -/
theorem C20_greedy (old new : List (Agent d K X)) (mm : MinMax) (h : old.length = new.length) :
    ∃ res, greedySelection old new mm = .ok res ∧ res.length = old.length
      ∧ ∀ (i : Nat) (o n : Agent d K X), old[i]? = some o → new[i]? = some n →
          ∃ r, res[i]? = some r ∧ (r = o ∨ r = n)
            ∧ NoWorse mm r.fit o.fit ∧ NoWorse mm r.fit n.fit ∧ (o.fit = n.fit → r = o) := by
  refine ⟨_, greedySelection_ok h, by simp [h], ?_⟩
  intro i o n ho hn
  exact ⟨greedyPick mm o n, by rw [List.getElem?_zipWith, ho, hn], greedyPick_cases mm o n⟩

/-- C20: populations of different length are rejected with ValueError. -/
theorem C20_length_mismatch (old new : List (Agent d K X)) (mm : MinMax)
    (h : old.length ≠ new.length) : greedySelection old new mm = .error .value := by
  simp [greedySelection, h]

example : ∃ res, greedySelection exPop exPop.reverse .min = .ok res ∧ res.length = 4 := by
  obtain ⟨r, h1, h2, _⟩ := C20_greedy exPop exPop.reverse .min (by simp)
  exact ⟨r, h1, h2⟩

/-! ## C21 -/

/-- C21: sort-and-trim keeps `min k size` members, best first, and nobody left out is strictly
better than anybody kept. -/
theorem C21_sort_trim {as : List K → List Nat} (has : ArgsortLaw as) (pop : List (Agent d K X))
    (k : Nat) (mm : MinMax) :
    (getSortedTrimmed as pop k mm).length = min k pop.length
    ∧ BestFirst mm ((getSortedTrimmed as pop k mm).map Agent.fit)
    ∧ ∃ rest, (getSortedTrimmed as pop k mm ++ rest).Perm pop
        ∧ ∀ a ∈ getSortedTrimmed as pop k mm, ∀ r ∈ rest, ¬ Better mm r.fit a.fit := by
  obtain ⟨sorted, best, worst, he, _, _, hlen, _, hbf, _, ⟨rest, hperm, hb⟩, _⟩ :=
    C19_special_agents has pop k 0 mm
  have hbest : best = getSortedTrimmed as pop k mm := by
    have := congrArg (fun t => t.2.1) he
    simp only [getSpecial, Option.map_some, Option.some.injEq] at this
    rw [← this]; rfl
  subst hbest
  exact ⟨hlen, hbf, rest, hperm, fun a ha r hr => not_better.2 (hb a ha r hr)⟩

example : (getSortedTrimmed stableArgsort exPop 3 .min).length = 3 :=
  (C21_sort_trim stableArgsort_law exPop 3 .min).1

/-! ## C22 -/

/-- C22: `n` groups that, concatenated, are the first `n*m` agents in order; each has `m` agents
when the population is large enough; member `j` of group `i` is agent `i*m+j`. -/
theorem C22_groups (pop : List (Agent d K X)) (n m : Nat) :
    (generateGroups pop n m).length = n
    ∧ (generateGroups pop n m).flatten = pop.take (n * m)
    ∧ (n * m ≤ pop.length → ∀ g ∈ generateGroups pop n m, g.length = m)
    ∧ ∀ i j, i < n → j < m →
        ((generateGroups pop n m)[i]?).bind (fun g => g[j]?) = pop[i * m + j]? := by
  have hg : ∀ i, (pop.drop (i * m)).take ((i + 1) * m - i * m) = (pop.drop (i * m)).take m := by
    intro i; congr 1; rw [Nat.add_mul]; omega
  refine ⟨by simp [generateGroups], ?_, ?_, ?_⟩
  · induction n with
    | zero => simp [generateGroups]
    | succ n ih =>
      rw [generateGroups, List.range_succ, List.map_append, List.flatten_append, ← generateGroups,
        ih, List.map_singleton, List.flatten_singleton, hg]
      rw [Nat.add_mul, Nat.one_mul, List.take_add]
  · intro hle g hgm
    obtain ⟨i, hi, rfl⟩ := List.mem_map.1 hgm
    rw [List.mem_range] at hi
    rw [hg, List.length_take, List.length_drop]
    have : (i + 1) * m ≤ n * m := Nat.mul_le_mul_right m hi
    rw [Nat.add_mul] at this
    omega
  · intro i j hi hj
    simp only [generateGroups, List.getElem?_map, List.getElem?_range hi, Option.map_some,
      Option.bind_some]
    rw [hg, List.getElem?_take_of_lt hj, List.getElem?_drop]

example : (generateGroups exPop 2 2).flatten = exPop := (C22_groups exPop 2 2).2.1

/-! ## C23 -/

/-- C23: the samples lie in `[0, pop_size)`, differ from the excluded index, have the requested
count, and are distinct when sampling without replacement. -/
theorem C23_exclude_one {K : Type} [Num K] (E : Env K) (hE : E.Lawful)
    (popSize ex n : Nat) (replace : Bool) (s s' : E.σ) (r : List Nat)
    (h : sampleExcludeOne E popSize ex n replace s = .ok (r, s')) :
    r.length = n ∧ (∀ i ∈ r, i < popSize ∧ i ≠ ex) ∧ (replace = false → r.Nodup) := by
  unfold sampleExcludeOne at h
  split at h
  · cases h
  split at h
  · cases h
  rename_i hp hc
  simp only [Except.ok.injEq, Prod.mk.injEq] at h
  obtain ⟨rfl, rfl⟩ := h
  simp only [choiceErr, Bool.or_eq_true, Bool.and_eq_true, decide_eq_true_eq,
    Bool.not_eq_true', not_or, not_and, not_not, not_lt] at hc
  refine ⟨by simp [shiftExclude, hE.choice_length], ?_, ?_⟩
  · intro i hi
    obtain ⟨j, hj, rfl⟩ := List.mem_map.1 hi
    by_cases h0 : popSize - 1 = 0
    · have hn : n = 0 := by
        by_contra hn
        exact hn (by simpa using hc.1 h0)
      have hl := hE.choice_length (popSize - 1) n replace s
      rw [hn] at hl hj
      rw [List.length_eq_zero_iff.1 hl] at hj
      simp at hj
    · have := hE.choice_lt (popSize - 1) n replace s (by omega) j hj
      split <;> constructor <;> omega
  · intro hr
    subst hr
    exact shiftExclude_nodup (hE.choice_nodup _ _ _ (hc.2 rfl))

/-- C23: when the call raises.  It needs `n` other agents (without replacement) or one (with). -/
theorem C23_when_it_raises {K : Type} [Num K] (E : Env K) (popSize ex n : Nat) (replace : Bool)
    (s : E.σ) : (∃ r s', sampleExcludeOne E popSize ex n replace s = .ok (r, s')) ↔
      0 < popSize ∧ (n = 0 ∨ 1 < popSize) ∧ (replace = false → n < popSize) := by
  unfold sampleExcludeOne
  by_cases hp : popSize = 0
  · simp [hp]
  · rw [if_neg hp]
    cases replace <;> simp [choiceErr] <;> split <;> simp <;> omega

/-- C23: the offset trick maps the raw draws `0..pop_size-2` one-to-one onto all other indices,
so every index except the excluded one can be drawn. -/
theorem C23_bijection (popSize ex : Nat) (h : ex < popSize) :
    (shiftExclude ex (List.range (popSize - 1))).Perm
      ((List.range popSize).filter (fun i => i ≠ ex)) := shiftExclude_perm h

example : ∃ r s', sampleExcludeOne detEnv 5 2 3 false (0 : Nat) = .ok (r, s') :=
  (C23_when_it_raises detEnv 5 2 3 false (0 : Nat)).2 ⟨by omega, by omega, by omega⟩

/-! ## C24 -/

/-- C24: the samples lie in `[0, pop_size)`, avoid the whole list, have the requested count, are
distinct when sampling without replacement. -/
theorem C24_exclude_list {K : Type} [Num K] (E : Env K) (hE : E.Lawful)
    (popSize : Nat) (excl : List Nat) (n : Nat) (replace : Bool) (s s' : E.σ) (r : List Nat)
    (h : sampleExcludeList E popSize excl n replace s = .ok (r, s')) :
    r.length = n ∧ (∀ i ∈ r, i < popSize ∧ i ∉ excl) ∧ (replace = false → r.Nodup) := by
  unfold sampleExcludeList validCandidates at h
  by_cases hall : (excl.all (· < popSize)) = true
  · rw [if_pos hall] at h
    simp only [bind, Except.bind] at h
    split at h
    · cases h
    rename_i hc
    simp only [Except.ok.injEq, Prod.mk.injEq] at h
    obtain ⟨rfl, rfl⟩ := h
    simp only [choiceErr, Bool.or_eq_true, Bool.and_eq_true, decide_eq_true_eq,
      Bool.not_eq_true', not_or, not_and, not_not, not_lt] at hc
    set cand := (List.range popSize).filter (fun i => i ∉ excl) with hcand
    have hlt : ∀ i ∈ (E.choice cand.length n replace s).1, i < cand.length := by
      intro i hi
      by_cases h0 : cand.length = 0
      · have hn : n = 0 := by
          by_contra hn
          exact hn (by simpa using hc.1 h0)
        have hl := hE.choice_length cand.length n replace s
        rw [hn] at hl
        rw [hn, List.length_eq_zero_iff.1 hl] at hi
        simp at hi
      · exact hE.choice_lt _ _ _ _ (by omega) i hi
    refine ⟨by rw [length_filterMap_get hlt, hE.choice_length], ?_, ?_⟩
    · intro i hi
      obtain ⟨j, _, hj⟩ := List.mem_filterMap.1 hi
      have := List.mem_of_getElem? hj
      rw [hcand, List.mem_filter] at this
      simpa using this
    · intro hr
      subst hr
      exact nodup_filterMap_get (List.nodup_range.filter _) (hE.choice_nodup _ _ _ (hc.2 rfl))
  · rw [if_neg hall] at h
    cases h

/-- C24: the candidates drawn from are exactly the indices not excluded, so each is reachable. -/
theorem C24_candidates (popSize : Nat) (excl : List Nat) (h : ∀ i ∈ excl, i < popSize) :
    ∃ cand, validCandidates popSize excl = .ok cand ∧ cand.Nodup
      ∧ ∀ i, i ∈ cand ↔ i < popSize ∧ i ∉ excl := by
  refine ⟨_, if_pos (by simpa using h), List.nodup_range.filter _, ?_⟩
  intro i; simp

/-- C24: without replacement it succeeds exactly when every excluded index is in range and enough
indices remain; an excluded index out of range raises IndexError, too few remaining raises
ValueError. -/
theorem C24_when_it_raises {K : Type} [Num K] (E : Env K) (popSize : Nat) (excl : List Nat)
    (n : Nat) (s : E.σ) :
    ((∃ i ∈ excl, popSize ≤ i) → sampleExcludeList E popSize excl n false s = .error .index)
    ∧ ((∀ i ∈ excl, i < popSize) →
        ((List.range popSize).filter (fun i => i ∉ excl)).length < n →
        sampleExcludeList E popSize excl n false s = .error .value)
    ∧ ((∀ i ∈ excl, i < popSize) →
        n ≤ ((List.range popSize).filter (fun i => i ∉ excl)).length →
        ∃ r s', sampleExcludeList E popSize excl n false s = .ok (r, s')) := by
  refine ⟨?_, ?_, ?_⟩
  · rintro ⟨i, hi, h⟩
    have hall : ¬ (excl.all (· < popSize)) = true := by
      simp only [List.all_eq_true, decide_eq_true_eq]
      intro hall; have := hall i hi; omega
    simp only [sampleExcludeList, validCandidates, if_neg hall, bind, Except.bind]
  · intro hall hlt
    have hall : (excl.all (· < popSize)) = true := by simpa using hall
    simp only [sampleExcludeList, validCandidates, if_pos hall, bind, Except.bind]
    rw [if_pos]
    simp only [choiceErr, Bool.or_eq_true, Bool.and_eq_true, decide_eq_true_eq]
    exact .inr ⟨rfl, hlt⟩
  · intro hall hle
    have hall : (excl.all (· < popSize)) = true := by simpa using hall
    simp only [sampleExcludeList, validCandidates, if_pos hall, bind, Except.bind]
    rw [if_neg]
    · exact ⟨_, _, rfl⟩
    · simp only [choiceErr, Bool.or_eq_true, Bool.and_eq_true, decide_eq_true_eq]
      rintro (⟨h1, h2⟩ | ⟨_, h⟩)
      · simp at h2; omega
      · omega

example : ∃ cand, validCandidates 4 [1, 1, 3] = .ok cand ∧ cand.Nodup
      ∧ ∀ i, i ∈ cand ↔ i < 4 ∧ i ∉ [1, 1, 3] := C24_candidates 4 [1, 1, 3] (by simp)

/-! ## C25 -/

/-- C25: for a non-constant fitness list the weights are one per agent, non-negative, sum to 1,
and a strictly better fitness has a strictly larger weight (equal fitness, equal weight). -/
theorem C25_roulette_weights (fits : List ℚ) (mm : MinMax) (hne : ∃ a ∈ fits, ∃ b ∈ fits, a ≠ b) :
    (rouletteProb fits mm).length = fits.length
    ∧ (∀ p ∈ rouletteProb fits mm, 0 ≤ p)
    ∧ (rouletteProb fits mm).sum = 1
    ∧ ∀ (i j : Nat) (fi fj pi pj : ℚ), fits[i]? = some fi → fits[j]? = some fj →
        (rouletteProb fits mm)[i]? = some pi → (rouletteProb fits mm)[j]? = some pj →
        (Better mm fi fj ↔ pj < pi) := by
  obtain ⟨g, T, he, hT, hpos, h0, hb, _⟩ := roulette_shape (mm := mm) hne
  rw [he]
  refine ⟨by simp, ?_, ?_, ?_⟩
  · intro p hp
    obtain ⟨x, hx, rfl⟩ := List.mem_map.1 hp
    exact div_nonneg (h0 x hx) hpos.le
  · have : fits.map (fun x => g x / T) = (fits.map g).map (fun x => x / T) := by simp
    rw [this, sum_map_div, ← hT, div_self hpos.ne']
  · intro i j fi fj pi pj hfi hfj hpi hpj
    simp only [List.getElem?_map, hfi, hfj, Option.map_some, Option.some.injEq] at hpi hpj
    subst hpi; subst hpj
    rw [hb, div_lt_div_iff_of_pos_right hpos]

/-- C25: for minimisation a worst agent has weight 0. -/
theorem C25_worst_weight_zero (fits : List ℚ) (hne : ∃ a ∈ fits, ∃ b ∈ fits, a ≠ b)
    (i : Nat) (w : ℚ) (hi : fits[i]? = some w) (hw : ∀ x ∈ fits, x ≤ w) :
    (rouletteProb fits .min)[i]? = some 0 := by
  obtain ⟨g, T, he, _, _, _, _, hz⟩ := roulette_shape (mm := .min) hne
  rw [he, List.getElem?_map, hi, Option.map_some, hz rfl w (List.mem_of_getElem? hi) hw, zero_div]

/-- C25: the returned index is in range, whatever the fitness list; a constant list is drawn
uniformly (`integers(0, n)`); for a non-constant list the drawn agent has positive weight, so for
minimisation a worst agent is never selected. -/
theorem C25_roulette_index (E : Env ℚ) (hE : E.Lawful) (fits : List ℚ) (mm : MinMax) (s : E.σ)
    (hnil : fits ≠ []) :
    ∃ i s', roulette E fits mm s = .ok (i, s') ∧ i < fits.length
      ∧ ((∀ a ∈ fits, ∀ b ∈ fits, a = b) → (i : Int) = (E.integers 0 fits.length s).1)
      ∧ ((∃ a ∈ fits, ∃ b ∈ fits, a ≠ b) →
          (∃ p, (rouletteProb fits mm)[i]? = some p ∧ 0 < p)
          ∧ ∀ f, mm = .min → fits[i]? = some f → ∃ x ∈ fits, f < x) := by
  obtain ⟨mx, hmx⟩ := listMax_isSome hnil
  obtain ⟨mn, hmn⟩ := listMin_isSome hnil
  have h1 := listMax_some hmx
  have h2 := listMin_some hmn
  have hlen : 0 < fits.length := List.length_pos_iff.2 hnil
  by_cases hc : mx - mn = 0
  · have hge := hE.integers_ge 0 fits.length s (by omega)
    have hlt := hE.integers_lt 0 fits.length s (by omega)
    refine ⟨(E.integers 0 fits.length s).1.toNat, (E.integers 0 fits.length s).2, ?_, ?_, ?_, ?_⟩
    · simp only [roulette, hmx, hmn, hc, if_true]
    · omega
    · intro _; omega
    · rintro ⟨a, ha, b, hb, hab⟩
      exact absurd (by
        have := h1.2 a ha; have := h1.2 b hb; have := h2.2 a ha; have := h2.2 b hb
        linarith) hab
  · have hne : ∃ a ∈ fits, ∃ b ∈ fits, a ≠ b :=
      ⟨mx, h1.1, mn, h2.1, fun h => hc (by linarith)⟩
    obtain ⟨hl, hnn, hsum, hmono⟩ := C25_roulette_weights fits mm hne
    have hpne : rouletteProb fits mm ≠ [] := by
      intro h; rw [h] at hl; simp at hl; omega
    have hlt := hE.choiceP_lt (rouletteProb fits mm) s hpne
    refine ⟨(E.choiceP (rouletteProb fits mm) s).1, (E.choiceP (rouletteProb fits mm) s).2,
      ?_, by omega, ?_, ?_⟩
    · simp only [roulette, hmx, hmn, hc, if_false]
    · intro hall; exact absurd (hall mx h1.1 mn h2.1) (fun h => hc (by linarith))
    · intro _
      have hnz : ∃ x ∈ rouletteProb fits mm, x ≠ (0 : ℚ) := by
        by_contra hcon
        simp only [not_exists, not_and, not_not] at hcon
        have : (rouletteProb fits mm).sum = 0 := List.sum_eq_zero hcon
        rw [this] at hsum; norm_num at hsum
      have hp0 : (rouletteProb fits mm)[(E.choiceP (rouletteProb fits mm) s).1]? ≠ some (0 : ℚ) :=
        hE.choiceP_pos (rouletteProb fits mm) s hnz
      have hget : (rouletteProb fits mm)[(E.choiceP (rouletteProb fits mm) s).1]?
          = some ((rouletteProb fits mm)[(E.choiceP (rouletteProb fits mm) s).1]'hlt) :=
        List.getElem?_eq_getElem hlt
      refine ⟨⟨_, hget, ?_⟩, ?_⟩
      · have hmem := hnn _ (List.getElem_mem hlt)
        refine lt_of_le_of_ne hmem ?_
        intro h0
        exact hp0 (by rw [hget, ← h0])
      · intro f hmm hf
        by_contra hcon
        simp only [not_exists, not_and, not_lt] at hcon
        subst hmm
        exact hp0 (C25_worst_weight_zero fits hne _ f hf hcon)

example : (rouletteProb [(-1 : ℚ), 3, 2] .min).sum = 1 :=
  (C25_roulette_weights [-1, 3, 2] .min ⟨-1, by simp, 3, by simp, by norm_num⟩).2.2.1

/-! ## C26 -/

/-- C26: the tournament picks `k` distinct contestants and returns `min output k` of them, distinct
and in range; everyone returned is at least as good as every contestant not returned. -/
theorem C26_tournament {K : Type} [Num K] (E : Env K) (hE : E.Lawful) (pop : List (Agent d K X))
    (kWay : KWay) (output : Nat) (mm : MinMax) (s s' : E.σ) (r : List Nat)
    (h : tournament E pop kWay output false mm s = .ok (r, s')) :
    ∃ ids : List Nat, ids.Nodup ∧ (ids.length : Int) = kWay.size pop.length
      ∧ (∀ i ∈ ids, i < pop.length)
      ∧ r.length = min output ids.length ∧ r.Nodup ∧ (∀ i ∈ r, i ∈ ids)
      ∧ ∀ (i j : Nat) (a b : Agent d K X), i ∈ r → j ∈ ids → j ∉ r →
          pop[i]? = some a → pop[j]? = some b → NoWorse mm a.fit b.fit := by
  rw [tournament_eq] at h
  split at h
  · cases h
  split at h
  · cases h
  rename_i hk hc
  simp only [Bool.false_eq_true, if_false, Except.ok.injEq, Prod.mk.injEq] at h
  obtain ⟨rfl, rfl⟩ := h
  simp only [choiceErr, Bool.or_eq_true, Bool.and_eq_true, decide_eq_true_eq,
    Bool.not_eq_true', not_or, not_and, not_not, not_lt] at hc
  have hkle := hc.2 trivial
  have hnd := hE.choice_nodup pop.length (kWay.size pop.length).toNat s hkle
  have hlen := hE.choice_length pop.length (kWay.size pop.length).toNat false s
  generalize hids : (E.choice pop.length (kWay.size pop.length).toNat false s).1 = ids at *
  have hlt : ∀ i ∈ ids, i < pop.length := by
    intro i hi
    by_cases h0 : pop.length = 0
    · have : ids.length = 0 := by omega
      rw [List.length_eq_zero_iff.1 this] at hi; simp at hi
    · rw [← hids] at hi
      exact hE.choice_lt _ _ _ _ (by omega) i hi
  have hperm := contest_fst_perm (mm := mm) hlt
  refine ⟨ids, hnd, by omega, hlt, ?_, ?_, ?_, ?_⟩
  · rw [List.length_map, List.length_take, ← hperm.length_eq, List.length_map]
  · exact (hperm.nodup_iff.2 hnd).sublist ((List.take_sublist _ _).map _)
  · intro i hi
    exact hperm.mem_iff.1 (((List.take_sublist _ _).map _).subset hi)
  · intro i j a b hi hj hnj ha hb
    refine contest_split output hi ?_ ha hb
    have hj' := hperm.mem_iff.2 hj
    rw [← List.take_append_drop output (contest pop mm ids), List.map_append, List.mem_append] at hj'
    exact hj'.resolve_left hnj

/-- C26: with `reverse=True` (and `output > 0`) the returned contestants are the worst ones. -/
theorem C26_tournament_reverse {K : Type} [Num K] (E : Env K) (hE : E.Lawful)
    (pop : List (Agent d K X)) (kWay : KWay) (output : Nat) (ho : 0 < output) (mm : MinMax)
    (s s' : E.σ) (r : List Nat)
    (h : tournament E pop kWay output true mm s = .ok (r, s')) :
    ∃ ids : List Nat, ids.Nodup ∧ (ids.length : Int) = kWay.size pop.length
      ∧ (∀ i ∈ ids, i < pop.length)
      ∧ r.length = min output ids.length ∧ r.Nodup ∧ (∀ i ∈ r, i ∈ ids)
      ∧ ∀ (i j : Nat) (a b : Agent d K X), i ∈ r → j ∈ ids → j ∉ r →
          pop[i]? = some a → pop[j]? = some b → NoWorse mm b.fit a.fit := by
  rw [tournament_eq] at h
  split at h
  · cases h
  split at h
  · cases h
  rename_i hk hc
  simp only [if_true, if_neg ho.ne', Except.ok.injEq, Prod.mk.injEq] at h
  obtain ⟨rfl, rfl⟩ := h
  simp only [choiceErr, Bool.or_eq_true, Bool.and_eq_true, decide_eq_true_eq,
    Bool.not_eq_true', not_or, not_and, not_not, not_lt] at hc
  have hkle := hc.2 trivial
  have hnd := hE.choice_nodup pop.length (kWay.size pop.length).toNat s hkle
  have hlen := hE.choice_length pop.length (kWay.size pop.length).toNat false s
  generalize hids : (E.choice pop.length (kWay.size pop.length).toNat false s).1 = ids at *
  have hlt : ∀ i ∈ ids, i < pop.length := by
    intro i hi
    by_cases h0 : pop.length = 0
    · have : ids.length = 0 := by omega
      rw [List.length_eq_zero_iff.1 this] at hi; simp at hi
    · rw [← hids] at hi
      exact hE.choice_lt _ _ _ _ (by omega) i hi
  have hperm := contest_fst_perm (mm := mm) hlt
  have hl := hperm.length_eq
  rw [List.length_map] at hl
  refine ⟨ids, hnd, by omega, hlt, ?_, ?_, ?_, ?_⟩
  · rw [List.length_map, List.length_drop, hl]; omega
  · exact (hperm.nodup_iff.2 hnd).sublist ((List.drop_sublist _ _).map _)
  · intro i hi
    exact hperm.mem_iff.1 (((List.drop_sublist _ _).map _).subset hi)
  · intro i j a b hi hj hnj ha hb
    refine contest_split ((contest pop mm ids).length - output) ?_ hi hb ha
    have hj' := hperm.mem_iff.2 hj
    rw [← List.take_append_drop ((contest pop mm ids).length - output) (contest pop mm ids),
      List.map_append, List.mem_append] at hj'
    exact hj'.resolve_right hnj

/-- C26: it raises only if a negative count or more contestants than agents are asked for. -/
theorem C26_when_it_raises {K : Type} [Num K] (E : Env K) (pop : List (Agent d K X))
    (kWay : KWay) (output : Nat) (reverse : Bool) (mm : MinMax) (s : E.σ) :
    (∃ r s', tournament E pop kWay output reverse mm s = .ok (r, s'))
      ↔ 0 ≤ kWay.size pop.length ∧ kWay.size pop.length ≤ pop.length := by
  rw [tournament_eq]
  split
  · rename_i h; simp; omega
  · rename_i h
    split
    · rename_i hc
      simp [choiceErr] at hc
      constructor
      · rintro ⟨r, s', h⟩; cases h
      · rintro ⟨_, _⟩
        rcases hc with ⟨hc, hc'⟩ | hc
        · subst hc; simp at *; omega
        · omega
    · rename_i hc
      simp [choiceErr] at hc
      constructor
      · intro _; exact ⟨by omega, hc.2⟩
      · intro _; split <;> exact ⟨_, _, rfl⟩

/-- C26: with the default `k_way = 0.2` and fewer than ten agents, fewer than two parents come
back (callers then unpack two). -/
theorem C26_small_population {K : Type} [Num K] (E : Env K) (hE : E.Lawful)
    (pop : List (Agent d K X)) (output : Nat) (mm : MinMax) (s s' : E.σ) (r : List Nat)
    (hsmall : pop.length < 10)
    (h : tournament E pop (.frac (1 / 5)) output false mm s = .ok (r, s')) : r.length < 2 := by
  obtain ⟨ids, _, hl, _, hr, _⟩ := C26_tournament E hE pop _ output mm s s' r h
  have : (KWay.frac (1 / 5)).size pop.length < 2 := by
    simp only [KWay.size]
    rw [Rat.floor_lt_iff]
    have : (pop.length : ℚ) < 10 := by exact_mod_cast hsmall
    push_cast
    linarith
  omega

example : ∃ r s', tournament detEnv exPop (.count 3) 2 false .min (0 : Nat) = .ok (r, s') :=
  (C26_when_it_raises detEnv exPop (.count 3) 2 false .min (0 : Nat)).2
    ⟨by simp [KWay.size], by simp [KWay.size, exPop]⟩

/-! ## C27 -/

/-- C27: for `r ∈ [0,1]` both children lie coordinate-wise between the parents and together they
have the same sum as the parents. -/
theorem C27_crossover (r : ℚ) (h0 : 0 ≤ r) (h1 : r ≤ 1) (dad mom : Vec d ℚ) (i : Fin d) :
    (min (dad i) (mom i) ≤ (crossoverArithmetic r dad mom).1 i
      ∧ (crossoverArithmetic r dad mom).1 i ≤ max (dad i) (mom i))
    ∧ (min (dad i) (mom i) ≤ (crossoverArithmetic r dad mom).2 i
      ∧ (crossoverArithmetic r dad mom).2 i ≤ max (dad i) (mom i))
    ∧ (crossoverArithmetic r dad mom).1 i + (crossoverArithmetic r dad mom).2 i
        = dad i + mom i := by
  have hr : 0 ≤ 1 - r := by linarith
  have hmin1 := min_le_left (dad i) (mom i)
  have hmin2 := min_le_right (dad i) (mom i)
  have hmax1 := le_max_left (dad i) (mom i)
  have hmax2 := le_max_right (dad i) (mom i)
  simp only [crossoverArithmetic]
  refine ⟨⟨?_, ?_⟩, ⟨?_, ?_⟩, by ring⟩ <;> nlinarith

/-- C27: children of feasible parents are feasible. -/
theorem C27_crossover_feasible (r : ℚ) (h0 : 0 ≤ r) (h1 : r ≤ 1) (lb ub dad mom : Vec d ℚ)
    (hd : InBox lb ub dad) (hm : InBox lb ub mom) :
    InBox lb ub (crossoverArithmetic r dad mom).1 ∧ InBox lb ub (crossoverArithmetic r dad mom).2 := by
  refine ⟨fun i => ?_, fun i => ?_⟩
  · obtain ⟨⟨h2, h3⟩, _⟩ := C27_crossover r h0 h1 dad mom i
    exact ⟨le_trans (le_min (hd i).1 (hm i).1) h2, le_trans h3 (max_le (hd i).2 (hm i).2)⟩
  · obtain ⟨_, ⟨h2, h3⟩, _⟩ := C27_crossover r h0 h1 dad mom i
    exact ⟨le_trans (le_min (hd i).1 (hm i).1) h2, le_trans h3 (max_le (hd i).2 (hm i).2)⟩

example : InBox (fun _ => (0 : ℚ)) (fun _ => 1)
    (crossoverArithmetic (1 / 3) (fun _ : Fin 2 => 1) (fun _ => 0)).1 :=
  (C27_crossover_feasible (1 / 3) (by norm_num) (by norm_num) _ _ _ _
    (fun i => by norm_num) (fun i => by norm_num)).1

end Mealpy
