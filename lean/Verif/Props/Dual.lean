import Verif.Props.Select
import Verif.Props.Leaves

/-!
# C62: only the order of the fitness values matters to the selection helpers

`g` turns one fitness scale into another; `Judges g mm mm'` says that better on the old scale is better on the new one. An increasing `g` keeps the
direction; a decreasing one, such as `x ↦ -x`, exchanges minimisation and maximisation.
-/

set_option linter.unusedSectionVars false
set_option linter.unusedVariables false

namespace Mealpy
open Spec

section
variable {d : Nat} {K X : Type} [LinearOrder K]

/-- better for `mm` before `g` is better for `mm'` after it, and conversely -/
def Judges (g : K → K) (mm mm' : MinMax) : Prop := ∀ x y, Better mm' (g x) (g y) ↔ Better mm x y

/-- the same agent with its objectives and its fitness on the other scale -/
def Agent.rescale (g : K → K) (a : Agent d K X) : Agent d K X := ⟨a.sol, ⟨a.tgt.objectives.map g, g a.tgt.fitness⟩, a.ext⟩

/-- the other direction -/
def MinMax.other : MinMax → MinMax
  | .min => .max
  | .max => .min

theorem judges_mono {g : K → K} (h : StrictMono g) (mm : MinMax) : Judges g mm mm := by
  intro x y
  cases mm <;> exact h.lt_iff_lt

theorem judges_anti {g : K → K} (h : StrictAnti g) (mm : MinMax) : Judges g mm mm.other := by
  intro x y
  cases mm <;> exact h.lt_iff_gt

variable {g : K → K} {mm mm' : MinMax}

theorem Judges.inj (h : Judges g mm mm') {x y : K} : g x = g y ↔ x = y := by
  refine ⟨fun e => ?_, fun e => e ▸ rfl⟩
  have ht := C16_total_order (K := K)
  rcases (ht mm).2.2 x y with hb | hb | hb
  · exact absurd (e ▸ (h x y).2 hb) ((ht mm').1 _)
  · exact hb
  · exact absurd (e ▸ (h y x).2 hb) ((ht mm').1 _)

/-- C62: the helpers that compare two agents give the same answer on both scales, ties included: `_compare_fitness`, `get_better_solution`,
`is_better_than` and `greedy_selection_population`. -/
theorem C62_compare (h : Judges g mm mm') (a b : Agent d K X) :
    agentCompare (a.rescale g) (b.rescale g) mm' = agentCompare a b mm
    ∧ isBetterThan (a.rescale g) (b.rescale g) mm' = isBetterThan a b mm
    ∧ getBetterSolution (a.rescale g) (b.rescale g) mm' = (getBetterSolution a b mm).rescale g := by
  have key : agentCompare (a.rescale g) (b.rescale g) mm' = agentCompare a b mm := by
    have h1 := C16_compare_fitness a b mm
    have h2 := C16_compare_fitness (a.rescale g) (b.rescale g) mm'
    rcases (C16_total_order mm).2.2 a.fit b.fit with hb | hb | hb
    · rw [h1.1.2 hb, h2.1.2 ((h _ _).2 hb)]
    · rw [h1.2.1.2 hb, h2.2.1.2 (h.inj.2 hb)]
    · rw [h1.2.2.1.2 hb, h2.2.2.1.2 ((h _ _).2 hb)]
  refine ⟨key, by unfold isBetterThan; rw [key], ?_⟩
  unfold getBetterSolution
  rw [key]
  split <;> rfl

/-- C62: so does `greedy_selection_population`. -/
theorem C62_greedy_selection (h : Judges g mm mm') (old new : List (Agent d K X)) :
    greedySelection (old.map (·.rescale g)) (new.map (·.rescale g)) mm' = (greedySelection old new mm).map (·.map (·.rescale g)) := by
  have e : ∀ (m : MinMax) (l l' : List (Agent d K X)), greedySelection l l' m =
      if l.length ≠ l'.length then .error .value else .ok (List.zipWith (fun o n => if Better m n.fit o.fit then n else o) l l') := by
    intro m l l'
    unfold greedySelection
    split
    · rfl
    · cases m <;> rfl
  rw [e, e]
  simp only [List.length_map]
  split
  · rfl
  · show Except.ok _ = Except.ok (List.map _ _)
    rw [List.zipWith_map, List.map_zipWith]
    refine congrArg (fun f => Except.ok (List.zipWith f old new)) ?_
    funext o n
    by_cases hb : Better mm n.fit o.fit
    · rw [if_pos hb, if_pos (show Better mm' (n.rescale g).fit (o.rescale g).fit from (h _ _).2 hb)]
    · rw [if_neg hb, if_neg (show ¬ Better mm' (n.rescale g).fit (o.rescale g).fit from fun hc => hb ((h _ _).1 hc))]

/-- C62: `compare_target`, `compare_fitness` and `get_better_agent` do, if the two fitness values differ or the direction is kept. -/
theorem C62_compare_target (h : Judges g mm mm') (a b : Agent d K X) (hne : a.fit ≠ b.fit ∨ mm' = mm) (reverse : Bool) :
    compareTarget (a.rescale g).tgt (b.rescale g).tgt mm' = compareTarget a.tgt b.tgt mm
    ∧ compareFitness (g a.fit) (g b.fit) mm' = compareFitness a.fit b.fit mm
    ∧ getBetterAgent (a.rescale g) (b.rescale g) mm' reverse = (getBetterAgent a b mm reverse).rescale g := by
  rcases (C16_total_order mm).2.2 a.fit b.fit with hb | hb | hb
  · obtain ⟨-, -, -, -, x1, -, x3, -, x5, -, x7, -⟩ := C16_helpers_agree a b mm hb
    obtain ⟨-, -, -, -, y1, -, y3, -, y5, -, y7, -⟩ := C16_helpers_agree (a.rescale g) (b.rescale g) mm' ((h _ _).2 hb)
    refine ⟨by rw [x1, y1], by rw [x3]; exact y3, ?_⟩
    cases reverse
    · rw [x5, y5]
    · rw [x7, y7]
  · obtain rfl : mm' = mm := hne.resolve_left fun hn => hn hb
    have hb' : (a.rescale g).fit = (b.rescale g).fit := h.inj.2 hb
    obtain ⟨-, -, x1, x2, x3⟩ := C16_ties a b mm' hb
    obtain ⟨-, -, y1, y2, y3⟩ := C16_ties (a.rescale g) (b.rescale g) mm' hb'
    refine ⟨by rw [x1, y1], by rw [x2]; exact y2, ?_⟩
    cases reverse
    · rw [x3, y3]; cases mm' <;> rfl
    · unfold getBetterAgent
      have n1 : ¬ a.fit < b.fit := by rw [hb]; exact lt_irrefl _
      have n2 : ¬ (a.rescale g).fit < (b.rescale g).fit := by rw [hb']; exact lt_irrefl _
      cases mm' <;> simp [n1, n2]
  · obtain ⟨-, -, -, -, -, x1, -, x3, -, x5, -, x7⟩ := C16_helpers_agree b a mm hb
    obtain ⟨-, -, -, -, -, y1, -, y3, -, y5, -, y7⟩ := C16_helpers_agree (b.rescale g) (a.rescale g) mm' ((h _ _).2 hb)
    refine ⟨by rw [x1, y1], by rw [x3]; exact y3, ?_⟩
    cases reverse
    · rw [x5, y5]
    · rw [x7, y7]

/-- C62: if no two agents have the same fitness, `get_sorted_population` puts them in the same order on both scales, so that `get_best_agent`,
`get_worst_agent`, `get_special_agents` and `get_sorted_and_trimmed_population` pick the same agents. `as` and `as'` are any behaviours of
`np.argsort` that numpy permits. -/
theorem C62_sorted {as as' : List K → List Nat} (has : ArgsortLaw as) (has' : ArgsortLaw as') (h : Judges g mm mm') {pop : List (Agent d K X)}
    (hd : (pop.map Agent.fit).Nodup) (nb nw : Option Nat) (n : Nat) :
    getSorted as' (pop.map (·.rescale g)) mm' = ((getSorted as pop mm).1.map (·.rescale g), (getSorted as pop mm).2)
    ∧ getBest as' (pop.map (·.rescale g)) mm' = (getBest as pop mm).map (fun q => (q.1.rescale g, q.2))
    ∧ getWorst as' (pop.map (·.rescale g)) mm' = (getWorst as pop mm).map (fun q => (q.1.rescale g, q.2))
    ∧ getSpecialIdx as' (pop.map (·.rescale g)) nb nw mm' =
      ((getSpecialIdx as pop nb nw mm).1.map (·.rescale g), (getSpecialIdx as pop nb nw mm).2)
    ∧ getSortedTrimmed as' (pop.map (·.rescale g)) n mm' = (getSortedTrimmed as pop n mm).map (·.rescale g) := by
  have hidx : sortedIdx as' (pop.map (·.rescale g)) mm' = sortedIdx as pop mm := by
    have p1 := sortedIdx_perm has' (pop.map (·.rescale g)) mm'
    rw [List.length_map] at p1
    have p2 := sortedIdx_perm has pop mm
    have hm : ∀ i ∈ sortedIdx as pop mm, i < pop.length := fun i hi => List.mem_range.1 (p2.mem_iff.1 hi)
    have hinj : ∀ i j (hi : i < pop.length) (hj : j < pop.length), pop[i].fit = pop[j].fit → i = j := by
      intro i j hi hj e
      have := (List.nodup_iff_injective_get.1 hd) (a₁ := ⟨i, by simpa using hi⟩) (a₂ := ⟨j, by simpa using hj⟩) (by simpa using e)
      simpa using this
    refine (p1.trans p2.symm).eq_of_pairwise (le := fun i j => ∀ a, pop[i]? = some a → ∀ b, pop[j]? = some b → NoWorse mm a.fit b.fit) ?_ ?_ ?_
    · intro i j hi hj h1 h2
      have hi : i < pop.length := List.mem_range.1 (p1.mem_iff.1 hi)
      have hj : j < pop.length := List.mem_range.1 (p2.mem_iff.1 hj)
      have g1 := h1 _ (List.getElem?_eq_getElem hi) _ (List.getElem?_eq_getElem hj)
      have g2 := h2 _ (List.getElem?_eq_getElem hj) _ (List.getElem?_eq_getElem hi)
      refine hinj i j hi hj ?_
      cases mm
      · exact le_antisymm g1 g2
      · exact le_antisymm g2 g1
    · refine (sortedIdx_pairwise has' (pop.map (·.rescale g)) mm').imp ?_
      intro i j hij a ha b hb
      have := hij (a.rescale g) (by simp [ha]) (b.rescale g) (by simp [hb])
      by_contra hc
      have hb : Better mm b.fit a.fit := by
        cases mm
        · exact not_le.1 hc
        · exact not_le.1 hc
      have := (h _ _).2 hb
      cases mm'
      · exact absurd this (not_lt.2 (by assumption))
      · exact absurd this (not_lt.2 (by assumption))
    · exact sortedIdx_pairwise has pop mm
  have hs : getSorted as' (pop.map (·.rescale g)) mm' = ((getSorted as pop mm).1.map (·.rescale g), (getSorted as pop mm).2) := by
    rw [getSorted_eq, getSorted_eq, hidx]
    refine Prod.ext ?_ rfl
    show List.filterMap _ _ = List.map _ (List.filterMap _ _)
    rw [List.map_filterMap]
    refine List.filterMap_congr fun i _ => ?_
    simp
  refine ⟨hs, ?_, ?_, ?_, ?_⟩
  · unfold getBest
    rw [hs]
    obtain ⟨l, k⟩ := getSorted as pop mm
    cases l <;> cases k <;> rfl
  · unfold getWorst
    rw [hs]
    obtain ⟨l, k⟩ := getSorted as pop mm
    show (match (l.map (·.rescale g)).getLast?, k.getLast? with | some a, some i => _ | _, _ => _) = _
    rw [List.getLast?_map]
    cases h1 : l.getLast? <;> cases h2 : k.getLast? <;> simp [h1, h2, Except.map]
  · unfold getSpecialIdx
    rw [hs]
  · unfold getSortedTrimmed
    rw [hs, List.map_take]

end

/-- C62: maximising the negative of an objective sorts as minimising it does -/
example {as : List ℚ → List Nat} (has : ArgsortLaw as) :
    getSorted as ([exAgent 3, exAgent 1, exAgent 2].map (·.rescale (fun x => -x))) .max =
      ((getSorted as [exAgent 3, exAgent 1, exAgent 2] .min).1.map (·.rescale (fun x => -x)), (getSorted as [exAgent 3, exAgent 1, exAgent 2] .min).2) :=
  (C62_sorted has has (judges_anti (fun a b h => neg_lt_neg h) .min) (by decide) none none 0).1

/-- C62: with equal fitness it does not: `compare_target` takes the newcomer of a maximisation and not that of a minimisation. -/
theorem C62_ties_differ : compareTarget (exAgent 0).tgt (exAgent 0).tgt .min = false ∧
    compareTarget ((exAgent 0).rescale (fun x => -x)).tgt ((exAgent 0).rescale (fun x => -x)).tgt .max = true := by decide

/-- C62: the roulette wheel gives every agent the same chance in the minimisation of `f` and in the maximisation of `-f`, if some fitness of the
minimisation is positive. -/
theorem C62_roulette {fits : List ℚ} (hpos : ∃ x ∈ fits, 0 < x) : rouletteProb (fits.map (fun x => -x)) .max = rouletteProb fits .min := by
  obtain ⟨p, hp, hp0⟩ := hpos
  have hnil : fits ≠ [] := by rintro rfl; simp at hp
  obtain ⟨mn, hmn⟩ := listMin_isSome hnil
  obtain ⟨M, hM⟩ := listMax_isSome hnil
  obtain ⟨hM1, hM2⟩ := listMax_some hM
  have hmin : ∀ {l : List ℚ} {a b : ℚ}, listMin l = some a → b ∈ l → (∀ x ∈ l, b ≤ x) → a = b := fun ha hb hl =>
    le_antisymm ((listMin_some ha).2 _ hb) (hl _ (listMin_some ha).1)
  have hmax : ∀ {l : List ℚ} {a b : ℚ}, listMax l = some a → b ∈ l → (∀ x ∈ l, x ≤ b) → a = b := fun ha hb hl =>
    le_antisymm (hl _ (listMax_some ha).1) ((listMax_some ha).2 _ hb)
  have e1 : ∀ c : ℚ, (listMax (fits.map (fun x => x - c))).getD 0 = M - c := by
    intro c
    obtain ⟨m, hm⟩ := listMax_isSome (l := fits.map (fun x => x - c)) (by simpa using hnil)
    rw [hm]
    refine hmax hm (List.mem_map.2 ⟨M, hM1, rfl⟩) fun x hx => ?_
    obtain ⟨y, hy, rfl⟩ := List.mem_map.1 hx
    have := hM2 y hy
    linarith
  have e2 : (listMin (fits.map (fun x => -x))).getD 0 = -M := by
    obtain ⟨m, hm⟩ := listMin_isSome (l := fits.map (fun x => -x)) (by simpa using hnil)
    rw [hm]
    refine hmin hm (List.mem_map.2 ⟨M, hM1, rfl⟩) fun x hx => ?_
    obtain ⟨y, hy, rfl⟩ := List.mem_map.1 hx
    have := hM2 y hy
    linarith
  have e3 : (fits.map (fun x => -x)).any (fun x => decide (x < 0)) = true :=
    List.any_eq_true.2 ⟨-p, List.mem_map.2 ⟨p, hp, rfl⟩, by simpa using hp0⟩
  have hr : rouletteProb (fits.map (fun x => -x)) .max =
      (fits.map (fun x => M - x)).map (fun x => x / (fits.map (fun x => M - x)).foldl (· + ·) 0) := by
    have : (fits.map (fun x => -x)).map (fun x => x - -M) = fits.map (fun x => M - x) := by
      rw [List.map_map]
      exact List.map_congr_left fun x _ => by simp only [Function.comp]; ring
    simp only [rouletteProb, e2, e3, if_true, this]
  have hl : rouletteProb fits .min = (fits.map (fun x => M - x)).map (fun x => x / (fits.map (fun x => M - x)).foldl (· + ·) 0) := by
    by_cases hneg : fits.any (fun x => decide (x < 0)) = true
    · have : (fits.map (fun x => x - mn)).map (fun x => M - mn - x) = fits.map (fun x => M - x) := by
        rw [List.map_map]
        exact List.map_congr_left fun x _ => by simp only [Function.comp]; ring
      simp only [rouletteProb, hmn, Option.getD_some, hneg, if_true, e1, this]
    · simp [rouletteProb, hneg, hM]
  rw [hr, hl]

example : rouletteProb ([3, 1, -2].map (fun x => -x)) .max = rouletteProb ([3, 1, -2] : List ℚ) .min :=
  C62_roulette ⟨3, by simp, by norm_num⟩

/-- C62: if none is, the chances differ: the worst agent of a minimisation is never drawn, that of the maximisation of positive values is. -/
theorem C62_roulette_differs : rouletteProb ([-1, -2] : List ℚ) .min = [0, 1] ∧ rouletteProb ([-1, -2].map (fun x => -x) : List ℚ) .max = [1 / 3, 2 / 3] := by
  decide +kernel

/-- the positions of the final population -/
def finalPositions {d : Nat} {c : Cfg d ℚ} {X Y : Type} : Except Err (St c X Y × FinalHist d ℚ X) → Option (List (List ℚ))
  | .ok (s, _) => some (s.pop.map (fun a => List.ofFn a.sol))
  | .error _ => none

/-- C62: a whole run shows it: on a constant objective `OriginalGWO` stays where it started when it minimises, and moves when it maximises, with
the same random numbers (`mealpy/swarm_based/GWO.py:92-95`). -/
theorem C62_constant_objective :
    finalPositions (solve (OriginalGWO.algo (c := tapeCfg 1 3 1 (fun _ => 0) .min .single 5 1)) ⟨none, .rows [[1], [2], [3], [2], [1]], false⟩ ⟨(1 : Nat), (17 : Nat), [], 1⟩) =
      some [[1], [2], [3], [2], [1]] ∧
    finalPositions (solve (OriginalGWO.algo (c := tapeCfg 1 3 1 (fun _ => 0) .max .single 5 1)) ⟨none, .rows [[1], [2], [3], [2], [1]], false⟩ ⟨(1 : Nat), (17 : Nat), [], 1⟩) ≠
      some [[1], [2], [3], [2], [1]] := by
  decide +kernel

end Mealpy
