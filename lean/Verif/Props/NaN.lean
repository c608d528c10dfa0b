import Verif.NaN
import Verif.Witness

/-!
# C51: NaN fitness and NaN positions

`Fl.NaNArgsort` is what numpy documents for `np.argsort`.
-/

namespace Mealpy

variable {K : Type} [LinearOrder K]

/-- `np.argsort`: the positions, each once, with non-decreasing values, NaN last -/
structure Fl.NaNArgsort (argsort : List (Fl K) → List Nat) : Prop where
  perm : ∀ l, (argsort l).Perm (List.range l.length)
  sorted : ∀ l, (argsort l).Pairwise (fun i j => ∀ a b, l[i]? = some a → l[j]? = some b → a.key ≤ b.key)

variable {α : Type} {fit : α → Fl K}

theorem Fl.filterMap_sorted {argsort : List (Fl K) → List Nat} (h : Fl.NaNArgsort argsort) (pop : List α) :
    ((argsort (pop.map fit)).filterMap (fun i => pop[i]?)).Pairwise (fun a b => (fit a).key ≤ (fit b).key) := by
  rw [List.pairwise_filterMap]
  refine (h.sorted (pop.map fit)).imp ?_
  intro i j hij a ha b hb
  exact hij _ _ (by rw [List.getElem?_map, ha]; rfl) (by rw [List.getElem?_map, hb]; rfl)

theorem Fl.filterMap_perm {argsort : List (Fl K) → List Nat} (h : Fl.NaNArgsort argsort) (pop : List α) :
    ((argsort (pop.map fit)).filterMap (fun i => pop[i]?)).Perm pop := by
  have hp := (h.perm (pop.map fit)).filterMap (fun i => pop[i]?)
  rwa [List.length_map, filterMap_range_getElem?] at hp

/-- the first agent of the ascending order has the least key -/
theorem Fl.head_min {argsort : List (Fl K) → List Nat} (h : Fl.NaNArgsort argsort) {pop : List α} (hne : pop ≠ []) :
    ∃ b ∈ pop, (Fl.getSorted fit argsort pop .min).head? = some b ∧ ∀ a ∈ pop, (fit b).key ≤ (fit a).key := by
  have hs := Fl.filterMap_sorted (fit := fit) h pop
  have hp := Fl.filterMap_perm (fit := fit) h pop
  have e : Fl.getSorted fit argsort pop .min = (argsort (pop.map fit)).filterMap (fun i => pop[i]?) := rfl
  rw [e]
  cases hc : (argsort (pop.map fit)).filterMap (fun i => pop[i]?) with
  | nil => rw [hc] at hp; exact absurd hp.symm.eq_nil hne
  | cons b t =>
    rw [hc] at hs hp
    refine ⟨b, hp.subset (by simp), rfl, fun a ha => ?_⟩
    rcases List.mem_cons.1 (hp.symm.subset ha) with rfl | ha
    · exact le_rfl
    · exact (List.pairwise_cons.1 hs).1 a ha

/-- the first agent of the descending order has the greatest key -/
theorem Fl.head_max {argsort : List (Fl K) → List Nat} (h : Fl.NaNArgsort argsort) {pop : List α} (hne : pop ≠ []) :
    ∃ b ∈ pop, (Fl.getSorted fit argsort pop .max).head? = some b ∧ ∀ a ∈ pop, (fit a).key ≤ (fit b).key := by
  have hs := Fl.filterMap_sorted (fit := fit) h pop
  have hp := Fl.filterMap_perm (fit := fit) h pop
  have e : Fl.getSorted fit argsort pop .max = ((argsort (pop.map fit)).filterMap (fun i => pop[i]?)).reverse := by
    unfold Fl.getSorted
    exact List.filterMap_reverse
  rw [e]
  rw [← List.pairwise_reverse] at hs
  replace hp := (List.reverse_perm _).trans hp
  cases hc : ((argsort (pop.map fit)).filterMap (fun i => pop[i]?)).reverse with
  | nil => rw [hc] at hp; exact absurd hp.symm.eq_nil hne
  | cons b t =>
    rw [hc] at hs hp
    refine ⟨b, hp.subset (by simp), rfl, fun a ha => ?_⟩
    rcases List.mem_cons.1 (hp.symm.subset ha) with rfl | ha
    · exact le_rfl
    · exact (List.pairwise_cons.1 hs).1 a ha

/-- C51, minimisation: if some agent has a number as fitness, the best agent of the population has a
number as fitness, the least one. -/
theorem C51_min_nan_is_never_best {argsort : List (Fl K) → List Nat} (h : Fl.NaNArgsort argsort) {pop : List α}
    (hn : ∃ a ∈ pop, fit a ≠ .nan) :
    ∃ b ∈ pop, ∃ k, (Fl.getSorted fit argsort pop .min).head? = some b ∧ fit b = .num k ∧
      ∀ a ∈ pop, ∀ k', fit a = .num k' → k ≤ k' := by
  obtain ⟨a, ha, hn⟩ := hn
  obtain ⟨b, hb, he, hl⟩ := Fl.head_min (fit := fit) h (List.ne_nil_of_mem ha)
  cases hf : fit b with
  | nan =>
    have := hl a ha
    rw [hf] at this
    cases hfa : fit a with
    | nan => exact absurd hfa hn
    | num k =>
      rw [hfa] at this
      exact absurd (top_le_iff.1 this) (WithTop.coe_ne_top)
  | num k =>
    refine ⟨b, hb, k, he, hf, fun a' ha' k' hk' => ?_⟩
    have := hl a' ha'
    rw [hf, hk'] at this
    exact WithTop.coe_le_coe.1 this

/-- C51, maximisation: one NaN agent is enough for the reported best agent to have NaN fitness. -/
theorem C51_max_nan_is_best {argsort : List (Fl K) → List Nat} (h : Fl.NaNArgsort argsort) {pop : List α}
    (hn : ∃ a ∈ pop, fit a = .nan) :
    ∃ b ∈ pop, (Fl.getSorted fit argsort pop .max).head? = some b ∧ fit b = .nan := by
  obtain ⟨a, ha, hn⟩ := hn
  obtain ⟨b, hb, he, hl⟩ := Fl.head_max (fit := fit) h (List.ne_nil_of_mem ha)
  refine ⟨b, hb, he, ?_⟩
  have := hl a ha
  rw [hn] at this
  cases hf : fit b with
  | nan => rfl
  | num k => rw [hf] at this; exact absurd (top_le_iff.1 this) (WithTop.coe_ne_top)

/-- C51: population-wide greedy selection never takes a newcomer with NaN fitness. -/
theorem C51_greedy_rejects_nan {old new res : List α} {mm : MinMax}
    (h : Fl.greedySelection fit old new mm = .ok res) {i : Nat} {n : α} (hi : new[i]? = some n)
    (hn : fit n = .nan) : res[i]? = old[i]? := by
  unfold Fl.greedySelection at h
  split at h
  · cases h
  rename_i hl
  rw [ne_eq, not_not] at hl
  have hlt : i < old.length := by rw [hl]; exact (List.getElem?_eq_some_iff.1 hi).1
  obtain ⟨o, ho⟩ : ∃ o, old[i]? = some o := ⟨_, List.getElem?_eq_getElem hlt⟩
  cases mm with
  | min =>
    injection h with h
    subst h
    rw [List.getElem?_zipWith, ho, hi]
    simp [hn, Fl.lt]
  | max =>
    injection h with h
    subst h
    rw [List.getElem?_zipWith, ho, hi]
    have : (fit o).lt (fit n) = false := by rw [hn]; cases fit o <;> rfl
    simp [this]

/-- C51: and it never drops an agent with NaN fitness either. -/
theorem C51_greedy_keeps_nan {old new res : List α} {mm : MinMax}
    (h : Fl.greedySelection fit old new mm = .ok res) {i : Nat} {o : α} (hi : old[i]? = some o)
    (hn : fit o = .nan) : res[i]? = some o := by
  unfold Fl.greedySelection at h
  split at h
  · cases h
  rename_i hl
  rw [ne_eq, not_not] at hl
  have hlt : i < new.length := by rw [← hl]; exact (List.getElem?_eq_some_iff.1 hi).1
  obtain ⟨n, hn'⟩ : ∃ n, new[i]? = some n := ⟨_, List.getElem?_eq_getElem hlt⟩
  cases mm with
  | min =>
    injection h with h
    subst h
    rw [List.getElem?_zipWith, hi, hn']
    have : (fit n).lt (fit o) = false := by rw [hn]; cases fit n <;> rfl
    simp [this]
  | max =>
    injection h with h
    subst h
    rw [List.getElem?_zipWith, hi, hn']
    simp [hn, Fl.lt]

/-- C51: the pairwise test used by the sequential algorithms rejects a NaN newcomer when minimising and
accepts it, against anything, when maximising. -/
theorem C51_compare_nan (y : Fl K) :
    Fl.compareTarget .nan y .min = false ∧ Fl.compareTarget .nan y .max = true := ⟨rfl, rfl⟩

/-- C51, minimisation: a global best with NaN fitness (all initial agents NaN) is never replaced,
however good the later populations are. -/
theorem C51_min_nan_global_best_is_forever (argsort : List (Fl K) → List Nat) {g : α} (hg : fit g = .nan)
    (pops : List (List α)) : Fl.globalBest fit argsort .min g pops = g := by
  induction pops with
  | nil => rfl
  | cons pop rest ih =>
    unfold Fl.globalBest
    cases (Fl.getSorted fit argsort pop .min).head? with
    | none => exact ih
    | some b =>
      have : Fl.getBetterAgent fit b g .min = g := by
        unfold Fl.getBetterAgent
        rw [hg]
        cases fit b <;> rfl
      simp only [this]
      exact ih

/-- C51, maximisation: a population with one NaN agent replaces any global best, however good, by an
agent with NaN fitness. -/
theorem C51_max_nan_destroys_global_best {argsort : List (Fl K) → List Nat} (h : Fl.NaNArgsort argsort) (g : α)
    (pops : List (List α)) {pop : List α} (hn : ∃ a ∈ pop, fit a = .nan) :
    fit (Fl.globalBest fit argsort .max g (pops ++ [pop])) = .nan := by
  induction pops generalizing g with
  | nil =>
    obtain ⟨b, -, hb, hf⟩ := C51_max_nan_is_best (fit := fit) h hn
    show fit (Fl.globalBest fit argsort .max g [pop]) = .nan
    unfold Fl.globalBest
    rw [hb]
    have : Fl.getBetterAgent fit b g .max = b := by
      unfold Fl.getBetterAgent
      rw [hf]
      rfl
    simp only [this]
    exact hf
  | cons p rest ih =>
    show fit (Fl.globalBest fit argsort .max g (p :: (rest ++ [pop]))) = .nan
    unfold Fl.globalBest
    cases (Fl.getSorted fit argsort p .max).head? with
    | none => exact ih g
    | some b => exact ih _

/-- C51, minimisation with a number as global best: it stays a number and never gets worse. -/
theorem C51_min_number_survives (argsort : List (Fl K) → List Nat) {g : α} {k : K} (hg : fit g = .num k)
    (pops : List (List α)) : ∃ k', fit (Fl.globalBest fit argsort .min g pops) = .num k' ∧ k' ≤ k := by
  induction pops generalizing g k with
  | nil => exact ⟨k, hg, le_rfl⟩
  | cons pop rest ih =>
    unfold Fl.globalBest
    cases (Fl.getSorted fit argsort pop .min).head? with
    | none => exact ih hg
    | some b =>
      have : ∃ k', fit (Fl.getBetterAgent fit b g .min) = .num k' ∧ k' ≤ k := by
        unfold Fl.getBetterAgent
        rw [hg]
        cases hb : fit b with
        | nan => exact ⟨k, by simp [Fl.lt, hg], le_rfl⟩
        | num j =>
          by_cases hj : j < k
          · exact ⟨j, by simp [Fl.lt, hj, hb], hj.le⟩
          · exact ⟨k, by simp [Fl.lt, hj, hg], le_rfl⟩
      obtain ⟨k', h1, h2⟩ := this
      obtain ⟨k'', h3, h4⟩ := ih h1
      exact ⟨k'', h3, h4.trans h2⟩

/-- C51: clipping leaves a NaN coordinate NaN and puts a number into the box. -/
theorem C51_clip (lb ub : K) (h : lb ≤ ub) :
    Fl.clip .nan (.num lb) (.num ub) = .nan ∧
    ∀ x, ∃ y, Fl.clip (.num x) (.num lb) (.num ub) = .num y ∧ lb ≤ y ∧ y ≤ ub :=
  ⟨rfl, fun _ => ⟨_, rfl, le_min (le_max_right _ _) h, min_le_right _ _⟩⟩

/-- numpy's order exists: sort by key -/
def nanArgsort (l : List (Fl ℚ)) : List Nat := stableArgsort (l.map Fl.key)

theorem nanArgsort_law : Fl.NaNArgsort nanArgsort where
  perm l := by simpa [nanArgsort] using stableArgsort_law.perm (l.map Fl.key)
  sorted l := by
    refine (stableArgsort_law.sorted (l.map Fl.key)).imp ?_
    intro i j h a b ha hb
    exact h _ _ (by rw [List.getElem?_map, ha]; rfl) (by rw [List.getElem?_map, hb]; rfl)

/-- the population 3, NaN, 5 meets the hypotheses of the theorems above -/
example : (∃ a ∈ [Fl.num (3 : ℚ), .nan, .num 5], id a ≠ .nan) ∧
    (∃ a ∈ [Fl.num (3 : ℚ), .nan, .num 5], id a = .nan) ∧
    Fl.greedySelection id [Fl.num (3 : ℚ), .nan] [.nan, .num 5] .min = .ok [Fl.num 3, .nan] := by
  refine ⟨⟨.num 3, by simp, by simp⟩, ⟨.nan, by simp, rfl⟩, rfl⟩

end Mealpy
