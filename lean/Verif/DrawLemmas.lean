import Verif.Draws
import Verif.Witness
import Mathlib.Tactic.Ring
import Mathlib.Tactic.FieldSimp
import Mathlib.Data.List.Nodup

/-! Helper lemmas about the random selection helpers. -/

set_option linter.unusedSectionVars false

namespace Mealpy
open Spec

variable {d : Nat} {K X : Type} [LinearOrder K]

theorem foldl_max_spec (xs : List K) : ∀ x : K,
    xs.foldl max x ∈ x :: xs ∧ ∀ y ∈ x :: xs, y ≤ xs.foldl max x := by
  induction xs with
  | nil => intro x; simp
  | cons y ys ih =>
    intro x
    obtain ⟨h1, h2⟩ := ih (max x y)
    refine ⟨?_, ?_⟩
    · rw [List.foldl_cons]
      rcases List.mem_cons.1 h1 with h | h
      · rw [h]; rcases max_choice x y with h' | h' <;> simp [h']
      · exact List.mem_cons_of_mem _ (List.mem_cons_of_mem _ h)
    · intro z hz
      rw [List.foldl_cons]
      have hm := h2 (max x y) (by simp)
      rcases List.mem_cons.1 hz with rfl | hz
      · exact le_trans (le_max_left _ _) hm
      · rcases List.mem_cons.1 hz with rfl | hz
        · exact le_trans (le_max_right _ _) hm
        · exact h2 z (List.mem_cons_of_mem _ hz)

theorem foldl_min_spec (xs : List K) : ∀ x : K,
    xs.foldl min x ∈ x :: xs ∧ ∀ y ∈ x :: xs, xs.foldl min x ≤ y :=
  foldl_max_spec (K := Kᵒᵈ) xs

theorem listMax_some {l : List K} {m : K} (h : listMax l = some m) :
    m ∈ l ∧ ∀ x ∈ l, x ≤ m := by
  cases l with
  | nil => simp [listMax] at h
  | cons x xs =>
    simp only [listMax, Option.some.injEq] at h
    subst h; exact foldl_max_spec xs x

theorem listMin_some {l : List K} {m : K} (h : listMin l = some m) :
    m ∈ l ∧ ∀ x ∈ l, m ≤ x := by
  cases l with
  | nil => simp [listMin] at h
  | cons x xs =>
    simp only [listMin, Option.some.injEq] at h
    subst h; exact foldl_min_spec xs x

theorem listMax_isSome {l : List K} (h : l ≠ []) : ∃ m, listMax l = some m := by
  cases l with
  | nil => exact absurd rfl h
  | cons x xs => exact ⟨_, rfl⟩

theorem listMin_isSome {l : List K} (h : l ≠ []) : ∃ m, listMin l = some m := by
  cases l with
  | nil => exact absurd rfl h
  | cons x xs => exact ⟨_, rfl⟩

theorem foldl_add_eq (l : List ℚ) : ∀ a, l.foldl (· + ·) a = a + l.sum := by
  induction l with
  | nil => intro a; simp
  | cons x xs ih => intro a; rw [List.foldl_cons, ih, List.sum_cons]; ring

theorem sum_pos_of {l : List ℚ} (h0 : ∀ x ∈ l, 0 ≤ x) (hp : ∃ x ∈ l, 0 < x) : 0 < l.sum := by
  induction l with
  | nil => simp at hp
  | cons x xs ih =>
    rw [List.sum_cons]
    have hx := h0 x (by simp)
    have hxs : 0 ≤ xs.sum := List.sum_nonneg (fun y hy => h0 y (List.mem_cons_of_mem _ hy))
    obtain ⟨y, hy, hpos⟩ := hp
    rcases List.mem_cons.1 hy with rfl | hy
    · linarith
    · have := ih (fun y hy => h0 y (List.mem_cons_of_mem _ hy)) ⟨y, hy, hpos⟩
      linarith

theorem sum_map_div (l : List ℚ) (T : ℚ) : (l.map (fun x => x / T)).sum = l.sum / T := by
  induction l with
  | nil => simp
  | cons x xs ih => rw [List.map_cons, List.sum_cons, List.sum_cons, ih]; ring

/-- roulette weights before normalisation, with the facts every use needs -/
theorem roulette_shape {fits : List ℚ} {mm : MinMax}
    (hne : ∃ a ∈ fits, ∃ b ∈ fits, a ≠ b) :
    ∃ (g : ℚ → ℚ) (T : ℚ), rouletteProb fits mm = fits.map (fun x => g x / T)
      ∧ T = (fits.map g).sum ∧ 0 < T ∧ (∀ x ∈ fits, 0 ≤ g x)
      ∧ (∀ x y, Better mm x y ↔ g y < g x)
      ∧ (mm = .min → ∀ w ∈ fits, (∀ x ∈ fits, x ≤ w) → g w = 0) := by
  obtain ⟨a, ha, b, hb, hab⟩ := hne
  have hnil : fits ≠ [] := by rintro rfl; simp at ha
  obtain ⟨mn, hmn⟩ := listMin_isSome hnil
  obtain ⟨hmn1, hmn2⟩ := listMin_some hmn
  -- the shift
  obtain ⟨c, hc, hcpos⟩ : ∃ c : ℚ,
      (if fits.any (fun x => decide (x < 0)) then fits.map (fun x => x - mn) else fits)
        = fits.map (fun x => x - c) ∧ ∀ x ∈ fits, 0 ≤ x - c := by
    by_cases hneg : fits.any (fun x => decide (x < 0)) = true
    · refine ⟨mn, by rw [if_pos hneg], fun x hx => ?_⟩
      have := hmn2 x hx; linarith
    · refine ⟨0, by rw [if_neg hneg]; simp, fun x hx => ?_⟩
      simp only [List.any_eq_true, decide_eq_true_eq, not_exists, not_and, not_lt] at hneg
      have := hneg x hx; linarith
  have hnil' : fits.map (fun x => x - c) ≠ [] := by simpa using hnil
  obtain ⟨mx, hmx⟩ := listMax_isSome hnil'
  obtain ⟨hmx1, hmx2⟩ := listMax_some hmx
  have hdist : ∃ x ∈ fits, ∃ y ∈ fits, x < y := by
    rcases lt_or_gt_of_ne hab with h | h
    · exact ⟨a, ha, b, hb, h⟩
    · exact ⟨b, hb, a, ha, h⟩
  obtain ⟨x, hx, y, hy, hxy⟩ := hdist
  cases mm with
  | min =>
    refine ⟨fun x => mx - (x - c), (fits.map (fun x => mx - (x - c))).sum, ?_, rfl, ?_, ?_, ?_, ?_⟩
    · simp only [rouletteProb, hmn, Option.getD_some, hc, hmx, List.map_map, foldl_add_eq, zero_add]
      rfl
    · apply sum_pos_of
      · intro z hz
        obtain ⟨w, hw, rfl⟩ := List.mem_map.1 hz
        have := hmx2 (w - c) (List.mem_map.2 ⟨w, hw, rfl⟩); linarith
      · refine ⟨mx - (x - c), List.mem_map.2 ⟨x, hx, rfl⟩, ?_⟩
        have := hmx2 (y - c) (List.mem_map.2 ⟨y, hy, rfl⟩); linarith
    · intro w hw
      have := hmx2 (w - c) (List.mem_map.2 ⟨w, hw, rfl⟩); simp only; linarith
    · intro x y; simp only [Better]; constructor <;> intro h <;> linarith
    · intro _ w hw hmax
      obtain ⟨v, hv, hv'⟩ := List.mem_map.1 hmx1
      have h1 := hmax v hv
      have h2 := hmx2 (w - c) (List.mem_map.2 ⟨w, hw, rfl⟩)
      simp only at *
      linarith
  | max =>
    refine ⟨fun x => x - c, (fits.map (fun x => x - c)).sum, ?_, rfl, ?_, hcpos, ?_, ?_⟩
    · simp only [rouletteProb, hmn, Option.getD_some, hc, List.map_map, foldl_add_eq, zero_add]
      rfl
    · apply sum_pos_of
      · intro z hz
        obtain ⟨w, hw, rfl⟩ := List.mem_map.1 hz
        exact hcpos w hw
      · refine ⟨y - c, List.mem_map.2 ⟨y, hy, rfl⟩, ?_⟩
        have := hcpos x hx; linarith
    · intro x y; simp only [Better]; constructor <;> intro h <;> linarith
    · intro h; cases h

/-! ### exclusion samplers -/

theorem shiftExclude_perm {popSize ex : Nat} (h : ex < popSize) :
    (shiftExclude ex (List.range (popSize - 1))).Perm
      ((List.range popSize).filter (fun i => i ≠ ex)) := by
  rw [List.perm_ext_iff_of_nodup]
  · intro a
    simp only [shiftExclude, List.mem_map, List.mem_range, List.mem_filter, decide_eq_true_eq]
    constructor
    · rintro ⟨i, hi, rfl⟩
      split <;> constructor <;> omega
    · rintro ⟨ha, hne⟩
      by_cases hlt : a < ex
      · exact ⟨a, by omega, by rw [if_neg (by omega)]⟩
      · exact ⟨a - 1, by omega, by rw [if_pos (by omega)]; omega⟩
  · unfold shiftExclude
    apply List.Nodup.map_on _ List.nodup_range
    intro x _ y _ hxy
    split at hxy <;> split at hxy <;> omega
  · exact List.nodup_range.filter _

theorem shiftExclude_nodup {ex : Nat} {l : List Nat} (h : l.Nodup) : (shiftExclude ex l).Nodup := by
  unfold shiftExclude
  apply List.Nodup.map_on _ h
  intro x _ y _ hxy
  split at hxy <;> split at hxy <;> omega

theorem nodup_filterMap_get {α : Type} {l : List α} (hl : l.Nodup) {is : List Nat} (h : is.Nodup) :
    (is.filterMap (fun i => l[i]?)).Nodup := by
  induction is with
  | nil => simp
  | cons i is ih =>
    have hi := List.nodup_cons.1 h
    cases hli : l[i]? with
    | none => rw [List.filterMap_cons_none hli]; exact ih hi.2
    | some x =>
      rw [List.filterMap_cons_some hli, List.nodup_cons]
      refine ⟨?_, ih hi.2⟩
      intro hx
      obtain ⟨j, hj, hjx⟩ := List.mem_filterMap.1 hx
      have hlt1 := (List.getElem?_eq_some_iff.1 hli).1
      have : i = j := by
        apply (List.getElem?_inj hlt1 hl).1
        rw [hli, hjx]
      exact hi.1 (this ▸ hj)

theorem length_filterMap_get {α : Type} {l : List α} {is : List Nat} (h : ∀ i ∈ is, i < l.length) :
    (is.filterMap (fun i => l[i]?)).length = is.length := by
  induction is with
  | nil => simp
  | cons i is ih =>
    have hi : l[i]? = some (l[i]'(h i (by simp))) := List.getElem?_eq_getElem _
    rw [List.filterMap_cons_some hi, List.length_cons, List.length_cons,
      ih (fun j hj => h j (List.mem_cons_of_mem _ hj))]

/-! ### tournament -/

/-- contestants with their fitness, sorted best first -/
def contest (pop : List (Agent d K X)) (mm : MinMax) (ids : List Nat) : List (Nat × K) :=
  let parents : List (Nat × K) := ids.filterMap (fun i => pop[i]?.map (fun a => (i, a.fit)))
  match mm with
  | .min => parents.mergeSort (fun a b => decide (a.2 ≤ b.2))
  | .max => parents.mergeSort (fun a b => decide (b.2 ≤ a.2))

theorem contest_perm (pop : List (Agent d K X)) (mm : MinMax) (ids : List Nat) :
    (contest pop mm ids).Perm (ids.filterMap (fun i => pop[i]?.map (fun a => (i, a.fit)))) := by
  cases mm <;> exact List.mergeSort_perm _ _

theorem contest_sorted (pop : List (Agent d K X)) (mm : MinMax) (ids : List Nat) :
    (contest pop mm ids).Pairwise (fun a b => NoWorse mm a.2 b.2) := by
  cases mm
  · refine (List.pairwise_mergeSort (le := fun a b : Nat × K => decide (a.2 ≤ b.2))
      (fun a b c h1 h2 => by simp at *; exact le_trans h1 h2)
      (fun a b => by simp; exact le_total _ _) _).imp ?_
    intro a b h; simpa [NoWorse] using h
  · refine (List.pairwise_mergeSort (le := fun a b : Nat × K => decide (b.2 ≤ a.2))
      (fun a b c h1 h2 => by simp at *; exact le_trans h2 h1)
      (fun a b => by simp; exact le_total _ _) _).imp ?_
    intro a b h; simpa [NoWorse] using h

theorem filterMap_fst {pop : List (Agent d K X)} {ids : List Nat} (h : ∀ i ∈ ids, i < pop.length) :
    (ids.filterMap (fun i => pop[i]?.map (fun a => (i, a.fit)))).map (·.1) = ids := by
  induction ids with
  | nil => simp
  | cons i is ih =>
    have hi : pop[i]? = some (pop[i]'(h i (by simp))) := List.getElem?_eq_getElem _
    rw [List.filterMap_cons_some (b := (i, (pop[i]'(h i (by simp))).fit)) (by rw [hi]; rfl),
      List.map_cons, ih (fun j hj => h j (List.mem_cons_of_mem _ hj))]

theorem contest_fst_perm {pop : List (Agent d K X)} {mm : MinMax} {ids : List Nat}
    (h : ∀ i ∈ ids, i < pop.length) : ((contest pop mm ids).map (·.1)).Perm ids := by
  have := (contest_perm pop mm ids).map (·.1)
  rwa [filterMap_fst h] at this

theorem contest_fit {pop : List (Agent d K X)} {mm : MinMax} {ids : List Nat} {p : Nat × K}
    (h : p ∈ contest pop mm ids) : pop[p.1]?.map Agent.fit = some p.2 := by
  rw [(contest_perm pop mm ids).mem_iff, List.mem_filterMap] at h
  obtain ⟨i, _, hi⟩ := h
  rw [Option.map_eq_some_iff] at hi
  obtain ⟨a, ha, rfl⟩ := hi
  simp [ha]

/-- splitting a best-first contest at any point separates better from worse contestants -/
theorem contest_split {pop : List (Agent d K X)} {mm : MinMax} {ids : List Nat}
    (n : Nat) {i j : Nat} {a b : Agent d K X}
    (hi : i ∈ ((contest pop mm ids).take n).map (·.1))
    (hj : j ∈ ((contest pop mm ids).drop n).map (·.1))
    (ha : pop[i]? = some a) (hb : pop[j]? = some b) : NoWorse mm a.fit b.fit := by
  obtain ⟨p, hp, rfl⟩ := List.mem_map.1 hi
  obtain ⟨q, hq, rfl⟩ := List.mem_map.1 hj
  have h1 := contest_fit (List.mem_of_mem_take hp)
  have h2 := contest_fit (List.mem_of_mem_drop hq)
  rw [ha] at h1; rw [hb] at h2
  simp only [Option.map_some, Option.some.injEq] at h1 h2
  rw [h1, h2]
  have hs := contest_sorted pop mm ids
  rw [← List.take_append_drop n (contest pop mm ids)] at hs
  exact (List.pairwise_append.1 hs).2.2 p hp q hq

theorem tournament_eq (E : Env K) (pop : List (Agent d K X)) (kWay : KWay) (output : Nat)
    (reverse : Bool) (mm : MinMax) (s : E.σ) :
    tournament E pop kWay output reverse mm s =
      if kWay.size pop.length < 0 then .error .value
      else if choiceErr pop.length (kWay.size pop.length).toNat false then .error .value
      else
        let ids := (E.choice pop.length (kWay.size pop.length).toNat false s).1
        let s' := (E.choice pop.length (kWay.size pop.length).toNat false s).2
        let c := contest pop mm ids
        if reverse then
          .ok ((if output = 0 then c else c.drop (c.length - output)).map (·.1), s')
        else .ok ((c.take output).map (·.1), s') := by
  cases mm <;> rfl

end Mealpy
