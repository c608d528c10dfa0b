import Verif.Tuner
import Mathlib.Data.List.Perm.Basic
import Mathlib.Data.List.Nodup
import Mathlib.Data.List.Lex
import Mathlib.Data.List.Forall2

/-!
# C42, C43: `ParameterGrid`
-/

namespace Mealpy
namespace Tuner

variable {κ V : Type}

theorem product_foldl (values : List (List V)) (init : List (List V)) :
    values.foldl (fun result pool => result.flatMap (fun x => pool.map (fun y => x ++ [y]))) init =
      init.flatMap (fun x => (product values).map (x ++ ·)) := by
  induction values generalizing init with
  | nil => simp [product]
  | cons v vs ih =>
    unfold product
    simp only [List.foldl_cons]
    rw [ih, ih]
    simp only [List.flatMap_assoc, List.flatMap_map, List.map_flatMap, List.map_map, List.flatMap_cons, List.flatMap_nil,
      List.nil_append, List.append_nil]
    congr 1
    funext x
    congr 1
    funext y
    congr 1
    funext z
    simp

theorem product_cons (v : List V) (vs : List (List V)) :
    product (v :: vs) = v.flatMap (fun y => (product vs).map (y :: ·)) := by
  have := product_foldl vs ([[]].flatMap (fun x => v.map (fun y => x ++ [y])))
  rw [show product (v :: vs) = _ from this]
  simp [List.flatMap_map]

theorem mem_product {values : List (List V)} {x : List V} :
    x ∈ product values ↔ List.Forall₂ (· ∈ ·) x values := by
  induction values generalizing x with
  | nil => simp [product]
  | cons v vs ih =>
    rw [product_cons]
    simp only [List.mem_flatMap, List.mem_map]
    constructor
    · rintro ⟨y, hy, z, hz, rfl⟩
      exact .cons hy (ih.1 hz)
    · intro h
      cases h with
      | cons h1 h2 => exact ⟨_, h1, _, ih.2 h2, rfl⟩

theorem length_product (values : List (List V)) : (product values).length = (values.map List.length).prod := by
  induction values with
  | nil => rfl
  | cons v vs ih =>
    rw [product_cons, List.length_flatMap]
    simp [ih]

theorem pairwise_product {R : V → V → Prop} {values : List (List V)} (h : ∀ v ∈ values, v.Pairwise R) :
    (product values).Pairwise (List.Lex R) := by
  induction values with
  | nil => simp [product]
  | cons v vs ih =>
    rw [product_cons, List.pairwise_flatMap]
    constructor
    · intro y _
      rw [List.pairwise_map]
      exact (ih (fun w hw => h w (by simp [hw]))).imp (fun hab => .cons hab)
    · refine (h v (by simp)).imp ?_
      intro a b hab x hx y hy
      rw [List.mem_map] at hx hy
      obtain ⟨x, _, rfl⟩ := hx
      obtain ⟨y, _, rfl⟩ := hy
      exact .rel hab

theorem nodup_product {values : List (List V)} (h : ∀ v ∈ values, v.Nodup) : (product values).Nodup := by
  induction values with
  | nil => simp [product]
  | cons v vs ih =>
    rw [product_cons, List.Nodup, List.pairwise_flatMap]
    constructor
    · intro y _
      rw [List.pairwise_map]
      exact (ih (fun w hw => h w (by simp [hw]))).imp (fun hab hc => hab (List.cons.inj hc).2)
    · refine List.Pairwise.imp ?_ (h v (by simp))
      intro a b hab x hx y hy hxy
      rw [List.mem_map] at hx hy
      obtain ⟨x, _, rfl⟩ := hx
      obtain ⟨y, _, rfl⟩ := hy
      exact hab (List.cons.inj hxy).1

theorem iter_one (p : SubGrid κ V) :
    gridIter [p] = (product (p.map (·.2))).map (fun v => (p.map (·.1)).zip v) := by
  unfold gridIter
  cases p with
  | nil => rfl
  | cons a t => simp

theorem iter_flatMap (g : List (SubGrid κ V)) : gridIter g = g.flatMap (fun p => gridIter [p]) := by
  unfold gridIter
  simp

theorem zip_combination {p : SubGrid κ V} {v : List V} (h : List.Forall₂ (· ∈ ·) v (p.map (·.2))) :
    List.Forall₂ (fun (kv : κ × V) (kvs : κ × List V) => kv.1 = kvs.1 ∧ kv.2 ∈ kvs.2) ((p.map (·.1)).zip v) p ∧
      ((p.map (·.1)).zip v).map (·.2) = v := by
  induction p generalizing v with
  | nil => cases h; exact ⟨.nil, rfl⟩
  | cons a t ih =>
    cases h with
    | cons h1 h2 =>
      obtain ⟨i1, i2⟩ := ih h2
      exact ⟨.cons ⟨rfl, h1⟩ i1, by simp [i2]⟩

theorem combination_zip {p : SubGrid κ V} {c : Params κ V}
    (h : List.Forall₂ (fun (kv : κ × V) (kvs : κ × List V) => kv.1 = kvs.1 ∧ kv.2 ∈ kvs.2) c p) :
    List.Forall₂ (· ∈ ·) (c.map (·.2)) (p.map (·.2)) ∧ (p.map (·.1)).zip (c.map (·.2)) = c := by
  induction h with
  | nil => exact ⟨.nil, rfl⟩
  | cons h1 _ ih => exact ⟨.cons h1.2 ih.1, by simp [ih.2, ← h1.1]⟩

theorem prod_eq_foldl (l : List Nat) (n : Nat) : l.foldl (· * ·) n = n * l.prod := by
  induction l generalizing n with
  | nil => simp
  | cons a t ih => simp [ih, Nat.mul_assoc]

theorem length_iter_one (p : SubGrid κ V) : (gridIter [p]).length = (p.map (fun kv => kv.2.length)).prod := by
  rw [iter_one, List.length_map, length_product, List.map_map]
  rfl

theorem range_mul_map {β : Type} (n m : Nat) (f : Nat → β) :
    (List.range (n * m)).map f = (List.range m).flatMap (fun q => (List.range n).map (fun r => f (q * n + r))) := by
  induction m with
  | zero => simp
  | succ m ih =>
    rw [Nat.mul_succ, List.range_add, List.map_append, ih, List.range_succ, List.flatMap_append]
    simp [Nat.mul_comm]

theorem flatMap_map_swap {α β γ : Type} (l : List α) (l' : List β) (f : α → β → γ) :
    (l.flatMap (fun a => l'.map (f a))).Perm (l'.flatMap (fun b => l.map (fun a => f a b))) := by
  induction l with
  | nil => simp
  | cons a t ih =>
    simp only [List.flatMap_cons, List.map_cons]
    exact (ih.append_left _).trans (List.map_append_flatMap_perm l' (f a) _)

theorem map_range_getElem? {α β : Type} (l : List α) (f : Option α → β) :
    (List.range l.length).map (fun i => f l[i]?) = l.map (fun a => f (some a)) := by
  apply List.ext_getElem?
  intro i
  by_cases h : i < l.length
  · simp [h]
  · simp [h]

theorem pick_cons_nat (k : κ) (vs : List V) (rest : SubGrid κ V) {q r : Nat} (hr : r < vs.length) :
    pick ((k, vs) :: rest) ((q * vs.length + r : Nat) : Int) =
      (match vs[r]? with
       | none => none
       | some v => (pick rest (q : Int)).map (fun out => (k, v) :: out)) := by
  have h1 : (((q * vs.length + r : Nat) : Int).fmod vs.length).toNat = r := by
    rw [Int.fmod_eq_emod_of_nonneg _ (by omega)]
    rw [← Int.natCast_emod, Int.toNat_natCast, Nat.mul_comm, Nat.mul_add_mod, Nat.mod_eq_of_lt hr]
  have h2 : ((q * vs.length + r : Nat) : Int).fdiv vs.length = (q : Int) := by
    rw [Int.fdiv_eq_ediv_of_nonneg _ (by omega)]
    rw [← Int.natCast_ediv]
    congr 1
    rw [Nat.mul_comm, Nat.mul_add_div (by omega), Nat.div_eq_of_lt hr, Nat.add_zero]
  conv_lhs => unfold pick
  rw [h1, h2]
  rfl

theorem pick_perm (p : SubGrid κ V) :
    ((List.range (p.map (fun kv => kv.2.length)).prod).map (fun (i : Nat) => pick p (i : Int))).Perm
      ((gridIter [p]).map some) := by
  induction p with
  | nil => simp [gridIter, pick]
  | cons kv rest ih =>
    obtain ⟨k, vs⟩ := kv
    have e : (gridIter [(k, vs) :: rest]) =
        vs.flatMap (fun v => (gridIter [rest]).map (fun c => (k, v) :: c)) := by
      rw [iter_one, iter_one, List.map_cons (f := fun (x : κ × List V) => x.2), product_cons]
      simp [List.map_flatMap, List.map_map, Function.comp_def]
    rw [e, List.map_cons, List.prod_cons, range_mul_map, List.map_flatMap]
    have e2 : (List.range (rest.map (fun kv => kv.2.length)).prod).flatMap
          (fun (q : Nat) => (List.range vs.length).map (fun (r : Nat) => pick ((k, vs) :: rest) ((q * vs.length + r : Nat) : Int))) =
        (List.range (rest.map (fun kv => kv.2.length)).prod).flatMap
          (fun (q : Nat) => vs.map (fun v => (pick rest (q : Int)).map (fun out => (k, v) :: out))) := by
      congr 1
      funext q
      refine Eq.trans ?_ (map_range_getElem? vs (fun o => match o with
        | none => none
        | some v => (pick rest (q : Int)).map (fun out => (k, v) :: out)))
      apply List.map_congr_left
      intro r hr
      exact pick_cons_nat k vs rest (List.mem_range.1 hr)
    rw [show (List.range (List.map (fun (kv : κ × List V) => kv.2.length) rest).prod).flatMap _ = _ from e2]
    refine (flatMap_map_swap _ _ _).trans ?_
    refine List.Perm.flatMap_left _ ?_
    intro v _
    have := ih.map (fun o => Option.map (fun out => (k, v) :: out) o)
    simpa [List.map_map, Function.comp_def] using this

end Tuner

open Tuner

variable {κ V : Type}

/-- C42: `list(ParameterGrid(g))` contains exactly the combinations: dicts with the keys of one sub-grid in
order, each with one of the listed values. -/
theorem C42_members (g : List (SubGrid κ V)) (c : Params κ V) :
    c ∈ gridIter g ↔ ∃ p ∈ g, List.Forall₂ (fun (kv : κ × V) (kvs : κ × List V) => kv.1 = kvs.1 ∧ kv.2 ∈ kvs.2) c p := by
  rw [iter_flatMap, List.mem_flatMap]
  refine exists_congr fun p => and_congr_right fun _ => ?_
  rw [iter_one, List.mem_map]
  constructor
  · rintro ⟨v, hv, rfl⟩
    exact (zip_combination (mem_product.1 hv)).1
  · intro h
    exact ⟨_, mem_product.2 (combination_zip h).1, (combination_zip h).2⟩

/-- C42: the grid is enumerated sub-grid by sub-grid, and within a sub-grid with distinct values every
combination comes once. -/
theorem C42_exactly_once (g : List (SubGrid κ V)) :
    gridIter g = g.flatMap (fun p => gridIter [p]) ∧
    ∀ p ∈ g, (∀ kv ∈ p, kv.2.Nodup) → (gridIter [p]).Nodup := by
  refine ⟨iter_flatMap g, fun p _ h => ?_⟩
  rw [iter_one]
  have hn : (product (p.map (·.2))).Nodup := nodup_product (by
    intro v hv
    obtain ⟨kv, hkv, rfl⟩ := List.mem_map.1 hv
    exact h kv hkv)
  refine List.Nodup.map_on ?_ hn
  intro x hx y hy hxy
  have e1 := (zip_combination (p := p) (mem_product.1 hx)).2
  have e2 := (zip_combination (p := p) (mem_product.1 hy)).2
  rw [← e1, ← e2, hxy]

/-- C42: the order is lexicographic in the listed order of the values, first key most significant: the
last key varies fastest. -/
theorem C42_last_key_fastest (p : SubGrid κ V) (R : V → V → Prop) (h : ∀ kv ∈ p, kv.2.Pairwise R) :
    (gridIter [p]).Pairwise (fun a b => List.Lex R (a.map (·.2)) (b.map (·.2))) := by
  rw [iter_one, List.pairwise_map]
  refine (pairwise_product (R := R) (values := p.map (·.2)) ?_).imp_of_mem ?_
  · intro v hv
    obtain ⟨kv, hkv, rfl⟩ := List.mem_map.1 hv
    exact h kv hkv
  · intro a b ha hb hab
    rw [(zip_combination (mem_product.1 ha)).2, (zip_combination (mem_product.1 hb)).2]
    exact hab

/-- C42: `len()` is the number of combinations, the sum over sub-grids of the product of the sizes. -/
theorem C42_len (g : List (SubGrid κ V)) :
    gridLen g = (gridIter g).length ∧ gridLen g = (g.map (fun p => (p.map (fun kv => kv.2.length)).prod)).sum := by
  have e : gridLen g = (g.map (fun p => (p.map (fun kv => kv.2.length)).prod)).sum := by
    unfold gridLen
    congr 1
    apply List.map_congr_left
    intro p _
    cases hp : p.map (fun kv => kv.2.length) with
    | nil => rfl
    | cons n ns => simp [prod_eq_foldl]
  refine ⟨?_, e⟩
  rw [e, iter_flatMap, List.length_flatMap]
  congr 1
  apply List.map_congr_left
  intro p _
  exact (length_iter_one p).symm

/-- the first example of the docstring, as a value -/
def exGrid : List (SubGrid String Int) := [[("a", [1, 2]), ("b", [1, 2])]]

example : (∀ p ∈ exGrid, ∀ kv ∈ p, kv.2.Nodup ∧ kv.2.Pairwise (· < ·)) ∧ gridLen exGrid = 4 ∧
    gridIter exGrid = [[("a", 1), ("b", 1)], [("a", 1), ("b", 2)], [("a", 2), ("b", 1)], [("a", 2), ("b", 2)]] := by
  decide

theorem Tuner.gridGet_range (g : List (SubGrid κ V)) :
    (∀ i : Nat, gridLen g ≤ i → gridGet g (i : Int) = .error .index) ∧
    ((List.range (gridLen g)).map (fun (i : Nat) => gridGet g (i : Int))).Perm ((gridIter g).map .ok) := by
  induction g with
  | nil => simp [gridLen, gridGet, gridIter]
  | cons p rest ih =>
    have hlen : gridLen (p :: rest) = (p.map (fun kv => kv.2.length)).prod + gridLen rest := by
      rw [(C42_len _).2, (C42_len rest).2]
      simp
    have hit : gridIter (p :: rest) = gridIter [p] ++ gridIter rest := by
      rw [iter_flatMap, List.flatMap_cons, ← iter_flatMap]
    have step : ∀ i : Nat, gridGet (p :: rest) (i : Int) =
        if (p.map (fun kv => kv.2.length)).prod ≤ i then gridGet rest ((i - (p.map (fun kv => kv.2.length)).prod : Nat) : Int)
        else match pick p i with
          | some out => .ok out
          | none => .error .index := by
      intro i
      cases p with
      | nil =>
        conv_lhs => unfold gridGet
        by_cases hi : i = 0
        · subst hi; simp [pick]
        · rw [if_neg (by omega), if_pos (by simp; omega)]
          congr 1
          show ((i : Int) - 1) = ((i - 1 : Nat) : Int)
          omega
      | cons kv p =>
        rw [gridGet, prod_eq_foldl, Nat.one_mul]
        by_cases hi : ((kv :: p).map (fun kv => kv.2.length)).prod ≤ i
        · rw [if_pos (by exact_mod_cast hi), if_pos hi]
          congr 1
          omega
        · rw [if_neg (by exact_mod_cast hi), if_neg hi]
          rfl
    constructor
    · intro i hi
      rw [step, if_pos (by omega)]
      exact ih.1 _ (by omega)
    · rw [hlen, List.range_add, List.map_append, hit, List.map_append]
      refine List.Perm.append ?_ ?_
      · have := (pick_perm p).map (fun o => match o with
          | some out => (Except.ok out : Except Err (Params κ V))
          | none => .error .index)
        rw [List.map_map, List.map_map] at this
        refine (List.Perm.of_eq ?_).trans this
        apply List.map_congr_left
        intro i hi
        rw [step, if_neg (by have := List.mem_range.1 hi; omega)]
        rfl
      · rw [List.map_map]
        refine (List.Perm.of_eq ?_).trans ih.2
        apply List.map_congr_left
        intro i _
        show gridGet (p :: rest) (((p.map (fun kv => kv.2.length)).prod + i : Nat) : Int) = _
        rw [step, if_pos (by omega)]
        congr 1
        omega

/-- C43: the indices from 0 up to `len(grid)` hit every combination as often as iteration does (exactly
once for distinct values), and every index from `len(grid)` on raises `IndexError`. -/
theorem C43_index_hits_every_combination (g : List (SubGrid κ V)) :
    ((List.range (gridLen g)).map (fun (i : Nat) => gridGet g (i : Int))).Perm ((gridIter g).map .ok) ∧
    ∀ i : Nat, gridLen g ≤ i → gridGet g (i : Int) = .error .index :=
  ⟨(Tuner.gridGet_range g).2, (Tuner.gridGet_range g).1⟩

/-- C43: `grid[i]` is not `list(grid)[i]`, although documented so. -/
theorem C43_index_is_not_iteration_order :
    gridGet exGrid 1 = .ok [("a", 2), ("b", 1)] ∧ (gridIter exGrid)[1]? = some [("a", 1), ("b", 2)] := by decide

/-- the pick never fails on non-empty value lists, whatever the index -/
theorem Tuner.pick_some {p : SubGrid κ V} (h : ∀ kv ∈ p, kv.2 ≠ []) (i : Int) : ∃ c, pick p i = some c ∧ c ∈ gridIter [p] := by
  induction p generalizing i with
  | nil => exact ⟨[], rfl, by simp [gridIter]⟩
  | cons kv rest ih =>
    obtain ⟨k, vs⟩ := kv
    have hne := h (k, vs) (by simp)
    have hpos : 0 < vs.length := List.length_pos_iff.2 hne
    have h1 : (i.fmod vs.length).toNat < vs.length := by
      have := Int.fmod_lt_of_pos i (b := (vs.length : Int)) (by omega)
      have := Int.fmod_nonneg_of_pos i (b := (vs.length : Int)) (by omega)
      omega
    obtain ⟨c, hc, hm⟩ := ih (fun kv hkv => h kv (by simp [hkv])) (i.fdiv vs.length)
    refine ⟨(k, vs[(i.fmod vs.length).toNat]) :: c, ?_, ?_⟩
    · unfold pick
      rw [List.getElem?_eq_getElem h1]
      dsimp only
      rw [hc]
      rfl
    · rw [C42_members] at hm ⊢
      obtain ⟨q, hq, hf⟩ := hm
      rw [List.mem_singleton.1 hq] at hf
      exact ⟨_, List.mem_singleton.2 rfl, .cons ⟨rfl, List.getElem_mem h1⟩ hf⟩

/-- C43: a negative index never raises on a non-empty dict (python lists raise below `-len`). -/
theorem C43_negative_index_never_raises {p : SubGrid κ V} (hp : p ≠ []) (h : gridInit [p] = .ok [p]) (i : Int)
    (hi : i < 0) : ∃ c ∈ gridIter [p], gridGet [p] i = .ok c := by
  have hne : ∀ kv ∈ p, kv.2 ≠ [] := by
    unfold gridInit at h
    split at h
    · cases h
    · rename_i hh
      intro kv hkv he
      apply hh
      simp only [List.any_cons, List.any_nil, Bool.or_false, List.any_eq_true]
      exact ⟨kv, hkv, by simp [he]⟩
  obtain ⟨c, hc, hm⟩ := Tuner.pick_some hne i
  refine ⟨c, hm, ?_⟩
  cases p with
  | nil => exact absurd rfl hp
  | cons kv p =>
    unfold gridGet
    rw [if_neg (by omega), hc]

example : gridInit exGrid = .ok exGrid ∧ gridGet exGrid (-1000) = .ok [("a", 1), ("b", 1)] := by
  constructor
  · rfl
  · decide

end Mealpy
