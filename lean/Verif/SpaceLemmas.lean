import Verif.SpaceSpec
import Mathlib.Tactic.Linarith
import Mathlib.Tactic.Ring
import Mathlib.Tactic.NormNum
import Mathlib.Data.List.Nodup
import Mathlib.Data.List.Forall2
import Mathlib.Data.List.Range
import Mathlib.Algebra.Order.BigOperators.Group.List

/-! Helper lemmas for the variable and problem models. -/

set_option linter.unusedSectionVars false

namespace Mealpy.Space

variable {K : Type} [Field K] [LinearOrder K] [IsStrictOrderedRing K] [FloorRing K]

/-! ### clip, trunc, round -/

theorem clip_mem {α : Type} [LinearOrder α] {x l u : α} (h : l ≤ u) :
    l ≤ clip x l u ∧ clip x l u ≤ u :=
  ⟨le_min (le_max_right _ _) h, min_le_right _ _⟩

theorem clip_of_mem {α : Type} [LinearOrder α] {x l u : α} (h1 : l ≤ x) (h2 : x ≤ u) :
    clip x l u = x := by
  unfold clip; rw [max_eq_left h1, min_eq_left h2]

theorem clip_idem {α : Type} [LinearOrder α] (x l u : α) :
    clip (clip x l u) l u = clip x l u := by
  unfold clip
  rcases le_total l u with h | h
  · have h1 : l ≤ min (max x l) u := le_min (le_max_right _ _) h
    rw [max_eq_left h1, min_eq_left (min_le_right _ _)]
  · have h1 : min (max x l) u = u := min_eq_right (le_trans h (le_max_right _ _))
    rw [h1, max_eq_right h, min_eq_right h]

theorem eps_pos : (0 : K) < eps := by unfold eps; positivity
theorem eps_lt_half : (eps : K) < 1 / 2 := by unfold eps; norm_num
theorem eps_lt_one : (eps : K) < 1 := by unfold eps; norm_num

theorem trunc_nonneg_eq {x : K} (h : 0 ≤ x) : trunc x = ⌊x⌋ := if_pos h

theorem trunc_intCast (z : Int) : trunc (z : K) = z := by
  unfold trunc; split <;> simp

theorem trunc_natCast (z : Nat) : trunc (z : K) = z := by
  have := trunc_intCast (K := K) (z : Int)
  simpa using this

/-- truncation of a point of `[0, n - eps]` is an index below `n` -/
theorem trunc_range {x : K} {n : Nat} (h0 : 0 ≤ x) (h1 : x ≤ (n : K) - eps) :
    0 ≤ trunc x ∧ trunc x < n ∧ (trunc x : K) ≤ x := by
  rw [trunc_nonneg_eq h0]
  refine ⟨Int.floor_nonneg.2 h0, ?_, Int.floor_le x⟩
  rw [Int.floor_lt]
  have := eps_pos (K := K)
  push_cast
  linarith

theorem round_eq (x : K) : round x = ⌊x + 1 / 2⌋ := by
  unfold round
  have h0 := Int.floor_le x
  have h1 := Int.lt_floor_add_one x
  split
  · rename_i h
    symm; rw [Int.floor_eq_iff]
    constructor <;> linarith
  · rename_i h
    simp only [not_lt] at h
    have hc : ⌈x⌉ = ⌊x⌋ + 1 := by
      rw [Int.ceil_eq_iff]; push_cast
      constructor <;> linarith
    rw [hc]; symm; rw [Int.floor_eq_iff]; push_cast
    constructor <;> linarith

/-! ### boxes of lists -/

theorem InBoxL.length : ∀ {lb ub x : List K}, InBoxL lb ub x →
    x.length = lb.length ∧ x.length = ub.length
  | [], [], [], _ => ⟨rfl, rfl⟩
  | _ :: _, _ :: _, _ :: _, h => by
    obtain ⟨h1, h2⟩ := InBoxL.length h.2.2
    exact ⟨by simpa using h1, by simpa using h2⟩
  | [], [], _ :: _, h => h.elim
  | [], _ :: _, _, h => h.elim
  | _ :: _, [], _, h => h.elim
  | _ :: _, _ :: _, [], h => h.elim

theorem InBoxL.get : ∀ {lb ub x : List K}, InBoxL lb ub x → ∀ (i : Nat) (l u v : K),
    lb[i]? = some l → ub[i]? = some u → x[i]? = some v → l ≤ v ∧ v ≤ u
  | [], [], [], _, i, l, u, v, h, _, _ => by simp at h
  | l0 :: ls, u0 :: us, v0 :: vs, hb, 0, l, u, v, h1, h2, h3 => by
    simp at h1 h2 h3; subst h1; subst h2; subst h3; exact ⟨hb.1, hb.2.1⟩
  | l0 :: ls, u0 :: us, v0 :: vs, hb, i + 1, l, u, v, h1, h2, h3 =>
    InBoxL.get hb.2.2 i l u v (by simpa using h1) (by simpa using h2) (by simpa using h3)

theorem InBoxL.append : ∀ {l u x l' u' x' : List K}, InBoxL l u x → InBoxL l' u' x' →
    InBoxL (l ++ l') (u ++ u') (x ++ x')
  | [], [], [], _, _, _, _, h => h
  | _ :: _, _ :: _, _ :: _, _, _, _, h, h' => ⟨h.1, h.2.1, InBoxL.append h.2.2 h'⟩

theorem InBoxL_replicate {l u : K} : ∀ {n : Nat} {x : List K}, x.length = n →
    (∀ v ∈ x, l ≤ v ∧ v ≤ u) → InBoxL (List.replicate n l) (List.replicate n u) x
  | 0, [], _, _ => trivial
  | n + 1, v :: vs, hl, h =>
    ⟨(h v (by simp)).1, (h v (by simp)).2,
      InBoxL_replicate (by simpa using hl) (fun w hw => h w (List.mem_cons_of_mem _ hw))⟩

/-! ### clipL -/

theorem clipL_cons (x : K) (xs : List K) (l : K) (ls : List K) (u : K) (us : List K) :
    clipL (x :: xs) (l :: ls) (u :: us) = clip x l u :: clipL xs ls us := rfl

theorem clipL_length : ∀ {x lb ub : List K}, x.length = lb.length → lb.length = ub.length →
    (clipL x lb ub).length = x.length := by
  intro x lb ub h1 h2
  simp [clipL, h1, h2]

theorem clipL_inBox : ∀ {x lb ub : List K}, x.length = lb.length →
    List.Forall₂ (· ≤ ·) lb ub → InBoxL lb ub (clipL x lb ub)
  | [], [], [], _, _ => trivial
  | x :: xs, l :: ls, u :: us, hl, h => by
    cases h with
    | cons h0 h1 =>
      exact ⟨(clip_mem h0).1, (clip_mem h0).2, clipL_inBox (by simpa using hl) h1⟩
  | [], _ :: _, _, hl, _ => by simp at hl
  | _ :: _, [], _, hl, _ => by simp at hl

theorem clipL_of_inBox : ∀ {x lb ub : List K}, InBoxL lb ub x → clipL x lb ub = x
  | [], [], [], _ => rfl
  | x :: xs, l :: ls, u :: us, h => by
    rw [clipL_cons, clip_of_mem h.1 h.2.1, clipL_of_inBox h.2.2]
  | [], _ :: _, ub, h => by cases ub <;> exact h.elim
  | _ :: _, [], ub, h => by cases ub <;> exact h.elim

theorem clipL_idem : ∀ (x lb ub : List K),
    clipL (clipL x lb ub) lb ub = clipL x lb ub
  | [], _, _ => by simp [clipL]
  | _ :: _, [], _ => by simp [clipL]
  | _ :: _, _ :: _, [] => by simp [clipL]
  | x :: xs, l :: ls, u :: us => by
    rw [clipL_cons, clipL_cons, clip_idem, clipL_idem]

/-! ### well-formed variables -/

theorem forall₂_map_le {α : Type} {f g : α → K} : ∀ {l : List α}, (∀ a ∈ l, f a ≤ g a) →
    List.Forall₂ (· ≤ ·) (l.map f) (l.map g)
  | [], _ => .nil
  | a :: as, h => .cons (h a (by simp)) (forall₂_map_le (fun b hb => h b (List.mem_cons_of_mem _ hb)))

theorem forall₂_replicate_le {a b : K} (h : a ≤ b) : ∀ n : Nat,
    List.Forall₂ (· ≤ ·) (List.replicate n a) (List.replicate n b)
  | 0 => .nil
  | n + 1 => .cons h (forall₂_replicate_le h n)

theorem Kind.bounds_le {k : Kind K} (h : k.WF) : List.Forall₂ (· ≤ ·) k.lb k.ub := by
  have he := eps_pos (K := K)
  have he1 := eps_lt_one (K := K)
  have he2 := eps_lt_half (K := K)
  have hlen : ∀ s : List Label, s ≠ [] → (1 : K) ≤ (s.length : K) := by
    intro s hs; exact_mod_cast List.length_pos_iff.2 hs
  cases k with
  | float lb ub => exact h
  | integer lb ub =>
    simp only [Kind.lb, Kind.ub]
    have h : List.Forall₂ (· ≤ ·) lb ub := h
    induction h with
    | nil => exact .nil
    | cons h0 _ ih => exact .cons (by linarith) (ih ‹_›)
  | string sets =>
    exact forall₂_map_le (fun s hs => by have := hlen s (h s hs); linarith)
  | categorical sets =>
    exact forall₂_map_le (fun s hs => by have := hlen s (h s hs); linarith)
  | sequence sets =>
    have : (1 : K) ≤ (sets.length : K) := by exact_mod_cast List.length_pos_iff.2 h
    exact .cons (by linarith) .nil
  | permutation set =>
    refine forall₂_map_le (fun s hs => ?_)
    have : (1 : K) ≤ (set.length : K) := by exact_mod_cast List.length_pos_of_mem hs
    linarith
  | binary n => exact forall₂_replicate_le (by linarith) n
  | bool n => exact forall₂_replicate_le (by linarith) n
  | tbinary n tf lb ub az =>
    have h : 1 ≤ ub := h
    exact forall₂_replicate_le (by linarith) n
  | tbool n tf lb ub =>
    have h : 1 ≤ ub := h
    exact forall₂_replicate_le (by linarith) n

theorem Kind.lb_length (k : Kind K) : k.lb.length = k.n := by
  cases k <;> simp [Kind.lb, Kind.n]

theorem Kind.ub_length {k : Kind K} (h : k.WF) : k.ub.length = k.n := by
  rw [← k.lb_length]; exact (Kind.bounds_le h).length_eq.symm

/-! ### mapG -/

theorem mapG_length {α β G : Type} (f : α → G → β × G) : ∀ (l : List α) (g : G),
    (mapG f l g).1.length = l.length
  | [], _ => rfl
  | a :: as, g => by simp [mapG, mapG_length f as]

theorem mapG_forall {α β G : Type} {f : α → G → β × G} {P : β → Prop} :
    ∀ {l : List α} (g : G), (∀ a ∈ l, ∀ g, P (f a g).1) → ∀ b ∈ (mapG f l g).1, P b
  | [], _, _, b, hb => by simp [mapG] at hb
  | a :: as, g, h, b, hb => by
    simp only [mapG, List.mem_cons] at hb
    rcases hb with rfl | hb
    · exact h a (by simp) g
    · exact mapG_forall (f a g).2 (fun c hc => h c (List.mem_cons_of_mem _ hc)) b hb

theorem mapG_forall₂ {α β G : Type} {f : α → G → β × G} {R : α → β → Prop} :
    ∀ {l : List α} (g : G), (∀ a ∈ l, ∀ g, R a (f a g).1) → List.Forall₂ R l (mapG f l g).1
  | [], _, _ => .nil
  | a :: as, g, h => .cons (h a (by simp) g)
      (mapG_forall₂ (f a g).2 (fun c hc => h c (List.mem_cons_of_mem _ hc)))

theorem transferBits_length (E : VGen K) (tf : K → K) (x : List K) (g : E.G) :
    (transferBits E tf x g).1.length = x.length := mapG_length _ _ _

theorem transferBits_bits (E : VGen K) (tf : K → K) (x : List K) (g : E.G) :
    ∀ v ∈ (transferBits E tf x g).1, v = 0 ∨ v = 1 := by
  refine mapG_forall (P := fun v => v = 0 ∨ v = 1) g ?_
  intro a _ g
  simp only
  split <;> simp

theorem fixZeros_length (E : VGen K) (az : Bool) (x : List K) (g : E.G) :
    (fixZeros E az x g).1.length = x.length := by
  unfold fixZeros
  split
  · rfl
  · split <;> simp

theorem fixZeros_bits (E : VGen K) (az : Bool) (x : List K) (g : E.G)
    (h : ∀ v ∈ x, v = 0 ∨ v = 1) : ∀ v ∈ (fixZeros E az x g).1, v = 0 ∨ v = 1 := by
  unfold fixZeros
  split
  · exact h
  · split
    · intro v hv
      rcases List.mem_or_eq_of_mem_set hv with hv | rfl
      · exact h v hv
      · exact .inr rfl
    · exact h

theorem bits_sum_eq_zero {x : List K} (h : ∀ v ∈ x, v = 0 ∨ v = 1) :
    x.sum = 0 ↔ ∀ v ∈ x, v = 0 := by
  have hnn : ∀ v ∈ x, (0 : K) ≤ v := by
    intro v hv; rcases h v hv with rfl | rfl <;> norm_num
  constructor
  · intro hs
    induction x with
    | nil => simp
    | cons a as ih =>
      rw [List.sum_cons] at hs
      have h1 := hnn a (by simp)
      have h2 : 0 ≤ as.sum := List.sum_nonneg (fun v hv => hnn v (List.mem_cons_of_mem _ hv))
      have ha : a = 0 := by linarith
      intro v hv
      rcases List.mem_cons.1 hv with rfl | hv
      · exact ha
      · exact ih (fun v hv => h v (List.mem_cons_of_mem _ hv))
          (fun v hv => hnn v (List.mem_cons_of_mem _ hv)) (by linarith) v hv
  · intro hz; exact List.sum_eq_zero hz

/-! ### argsort of a permutation -/

theorem argsort_mem {as : List K → List Nat} (has : ArgsortLaw as) (x : List K) {i : Nat} :
    i ∈ as x ↔ i < x.length := by
  rw [(has.perm x).mem_iff, List.mem_range]

theorem argsort_length {as : List K → List Nat} (has : ArgsortLaw as) (x : List K) :
    (as x).length = x.length := by
  simpa using (has.perm x).length_eq

/-- reading the input through the argsort gives the input sorted -/
theorem argsort_sorted_vals {as : List K → List Nat} (has : ArgsortLaw as) (x : List K) :
    ((as x).filterMap (fun i => x[i]?)).Perm x
    ∧ ((as x).filterMap (fun i => x[i]?)).Pairwise (· ≤ ·) := by
  constructor
  · have := (has.perm x).filterMap (fun i => x[i]?)
    rwa [filterMap_range_getElem?] at this
  · rw [List.pairwise_filterMap]
    refine (has.sorted x).imp ?_
    intro i j h a ha b hb
    exact h a b ha hb

/-- `np.argsort` of (a float copy of) a permutation is its inverse -/
theorem argsort_perm_inverse {as : List K → List Nat} (has : ArgsortLaw as) {p : List Nat}
    {n : Nat} (hp : p.Perm (List.range n)) :
    ∀ i, i < n → ((as (p.map (fun i : Nat => (i : K))))[i]?).bind (fun j => p[j]?) = some i := by
  set x : List K := p.map (fun i : Nat => (i : K)) with hx
  have hplen : p.length = n := by simpa using hp.length_eq
  have hxlen : x.length = n := by simp [hx, hplen]
  obtain ⟨h1, h2⟩ := argsort_sorted_vals has x
  -- the sorted values are 0, 1, ..., n-1
  have hsorted : ((List.range n).map (fun i : Nat => (i : K))).Pairwise (· ≤ ·) := by
    rw [List.pairwise_map]
    refine List.pairwise_lt_range.imp ?_
    intro a b hab
    exact_mod_cast hab.le
  have heq : (as x).filterMap (fun i => x[i]?) = (List.range n).map (fun i : Nat => (i : K)) := by
    apply List.Perm.eq_of_pairwise (le := (· ≤ ·)) (fun a b _ _ => le_antisymm) h2 hsorted
    exact h1.trans (hp.map _)
  have hfm : (as x).filterMap (fun i => x[i]?) = ((as x).filterMap (fun i => p[i]?)).map (fun i : Nat => (i : K)) := by
    rw [List.map_filterMap]
    apply List.filterMap_congr
    intro i _
    simp [hx]
  rw [hfm] at heq
  have hcast : Function.Injective (fun i : Nat => (i : K)) := fun a b h => Nat.cast_injective h
  have heq' : (as x).filterMap (fun i => p[i]?) = List.range n :=
    (List.map_injective_iff.2 hcast) heq
  intro i hi
  have hget : ((as x).filterMap (fun i => p[i]?))[i]? = some i := by
    rw [heq']; simp [hi]
  rw [← hget]
  have hlt : ∀ j ∈ as x, j < p.length := by
    intro j hj
    have := (argsort_mem has x).1 hj
    omega
  clear hget heq' heq hfm h1 h2 hsorted
  generalize as x = l at hlt
  clear hi
  induction l generalizing i with
  | nil => simp
  | cons y ys ih =>
    have hy : p[y]? = some (p[y]'(hlt y (by simp))) := List.getElem?_eq_getElem _
    rw [List.filterMap_cons_some hy]
    cases i with
    | zero => simp [hy]
    | succ m => simpa using ih m (fun j hj => hlt j (List.mem_cons_of_mem _ hj))

theorem argsort_twice {as : List K → List Nat} (has : ArgsortLaw as) {p : List Nat}
    {n : Nat} (hp : p.Perm (List.range n)) :
    as ((as (p.map (fun i : Nat => (i : K)))).map (fun i : Nat => (i : K))) = p := by
  set q := as (p.map (fun i : Nat => (i : K))) with hq
  have hplen : p.length = n := by simpa using hp.length_eq
  have hqp : q.Perm (List.range n) := by
    have := has.perm (p.map (fun i : Nat => (i : K)))
    rwa [List.length_map, hplen] at this
  have h1 := argsort_perm_inverse has hp
  have h2 := argsort_perm_inverse has hqp
  rw [← hq] at h1
  set r := as (q.map (fun i : Nat => (i : K))) with hr
  have hqlen : q.length = n := by simpa using hqp.length_eq
  have hrlen : r.length = n := by
    rw [hr, argsort_length has]; simp [hqlen]
  apply List.ext_getElem?
  intro i
  by_cases hi : i < n
  · have e2 := h2 i hi
    obtain ⟨j, hj, hqj⟩ := Option.bind_eq_some_iff.1 e2
    rw [hj]
    -- q[j] = i, so p[i] = p[q[j]] = j
    have hjn : j < n := by
      have := (List.getElem?_eq_some_iff.1 hqj).1; omega
    have e1 := h1 j hjn
    rw [hqj] at e1
    simpa using e1.symm
  · rw [List.getElem?_eq_none (by omega), List.getElem?_eq_none (by omega)]

/-! ### labels -/

theorem uniqueLabels_perm (y : List Label) : (uniqueLabels y).Perm y.dedup :=
  List.mergeSort_perm _ _

theorem mem_uniqueLabels {y : List Label} {l : Label} : l ∈ uniqueLabels y ↔ l ∈ y := by
  rw [(uniqueLabels_perm y).mem_iff, List.mem_dedup]

theorem uniqueLabels_nodup (y : List Label) : (uniqueLabels y).Nodup :=
  (uniqueLabels_perm y).nodup_iff.2 y.nodup_dedup

theorem uniqueLabels_sorted (y : List Label) : (uniqueLabels y).Pairwise (· ≤ ·) := by
  refine (List.pairwise_mergeSort (le := fun a b : Label => decide (a ≤ b))
    (fun a b c h1 h2 => by simp at *; exact le_trans h1 h2)
    (fun a b => by simp; exact le_total _ _) y.dedup).imp ?_
  intro a b h; simpa using h

theorem uniqueLabels_length_le (y : List Label) : (uniqueLabels y).length ≤ y.length := by
  rw [(uniqueLabels_perm y).length_eq]; exact (List.dedup_sublist y).length_le

theorem uniqueLabels_length_of_nodup {y : List Label} (h : y.Nodup) :
    (uniqueLabels y).length = y.length := by
  rw [(uniqueLabels_perm y).length_eq, List.Nodup.dedup h]

theorem transform1_ok {u : List Label} {l : Label} (h : l ∈ u) :
    transform1 u l = .ok (u.idxOf l) := if_pos h

theorem inverse1_idxOf {u : List Label} {l : Label} (h : l ∈ u) : inverse1 u (u.idxOf l) = l := by
  have hlt := List.idxOf_lt_length_of_mem h
  unfold inverse1
  rw [if_pos ⟨by omega, by exact_mod_cast hlt⟩]
  simp [hlt]

theorem inverse1_mem {u : List Label} {i : Int} (h0 : 0 ≤ i) (h1 : i < u.length) :
    inverse1 u i ∈ u := by
  unfold inverse1
  rw [if_pos ⟨h0, h1⟩]
  have hlt : i.toNat < u.length := by omega
  simp [hlt]

theorem inverse1_out {u : List Label} {i : Int} (h : ¬ (0 ≤ i ∧ i < u.length)) :
    inverse1 u i = .str "unknown" := if_neg h

/-! ### correct -/

theorem map_trunc_inBox : ∀ {lb : List K} {ub y : List K}, (∀ l ∈ lb, l = 0) →
    InBoxL lb ub y → InBoxL lb ub (y.map (fun v => (trunc v : K)))
  | [], [], [], _, _ => trivial
  | l :: ls, u :: us, v :: vs, hz, h => by
    have hl : l = 0 := hz l (by simp)
    have hv : 0 ≤ v := hl ▸ h.1
    refine ⟨?_, ?_, map_trunc_inBox (fun l hl => hz l (List.mem_cons_of_mem _ hl)) h.2.2⟩
    · show l ≤ ((trunc v : Int) : K)
      rw [hl, trunc_nonneg_eq hv]
      exact_mod_cast Int.floor_nonneg.2 hv
    · show ((trunc v : Int) : K) ≤ u
      rw [trunc_nonneg_eq hv]
      exact le_trans (Int.floor_le v) h.2.1

theorem correct_inBox {as : List K → List Nat} (has : ArgsortLaw as) (E : VGen K) {k : Kind K}
    (hwf : k.WF) {x : List K} (hx : x.length = k.n) (g : E.G) :
    InBoxL k.lb k.ub (correct as E k x g).1 := by
  have hclip : InBoxL k.lb k.ub (clipL x k.lb k.ub) :=
    clipL_inBox (by rw [k.lb_length, hx]) (Kind.bounds_le hwf)
  have hclen : (clipL x k.lb k.ub).length = k.n := by
    rw [hclip.length.1, k.lb_length]
  cases k with
  | float lb ub => exact hclip
  | integer lb ub => exact hclip
  | string sets => exact map_trunc_inBox (by simp [Kind.lb]) hclip
  | categorical sets => exact map_trunc_inBox (by simp [Kind.lb]) hclip
  | sequence sets => exact map_trunc_inBox (by simp [Kind.lb]) hclip
  | permutation set =>
    simp only [correct, Kind.lb, Kind.ub, List.map_const']
    refine InBoxL_replicate (by rw [List.length_map, argsort_length has]; exact hx) ?_
    intro v hv
    obtain ⟨i, hi, rfl⟩ := List.mem_map.1 hv
    have hi' : i < set.length := by
      have := (argsort_mem has x).1 hi
      simp only [Kind.n] at hx; omega
    have : (i : K) + 1 ≤ (set.length : K) := by exact_mod_cast hi'
    have he := eps_lt_one (K := K)
    exact ⟨by positivity, by linarith⟩
  | binary n => exact hclip
  | bool n => exact hclip
  | tbinary n tf lb ub az =>
    have h1 : (1 : K) ≤ ub := hwf
    simp only [correct, Kind.lb, Kind.ub]
    refine InBoxL_replicate ?_ ?_
    · rw [fixZeros_length, transferBits_length]; exact hclen
    · intro v hv
      rcases fixZeros_bits E az _ _ (transferBits_bits E tf _ g) v hv with rfl | rfl
      · constructor <;> linarith
      · constructor <;> linarith
  | tbool n tf lb ub =>
    have h1 : (1 : K) ≤ ub := hwf
    simp only [correct, Kind.lb, Kind.ub]
    refine InBoxL_replicate ?_ ?_
    · rw [transferBits_length]; exact hclen
    · intro v hv
      rcases transferBits_bits E tf _ g v hv with rfl | rfl
      · constructor <;> linarith
      · constructor <;> linarith

theorem correct_length {as : List K → List Nat} (has : ArgsortLaw as) (E : VGen K) {k : Kind K}
    (hwf : k.WF) {x : List K} (hx : x.length = k.n) (g : E.G) :
    (correct as E k x g).1.length = k.n := by
  rw [(correct_inBox has E hwf hx g).length.1, k.lb_length]

/-! ### problem-level slicing -/

theorem nDims_cons (v : Var K) (vs : List (Var K)) : nDims (v :: vs) = v.kind.n + nDims vs := by
  simp [nDims, problemLb, Kind.lb_length]

theorem nDims_eq (vs : List (Var K)) : nDims vs = (vs.map (fun v => v.kind.n)).sum := by
  induction vs with
  | nil => rfl
  | cons v vs ih => rw [nDims_cons, ih]; simp

theorem correctFrom_inBox {as : List K → List Nat} (has : ArgsortLaw as) (E : VGen K) (x : List K) :
    ∀ (vs : List (Var K)) (off : Nat) (gs : List E.G), (∀ v ∈ vs, v.kind.WF) →
      gs.length = vs.length → off + nDims vs ≤ x.length →
      InBoxL (problemLb vs) (problemUb vs) (correctFrom as E x vs off gs).1
  | [], _, _, _, _, _ => by simp [correctFrom, problemLb, problemUb, InBoxL]
  | v :: vs, off, g :: gs, hwf, hg, hx => by
    rw [nDims_cons] at hx
    have h1 := correct_inBox has E (hwf v (by simp)) (x := (x.drop off).take v.kind.n)
      (by simp; omega) g
    have h2 := correctFrom_inBox has E x vs (off + v.kind.n) gs
      (fun w hw => hwf w (List.mem_cons_of_mem _ hw)) (by simpa using hg) (by omega)
    simpa [correctFrom, problemLb, problemUb] using h1.append h2
  | v :: vs, _, [], _, hg, _ => by simp at hg

theorem correctFrom_slice {as : List K → List Nat} (has : ArgsortLaw as) (E : VGen K) (x : List K) :
    ∀ (vs : List (Var K)) (off : Nat) (gs : List E.G), (∀ v ∈ vs, v.kind.WF) →
      gs.length = vs.length → off + nDims vs ≤ x.length →
      ∀ (i : Nat) (v : Var K) (g : E.G), vs[i]? = some v → gs[i]? = some g →
        (((correctFrom as E x vs off gs).1.drop (offset vs i)).take v.kind.n
          = (correct as E v.kind ((x.drop (off + offset vs i)).take v.kind.n) g).1)
        ∧ (correctFrom as E x vs off gs).2[i]?
          = some (correct as E v.kind ((x.drop (off + offset vs i)).take v.kind.n) g).2
  | [], _, _, _, _, _, i, v, g, hv, _ => by simp at hv
  | w :: vs, off, [], _, hg, _, i, v, g, hv, _ => by simp at hg
  | w :: vs, off, h :: gs, hwf, hg, hx, 0, v, g, hv, hgi => by
    simp only [List.getElem?_cons_zero, Option.some.injEq] at hv hgi
    subst hv; subst hgi
    rw [nDims_cons] at hx
    have hlen := correct_length has E (hwf w (by simp)) (x := (x.drop off).take w.kind.n)
      (by simp; omega) h
    have hoff : offset (w :: vs) 0 = 0 := rfl
    simp only [correctFrom, hoff, List.drop_zero, Nat.add_zero, List.getElem?_cons_zero, and_true]
    rw [List.take_append_of_le_length (by omega), List.take_of_length_le (by omega)]
  | w :: vs, off, h :: gs, hwf, hg, hx, i + 1, v, g, hv, hgi => by
    simp only [List.getElem?_cons_succ] at hv hgi
    rw [nDims_cons] at hx
    have hlen := correct_length has E (hwf w (by simp)) (x := (x.drop off).take w.kind.n)
      (by simp; omega) h
    obtain ⟨h1, h2⟩ := correctFrom_slice has E x vs (off + w.kind.n) gs
      (fun w hw => hwf w (List.mem_cons_of_mem _ hw)) (by simpa using hg) (by omega) i v g hv hgi
    have hoff : offset (w :: vs) (i + 1) = w.kind.n + offset vs i := by
      simp only [offset, List.take_succ_cons, nDims_cons]
    simp only [correctFrom, List.getElem?_cons_succ, hoff]
    rw [← Nat.add_assoc]
    refine ⟨?_, h2⟩
    rw [← h1, ← List.drop_drop, List.drop_left' hlen]

theorem correctFrom_length {as : List K → List Nat} (has : ArgsortLaw as) (E : VGen K) (x : List K)
    (vs : List (Var K)) (off : Nat) (gs : List E.G) (hwf : ∀ v ∈ vs, v.kind.WF)
    (hg : gs.length = vs.length) (hx : off + nDims vs ≤ x.length) :
    (correctFrom as E x vs off gs).1.length = nDims vs :=
  (correctFrom_inBox has E x vs off gs hwf hg hx).length.1

end Mealpy.Space
