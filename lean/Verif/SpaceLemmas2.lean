import Verif.SpaceLemmas
import Verif.DrawLemmas

/-! Helper lemmas: decoding, encoding, generating. -/

set_option linter.unusedSectionVars false

namespace Mealpy.Space

variable {K : Type} [Field K] [LinearOrder K] [IsStrictOrderedRing K] [FloorRing K]

theorem mapM_ok {α β : Type} {f : α → Except Err β} {h : α → β} : ∀ {l : List α},
    (∀ a ∈ l, f a = .ok (h a)) → l.mapM f = .ok (l.map h)
  | [], _ => by simp; rfl
  | a :: as, hh => by
    rw [List.mapM_cons, hh a (by simp), mapM_ok (fun b hb => hh b (List.mem_cons_of_mem _ hb))]
    rfl

/-! ### integers -/

theorem round_clip_int (l u : Int) (hlu : l ≤ u) (x : K) :
    round (clip x ((l : K) - 1 / 2) ((u : K) + (1 / 2 - eps))) = clip ⌊x + 1 / 2⌋ l u := by
  rw [round_eq]
  have he := eps_pos (K := K)
  have he1 := eps_lt_one (K := K)
  have hlu' : (l : K) ≤ u := by exact_mod_cast hlu
  unfold clip
  rcases le_total x ((l : K) - 1 / 2) with h | h
  · rw [max_eq_right h, min_eq_left (by linarith)]
    have h1 : ⌊x + 1 / 2⌋ ≤ l := by
      have := Int.floor_le (x + 1 / 2)
      have h2 : ((⌊x + 1 / 2⌋ : Int) : K) ≤ (l : K) := by linarith
      exact_mod_cast h2
    rw [max_eq_right h1, min_eq_left hlu]
    have : (l : K) - 1 / 2 + 1 / 2 = (l : K) := by ring
    rw [this, Int.floor_intCast]
  · rw [max_eq_left h]
    have hl : l ≤ ⌊x + 1 / 2⌋ := by
      rw [Int.le_floor]; linarith
    rw [max_eq_left hl]
    rcases le_total x ((u : K) + (1 / 2 - eps)) with h' | h'
    · rw [min_eq_left h']
      have : ⌊x + 1 / 2⌋ ≤ u := by
        have h3 : ⌊x + 1 / 2⌋ < u + 1 := by
          rw [Int.floor_lt]; push_cast; linarith
        omega
      rw [min_eq_left this]
    · rw [min_eq_right h']
      have h1 : ⌊(u : K) + (1 / 2 - eps) + 1 / 2⌋ = u := by
        rw [Int.floor_eq_iff]; constructor <;> linarith
      have h2 : u ≤ ⌊x + 1 / 2⌋ := by
        rw [Int.le_floor]; linarith
      rw [h1, min_eq_right h2]

/-- decoding an integer variable is coordinatewise clamped rounding -/
theorem decode_int_list : ∀ (ls us : List Int) (x : List K), x.length = ls.length →
    List.Forall₂ (· ≤ ·) ls us →
    (clipL x ((ls.map (fun z : Int => (z : K))).map (fun y => y - 1 / 2))
      ((us.map (fun z : Int => (z : K))).map (fun y => y + (1 / 2 - eps)))).map round
      = List.zipWith (fun (p : K × Int) u => clip ⌊p.1 + 1 / 2⌋ p.2 u) (x.zip ls) us
  | [], [], [], _, _ => rfl
  | l :: ls, u :: us, x :: xs, hl, h => by
    cases h with
    | cons h0 h1 =>
      simp only [List.map_cons, clipL_cons, List.zip_cons_cons, List.zipWith_cons_cons]
      rw [round_clip_int l u h0 x, decode_int_list ls us xs (by simpa using hl) h1]
  | [], _, _ :: _, hl, _ => by simp at hl
  | _ :: _, _, [], hl, _ => by simp at hl

theorem forall₂_intCast {ls us : List Int} (h : List.Forall₂ (· ≤ ·)
    (ls.map (fun z : Int => (z : K))) (us.map (fun z : Int => (z : K)))) :
    List.Forall₂ (· ≤ ·) ls us := by
  rw [List.forall₂_map_left_iff, List.forall₂_map_right_iff] at h
  exact h.imp (fun a b hab => by exact_mod_cast hab)

theorem int_zip_inBox : ∀ (ls us : List Int) (x : List K), x.length = ls.length →
    List.Forall₂ (· ≤ ·) ls us →
    InBoxL (ls.map (fun z : Int => (z : K))) (us.map (fun z : Int => (z : K)))
      ((List.zipWith (fun (p : K × Int) u => clip ⌊p.1 + 1 / 2⌋ p.2 u) (x.zip ls) us).map
        (fun z : Int => (z : K)))
  | [], [], [], _, _ => trivial
  | l :: ls, u :: us, x :: xs, hl, h => by
    cases h with
    | cons h0 h1 =>
      refine ⟨?_, ?_, int_zip_inBox ls us xs (by simpa using hl) h1⟩
      · have := (clip_mem (x := ⌊x + 1 / 2⌋) h0).1
        show (l : K) ≤ ((clip ⌊x + 1 / 2⌋ l u : Int) : K)
        exact_mod_cast this
      · have := (clip_mem (x := ⌊x + 1 / 2⌋) h0).2
        show ((clip ⌊x + 1 / 2⌋ l u : Int) : K) ≤ (u : K)
        exact_mod_cast this
  | [], _, _ :: _, hl, _ => by simp at hl
  | _ :: _, _, [], hl, _ => by simp at hl

/-! ### label variables -/

/-- the corrected coordinates of a label variable are codes below the set sizes -/
theorem label_codes : ∀ (sets : List (List Label)) (x : List K), x.length = sets.length →
    (∀ s ∈ sets, s ≠ []) →
    List.Forall₂ (fun (s : List Label) (y : K) => ∃ i : Nat, i < s.length ∧ y = (i : K)) sets
      ((clipL x (sets.map (fun _ => (0 : K))) (sets.map (fun s => (s.length : K) - eps))).map
        (fun y => (trunc y : K)))
  | [], [], _, _ => .nil
  | s :: ss, x :: xs, hl, h => by
    simp only [List.map_cons, clipL_cons]
    refine .cons ?_ (label_codes ss xs (by simpa using hl)
      (fun t ht => h t (List.mem_cons_of_mem _ ht)))
    have h1 : (1 : K) ≤ (s.length : K) := by
      exact_mod_cast List.length_pos_iff.2 (h s (by simp))
    have he := eps_lt_one (K := K)
    have hm := clip_mem (x := x) (l := (0 : K)) (u := (s.length : K) - eps) (by linarith)
    obtain ⟨h2, h3, _⟩ := trunc_range hm.1 hm.2
    refine ⟨(trunc (clip x 0 ((s.length : K) - eps))).toNat, by omega, ?_⟩
    have : ((trunc (clip x 0 ((s.length : K) - eps))).toNat : Int)
        = trunc (clip x 0 ((s.length : K) - eps)) := Int.toNat_of_nonneg h2
    exact_mod_cast congrArg (fun z : Int => (z : K)) this.symm
  | [], _ :: _, hl, _ => by simp at hl
  | _ :: _, [], hl, _ => by simp at hl

theorem decode_labels {sets : List (List Label)} {y : List K}
    (h : List.Forall₂ (fun (s : List Label) (y : K) => ∃ i : Nat, i < s.length ∧ y = (i : K)) sets y)
    (hd : ∀ s ∈ sets, s.Nodup) :
    List.Forall₂ (fun s w => ∃ l ∈ s, w = Val.label (K := K) l) sets
      (List.zipWith (fun s v => Val.label (inverse1 (uniqueLabels s) (trunc v))) sets y) := by
  induction h with
  | nil => exact .nil
  | cons hab _hrest ih =>
    rename_i s v ss vs
    refine .cons ?_ (ih (fun t ht => hd t (List.mem_cons_of_mem _ ht)))
    obtain ⟨i, hi, rfl⟩ := hab
    refine ⟨_, ?_, rfl⟩
    rw [trunc_natCast]
    apply mem_uniqueLabels.1
    apply inverse1_mem (by omega)
    rw [uniqueLabels_length_of_nodup (hd s (by simp))]
    exact_mod_cast hi

/-! ### permutations -/

theorem labels_perm {u set : List Label} (hu : u.Perm set) {p : List Nat} {n : Nat}
    (hn : n = u.length) (hp : p.Perm (List.range n)) :
    (p.map (fun i : Nat => inverse1 u (trunc ((i : K))))).Perm set := by
  subst hn
  have h1 : (p.map (fun i : Nat => inverse1 u (trunc ((i : K))))).Perm
      ((List.range u.length).map (fun i : Nat => inverse1 u (trunc ((i : K))))) := hp.map _
  refine h1.trans (List.Perm.trans ?_ hu)
  have : (List.range u.length).map (fun i : Nat => inverse1 u (trunc ((i : K)))) = u := by
    apply List.ext_getElem
    · simp
    · intro i h2 h3
      simp only [List.getElem_map, List.getElem_range, trunc_natCast]
      unfold inverse1
      rw [if_pos ⟨by omega, by exact_mod_cast h3⟩]
      simp [h3]
  rw [this]

/-! ### generate -/

theorem mapGE_ok {α β G : Type} {f : α → G → Except Err (β × G)} {R : α → β → Prop} :
    ∀ {l : List α} (g : G), (∀ a ∈ l, ∀ g, ∃ b g', f a g = .ok (b, g') ∧ R a b) →
      ∃ bs g', mapGE f l g = .ok (bs, g') ∧ List.Forall₂ R l bs
  | [], g, _ => ⟨[], g, rfl, .nil⟩
  | a :: as, g, h => by
    obtain ⟨b, g1, h1, hr⟩ := h a (by simp) g
    obtain ⟨bs, g2, h2, hrs⟩ := mapGE_ok g1 (fun c hc => h c (List.mem_cons_of_mem _ hc))
    refine ⟨b :: bs, g2, ?_, .cons hr hrs⟩
    simp only [mapGE, h1, bind, Except.bind, h2, pure, Except.pure]

theorem encode_labels {sets : List (List Label)} {v : List (Val K)}
    (h : List.Forall₂ (fun s w => ∃ l ∈ s, w = Val.label (K := K) l) sets v) :
    ∃ c : List Nat, (List.zip sets v).mapM (fun p => (do
        let l ← p.2.toLabel
        let i ← transform1 (uniqueLabels p.1) l
        pure (i : K) : Except Err K)) = .ok (c.map (fun i : Nat => (i : K)))
      ∧ List.Forall₂ (fun (s : List Label) i => i < (uniqueLabels s).length) sets c
      ∧ List.zipWith (fun (s : List Label) (i : Nat) => Val.label (K := K) (inverse1 (uniqueLabels s) (i : Int))) sets c = v := by
  induction h with
  | nil => exact ⟨[], rfl, .nil, rfl⟩
  | cons hab _hrest ih =>
    rename_i s w ss ws
    obtain ⟨l, hl, rfl⟩ := hab
    obtain ⟨c, h1, h2, h3⟩ := ih
    have hl' : l ∈ uniqueLabels s := mem_uniqueLabels.2 hl
    refine ⟨(uniqueLabels s).idxOf l :: c, ?_, ?_, ?_⟩
    · rw [List.zip_cons_cons, List.mapM_cons]
      simp only [Val.toLabel, bind, Except.bind, transform1_ok hl', pure, Except.pure] at h1 ⊢
      rw [h1]; rfl
    · exact .cons (List.idxOf_lt_length_of_mem hl') h2
    · simp only [List.zipWith_cons_cons, inverse1_idxOf hl', h3]

theorem codes_inBox {sets : List (List Label)} {c : List Nat}
    (h : List.Forall₂ (fun (s : List Label) i => i < (uniqueLabels s).length) sets c) :
    InBoxL (sets.map (fun _ => (0 : K))) (sets.map (fun s => (s.length : K) - eps))
      (c.map (fun i : Nat => (i : K))) := by
  induction h with
  | nil => trivial
  | cons hab _hrest ih =>
    rename_i s i ss is
    refine ⟨by positivity, ?_, ih⟩
    have h1 : i + 1 ≤ s.length := lt_of_lt_of_le hab (uniqueLabels_length_le s)
    have h2 : (i : K) + 1 ≤ (s.length : K) := by exact_mod_cast h1
    have he := eps_lt_one (K := K)
    show (i : K) ≤ _
    linarith

theorem map_trunc_natCast (c : List Nat) :
    (c.map (fun i : Nat => (i : K))).map (fun y => (trunc y : K)) = c.map (fun i : Nat => (i : K)) := by
  rw [List.map_map]
  apply List.map_congr_left
  intro i _
  simp [trunc_natCast]

theorem zipWith_codes (sets : List (List Label)) (c : List Nat) :
    List.zipWith (fun s v => Val.label (K := K) (inverse1 (uniqueLabels s) (trunc v))) sets
      (c.map (fun i : Nat => (i : K)))
    = List.zipWith (fun (s : List Label) (i : Nat) =>
        Val.label (K := K) (inverse1 (uniqueLabels s) (i : Int))) sets c := by
  rw [List.zipWith_map_right]
  congr 1
  funext s i
  rw [trunc_natCast]

theorem lastIdx_spec {sets : List (List Label)} {s : List Label} (h : s ∈ sets) :
    ∃ i, lastIdx sets s = some i ∧ i < sets.length ∧ sets[i]? = some s := by
  have hr : s ∈ sets.reverse := List.mem_reverse.2 h
  have hlt := List.idxOf_lt_length_of_mem hr
  rw [List.length_reverse] at hlt
  refine ⟨_, if_pos h, by omega, ?_⟩
  have h1 : sets.reverse[sets.reverse.idxOf s]? = some s := by
    rw [List.getElem?_eq_getElem (by simpa using hlt)]
    simp
  rw [List.getElem?_reverse hlt] at h1
  exact h1

theorem uniqueLabels_eq {y u : List Label} (hn : u.Nodup) (hs : u.Pairwise (· ≤ ·))
    (hm : ∀ l, l ∈ u ↔ l ∈ y) : uniqueLabels y = u := by
  have hp : (uniqueLabels y).Perm u := by
    rw [List.perm_ext_iff_of_nodup (uniqueLabels_nodup y) hn]
    intro l; rw [mem_uniqueLabels, hm]
  exact hp.eq_of_pairwise (fun a b _ _ h1 h2 => le_antisymm h1 h2) (uniqueLabels_sorted y) hs

/-! ### dictionaries -/

theorem dictGet_set_self {α : Type} (d : List (String × α)) (k : String) (v : α) :
    dictGet (dictSet d k v) k = some v := by
  unfold dictSet
  by_cases h : d.any (fun p => p.1 = k) = true
  · rw [if_pos h]
    unfold dictGet
    induction d with
    | nil => simp at h
    | cons p ps ih =>
      by_cases hp : p.1 = k
      · simp [hp]
      · have : ps.any (fun p => p.1 = k) = true := by simpa [hp] using h
        simpa [hp] using ih this
  · rw [if_neg h]
    unfold dictGet
    simp only [Bool.not_eq_true, List.any_eq_false, decide_eq_true_eq] at h
    have hn : d.find? (fun p => decide (p.1 = k)) = none := by
      rw [List.find?_eq_none]; simpa using h
    rw [List.find?_append, hn]
    simp

theorem dictGet_set_other {α : Type} (d : List (String × α)) {k k' : String} (v : α)
    (hne : k' ≠ k) : dictGet (dictSet d k v) k' = dictGet d k' := by
  unfold dictSet
  by_cases h : d.any (fun p => p.1 = k) = true
  · rw [if_pos h]
    clear h
    unfold dictGet
    induction d with
    | nil => rfl
    | cons p ps ih =>
      by_cases hp : p.1 = k
      · have h1 : ¬ k = k' := fun h => hne h.symm
        have h2 : ¬ p.1 = k' := by rw [hp]; exact h1
        simp only [List.map_cons, hp, if_true]
        rw [List.find?_cons_of_neg (by simpa using h1), List.find?_cons_of_neg (by simpa using h2)]
        exact ih
      · simp only [List.map_cons, hp, if_false]
        by_cases h3 : p.1 = k'
        · rw [List.find?_cons_of_pos (by simpa using h3), List.find?_cons_of_pos (by simpa using h3)]
        · rw [List.find?_cons_of_neg (by simpa using h3), List.find?_cons_of_neg (by simpa using h3)]
          exact ih
  · rw [if_neg h]
    unfold dictGet
    rw [List.find?_append]
    have : [(k, v)].find? (fun p => decide (p.1 = k')) = none := by
      simp only [List.find?_cons, List.find?_nil]
      simp [show ¬ k = k' from fun h => hne h.symm]
    rw [this]
    cases d.find? (fun p => decide (p.1 = k')) <;> rfl

theorem dictSet_length_new {α : Type} (d : List (String × α)) {k : String} (v : α)
    (h : k ∉ d.map (·.1)) : (dictSet d k v).map (·.1) = d.map (·.1) ++ [k] := by
  unfold dictSet
  rw [if_neg]
  · simp
  · intro hany
    obtain ⟨p, hp, hk⟩ := List.any_eq_true.1 hany
    exact h (List.mem_map.2 ⟨p, hp, by simpa using hk⟩)

theorem decodeFrom_lookup_other (as : List K → List Nat) (E : VGen K) (x : List K) :
    ∀ (vs : List (Var K)) (off : Nat) (gs : List E.G) (d0 d : List (String × Entry K))
      (gs' : List E.G), decodeFrom as E x vs off gs d0 = .ok (d, gs') →
      ∀ name, (∀ v ∈ vs, v.name ≠ name) → dictGet d name = dictGet d0 name
  | [], _, gs, d0, d, gs', h, name, _ => by
    cases gs <;> simp only [decodeFrom, Except.ok.injEq, Prod.mk.injEq] at h <;> rw [h.1]
  | v :: vs, off, [], d0, d, gs', h, name, _ => by
    simp only [decodeFrom, Except.ok.injEq, Prod.mk.injEq] at h; rw [h.1]
  | v :: vs, off, g :: gs, d0, d, gs', h, name, hn => by
    simp only [decodeFrom, bind, Except.bind] at h
    split at h
    · cases h
    split at h
    · cases h
    split at h
    · cases h
    rename_i _ p hp _ e he _ z hz
    simp only [pure, Except.pure, Except.ok.injEq, Prod.mk.injEq] at h
    obtain ⟨rfl, rfl⟩ := h
    rw [decodeFrom_lookup_other as E x vs _ gs _ _ _ hz name
      (fun w hw => hn w (List.mem_cons_of_mem _ hw))]
    exact dictGet_set_other _ _ (fun h => hn v (by simp) h.symm)

theorem decodeFrom_lookup (as : List K → List Nat) (E : VGen K) (x : List K) :
    ∀ (vs : List (Var K)) (off : Nat) (gs : List E.G) (d0 d : List (String × Entry K))
      (gs' : List E.G), decodeFrom as E x vs off gs d0 = .ok (d, gs') →
      ∀ (i : Nat) (v : Var K) (g : E.G), vs[i]? = some v → gs[i]? = some g →
        (∀ j w, i < j → vs[j]? = some w → w.name ≠ v.name) →
        ∃ y g' e, decode as E v.kind ((x.drop (off + offset vs i)).take v.kind.n) g = .ok (y, g')
          ∧ unwrap v.kind.n y = .ok e ∧ dictGet d v.name = some e
  | [], _, _, _, _, _, _, i, v, g, hv, _, _ => by simp at hv
  | w :: vs, off, [], d0, d, gs', h, i, v, g, _, hg, _ => by simp at hg
  | w :: vs, off, g0 :: gs, d0, d, gs', h, 0, v, g, hv, hg, hlast => by
    simp only [List.getElem?_cons_zero, Option.some.injEq] at hv hg
    subst hv; subst hg
    simp only [decodeFrom, bind, Except.bind] at h
    split at h
    · cases h
    split at h
    · cases h
    split at h
    · cases h
    rename_i p hp _ e he _ z hz
    simp only [pure, Except.pure, Except.ok.injEq, Prod.mk.injEq] at h
    obtain ⟨rfl, rfl⟩ := h
    refine ⟨p.1, p.2, e, by simpa [offset, nDims, problemLb] using hp, he, ?_⟩
    rw [decodeFrom_lookup_other as E x vs _ gs _ _ _ hz w.name]
    · exact dictGet_set_self _ _ _
    · intro u hu
      obtain ⟨j, hj⟩ := List.getElem?_of_mem hu
      exact hlast (j + 1) u (by omega) (by simpa using hj)
  | w :: vs, off, g0 :: gs, d0, d, gs', h, i + 1, v, g, hv, hg, hlast => by
    simp only [List.getElem?_cons_succ] at hv hg
    simp only [decodeFrom, bind, Except.bind] at h
    split at h
    · cases h
    split at h
    · cases h
    split at h
    · cases h
    rename_i p hp _ e he _ z hz
    simp only [pure, Except.pure, Except.ok.injEq, Prod.mk.injEq] at h
    obtain ⟨rfl, rfl⟩ := h
    have := decodeFrom_lookup as E x vs (off + w.kind.n) gs _ z.1 z.2 hz i v g hv hg
      (fun j u hj hu => hlast (j + 1) u (by omega) (by simpa using hu))
    have hoff : offset (w :: vs) (i + 1) = w.kind.n + offset vs i := by
      simp only [offset, List.take_succ_cons, nDims_cons]
    rw [hoff, ← Nat.add_assoc]
    exact this

theorem decodeFrom_keys (as : List K → List Nat) (E : VGen K) (x : List K) :
    ∀ (vs : List (Var K)) (off : Nat) (gs : List E.G) (d0 d : List (String × Entry K))
      (gs' : List E.G), gs.length = vs.length →
      decodeFrom as E x vs off gs d0 = .ok (d, gs') →
      (d0.map (·.1) ++ vs.map (·.name)).Nodup →
      d.map (·.1) = d0.map (·.1) ++ vs.map (·.name)
  | [], _, gs, d0, d, gs', _, h, _ => by
    cases gs <;> simp only [decodeFrom, Except.ok.injEq, Prod.mk.injEq] at h <;> simp [h.1]
  | v :: vs, off, [], d0, d, gs', hl, h, _ => by simp at hl
  | v :: vs, off, g :: gs, d0, d, gs', hl, h, hn => by
    simp only [decodeFrom, bind, Except.bind] at h
    split at h
    · cases h
    split at h
    · cases h
    split at h
    · cases h
    rename_i p hp _ e he _ z hz
    simp only [pure, Except.pure, Except.ok.injEq, Prod.mk.injEq] at h
    obtain ⟨rfl, rfl⟩ := h
    have hnew : v.name ∉ d0.map (·.1) := by
      rw [List.map_cons] at hn
      intro hmem
      have := (List.nodup_append.1 hn).2.2 _ hmem _ (List.mem_cons_self ..)
      exact this rfl
    have hk := dictSet_length_new d0 e hnew
    have := decodeFrom_keys as E x vs _ gs _ _ _ (by simpa using hl) hz
      (by rw [hk]; simpa using hn)
    rw [this, hk]; simp

theorem dictSet_keys {α : Type} (d : List (String × α)) (k : String) (v : α) :
    (dictSet d k v).map (·.1) = if k ∈ d.map (·.1) then d.map (·.1) else d.map (·.1) ++ [k] := by
  by_cases h : k ∈ d.map (·.1)
  · rw [if_pos h]
    unfold dictSet
    rw [if_pos]
    · rw [List.map_map]
      apply List.map_congr_left
      intro p _
      simp only [Function.comp]
      split
      · rename_i h; exact h.symm
      · rfl
    · obtain ⟨p, hp, hk⟩ := List.mem_map.1 h
      exact List.any_eq_true.2 ⟨p, hp, by simpa using hk⟩
  · rw [if_neg h, dictSet_length_new d v h]

/-- the decoded dictionary has no repeated key, and its keys are the names -/
theorem decodeFrom_keys_general (as : List K → List Nat) (E : VGen K) (x : List K) :
    ∀ (vs : List (Var K)) (off : Nat) (gs : List E.G) (d0 d : List (String × Entry K))
      (gs' : List E.G), gs.length = vs.length →
      decodeFrom as E x vs off gs d0 = .ok (d, gs') → (d0.map (·.1)).Nodup →
      (d.map (·.1)).Nodup ∧ ∀ k, k ∈ d.map (·.1) ↔ k ∈ d0.map (·.1) ∨ k ∈ vs.map (·.name)
  | [], _, gs, d0, d, gs', _, h, hn => by
    cases gs <;> simp only [decodeFrom, Except.ok.injEq, Prod.mk.injEq] at h <;>
      (obtain ⟨rfl, -⟩ := h; exact ⟨hn, by simp⟩)
  | v :: vs, off, [], d0, d, gs', hl, h, _ => by simp at hl
  | v :: vs, off, g :: gs, d0, d, gs', hl, h, hn => by
    simp only [decodeFrom, bind, Except.bind] at h
    split at h
    · cases h
    split at h
    · cases h
    split at h
    · cases h
    rename_i _ p hp _ e he _ z hz
    simp only [pure, Except.pure, Except.ok.injEq, Prod.mk.injEq] at h
    obtain ⟨rfl, rfl⟩ := h
    have hk := dictSet_keys d0 v.name e
    have hnn : ((dictSet d0 v.name e).map (·.1)).Nodup := by
      rw [hk]
      split
      · exact hn
      · rename_i hnew
        rw [List.nodup_append]
        refine ⟨hn, by simp, ?_⟩
        rintro a ha b hb rfl
        simp at hb; subst hb; exact hnew ha
    obtain ⟨h1, h2⟩ := decodeFrom_keys_general as E x vs _ gs _ _ _ (by simpa using hl) hz hnn
    refine ⟨h1, fun k => ?_⟩
    rw [h2 k, hk]
    split
    · rename_i hmem
      constructor
      · rintro (h | h)
        · exact .inl h
        · exact .inr (List.mem_cons_of_mem _ h)
      · rintro (h | h)
        · exact .inl h
        · rcases List.mem_cons.1 h with rfl | h
          · exact .inl hmem
          · exact .inr h
    · simp [or_assoc]

end Mealpy.Space
