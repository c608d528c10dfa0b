import Verif.Props.Space1

/-!
# C03, C04, C05, C07, C09: decoding, encoding and labels
-/

set_option linter.unusedSectionVars false

namespace Mealpy

open Space

variable {K : Type} [Field K] [LinearOrder K] [IsStrictOrderedRing K] [FloorRing K]

/-! ## C03 -/

/-- decoding of clipped 0..2-eps coordinates -/
theorem decode_bits_aux {n : Nat} {x : List K} (hx : x.length = n) :
    ((clipL x (List.replicate n 0) (List.replicate n (2 - eps))).map trunc).length = n
    ∧ ∀ z ∈ (clipL x (List.replicate n 0) (List.replicate n (2 - eps))).map trunc, z = 0 ∨ z = 1 := by
  have he := eps_lt_one (K := K)
  have hb : InBoxL (List.replicate n (0 : K)) (List.replicate n (2 - eps))
      (clipL x (List.replicate n 0) (List.replicate n (2 - eps))) :=
    clipL_inBox (by simp [hx]) (forall₂_replicate_le (by linarith) n)
  have hl : (clipL x (List.replicate n 0) (List.replicate n (2 - eps))).length = n := by
    simpa using hb.length.1
  refine ⟨by simp [hl], ?_⟩
  intro z hz
  obtain ⟨v, hv, rfl⟩ := List.mem_map.1 hz
  obtain ⟨i, hi⟩ := List.getElem?_of_mem hv
  have hi' : i < n := by have := (List.getElem?_eq_some_iff.1 hi).1; omega
  have := hb.get i 0 (2 - eps) v (by simp [hi']) (by simp [hi']) hi
  have h2 := trunc_range (n := 2) this.1 (by exact_mod_cast this.2)
  omega

/-- **C03.** Whatever real vector is decoded, the result is a legal real-world value of the
variable: floats in `[lb,ub]`, integers in `[lb,ub]`, declared labels, a declared sequence, a
rearrangement of the valid set, 0/1, True/False. -/
theorem C03_decode_legal {as : List K → List Nat} (has : ArgsortLaw as) (E : VGen K) {k : Kind K}
    (hwf : k.WF) (hint : k.IntBounds) (hd : k.Distinct) {x : List K} (hx : x.length = k.n)
    (g : E.G) : ∃ v g', decode as E k x g = .ok (v, g') ∧ Legal k v := by
  cases k with
  | float lb ub =>
    refine ⟨_, _, rfl, clipL x lb ub, rfl, clipL_inBox hx hwf⟩
  | integer lb ub =>
    obtain ⟨⟨ls, rfl⟩, us, rfl⟩ := hint
    have hle := forall₂_intCast hwf
    have hxl : x.length = ls.length := by simpa [Kind.n] using hx
    refine ⟨_, _, rfl, _, ?_, int_zip_inBox ls us x hxl hle⟩
    have := decode_int_list ls us x hxl hle
    rw [← this, List.map_map]
    rfl
  | string sets => exact ⟨_, _, rfl, decode_labels (label_codes sets x hx hwf) hd⟩
  | categorical sets => exact ⟨_, _, rfl, decode_labels (label_codes sets x hx hwf) hd⟩
  | sequence sets =>
    have hpos : 1 ≤ sets.length := List.length_pos_iff.2 hwf
    have h1 : (1 : K) ≤ (sets.length : K) := by exact_mod_cast hpos
    have he := eps_lt_one (K := K)
    match x, hx with
    | [a], _ =>
      have hm := clip_mem (x := a) (l := (0 : K)) (u := (sets.length : K) - eps) (by linarith)
      obtain ⟨h2, h3, _⟩ := trunc_range hm.1 hm.2
      have hlt : (trunc (clip a 0 ((sets.length : K) - eps))).toNat < sets.length := by omega
      have hc : (correct as E (.sequence sets) [a] g)
          = ([((trunc (clip a 0 ((sets.length : K) - eps)) : Int) : K)], g) := rfl
      refine ⟨[.seq sets[(trunc (clip a 0 ((sets.length : K) - eps))).toNat]], g, ?_,
        _, List.getElem_mem hlt, rfl⟩
      simp only [decode, hc, trunc_intCast]
      rw [if_neg (by omega), List.getElem?_eq_getElem hlt]
  | permutation set =>
    refine ⟨_, _, rfl, (as x).map (fun i : Nat => inverse1 (uniqueLabels set) (trunc ((i : K)))), ?_, ?_⟩
    · refine labels_perm (n := set.length) ?_ ?_ ?_
      · have := uniqueLabels_perm set
        rwa [List.Nodup.dedup hd] at this
      · exact (uniqueLabels_length_of_nodup hd).symm
      · have := has.perm x; rwa [hx] at this
    · simp only [List.map_map]; rfl
  | binary n =>
    have hx' : x.length = n := hx
    obtain ⟨h1, h2⟩ := decode_bits_aux (K := K) hx'
    refine ⟨_, _, rfl, ?_, ?_⟩
    · rw [List.length_map] at h1 ⊢; exact h1
    · intro w hw
      obtain ⟨v, hv, rfl⟩ := List.mem_map.1 hw
      rcases h2 (trunc v) (List.mem_map.2 ⟨v, hv, rfl⟩) with h | h <;> rw [h] <;> simp
  | bool n =>
    have hx' : x.length = n := hx
    obtain ⟨h1, h2⟩ := decode_bits_aux (K := K) hx'
    refine ⟨_, _, rfl, ?_, ?_⟩
    · rw [List.length_map] at h1 ⊢; exact h1
    · intro w hw
      obtain ⟨v, hv, rfl⟩ := List.mem_map.1 hw
      exact ⟨_, rfl⟩
  | tbinary n tf l u az =>
    refine ⟨(correct as E (.tbinary n tf l u az) x g).1.map (fun v => .int (trunc v)),
      (correct as E (.tbinary n tf l u az) x g).2, rfl, ?_, ?_⟩
    · rw [List.length_map]; exact correct_length has E hwf hx g
    · intro w hw
      obtain ⟨v, hv, rfl⟩ := List.mem_map.1 hw
      rcases fixZeros_bits E az _ _ (transferBits_bits E tf _ g) v hv with h | h
      · left; rw [h]; have := trunc_intCast (K := K) 0; simp at this; rw [this]
      · right; rw [h]; have := trunc_intCast (K := K) 1; simp at this; rw [this]
  | tbool n tf l u =>
    refine ⟨(correct as E (.tbool n tf l u) x g).1.map (fun v => .bool (trunc v = 1)),
      (correct as E (.tbool n tf l u) x g).2, rfl, ?_, ?_⟩
    · rw [List.length_map]; exact correct_length has E hwf hx g
    · intro w hw
      obtain ⟨v, hv, rfl⟩ := List.mem_map.1 hw
      exact ⟨_, rfl⟩

/-- a legal value has as many entries as the variable has coordinates -/
theorem legal_length {k : Kind K} {v : List (Val K)} (hwf : k.WF) (h : Legal k v) : v.length = k.n := by
  cases k with
  | float lb ub => obtain ⟨xs, rfl, hb⟩ := h; simpa [Kind.n] using hb.length.1
  | integer lb ub => obtain ⟨xs, rfl, hb⟩ := h; simpa [Kind.n] using hb.length.1
  | string sets => exact (List.Forall₂.length_eq h).symm
  | categorical sets => exact (List.Forall₂.length_eq h).symm
  | sequence sets => obtain ⟨s, _, rfl⟩ := h; rfl
  | permutation set => obtain ⟨ls, hp, rfl⟩ := h; simpa [Kind.n] using hp.length_eq
  | binary n => exact h.1
  | bool n => exact h.1
  | tbinary n _ _ _ _ => exact h.1
  | tbool n _ _ _ => exact h.1

/-- **C03** for a whole problem: `decode_solution` never fails, and the entry of a variable (whose
name no later variable repeats) is a legal value of that variable, unwrapped when the variable has
one coordinate. -/
theorem C03_decode_solution_legal {as : List K → List Nat} (has : ArgsortLaw as) (E : VGen K)
    (vars : List (Var K)) (hwf : ∀ v ∈ vars, v.kind.WF) (hint : ∀ v ∈ vars, v.kind.IntBounds)
    (hd : ∀ v ∈ vars, v.kind.Distinct) (x : List K) (hx : x.length = nDims vars)
    (gs : List E.G) (hgs : gs.length = vars.length) :
    ∃ d gs', decodeSolution as E vars x gs = .ok (d, gs') ∧
      ∀ (i : Nat) (v : Var K), vars[i]? = some v → (∀ (j : Nat) (w : Var K), i < j → vars[j]? = some w → w.name ≠ v.name) →
        ∃ y, Legal v.kind y ∧
          ((v.kind.n = 1 ∧ ∃ w, y = [w] ∧ dictGet d v.name = some (.one w))
          ∨ (v.kind.n ≠ 1 ∧ dictGet d v.name = some (.many y))) := by
  have hok : ∀ (vs : List (Var K)) (off : Nat) (gs : List E.G) (d0 : List (String × Entry K)),
      (∀ v ∈ vs, v.kind.WF) → (∀ v ∈ vs, v.kind.IntBounds) → (∀ v ∈ vs, v.kind.Distinct) →
      gs.length = vs.length → off + nDims vs ≤ x.length →
      ∃ r, decodeFrom as E x vs off gs d0 = .ok r := by
    intro vs
    induction vs with
    | nil => intro off gs d0 _ _ _ _ _; cases gs <;> exact ⟨_, rfl⟩
    | cons v vs ih =>
      intro off gs d0 h1 h2 h3 hg ho
      match gs, hg with
      | g :: gs, hg =>
        rw [nDims_cons] at ho
        obtain ⟨y, g', hy, hleg⟩ := C03_decode_legal has E (h1 v (by simp)) (h2 v (by simp))
          (h3 v (by simp)) (x := (x.drop off).take v.kind.n)
          (by rw [List.length_take, List.length_drop]; omega) g
        have hyl := legal_length (h1 v (by simp)) hleg
        have hu : ∃ e, unwrap v.kind.n y = .ok e := by
          unfold unwrap
          split
          · match y, hyl with
            | w :: _, _ => exact ⟨_, rfl⟩
            | [], hyl => simp at hyl; omega
          · exact ⟨_, rfl⟩
        obtain ⟨e, he⟩ := hu
        obtain ⟨r, hr⟩ := ih (off + v.kind.n) gs (dictSet d0 v.name e)
          (fun w hw => h1 w (List.mem_cons_of_mem _ hw)) (fun w hw => h2 w (List.mem_cons_of_mem _ hw))
          (fun w hw => h3 w (List.mem_cons_of_mem _ hw)) (by simpa using hg) (by omega)
        refine ⟨(r.1, g' :: r.2), ?_⟩
        simp only [decodeFrom, bind, Except.bind, hy, he, hr, pure, Except.pure]
  obtain ⟨⟨d, gs'⟩, hr⟩ := hok vars 0 gs [] hwf hint hd hgs (by omega)
  refine ⟨d, gs', hr, ?_⟩
  intro i v hv hlast
  have hi : i < vars.length := (List.getElem?_eq_some_iff.1 hv).1
  have hmem : v ∈ vars := List.mem_of_getElem? hv
  obtain ⟨y, g', e, h1, h2, h3⟩ := C08_decode_entry as E vars x gs gs' d hr i v _ hv
    (List.getElem?_eq_getElem (by omega)) hlast
  have hoff : offset vars i + v.kind.n ≤ nDims vars := by
    have h5 := (C08_n_dims vars).2.2.2 i v hv
    rw [← h5]
    simp only [offset, nDims_eq]
    rw [List.map_take]
    conv_rhs => rw [← List.take_append_drop (i + 1) (vars.map (fun v => v.kind.n))]
    rw [List.sum_append]; omega
  obtain ⟨y', g'', hy', hleg⟩ := C03_decode_legal has E (hwf v hmem) (hint v hmem) (hd v hmem)
    (x := (x.drop (offset vars i)).take v.kind.n)
    (by rw [List.length_take, List.length_drop]; omega) (gs[i]'(by omega))
  rw [h1] at hy'
  cases hy'
  refine ⟨y, hleg, ?_⟩
  have hyl := legal_length (hwf v hmem) hleg
  unfold unwrap at h2
  split at h2
  · rename_i hn
    match y, hyl with
    | [w], _ => cases h2; exact .inl ⟨hn, w, rfl, h3⟩
    | [], hyl => simp at hyl; omega
    | _ :: _ :: _, hyl => simp at hyl; omega
  · rename_i hn
    cases h2; exact .inr ⟨hn, h3⟩

example : (∀ v ∈ exVars, v.kind.WF) ∧ (∀ v ∈ exVars, v.kind.IntBounds)
    ∧ ∀ v ∈ exVars, v.kind.Distinct := by
  refine ⟨exVars_wf, ?_, ?_⟩ <;>
    simp only [exVars, List.mem_cons, List.not_mem_nil, or_false, forall_eq_or_imp, forall_eq]
  · refine ⟨trivial, ⟨⟨[-2], by simp⟩, [3], by simp⟩, trivial, trivial, trivial, trivial⟩
  · refine ⟨trivial, trivial, ?_, ?_, trivial, trivial⟩
    · intro s hs; simp at hs; subst hs; decide
    · show ([.num 1, .num 2, .num 3] : List Label).Nodup
      decide

/-! ## C04 -/

/-- the kinds whose encoding of a legal value is undone by decoding -/
def Kind.RoundTrips : Kind K → Prop
  | .float _ _ => True
  | .integer _ _ => True
  | .string _ => True
  | .categorical _ => True
  | .binary _ => True
  | .bool _ => True
  | _ => False

/-- **C04.** `decode(encode(v)) = v` for every legal value of a float, integer, string, categorical,
binary or Boolean variable; the code is inside the box. -/
theorem C04_encode_decode (as : List K → List Nat) (E : VGen K) {k : Kind K}
    (hk : Kind.RoundTrips k) (hint : k.IntBounds) {v : List (Val K)} (hv : Legal k v) (g : E.G) :
    ∃ c, encode k v = .ok c ∧ InBoxL k.lb k.ub c ∧ decode as E k c g = .ok (v, g) := by
  have he := eps_pos (K := K)
  have he1 := eps_lt_half (K := K)
  cases k with
  | float lb ub =>
    obtain ⟨xs, rfl, hb⟩ := hv
    refine ⟨xs, ?_, hb, ?_⟩
    · simp only [encode]
      rw [List.mapM_map]
      have := mapM_ok (f := Val.toNum ∘ Val.real) (h := id) (l := xs) (fun a _ => rfl)
      simpa using this
    · simp only [decode, correct, Kind.lb, Kind.ub]
      rw [clipL_of_inBox hb]
  | integer lb ub =>
    obtain ⟨zs, rfl, hb⟩ := hv
    have hb2 : InBoxL (lb.map (fun x => x - 1 / 2)) (ub.map (fun x => x + (1 / 2 - eps)))
        (zs.map (fun z : Int => (z : K))) := by
      have : ∀ (lb ub ys : List K), InBoxL lb ub ys →
          InBoxL (lb.map (fun x => x - 1 / 2)) (ub.map (fun x => x + (1 / 2 - eps))) ys := by
        intro lb
        induction lb with
        | nil => intro ub ys h; cases ub <;> cases ys <;> exact h
        | cons l ls ih =>
          intro ub ys h
          match ub, ys, h with
          | u :: us, y :: ys, h =>
            refine ⟨?_, ?_, ih us ys h.2.2⟩
            · have := h.1; linarith
            · have := h.2.1; linarith
      exact this _ _ _ hb
    refine ⟨zs.map (fun z : Int => (z : K)), ?_, hb2, ?_⟩
    · simp only [encode]
      rw [List.mapM_map]
      exact mapM_ok (f := Val.toNum ∘ Val.int) (fun a _ => rfl)
    · simp only [decode, correct, Kind.lb, Kind.ub]
      rw [clipL_of_inBox hb2, List.map_map]
      congr 2
      apply List.map_congr_left
      intro z _
      simp only [Function.comp, Space.round_eq]
      congr 1
      rw [Int.floor_eq_iff]
      constructor <;> norm_num
  | string sets =>
    obtain ⟨c, h1, h2, h3⟩ := encode_labels hv
    refine ⟨_, h1, codes_inBox h2, ?_⟩
    simp only [decode, correct, Kind.lb, Kind.ub]
    rw [clipL_of_inBox (codes_inBox h2), map_trunc_natCast, zipWith_codes, h3]
  | categorical sets =>
    obtain ⟨c, h1, h2, h3⟩ := encode_labels hv
    refine ⟨_, h1, codes_inBox h2, ?_⟩
    simp only [decode, correct, Kind.lb, Kind.ub]
    rw [clipL_of_inBox (codes_inBox h2), map_trunc_natCast, zipWith_codes, h3]
  | sequence sets => exact hk.elim
  | permutation set => exact hk.elim
  | binary n =>
    obtain ⟨hl, hb⟩ := hv
    have hvals : ∃ bs : List Int, v = bs.map Val.int ∧ ∀ b ∈ bs, b = 0 ∨ b = 1 := by
      clear hl
      induction v with
      | nil => exact ⟨[], rfl, by simp⟩
      | cons w ws ih =>
        obtain ⟨bs, rfl, h⟩ := ih (fun u hu => hb u (List.mem_cons_of_mem _ hu))
        rcases hb w (by simp) with rfl | rfl
        · exact ⟨0 :: bs, rfl, by simpa using h⟩
        · exact ⟨1 :: bs, rfl, by simpa using h⟩
    obtain ⟨bs, rfl, hbs⟩ := hvals
    have hbox : InBoxL (List.replicate n (0 : K)) (List.replicate n (2 - eps))
        (bs.map (fun z : Int => (z : K))) := by
      refine InBoxL_replicate (by simpa using hl) ?_
      intro y hy
      obtain ⟨b, hb1, rfl⟩ := List.mem_map.1 hy
      rcases hbs b hb1 with rfl | rfl
      · simp; linarith
      · simp; linarith
    refine ⟨bs.map (fun z : Int => (z : K)), ?_, hbox, ?_⟩
    · simp only [encode]
      rw [List.mapM_map]
      exact mapM_ok (f := Val.toNum ∘ Val.int) (fun a _ => rfl)
    · simp only [decode, correct, Kind.lb, Kind.ub]
      rw [clipL_of_inBox hbox, List.map_map]
      congr 2
      apply List.map_congr_left
      intro z _
      simp [trunc_intCast]
  | bool n =>
    obtain ⟨hl, hb⟩ := hv
    have hvals : ∃ bs : List Bool, v = bs.map Val.bool := by
      clear hl
      induction v with
      | nil => exact ⟨[], rfl⟩
      | cons w ws ih =>
        obtain ⟨bs, rfl⟩ := ih (fun u hu => hb u (List.mem_cons_of_mem _ hu))
        obtain ⟨b, rfl⟩ := hb w (by simp)
        exact ⟨b :: bs, rfl⟩
    obtain ⟨bs, rfl⟩ := hvals
    have hbox : InBoxL (List.replicate n (0 : K)) (List.replicate n (2 - eps))
        (bs.map (fun b : Bool => if b then (1 : K) else 0)) := by
      refine InBoxL_replicate (by simpa using hl) ?_
      intro y hy
      obtain ⟨b, hb1, rfl⟩ := List.mem_map.1 hy
      cases b
      · simp; linarith
      · simp; linarith
    refine ⟨bs.map (fun b : Bool => if b then (1 : K) else 0), ?_, hbox, ?_⟩
    · simp only [encode]
      rw [List.mapM_map]
      exact mapM_ok (f := Val.toNum ∘ Val.bool) (fun a _ => rfl)
    · simp only [decode, correct, Kind.lb, Kind.ub]
      rw [clipL_of_inBox hbox, List.map_map]
      congr 2
      apply List.map_congr_left
      intro b _
      have h0 := trunc_intCast (K := K) 0
      have h1 := trunc_intCast (K := K) 1
      simp at h0 h1
      cases b <;> simp [h0, h1]
  | tbinary n _ _ _ _ => exact hk.elim
  | tbool n _ _ _ => exact hk.elim

/-- **C04**, sequences: encoding a declared sequence and decoding gives it back (even if it was
declared twice). -/
theorem C04_sequence_round_trip (as : List K → List Nat) (E : VGen K) {sets : List (List Label)}
    {s : List Label} (hs : s ∈ sets) (g : E.G) :
    ∃ c, encode (.sequence sets) (s.map (Val.label (K := K))) = .ok c
      ∧ InBoxL (Kind.sequence (K := K) sets).lb (Kind.sequence (K := K) sets).ub c
      ∧ decode as E (.sequence sets) c g = .ok ([.seq s], g) := by
  obtain ⟨i, h1, h2, h3⟩ := lastIdx_spec hs
  have he := eps_lt_one (K := K)
  have hi : (i : K) + 1 ≤ (sets.length : K) := by exact_mod_cast h2
  have hb : InBoxL (Kind.sequence (K := K) sets).lb (Kind.sequence (K := K) sets).ub [(i : K)] :=
    ⟨by positivity, by show (i : K) ≤ _; linarith, trivial⟩
  refine ⟨[(i : K)], ?_, hb, ?_⟩
  · have h4 : (s.map (Val.label (K := K))).mapM Val.toLabel = .ok s := by
      rw [List.mapM_map]
      have := mapM_ok (f := Val.toLabel (K := K) ∘ Val.label) (h := id) (l := s) (fun a _ => rfl)
      simpa using this
    simp only [encode, h4, bind, Except.bind, h1]
    rfl
  · have hc : correct as E (.sequence sets) [(i : K)] g = ([(i : K)], g) := by
      simp only [correct]
      rw [clipL_of_inBox hb]
      simp [trunc_natCast]
    simp only [decode, hc, trunc_natCast]
    rw [if_neg (by omega)]
    simp [h3]

/-- an undeclared sequence is rejected -/
theorem C04_sequence_unknown_rejected {sets : List (List Label)} {s : List Label} (hs : s ∉ sets) :
    encode (K := K) (.sequence sets) (s.map .label) = .error .value := by
  have h4 : (s.map (Val.label (K := K))).mapM Val.toLabel = .ok s := by
    rw [List.mapM_map]
    have := mapM_ok (f := Val.toLabel (K := K) ∘ Val.label) (h := id) (l := s) (fun a _ => rfl)
    simpa using this
  simp [encode, h4, bind, Except.bind, lastIdx, hs]

/-- **C04**, permutations: the round trip applies the INVERSE permutation.  With `u` the sorted
labels: if position `i` of `v` holds the `j`-th label then position `j` of the result holds the
`i`-th label. -/
theorem C04_permutation_round_trip_inverse {as : List K → List Nat} (has : ArgsortLaw as)
    (E : VGen K) {set : List Label} (hset : set.Nodup) {v : List Label} (hv : v.Perm set) (g : E.G) :
    ∃ (c : List K) (w : List Label), encode (.permutation set) (v.map (Val.label (K := K))) = .ok c
      ∧ decode as E (.permutation set) c g = .ok (w.map .label, g)
      ∧ ∀ (i j : Nat) (l : Label), v[i]? = some l → (uniqueLabels set)[j]? = some l →
          w[j]? = (uniqueLabels set)[i]? := by
  set u := uniqueLabels set with hu
  have hun : u.Nodup := uniqueLabels_nodup set
  have hul : u.length = set.length := uniqueLabels_length_of_nodup hset
  have hmem : ∀ l ∈ v, l ∈ u := fun l hl => mem_uniqueLabels.2 (hv.mem_iff.1 hl)
  have hp : (v.map (fun l => u.idxOf l)).Perm (List.range set.length) := by
    have h1 : v.Perm u := hv.trans (by
      have := uniqueLabels_perm set
      rw [List.Nodup.dedup hset] at this
      exact this.symm)
    have h2 := h1.map (fun l => u.idxOf l)
    refine h2.trans (List.Perm.of_eq ?_)
    apply List.ext_getElem
    · simp [hul]
    · intro i h3 h4
      simp at h3
      simp [List.Nodup.idxOf_getElem hun]
  have henc : encode (.permutation set) (v.map (Val.label (K := K)))
      = .ok ((v.map (fun l => u.idxOf l)).map (fun i : Nat => (i : K))) := by
    simp only [encode]
    rw [List.mapM_map, List.map_map]
    apply mapM_ok
    intro l hl
    simp only [Function.comp, Val.toLabel, bind, Except.bind, ← hu, transform1_ok (hmem l hl)]
    rfl
  refine ⟨_, (as ((v.map (fun l => u.idxOf l)).map (fun i : Nat => (i : K)))).map
    (fun i : Nat => inverse1 u i), henc, ?_, ?_⟩
  · simp only [decode, correct, List.map_map, ← hu]
    congr 2
    apply List.map_congr_left
    intro i _
    simp [trunc_natCast]
  · intro i j l hi hj
    have hjl : j < set.length := by
      have := (List.getElem?_eq_some_iff.1 hj).1; omega
    have hidx : u.idxOf l = j := by
      obtain ⟨h5, h6⟩ := List.getElem?_eq_some_iff.1 hj
      rw [← h6]; exact List.Nodup.idxOf_getElem hun j h5
    have h1 := argsort_perm_inverse (K := K) has hp j hjl
    rw [List.getElem?_map]
    cases hq : (as ((v.map (fun l => u.idxOf l)).map (fun i : Nat => (i : K))))[j]? with
    | none => rw [hq] at h1; simp at h1
    | some m =>
      rw [hq] at h1
      simp only [Option.bind_some, List.getElem?_map, Option.map_eq_some_iff] at h1
      obtain ⟨l', h5, h6⟩ := h1
      -- positions m and i of v hold the same label
      have hl' : l' = l := by
        have h7 : l' ∈ u := hmem l' (List.mem_of_getElem? h5)
        have h8 : u[j]? = some l' := by
          rw [← h6]
          rw [List.getElem?_eq_getElem (List.idxOf_lt_length_of_mem h7)]
          simp
        rw [hj] at h8; exact (Option.some.inj h8).symm
      subst hl'
      have hvn : v.Nodup := hv.nodup_iff.2 hset
      have hmi : m = i := by
        obtain ⟨a1, a2⟩ := List.getElem?_eq_some_iff.1 h5
        obtain ⟨b1, b2⟩ := List.getElem?_eq_some_iff.1 hi
        exact (List.Nodup.getElem_inj_iff hvn).1 (a2.trans b2.symm)
      subst hmi
      have him : m < u.length := by
        have := (List.getElem?_eq_some_iff.1 hi).1
        have := hv.length_eq; omega
      simp only [Option.map_some]
      unfold inverse1
      rw [if_pos ⟨by omega, by exact_mod_cast him⟩]
      simp [him]

/-- so the round trip of a permutation variable fails: `(2,3,1)` comes back as `(3,1,2)` -/
theorem C04_permutation_round_trip_fails {as : List K → List Nat} (has : ArgsortLaw as)
    (E : VGen K) (g : E.G) :
    ∃ c, encode (.permutation [.num 1, .num 2, .num 3])
        ([.num 2, .num 3, .num 1].map (Val.label (K := K))) = .ok c
      ∧ decode as E (.permutation [.num 1, .num 2, .num 3]) c g
        = .ok ([Label.num 3, .num 1, .num 2].map .label, g) := by
  have hu : uniqueLabels [.num 1, .num 2, .num 3] = [Label.num 1, .num 2, .num 3] :=
    uniqueLabels_eq (by decide) (by decide +kernel) (by simp)
  obtain ⟨c, w, h1, h2, h3⟩ := C04_permutation_round_trip_inverse has E
    (set := [.num 1, .num 2, .num 3]) (by decide) (v := [.num 2, .num 3, .num 1]) (by decide) g
  rw [hu] at h3
  refine ⟨c, h1, ?_⟩
  have a0 := h3 2 0 (.num 1) rfl rfl
  have a1 := h3 0 1 (.num 2) rfl rfl
  have a2 := h3 1 2 (.num 3) rfl rfl
  have hlen : w.length = 3 := by
    have hx : c.length = 3 := by
      simp only [encode, hu] at h1
      have : c = [(1 : K), 2, 0] := by
        have h9 : ([Val.label (Label.num 2), Val.label (.num 3), Val.label (.num 1)].mapM
            (fun w : Val K => (do
              let l ← w.toLabel
              let i ← transform1 [Label.num 1, .num 2, .num 3] l
              pure (i : K) : Except Err K))) = .ok [((1 : Nat) : K), ((2 : Nat) : K), ((0 : Nat) : K)] := rfl
        have h10 := h9.symm.trans h1
        simpa using (Except.ok.inj h10).symm
      rw [this]; rfl
    obtain ⟨v', g', hv', hleg⟩ := C03_decode_legal has E (k := .permutation [.num 1, .num 2, .num 3])
      trivial trivial (by show List.Nodup _; decide) hx g
    rw [h2] at hv'
    cases hv'
    simpa [Kind.n] using legal_length (k := .permutation [.num 1, .num 2, .num 3]) trivial hleg
  match w, hlen with
  | [x, y, z], _ =>
    simp at a0 a1 a2
    subst a0; subst a1; subst a2
    exact h2

example : Legal (Kind.categorical (K := ℚ) [[.str "a", .num 3, .none], [.str "x", .str "y"]])
    [.label .none, .label (.str "y")] :=
  .cons ⟨.none, by simp, rfl⟩ (.cons ⟨.str "y", by simp, rfl⟩ .nil)

example : Legal (Kind.integer (K := ℚ) [-2, 0] [3, 5]) [.int (-1), .int 5]
    ∧ (Kind.integer (K := ℚ) [-2, 0] [3, 5]).IntBounds :=
  ⟨⟨[-1, 5], rfl, by simp only [InBoxL, List.map]; norm_num⟩, ⟨[-2, 0], by simp⟩, [3, 5], by simp⟩

/-! ## C05 -/

/-- **C05.** With integer bounds, each coordinate decodes to the half-up rounding of `x` clamped to
`[lb, ub]`. -/
theorem C05_integer_decode (as : List K → List Nat) (E : VGen K) (ls us : List Int)
    (hle : List.Forall₂ (· ≤ ·) ls us) (x : List K) (hx : x.length = ls.length) (g : E.G) :
    ∃ zs : List Int, decode as E (.integer (ls.map (fun z : Int => (z : K)))
        (us.map (fun z : Int => (z : K)))) x g = .ok (zs.map .int, g)
      ∧ zs.length = x.length
      ∧ ∀ (i : Nat) (xi : K) (l u : Int), x[i]? = some xi → ls[i]? = some l → us[i]? = some u →
          zs[i]? = some (max l (min u ⌊xi + 1 / 2⌋)) := by
  refine ⟨List.zipWith (fun (p : K × Int) u => clip ⌊p.1 + 1 / 2⌋ p.2 u) (x.zip ls) us, ?_, ?_, ?_⟩
  · have := decode_int_list ls us x hx hle
    rw [← this, List.map_map]
    rfl
  · have := hle.length_eq
    simp [hx, this]
  · intro i xi l u h1 h2 h3
    have hlu : l ≤ u := by
      obtain ⟨a1, a2⟩ := List.getElem?_eq_some_iff.1 h2
      obtain ⟨b1, b2⟩ := List.getElem?_eq_some_iff.1 h3
      have := List.forall₂_iff_get.1 hle
      have := this.2 i a1 b1
      simpa [a2, b2] using this
    have hz : (x.zip ls)[i]? = some (xi, l) := List.getElem?_zip_eq_some.2 ⟨h1, h2⟩
    have : clip ⌊xi + 1 / 2⌋ l u = max l (min u ⌊xi + 1 / 2⌋) := by
      unfold clip
      omega
    rw [← this]
    simp [List.getElem?_zipWith, hz, h3]

/-- Every integer of `[lb, ub]` is decoded from some point of the box. -/
theorem C05_integer_surjective (as : List K → List Nat) (E : VGen K) (l u z : Int) (h1 : l ≤ z)
    (h2 : z ≤ u) (g : E.G) :
    ∃ c : K, InBoxL (Kind.integer [(l : K)] [(u : K)]).lb (Kind.integer [(l : K)] [(u : K)]).ub [c]
      ∧ decode as E (.integer [(l : K)] [(u : K)]) [c] g = .ok ([.int z], g) := by
  have hleg : Legal (Kind.integer [(l : K)] [(u : K)]) [.int z] :=
    ⟨[z], rfl, by show (l : K) ≤ z; exact_mod_cast h1, by show (z : K) ≤ u; exact_mod_cast h2,
      trivial⟩
  obtain ⟨c, hc1, hc2, hc3⟩ := C04_encode_decode as E (k := .integer [(l : K)] [(u : K)]) trivial
    ⟨⟨[l], rfl⟩, [u], rfl⟩ hleg g
  match c, hc2 with
  | [c], hc2 => exact ⟨c, hc2, hc3⟩

/-- Decoding is monotone. -/
theorem C05_integer_monotone (as : List K → List Nat) (E : VGen K) (l u : Int) (hlu : l ≤ u)
    {x y : K} (hxy : x ≤ y) (g g' : E.G) :
    ∃ a b : Int, decode as E (.integer [(l : K)] [(u : K)]) [x] g = .ok ([.int a], g)
      ∧ decode as E (.integer [(l : K)] [(u : K)]) [y] g' = .ok ([.int b], g') ∧ a ≤ b := by
  refine ⟨clip ⌊x + 1 / 2⌋ l u, clip ⌊y + 1 / 2⌋ l u, ?_, ?_, ?_⟩
  · have := round_clip_int l u hlu x
    rw [← this]; rfl
  · have := round_clip_int l u hlu y
    rw [← this]; rfl
  · have : ⌊x + 1 / 2⌋ ≤ ⌊y + 1 / 2⌋ := Int.floor_le_floor (by linarith)
    unfold clip
    omega

/-- Scalar bounds are truncated to integers by the constructor, so C05 applies to them. -/
theorem C05_scalar_bounds_integer (lb ub : K) : (mkIntScalar lb ub).IntBounds :=
  ⟨⟨[trunc lb], rfl⟩, [trunc ub], rfl⟩

/-- Array bounds are not truncated: with bounds `[1/2, 1/2]` the decoded integer is 0 or 1, and 0 is
below the user's lower bound. -/
theorem C05_fractional_array_bounds_escape :
    mkIntArray [(1 : ℚ) / 2] [1 / 2] = .ok (.integer [1 / 2] [1 / 2]) ∧
    decode stableArgsort detVGen (.integer [(1 : ℚ) / 2] [1 / 2]) [0] (0 : Nat) = .ok ([.int 0], (0 : Nat))
    ∧ ((0 : Int) : ℚ) < 1 / 2 := by
  refine ⟨by simp [mkIntArray], ?_, by norm_num⟩
  have h : Space.round (clip (0 : ℚ) (1 / 2 - 1 / 2) (1 / 2 + (1 / 2 - eps))) = 0 := by
    rw [Space.round_eq]
    have : clip (0 : ℚ) (1 / 2 - 1 / 2) (1 / 2 + (1 / 2 - eps)) = 0 :=
      clip_of_mem (by norm_num) (by norm_num [eps])
    rw [this]; norm_num
  show Except.ok ([Val.int (Space.round (clip (0 : ℚ) (1 / 2 - 1 / 2) (1 / 2 + (1 / 2 - eps))))], (0 : Nat)) = _
  rw [h]; rfl

example : List.Forall₂ (· ≤ ·) [(-3 : Int), 0] [4, 0] := by simp

/-! ## C07 -/

/-- **C07.** After `fit(y)`: the distinct labels of `y` are coded one-to-one onto `0..n-1`; decoding
undoes coding in both directions. -/
theorem C07_label_bijection (y : List Label) :
    let u := uniqueLabels y
    (∀ l, l ∈ y → ∃ i, transform1 u l = .ok i ∧ i < u.length ∧ inverse1 u (i : Int) = l)
    ∧ (∀ i : Nat, i < u.length → inverse1 u (i : Int) ∈ y ∧ transform1 u (inverse1 u (i : Int)) = .ok i)
    ∧ u.length = y.toFinset.card := by
  intro u
  refine ⟨?_, ?_, ?_⟩
  · intro l hl
    have hl' : l ∈ u := mem_uniqueLabels.2 hl
    exact ⟨u.idxOf l, transform1_ok hl', List.idxOf_lt_length_of_mem hl', inverse1_idxOf hl'⟩
  · intro i hi
    have h1 : inverse1 u (i : Int) = u[i] := by
      unfold inverse1
      rw [if_pos ⟨by omega, by exact_mod_cast hi⟩]
      simp [hi]
    have h2 : u[i] ∈ u := List.getElem_mem hi
    rw [h1]
    refine ⟨mem_uniqueLabels.1 h2, ?_⟩
    rw [transform1_ok h2, List.Nodup.idxOf_getElem (uniqueLabels_nodup y)]
  · rw [(uniqueLabels_perm y).length_eq, List.card_toFinset]

/-- codes increase with the sort key (`None` < numbers by value < strings < other objects) -/
theorem C07_codes_follow_key_order (y : List Label) {a b : Label} {i j : Nat}
    (ha : transform1 (uniqueLabels y) a = .ok i) (hb : transform1 (uniqueLabels y) b = .ok j) :
    i < j ↔ a.key < b.key := by
  have key : ∀ {a b : Label} {i j : Nat}, transform1 (uniqueLabels y) a = .ok i →
      transform1 (uniqueLabels y) b = .ok j → i < j → a < b := by
    intro a b i j ha hb hij
    unfold transform1 at ha hb
    split at ha
    · split at hb
      · rename_i h1 h2
        cases ha; cases hb
        have hl1 := List.idxOf_lt_length_of_mem h1
        have hl2 := List.idxOf_lt_length_of_mem h2
        have := List.pairwise_iff_getElem.1 (uniqueLabels_sorted y) _ _ hl1 hl2 hij
        simp only [List.getElem_idxOf] at this
        refine lt_of_le_of_ne this ?_
        rintro rfl; omega
      · cases hb
    · cases ha
  constructor
  · intro h; exact key ha hb h
  · intro h
    rcases Nat.lt_trichotomy i j with h1 | h1 | h1
    · exact h1
    · exfalso
      subst h1
      unfold transform1 at ha hb
      split at ha
      · split at hb
        · rename_i h2 h3
          cases ha
          have h5 := Except.ok.inj hb
          have : a = b := (List.idxOf_inj h2).1 h5.symm
          subst this; exact lt_irrefl _ h
        · cases hb
      · cases ha
    · exfalso
      have : b.key < a.key := key hb ha h1
      exact lt_asymm h this

/-- the fitted encoder depends only on which labels occur, not on their order or multiplicity -/
theorem C07_order_and_multiplicity_irrelevant (y z : List Label) (h : ∀ l, l ∈ y ↔ l ∈ z) :
    uniqueLabels y = uniqueLabels z := by
  have hp : (uniqueLabels y).Perm (uniqueLabels z) := by
    rw [List.perm_ext_iff_of_nodup (uniqueLabels_nodup y) (uniqueLabels_nodup z)]
    intro l; rw [mem_uniqueLabels, mem_uniqueLabels, h]
  exact hp.eq_of_pairwise (fun a b _ _ h1 h2 => le_antisymm h1 h2) (uniqueLabels_sorted y)
    (uniqueLabels_sorted z)

/-- an unseen label raises KeyError, an out-of-range code gives "unknown" -/
theorem C07_unknown (y : List Label) :
    (∀ l, l ∉ y → transform1 (uniqueLabels y) l = .error .key)
    ∧ ∀ i : Int, ¬ (0 ≤ i ∧ i < (uniqueLabels y).length) →
        inverse1 (uniqueLabels y) i = .str "unknown" := by
  refine ⟨fun l hl => if_neg (fun h => hl (mem_uniqueLabels.1 h)), fun i hi => if_neg hi⟩

/-- whole lists: `inverse_transform(transform(z)) = z` for every list of known labels, and one
unknown label makes `transform` raise -/
theorem C07_transform_list (y z : List Label) :
    ((∀ l ∈ z, l ∈ y) → ∃ c, transform (uniqueLabels y) z = .ok c
        ∧ inverse (uniqueLabels y) (c.map (fun i : Nat => (i : Int))) = z)
    ∧ ((∃ l ∈ z, l ∉ y) → transform (uniqueLabels y) z = .error .key) := by
  constructor
  · intro h
    refine ⟨z.map (fun l => (uniqueLabels y).idxOf l), mapM_ok (fun l hl =>
      transform1_ok (mem_uniqueLabels.2 (h l hl))), ?_⟩
    unfold inverse
    rw [List.map_map, List.map_map]
    conv_rhs => rw [← List.map_id z]
    apply List.map_congr_left
    intro l hl
    exact inverse1_idxOf (mem_uniqueLabels.2 (h l hl))
  · rintro ⟨l, hl, hn⟩
    unfold transform
    induction z with
    | nil => simp at hl
    | cons a as ih =>
      rw [List.mapM_cons]
      by_cases ha : a ∈ y
      · have hl' : l ∈ as := by
          rcases List.mem_cons.1 hl with rfl | h
          · exact absurd ha hn
          · exact h
        rw [transform1_ok (mem_uniqueLabels.2 ha), ih hl']
        rfl
      · rw [(C07_unknown y).1 a ha]; rfl

example : uniqueLabels [.str "b", .num 2, .none, .str "a", .num 2, .num (-1)]
    = [.none, .num (-1), .num 2, .str "a", .str "b"] :=
  uniqueLabels_eq (by decide) (by decide +kernel) (by intro l; simp; tauto)

/-! ## C09 -/

/-- number of codes versus declared labels when a label is repeated -/
theorem uniqueLabels_length_lt {set : List Label} (hdup : ¬ set.Nodup) :
    (uniqueLabels set).length < set.length := by
  rw [(uniqueLabels_perm set).length_eq]
  rcases Nat.lt_or_ge set.dedup.length set.length with h | h
  · exact h
  · exfalso
    have := (List.dedup_sublist set).eq_of_length_le h
    exact hdup (this ▸ set.nodup_dedup)

/-- **C09.** A string/categorical variable whose valid sets repeat labels has a point inside its box
that decodes to the string "unknown" at every coordinate whose set has a repetition. -/
theorem C09_duplicate_label_leaks_unknown (as : List K → List Nat) (E : VGen K)
    (sets : List (List Label)) (hne : ∀ s ∈ sets, s ≠ []) (g : E.G) :
    ∃ (c : List K) (vs : List (Val K)),
      InBoxL (Kind.categorical (K := K) sets).lb (Kind.categorical (K := K) sets).ub c
      ∧ decode as E (.categorical sets) c g = .ok (vs, g)
      ∧ decode as E (.string sets) c g = .ok (vs, g)
      ∧ ∀ (i : Nat) (s : List Label), sets[i]? = some s → ¬ s.Nodup →
          vs[i]? = some (.label (.str "unknown")) := by
  set cs : List Nat := sets.map (fun s => if s.Nodup then 0 else (uniqueLabels s).length) with hcs
  have he := eps_lt_one (K := K)
  have hb : InBoxL (sets.map (fun _ => (0 : K))) (sets.map (fun s => (s.length : K) - eps))
      (cs.map (fun i : Nat => (i : K))) := by
    have : ∀ sets : List (List Label), (∀ s ∈ sets, s ≠ []) →
        InBoxL (sets.map (fun _ => (0 : K))) (sets.map (fun s => (s.length : K) - eps))
          ((sets.map (fun s => if s.Nodup then 0 else (uniqueLabels s).length)).map
            (fun i : Nat => (i : K))) := by
      intro sets
      induction sets with
      | nil => intro _; trivial
      | cons s ss ih =>
        intro h
        refine ⟨by positivity, ?_, ih (fun t ht => h t (List.mem_cons_of_mem _ ht))⟩
        show ((if s.Nodup then 0 else (uniqueLabels s).length : Nat) : K) ≤ (s.length : K) - eps
        split
        · have : 1 ≤ s.length := List.length_pos_iff.2 (h s (by simp))
          have : (1 : K) ≤ (s.length : K) := by exact_mod_cast this
          simp; linarith
        · rename_i hd
          have h1 : (uniqueLabels s).length + 1 ≤ s.length := uniqueLabels_length_lt hd
          have h1 : ((uniqueLabels s).length : K) + 1 ≤ (s.length : K) := by exact_mod_cast h1
          linarith
    exact this sets hne
  refine ⟨cs.map (fun i : Nat => (i : K)), List.zipWith (fun (s : List Label) (i : Nat) =>
    Val.label (K := K) (inverse1 (uniqueLabels s) (i : Int))) sets cs, hb, ?_, ?_, ?_⟩
  · simp only [decode, correct, Kind.lb, Kind.ub]
    rw [clipL_of_inBox hb, map_trunc_natCast, zipWith_codes]
  · simp only [decode, correct, Kind.lb, Kind.ub]
    rw [clipL_of_inBox hb, map_trunc_natCast, zipWith_codes]
  · intro i s hs hd
    rw [List.getElem?_zipWith, hs, hcs, List.getElem?_map, hs]
    simp only [Option.map_some, if_neg hd]
    rw [inverse1_out (by omega)]

/-- ... and for a permutation variable EVERY point decodes to a list containing "unknown". -/
theorem C09_permutation_duplicates_always_unknown {as : List K → List Nat} (has : ArgsortLaw as)
    (E : VGen K) (set : List Label) (hdup : ¬ set.Nodup) (x : List K) (hx : x.length = set.length)
    (g : E.G) :
    ∃ ls : List Label, decode as E (.permutation set) x g = .ok (ls.map .label, g)
      ∧ .str "unknown" ∈ ls := by
  have hlt := uniqueLabels_length_lt hdup
  refine ⟨(as x).map (fun i : Nat => inverse1 (uniqueLabels set) (i : Int)), ?_, ?_⟩
  · simp only [decode, correct, List.map_map]
    congr 2
    apply List.map_congr_left
    intro i _
    simp [trunc_natCast]
  · rw [List.mem_map]
    refine ⟨(uniqueLabels set).length, ?_, inverse1_out (by omega)⟩
    rw [argsort_mem has, hx]; exact hlt

/-- Without repetition (and unless "unknown" is itself a declared label) no point decodes to
"unknown". -/
theorem C09_distinct_labels_never_unknown {as : List K → List Nat} (has : ArgsortLaw as) (E : VGen K)
    (set : List Label) (hne : set ≠ []) (hd : set.Nodup) (hu : Label.str "unknown" ∉ set) (c : K)
    (g : E.G) :
    (∃ l, decode as E (.categorical [set]) [c] g = .ok ([.label l], g) ∧ l ≠ .str "unknown")
    ∧ (∃ l, decode as E (.string [set]) [c] g = .ok ([.label l], g) ∧ l ≠ .str "unknown")
    ∧ ∀ x : List K, x.length = set.length → ∃ ls : List Label,
        decode as E (.permutation set) x g = .ok (ls.map .label, g) ∧ .str "unknown" ∉ ls := by
  have key : ∀ k : Kind K, k = .categorical [set] ∨ k = .string [set] →
      ∃ l, decode as E k [c] g = .ok ([.label l], g) ∧ l ≠ .str "unknown" := by
    rintro k (rfl | rfl)
    · obtain ⟨v, g', h1, h2⟩ := C03_decode_legal has E (k := .categorical [set])
        (by intro s hs; simp at hs; subst hs; exact hne) trivial
        (by intro s hs; simp at hs; subst hs; exact hd) (x := [c]) rfl g
      have hg : g' = g := by simp only [decode, correct] at h1; cases h1; rfl
      cases h2 with
      | cons h3 h4 =>
        cases h4
        obtain ⟨l, hl, rfl⟩ := h3
        exact ⟨l, hg ▸ h1, fun h => hu (h ▸ hl)⟩
    · obtain ⟨v, g', h1, h2⟩ := C03_decode_legal has E (k := .string [set])
        (by intro s hs; simp at hs; subst hs; exact hne) trivial
        (by intro s hs; simp at hs; subst hs; exact hd) (x := [c]) rfl g
      have hg : g' = g := by simp only [decode, correct] at h1; cases h1; rfl
      cases h2 with
      | cons h3 h4 =>
        cases h4
        obtain ⟨l, hl, rfl⟩ := h3
        exact ⟨l, hg ▸ h1, fun h => hu (h ▸ hl)⟩
  refine ⟨key _ (.inl rfl), key _ (.inr rfl), ?_⟩
  intro x hx
  obtain ⟨v, g', h1, ls, h2, rfl⟩ := C03_decode_legal has E (k := .permutation set) trivial trivial hd hx g
  have hg : g' = g := by
    simp only [decode, correct, Except.ok.injEq, Prod.mk.injEq] at h1; exact h1.2.symm
  exact ⟨ls, hg ▸ h1, fun h => hu (h2.mem_iff.1 h)⟩

example : ¬ ([.str "a", .str "b", .str "a"] : List Label).Nodup := by decide
example : ([.str "a", .num 3] : List Label).Nodup ∧ Label.str "unknown" ∉ ([.str "a", .num 3] : List Label) := by
  decide

end Mealpy
