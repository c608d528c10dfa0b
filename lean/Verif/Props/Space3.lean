import Verif.Props.Space2

/-!
# C06, C11, C12, C13: generating solutions and transfer variables
-/

set_option linter.unusedSectionVars false

namespace Mealpy

open Space

variable {K : Type} [Field K] [LinearOrder K] [IsStrictOrderedRing K] [FloorRing K]

/-! ## C06 -/

/-- what `var.generate()` returns can be encoded, and the code is in the variable's box -/
theorem generate_encode_ok (E : VGen K) (hE : E.Lawful) {k : Kind K} (hwf : k.WF)
    (hint : k.IntBounds) (hstr : k.StringLabels) (g : E.G) :
    ∃ v g' c, generate E k g = .ok (v, g') ∧ encode k v = .ok c ∧ InBoxL k.lb k.ub c := by
  have he := eps_pos (K := K)
  have he1 := eps_lt_half (K := K)
  have bits : ∀ {n : Nat} {u : K} {zs : List Int}, 1 ≤ u → zs.length = n → (∀ z ∈ zs, z = 0 ∨ z = 1) →
      InBoxL (List.replicate n (0 : K)) (List.replicate n u) (zs.map (fun z : Int => (z : K))) := by
    intro n u zs hu hl hz
    refine InBoxL_replicate (by simpa using hl) ?_
    intro y hy
    obtain ⟨z, hz1, rfl⟩ := List.mem_map.1 hy
    rcases hz z hz1 with rfl | rfl
    · simp; linarith
    · simp; linarith
  have encInt : ∀ zs : List Int, (zs.map (Val.int (K := K))).mapM Val.toNum
      = .ok (zs.map (fun z : Int => (z : K))) := by
    intro zs
    rw [List.mapM_map]
    exact mapM_ok (f := Val.toNum ∘ Val.int) (fun a _ => rfl)
  have encBool : ∀ bs : List Bool, (bs.map (Val.bool (K := K))).mapM Val.toNum
      = .ok (bs.map (fun b : Bool => if b then (1 : K) else 0)) := by
    intro bs
    rw [List.mapM_map]
    exact mapM_ok (f := Val.toNum ∘ Val.bool) (fun a _ => rfl)
  have boolBits : ∀ {n : Nat} {u : K} {bs : List Bool}, 1 ≤ u → bs.length = n →
      InBoxL (List.replicate n (0 : K)) (List.replicate n u)
        (bs.map (fun b : Bool => if b then (1 : K) else 0)) := by
    intro n u bs hu hl
    refine InBoxL_replicate (by simpa using hl) ?_
    intro y hy
    obtain ⟨b, _, rfl⟩ := List.mem_map.1 hy
    cases b
    · simp; linarith
    · simp; linarith
  have mapGval : ∀ {α β γ : Type} (f : α → E.G → β × E.G) (w : β → γ) (l : List α) (g : E.G),
      mapG (fun a g => let (r, g) := f a g; (w r, g)) l g
        = ((mapG f l g).1.map w, (mapG f l g).2) := by
    intro α β γ f w l
    induction l with
    | nil => intro g; rfl
    | cons a as ih => intro g; simp [mapG, ih]
  cases k with
  | float lb ub =>
    refine ⟨_, _, (mapG (fun (p : K × K) g => E.uniform p.1 p.2 g) (lb.zip ub) g).1, rfl, ?_, ?_⟩
    · rw [mapGval (fun (p : K × K) g => E.uniform p.1 p.2 g) Val.real]
      simp only [encode]
      rw [List.mapM_map]
      have := mapM_ok (f := Val.toNum (K := K) ∘ Val.real) (h := id)
        (l := (mapG (fun (p : K × K) g => E.uniform p.1 p.2 g) (lb.zip ub) g).1) (fun a _ => rfl)
      simpa using this
    · have : ∀ (lb ub : List K) (g : E.G), List.Forall₂ (· ≤ ·) lb ub →
          InBoxL lb ub (mapG (fun (p : K × K) g => E.uniform p.1 p.2 g) (lb.zip ub) g).1 := by
        intro lb ub g h
        induction h generalizing g with
        | nil => trivial
        | cons hab _ ih =>
          exact ⟨hE.uniform_ge _ _ _ hab, hE.uniform_le _ _ _ hab, ih _⟩
      exact this lb ub g hwf
  | integer lb ub =>
    obtain ⟨⟨ls, rfl⟩, us, rfl⟩ := hint
    have hle := forall₂_intCast hwf
    refine ⟨_, _, (mapG (fun (p : K × K) g => E.integers ⌊p.1 + 1 / 2⌋ ⌊p.2 + 1 / 2 + eps⌋ g)
        ((Kind.integer (ls.map (fun z : Int => (z : K))) (us.map (fun z : Int => (z : K)))).lb.zip
        (Kind.integer (ls.map (fun z : Int => (z : K))) (us.map (fun z : Int => (z : K)))).ub) g).1.map
        (fun z : Int => (z : K)), rfl, ?_, ?_⟩
    · rw [mapGval (fun (p : K × K) g => E.integers ⌊p.1 + 1 / 2⌋ ⌊p.2 + 1 / 2 + eps⌋ g) Val.int]
      exact encInt _
    · have : ∀ (ls us : List Int) (g : E.G), List.Forall₂ (· ≤ ·) ls us →
          InBoxL ((ls.map (fun z : Int => (z : K))).map (fun x => x - 1 / 2))
            ((us.map (fun z : Int => (z : K))).map (fun x => x + (1 / 2 - eps)))
            ((mapG (fun (p : K × K) g => E.integers ⌊p.1 + 1 / 2⌋ ⌊p.2 + 1 / 2 + eps⌋ g)
              (((ls.map (fun z : Int => (z : K))).map (fun x => x - 1 / 2)).zip
              ((us.map (fun z : Int => (z : K))).map (fun x => x + (1 / 2 - eps)))) g).1.map
              (fun z : Int => (z : K))) := by
        intro ls us g h
        induction h generalizing g with
        | nil => trivial
        | cons hab _hrest ih =>
          rename_i l u ls us
          have e1 : ⌊(l : K) - 1 / 2 + 1 / 2⌋ = l := by
            rw [show (l : K) - 1 / 2 + 1 / 2 = (l : K) by ring, Int.floor_intCast]
          have e2 : ⌊(u : K) + (1 / 2 - eps) + 1 / 2 + eps⌋ = u + 1 := by
            rw [show (u : K) + (1 / 2 - eps) + 1 / 2 + eps = ((u + 1 : Int) : K) by push_cast; ring,
              Int.floor_intCast]
          have h1 := hE.integers_ge l (u + 1) g (by omega)
          have h2 := hE.integers_lt l (u + 1) g (by omega)
          refine ⟨?_, ?_, ih _⟩
          · show (l : K) - 1 / 2 ≤ (((E.integers ⌊(l : K) - 1 / 2 + 1 / 2⌋
              ⌊(u : K) + (1 / 2 - eps) + 1 / 2 + eps⌋ g).1 : Int) : K)
            rw [e1, e2]
            have : (l : K) ≤ ((E.integers l (u + 1) g).1 : K) := by exact_mod_cast h1
            linarith
          · show (((E.integers ⌊(l : K) - 1 / 2 + 1 / 2⌋
              ⌊(u : K) + (1 / 2 - eps) + 1 / 2 + eps⌋ g).1 : Int) : K) ≤ (u : K) + (1 / 2 - eps)
            rw [e1, e2]
            have h3 : (E.integers l (u + 1) g).1 ≤ u := by omega
            have : ((E.integers l (u + 1) g).1 : K) ≤ u := by exact_mod_cast h3
            linarith
      exact this ls us g hle
  | string sets =>
    obtain ⟨vs, g', h1, h2⟩ := mapGE_ok (f := fun s g => choiceLabel E (s.map Label.castStr) g)
      (R := fun (s : List Label) (w : Val K) => ∃ l ∈ s, w = Val.label l) (l := sets) g (by
        intro s hs g
        have hlt := hE.choice_lt s.length g (List.length_pos_iff.2 (hwf s hs))
        obtain ⟨t, ht⟩ := hstr s hs (s[(E.choice s.length g).1]) (List.getElem_mem _)
        refine ⟨.label (.str t), (E.choice s.length g).2, ?_, .str t, ?_, rfl⟩
        · simp only [choiceLabel, List.length_map]
          rw [List.getElem?_map, List.getElem?_eq_getElem hlt, ht]
          rfl
        · rw [← ht]; exact List.getElem_mem _)
    obtain ⟨c, h3, h4, _⟩ := encode_labels h2
    exact ⟨vs, g', _, h1, h3, codes_inBox h4⟩
  | categorical sets =>
    obtain ⟨vs, g', h1, h2⟩ := mapGE_ok (f := fun s g => choiceLabel E s g)
      (R := fun (s : List Label) (w : Val K) => ∃ l ∈ s, w = Val.label l) (l := sets) g (by
        intro s hs g
        have hlt := hE.choice_lt s.length g (List.length_pos_iff.2 (hwf s hs))
        refine ⟨.label s[(E.choice s.length g).1], (E.choice s.length g).2, ?_, _,
          List.getElem_mem _, rfl⟩
        simp only [choiceLabel]
        rw [List.getElem?_eq_getElem hlt])
    obtain ⟨c, h3, h4, _⟩ := encode_labels h2
    exact ⟨vs, g', _, h1, h3, codes_inBox h4⟩
  | sequence sets =>
    have hpos : 0 < sets.length := List.length_pos_iff.2 hwf
    have h1 := hE.integers_ge 0 sets.length g (by omega)
    have h2 := hE.integers_lt 0 sets.length g (by omega)
    have hlt : (E.integers 0 sets.length g).1.toNat < sets.length := by omega
    obtain ⟨c, h3, h4, _⟩ := C04_sequence_round_trip (K := K) (fun _ => []) E
      (List.getElem_mem hlt) g
    refine ⟨_, (E.integers 0 sets.length g).2, c, ?_, h3, h4⟩
    simp only [generate]
    rw [List.getElem?_eq_getElem hlt]
  | permutation set =>
    refine ⟨_, _, (((E.permutation set.length g).1.filterMap (fun i => set[i]?)).map
      (fun l => (uniqueLabels set).idxOf l)).map (fun i : Nat => (i : K)), rfl, ?_, ?_⟩
    · simp only [encode]
      rw [List.mapM_map, List.map_map]
      apply mapM_ok
      intro l hl
      obtain ⟨i, _, hi⟩ := List.mem_filterMap.1 hl
      have : l ∈ uniqueLabels set := mem_uniqueLabels.2 (List.mem_of_getElem? hi)
      simp only [Function.comp, Val.toLabel, bind, Except.bind, transform1_ok this]
      rfl
    · have hlen : ((E.permutation set.length g).1.filterMap (fun i => set[i]?)).length = set.length := by
        have h1 := (hE.permutation_perm set.length g).filterMap (fun i => set[i]?)
        rw [filterMap_range_getElem?] at h1
        exact h1.length_eq
      have hrep : ∀ (c : K), set.map (fun _ => c) = List.replicate set.length c := by
        intro c; simp
      simp only [Kind.lb, Kind.ub]
      rw [hrep, hrep]
      refine InBoxL_replicate (by simp [hlen]) ?_
      intro y hy
      simp only [List.map_map, List.mem_map] at hy
      obtain ⟨l, hl, rfl⟩ := hy
      obtain ⟨i, _, hi⟩ := List.mem_filterMap.1 hl
      have hmem : l ∈ uniqueLabels set := mem_uniqueLabels.2 (List.mem_of_getElem? hi)
      have h1 : (uniqueLabels set).idxOf l + 1 ≤ set.length :=
        le_trans (List.idxOf_lt_length_of_mem hmem) (uniqueLabels_length_le set)
      have h2 : (((uniqueLabels set).idxOf l : Nat) : K) + 1 ≤ (set.length : K) := by exact_mod_cast h1
      refine ⟨by simp, ?_⟩
      show (((uniqueLabels set).idxOf l : Nat) : K) ≤ _
      linarith
  | binary n =>
    refine ⟨_, _, _, rfl, ?_, bits (n := n) (u := 2 - eps) (by linarith)
      (zs := (mapG (fun (_ : Nat) g => E.integers 0 2 g) (List.range n) g).1) ?_ ?_⟩
    · rw [mapGval (fun (_ : Nat) g => E.integers 0 2 g) Val.int]
      exact encInt _
    · simp [mapG_length]
    · refine mapG_forall g ?_
      intro a _ g
      have h1 := hE.integers_ge 0 2 g (by omega)
      have h2 := hE.integers_lt 0 2 g (by omega)
      omega
  | bool n =>
    refine ⟨_, _, _, rfl, ?_, boolBits (n := n) (u := 2 - eps) (by linarith)
      (bs := (mapG (fun (_ : Nat) g => E.choice 2 g) (List.range n) g).1.map (fun r => decide (r = 0))) ?_⟩
    · rw [mapGval (fun (_ : Nat) g => E.choice 2 g) (fun r => Val.bool (decide (r = 0)))]
      have := encBool ((mapG (fun (_ : Nat) g => E.choice 2 g) (List.range n) g).1.map
        (fun r => decide (r = 0)))
      rw [← this, List.map_map]
      rfl
    · simp [mapG_length]
  | tbinary n tf l u az =>
    set x0 := (mapG (fun (_ : Nat) g => let (r, g) := E.integers 0 2 g; ((r : K), g)) (List.range n) g)
      with hx0
    have hb0 : ∀ v ∈ x0.1, v = 0 ∨ v = 1 := by
      refine mapG_forall (P := fun v => v = 0 ∨ v = 1) g ?_
      intro a _ g
      have h1 := hE.integers_ge 0 2 g (by omega)
      have h2 := hE.integers_lt 0 2 g (by omega)
      have : (E.integers 0 2 g).1 = 0 ∨ (E.integers 0 2 g).1 = 1 := by omega
      rcases this with h | h
      · left; show (((E.integers 0 2 g).1 : Int) : K) = 0; rw [h]; simp
      · right; show (((E.integers 0 2 g).1 : Int) : K) = 1; rw [h]; simp
    have hbits := fixZeros_bits E az x0.1 x0.2 hb0
    refine ⟨(fixZeros E az x0.1 x0.2).1.map (fun v => .int (trunc v)),
      (fixZeros E az x0.1 x0.2).2, ((fixZeros E az x0.1 x0.2).1.map trunc).map (fun z : Int => (z : K)),
      rfl, ?_, ?_⟩
    · have := encInt ((fixZeros E az x0.1 x0.2).1.map trunc)
      rw [← this, List.map_map]
      rfl
    · simp only [Kind.lb, Kind.ub, mul_zero, mul_one]
      refine bits hwf ?_ ?_
      · rw [List.length_map, fixZeros_length, hx0, mapG_length, List.length_range]
      · intro z hz
        obtain ⟨v, hv, rfl⟩ := List.mem_map.1 hz
        have t0 := trunc_intCast (K := K) 0
        have t1 := trunc_intCast (K := K) 1
        simp at t0 t1
        rcases hbits v hv with h | h
        · left; rw [h, t0]
        · right; rw [h, t1]
  | tbool n tf l u =>
    refine ⟨_, _, ((mapG (fun (_ : Nat) g => E.choice 2 g) (List.range n) g).1.map
        (fun r => decide (r = 0))).map (fun b : Bool => if b then (1 : K) else 0), rfl, ?_, ?_⟩
    · rw [mapGval (fun (_ : Nat) g => E.choice 2 g) (fun r => Val.bool (decide (r = 0)))]
      have := encBool ((mapG (fun (_ : Nat) g => E.choice 2 g) (List.range n) g).1.map
        (fun r => decide (r = 0)))
      rw [← this, List.map_map]
      rfl
    · simp only [Kind.lb, Kind.ub, mul_zero, mul_one]
      exact boolBits hwf (by simp [mapG_length])

/-- **C06.** `generate_solution(encoded=True)` always succeeds and returns a vector of length
`n_dims` inside the box, for every mix of the ten kinds (string labels in `StringVar`, integer bounds
in `IntegerVar`) and every generator state. -/
theorem C06_generated_solution_feasible (E : VGen K) (hE : E.Lawful) (vars : List (Var K))
    (hwf : ∀ v ∈ vars, v.kind.WF) (hint : ∀ v ∈ vars, v.kind.IntBounds)
    (hstr : ∀ v ∈ vars, v.kind.StringLabels) (gs : List E.G) (hgs : gs.length = vars.length) :
    ∃ x gs', generateSolution E vars gs = .ok (x, gs')
      ∧ InBoxL (problemLb vars) (problemUb vars) x ∧ x.length = nDims vars
      ∧ gs'.length = vars.length := by
  have main : ∀ (vs : List (Var K)) (gs : List E.G), (∀ v ∈ vs, v.kind.WF) →
      (∀ v ∈ vs, v.kind.IntBounds) → (∀ v ∈ vs, v.kind.StringLabels) → gs.length = vs.length →
      ∃ raw gs' x, generateRaw E vs gs = .ok (raw, gs') ∧ encodeSolution vs raw = .ok x
        ∧ InBoxL (problemLb vs) (problemUb vs) x ∧ gs'.length = vs.length := by
    intro vs
    induction vs with
    | nil => intro gs _ _ _ hg; exact ⟨[], gs, [], by cases gs <;> rfl, rfl, trivial, hg⟩
    | cons v vs ih =>
      intro gs h1 h2 h3 hg
      match gs, hg with
      | g :: gs, hg =>
        obtain ⟨w, g', c, a1, a2, a3⟩ := generate_encode_ok E hE (h1 v (by simp)) (h2 v (by simp))
          (h3 v (by simp)) g
        obtain ⟨raw, gs', x, b1, b2, b3, b4⟩ := ih gs (fun w hw => h1 w (List.mem_cons_of_mem _ hw))
          (fun w hw => h2 w (List.mem_cons_of_mem _ hw)) (fun w hw => h3 w (List.mem_cons_of_mem _ hw))
          (by simpa using hg)
        refine ⟨w :: raw, g' :: gs', c ++ x, ?_, ?_, ?_, by simpa using b4⟩
        · simp only [generateRaw, bind, Except.bind, a1, b1, pure, Except.pure]
        · simp only [encodeSolution, bind, Except.bind, a2, b2, pure, Except.pure]
        · have := a3.append b3
          simpa [problemLb, problemUb] using this
  obtain ⟨raw, gs', x, h1, h2, h3, h4⟩ := main vars gs hwf hint hstr hgs
  refine ⟨x, gs', ?_, h3, h3.length.1, h4⟩
  simp only [generateSolution, bind, Except.bind, h1, h2, pure, Except.pure]

/-- The restriction to string labels is needed: a `StringVar` over numbers generates strings that its
own encoder does not know, so `generate_solution` raises KeyError. -/
theorem C06_string_var_numeric_labels_raise (E : VGen K) (hE : E.Lawful) (q r : ℚ) (g : E.G) :
    generateSolution E [⟨"s", Kind.string [[.num q, .num r]]⟩] [g] = .error .key := by
  have hlt := hE.choice_lt 2 g (by norm_num)
  have hcase : (E.choice 2 g).1 = 0 ∨ (E.choice 2 g).1 = 1 := by omega
  have hnum : ∀ t, Label.str t ∉ uniqueLabels [.num q, .num r] := by
    intro t h; rw [mem_uniqueLabels] at h; simp at h
  have hk : ∀ t, transform1 (uniqueLabels [.num q, .num r]) (.str t) = .error .key :=
    fun t => if_neg (hnum t)
  simp only [generateSolution, generateRaw, generate, mapGE, choiceLabel, List.map_cons, List.map_nil,
    List.length_cons, List.length_nil, Label.castStr, bind, Except.bind, pure, Except.pure]
  rcases hcase with h | h <;>
    simp [h, encodeSolution, encode, Val.toLabel, bind, Except.bind, hk]

example : (∀ v ∈ exVars, v.kind.StringLabels) := by
  simp only [exVars, List.mem_cons, List.not_mem_nil, or_false, forall_eq_or_imp, forall_eq]
  exact ⟨trivial, trivial, trivial, trivial, trivial, trivial⟩

/-! ## C11 -/

theorem fixZeros_has_one (E : VGen K) (hE : E.Lawful) {x : List K} (hx : x ≠ [])
    (hb : ∀ v ∈ x, v = 0 ∨ v = 1) (g : E.G) : (1 : K) ∈ (fixZeros E false x g).1 := by
  have hpos : 0 < x.length := List.length_pos_iff.2 hx
  unfold fixZeros
  simp only [Bool.false_eq_true, if_false]
  split
  · have h1 := hE.integers_ge 0 x.length g (by omega)
    have h2 := hE.integers_lt 0 x.length g (by omega)
    have hlt : (E.integers 0 x.length g).1.toNat < x.length := by omega
    exact List.mem_set hlt 1
  · rename_i hs
    rw [bits_sum_eq_zero hb] at hs
    push Not at hs
    obtain ⟨v, hv, hne⟩ := hs
    rcases hb v hv with h | h
    · exact absurd h hne
    · show (1 : K) ∈ x
      rwa [← h]

/-- **C11.** `TransferBinaryVar(all_zeros=False)`: `correct` returns a 0/1 vector with at least one 1;
with `all_zeros=True` it is still a 0/1 vector. -/
theorem C11_correct_never_all_zero (as : List K → List Nat) (E : VGen K) (hE : E.Lawful) {n : Nat}
    (hn : 1 ≤ n) (tf : K → K) (lb ub : K) (x : List K) (hx : x.length = n) (g : E.G) :
    (∀ az, (correct as E (.tbinary n tf lb ub az) x g).1.length = n
      ∧ ∀ v ∈ (correct as E (.tbinary n tf lb ub az) x g).1, v = 0 ∨ v = 1)
    ∧ (1 : K) ∈ (correct as E (.tbinary n tf lb ub false) x g).1 := by
  have hcl : ∀ az, (clipL x (Kind.tbinary n tf lb ub az).lb (Kind.tbinary n tf lb ub az).ub).length = n := by
    intro az
    rw [clipL_length (by simp [Kind.lb, hx]) (by simp [Kind.lb, Kind.ub]), hx]
  refine ⟨fun az => ⟨?_, ?_⟩, ?_⟩
  · simp only [correct]
    rw [fixZeros_length, transferBits_length, hcl]
  · exact fixZeros_bits E az _ _ (transferBits_bits E tf _ g)
  · refine fixZeros_has_one E hE ?_ (transferBits_bits E tf _ g) _
    intro h
    have h1 := congrArg List.length h
    rw [transferBits_length, hcl] at h1
    simp at h1; omega

/-- ... so does `decode` ... -/
theorem C11_decode_never_all_zero (as : List K → List Nat) (E : VGen K) (hE : E.Lawful) {n : Nat}
    (hn : 1 ≤ n) (tf : K → K) (lb ub : K) (x : List K) (hx : x.length = n) (g : E.G) :
    ∃ v g', decode as E (.tbinary n tf lb ub false) x g = .ok (v, g')
      ∧ v.length = n ∧ (∀ w ∈ v, w = .int 0 ∨ w = .int 1) ∧ .int 1 ∈ v := by
  obtain ⟨h1, h2⟩ := C11_correct_never_all_zero as E hE hn tf lb ub x hx g
  have t0 := trunc_intCast (K := K) 0
  have t1 := trunc_intCast (K := K) 1
  simp at t0 t1
  refine ⟨(correct as E (.tbinary n tf lb ub false) x g).1.map (fun v => .int (trunc v)), _, rfl,
    ?_, ?_, ?_⟩
  · rw [List.length_map, (h1 false).1]
  · intro w hw
    obtain ⟨v, hv, rfl⟩ := List.mem_map.1 hw
    rcases (h1 false).2 v hv with h | h
    · left; rw [h, t0]
    · right; rw [h, t1]
  · exact List.mem_map.2 ⟨1, h2, by rw [t1]⟩

/-- ... and `generate`. -/
theorem C11_generate_never_all_zero (E : VGen K) (hE : E.Lawful) {n : Nat}
    (hn : 1 ≤ n) (tf : K → K) (lb ub : K) (g : E.G) :
    ∃ v g', generate E (.tbinary n tf lb ub false) g = .ok (v, g')
      ∧ v.length = n ∧ (∀ w ∈ v, w = .int 0 ∨ w = .int 1) ∧ .int 1 ∈ v := by
  have t0 := trunc_intCast (K := K) 0
  have t1 := trunc_intCast (K := K) 1
  simp at t0 t1
  set x0 := (mapG (fun (_ : Nat) g => let (r, g) := E.integers 0 2 g; ((r : K), g)) (List.range n) g)
    with hx0
  have hb0 : ∀ v ∈ x0.1, v = 0 ∨ v = 1 := by
    refine mapG_forall (P := fun v => v = 0 ∨ v = 1) g ?_
    intro a _ g
    have h1 := hE.integers_ge 0 2 g (by omega)
    have h2 := hE.integers_lt 0 2 g (by omega)
    have : (E.integers 0 2 g).1 = 0 ∨ (E.integers 0 2 g).1 = 1 := by omega
    rcases this with h | h
    · left; show (((E.integers 0 2 g).1 : Int) : K) = 0; rw [h]; simp
    · right; show (((E.integers 0 2 g).1 : Int) : K) = 1; rw [h]; simp
  have hl0 : x0.1.length = n := by rw [hx0, mapG_length, List.length_range]
  refine ⟨(fixZeros E false x0.1 x0.2).1.map (fun v => .int (trunc v)), _, rfl, ?_, ?_, ?_⟩
  · rw [List.length_map, fixZeros_length, hl0]
  · intro w hw
    obtain ⟨v, hv, rfl⟩ := List.mem_map.1 hw
    rcases fixZeros_bits E false x0.1 x0.2 hb0 v hv with h | h
    · left; rw [h, t0]
    · right; rw [h, t1]
  · refine List.mem_map.2 ⟨1, fixZeros_has_one E hE ?_ hb0 _, by rw [t1]⟩
    intro h
    rw [h] at hl0; simp at hl0; omega

/-- With `all_zeros=True` the zero vector does occur (so the flag matters). -/
theorem C11_all_zeros_true_can_be_zero :
    (correct stableArgsort detVGen (.tbinary 3 (fun _ => (0 : ℚ)) 0 8 true) [1, 2, 3] (0 : Nat)).1
      = [0, 0, 0] := by
  have : ∀ g : Nat, ¬ ((g % 7 : Nat) : ℚ) / 7 < 0 := by
    intro g; push Not; positivity
  simp [correct, transferBits, mapG, detVGen, fixZeros, clipL, Kind.lb, Kind.ub, this]

example : detVGen.Lawful ∧ 1 ≤ 3 ∧ ([1, 2, 3] : List ℚ).length = 3 := ⟨detVGen_lawful, by norm_num, rfl⟩

/-! ## C12 -/

/-- **C12.** The effective lower bound of a transfer variable is the zero vector whatever `lb` was
passed, and `correct` does not depend on it. -/
theorem C12_lower_bound_ignored (as : List K → List Nat) (E : VGen K) (n : Nat) (tf : K → K)
    (lb lb' ub : K) (az : Bool) (x : List K) (g : E.G) :
    (Kind.tbinary n tf lb ub az).lb = List.replicate n 0
    ∧ (Kind.tbool n tf lb ub).lb = List.replicate n 0
    ∧ correct as E (.tbinary n tf lb ub az) x g = correct as E (.tbinary n tf lb' ub az) x g
    ∧ correct as E (.tbool n tf lb ub) x g = correct as E (.tbool n tf lb' ub) x g := by
  refine ⟨by simp [Kind.lb], by simp [Kind.lb], ?_, ?_⟩ <;> simp [correct, Kind.lb, Kind.ub]

/-- Hence the transfer function is only ever applied to non-negative inputs, and for an S-shaped one
(at least 1/2 on non-negative inputs) bit `i` of the corrected vector is
`1` exactly when a uniform draw falls below a threshold that is at least 1/2. -/
theorem C12_s_shaped_probability_at_least_half (as : List K → List Nat) (E : VGen K) (n : Nat)
    (tf : K → K) (htf : ∀ y, 0 ≤ y → 1 / 2 ≤ tf y) (lb ub : K) (hub : 0 ≤ ub) (x : List K)
    (hx : x.length = n) (g : E.G) :
    ∃ ts : List K, ts.length = n ∧ (∀ t ∈ ts, 1 / 2 ≤ t) ∧
      (correct as E (.tbool n tf lb ub) x g)
        = mapG (fun t g => ((if (E.random g).1 < t then 1 else 0 : K), (E.random g).2)) ts g
      ∧ ts = (x.map (fun v => tf (clip v 0 ub))) := by
  have hcl : clipL x (Kind.tbool n tf lb ub).lb (Kind.tbool n tf lb ub).ub
      = x.map (fun v => clip v 0 ub) := by
    simp only [Kind.lb, Kind.ub, mul_zero, mul_one]
    subst hx
    clear g
    induction x with
    | nil => rfl
    | cons a as ih => simp only [List.length_cons, List.replicate_succ, clipL_cons, List.map_cons, ih]
  have hmap : ∀ (l : List K) (g : E.G), transferBits E tf l g
      = mapG (fun t g => ((if (E.random g).1 < t then 1 else 0 : K), (E.random g).2)) (l.map tf) g := by
    intro l
    induction l with
    | nil => intro g; rfl
    | cons a as ih =>
      intro g
      have := ih (E.random g).2
      simp only [transferBits] at this
      simp only [transferBits, mapG, List.map_cons, this]
  refine ⟨x.map (fun v => tf (clip v 0 ub)), by simp [hx], ?_, ?_, rfl⟩
  · intro t ht
    obtain ⟨v, _, rfl⟩ := List.mem_map.1 ht
    exact htf _ (clip_mem hub).1
  · simp only [correct]
    rw [hcl, hmap, List.map_map]
    rfl

example : ∀ y : ℚ, 0 ≤ y → 1 / 2 ≤ (fun y => (1 + y) / (2 + y)) y := by
  intro y hy
  have h2 : (0 : ℚ) < 2 + y := by linarith
  show (1 : ℚ) / 2 ≤ (1 + y) / (2 + y)
  rw [le_div_iff₀ h2]; linarith

/-! ## C13 -/

/-- the raw values of `m` solutions generated one after the other -/
def generateMany (E : VGen K) (vars : List (Var K)) : Nat → List E.G →
    Except Err (List (List (List (Val K))))
  | 0, _ => .ok []
  | m + 1, gs => do
    let (x, gs) ← generateRaw E vars gs
    let xs ← generateMany E vars m gs
    pure (x :: xs)

theorem generateRaw_get (E : VGen K) : ∀ (vs : List (Var K)) (gs gs' : List E.G)
    (raw : List (List (Val K))), gs.length = vs.length → generateRaw E vs gs = .ok (raw, gs') →
    gs'.length = vs.length ∧ ∀ (i : Nat) (v : Var K) (g : E.G), vs[i]? = some v → gs[i]? = some g →
      ∃ w g', generate E v.kind g = .ok (w, g') ∧ raw[i]? = some w ∧ gs'[i]? = some g'
  | [], gs, gs', raw, hl, h => by
    cases gs <;> simp only [generateRaw, Except.ok.injEq, Prod.mk.injEq] at h <;>
      (obtain ⟨-, rfl⟩ := h; exact ⟨hl, by simp⟩)
  | v :: vs, [], _, _, hl, _ => by simp at hl
  | v :: vs, g :: gs, gs', raw, hl, h => by
    simp only [generateRaw, bind, Except.bind] at h
    split at h
    · cases h
    rename_i a ha
    split at h
    · cases h
    rename_i b hb
    simp only [pure, Except.pure, Except.ok.injEq, Prod.mk.injEq] at h
    obtain ⟨rfl, rfl⟩ := h
    obtain ⟨h1, h2⟩ := generateRaw_get E vs gs b.2 b.1 (by simpa using hl) hb
    refine ⟨by simpa using h1, ?_⟩
    intro i u g0 hu hg0
    cases i with
    | zero =>
      simp at hu hg0; subst hu; subst hg0
      exact ⟨a.1, a.2, ha, rfl, rfl⟩
    | succ i =>
      simp at hu hg0
      obtain ⟨w, g', h3, h4, h5⟩ := h2 i u g0 hu hg0
      exact ⟨w, g', h3, by simpa using h4, by simpa using h5⟩

/-- **C13.** After seeding a problem, two variables of the same kind receive equal values in every
solution ever generated: `x[i] = x[j]` in all `m` solutions, for every seed and every `m`. -/
theorem C13_equal_variables_equal_values (E : VGen K) (vars : List (Var K)) (seed : Int) (m : Nat)
    (sols : List (List (List (Val K))))
    (h : generateMany E vars m (setSeed E vars seed) = .ok sols) (i j : Nat) (vi vj : Var K)
    (hi : vars[i]? = some vi) (hj : vars[j]? = some vj) (hk : vi.kind = vj.kind) :
    sols.length = m ∧ ∀ x ∈ sols, ∃ w, x[i]? = some w ∧ x[j]? = some w := by
  have main : ∀ (m : Nat) (gs : List E.G) (sols : List (List (List (Val K)))),
      gs.length = vars.length → gs[i]? = gs[j]? → generateMany E vars m gs = .ok sols →
      sols.length = m ∧ ∀ x ∈ sols, ∃ w, x[i]? = some w ∧ x[j]? = some w := by
    intro m
    induction m with
    | zero => intro gs sols _ _ h; simp only [generateMany] at h; cases h; simp
    | succ m ih =>
      intro gs sols hl he h
      simp only [generateMany, bind, Except.bind] at h
      split at h
      · cases h
      rename_i a ha
      split at h
      · cases h
      rename_i b hb
      simp only [pure, Except.pure, Except.ok.injEq] at h
      subst h
      obtain ⟨h1, h2⟩ := generateRaw_get E vars gs a.2 a.1 hl ha
      have hil : i < gs.length := by rw [hl]; exact (List.getElem?_eq_some_iff.1 hi).1
      have hgi : gs[i]? = some gs[i] := List.getElem?_eq_getElem hil
      obtain ⟨w, g', a1, a2, a3⟩ := h2 i vi _ hi hgi
      obtain ⟨w', g'', b1, b2, b3⟩ := h2 j vj _ hj (he ▸ hgi)
      rw [hk, b1] at a1
      simp only [Except.ok.injEq, Prod.mk.injEq] at a1
      obtain ⟨e1, e2⟩ := a1
      subst e1; subst e2
      obtain ⟨h3, h4⟩ := ih a.2 b h1 (by rw [a3, b3]) hb
      refine ⟨by simp [h3], ?_⟩
      intro x hx
      rcases List.mem_cons.1 hx with rfl | hx
      · exact ⟨_, a2, b2⟩
      · exact h4 x hx
  refine main m _ sols (by simp [setSeed]) ?_ h
  simp only [setSeed]; rw [List.getElem?_map, List.getElem?_map, hi, hj]; rfl

example : ∃ sols, generateMany detVGen
    [⟨"x", Kind.float [(0 : ℚ)] [1]⟩, ⟨"y", .float [0] [1]⟩] 3 (setSeed detVGen
      [⟨"x", Kind.float [(0 : ℚ)] [1]⟩, ⟨"y", .float [0] [1]⟩] 42) = .ok sols := ⟨_, rfl⟩

end Mealpy
