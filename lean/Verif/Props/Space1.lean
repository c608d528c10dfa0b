import Verif.SpaceWitness

/-!
# C01, C02, C08: repairing a solution vector

`as` is `np.argsort` (any behaviour allowed on ties, `ArgsortLaw`), `E` the variables' generators.
-/

set_option linter.unusedSectionVars false

namespace Mealpy

open Space

variable {K : Type} [Field K] [LinearOrder K] [IsStrictOrderedRing K] [FloorRing K]

/-! ## C01 -/

/-- **C01.** `correct_solution(x)` has `n_dims` coordinates and each lies between `problem.lb` and
`problem.ub`. -/
theorem C01_correct_solution_in_box {as : List K → List Nat} (has : ArgsortLaw as) (E : VGen K)
    (vars : List (Var K)) (hwf : ∀ v ∈ vars, v.kind.WF) (x : List K)
    (hx : x.length = nDims vars) (gs : List E.G) (hgs : gs.length = vars.length) :
    InBoxL (problemLb vars) (problemUb vars) (correctSolution as E vars x gs).1
    ∧ (correctSolution as E vars x gs).1.length = nDims vars := by
  have h := correctFrom_inBox has E x vars 0 gs hwf hgs (by omega)
  exact ⟨h, h.length.1⟩

/-- ... coordinate by coordinate. -/
theorem C01_correct_solution_coordinate {as : List K → List Nat} (has : ArgsortLaw as) (E : VGen K)
    (vars : List (Var K)) (hwf : ∀ v ∈ vars, v.kind.WF) (x : List K)
    (hx : x.length = nDims vars) (gs : List E.G) (hgs : gs.length = vars.length)
    (i : Nat) (hi : i < nDims vars) :
    ∃ l u v, (problemLb vars)[i]? = some l ∧ (problemUb vars)[i]? = some u ∧
      (correctSolution as E vars x gs).1[i]? = some v ∧ l ≤ v ∧ v ≤ u := by
  obtain ⟨h, hl⟩ := C01_correct_solution_in_box has E vars hwf x hx gs hgs
  have hi1 : i < (problemLb vars).length := hi
  have hi2 : i < (correctSolution as E vars x gs).1.length := by omega
  have hi3 : i < (problemUb vars).length := by rw [← h.length.2]; exact hi2
  refine ⟨_, _, _, List.getElem?_eq_getElem hi1, List.getElem?_eq_getElem hi3,
    List.getElem?_eq_getElem hi2, ?_⟩
  exact h.get i _ _ _ (List.getElem?_eq_getElem hi1) (List.getElem?_eq_getElem hi3)
    (List.getElem?_eq_getElem hi2)

/-- The hypothesis `lb ≤ ub` is needed: the constructor accepts inverted bounds, and then the
"repaired" coordinate is below `problem.lb`. -/
theorem C01_inverted_bounds_escape :
    mkFloat [(1 : ℚ)] [0] = .ok (.float [1] [0]) ∧
    ¬ InBoxL (problemLb [⟨"x", Kind.float [(1 : ℚ)] [0]⟩]) (problemUb [⟨"x", Kind.float [(1 : ℚ)] [0]⟩])
      (correctSolution stableArgsort detVGen [⟨"x", Kind.float [(1 : ℚ)] [0]⟩] [5] [(0 : Nat)]).1 := by
  refine ⟨by simp [mkFloat], ?_⟩
  rintro ⟨h, _⟩
  have : (1 : ℚ) ≤ clip (5 : ℚ) 1 0 := h
  norm_num [clip] at this

/-- A transfer variable whose upper bound is below 1 can be "repaired" to the value 1 outside its
box. -/
theorem C01_transfer_small_ub_escape :
    ¬ InBoxL (problemLb [⟨"x", Kind.tbinary 1 (fun _ => (1 : ℚ)) 0 (1 / 2) true⟩])
      (problemUb [⟨"x", Kind.tbinary 1 (fun _ => (1 : ℚ)) 0 (1 / 2) true⟩])
      (correctSolution stableArgsort detVGen
        [⟨"x", Kind.tbinary 1 (fun _ => (1 : ℚ)) 0 (1 / 2) true⟩] [5] [(0 : Nat)]).1 := by
  rintro ⟨-, h, -⟩
  have h0 : (0 : Nat) % 7 = 0 := rfl
  have : (if ((((0 : Nat) % 7 : Nat) : ℚ) / 7 < 1) then (1 : ℚ) else 0) ≤ 1 / 2 * 1 := h
  norm_num at this

/-- a problem with six kinds of variables -/
def exVars : List (Var ℚ) :=
  [⟨"f", .float [-1, 0] [1, 5]⟩, ⟨"i", .integer [-2] [3]⟩,
   ⟨"c", .categorical [[.str "a", .str "b", .none]]⟩, ⟨"p", .permutation [.num 1, .num 2, .num 3]⟩,
   ⟨"b", .bool 2⟩, ⟨"t", .tbinary 2 (fun _ => 1 / 2) (-8) 8 false⟩]

theorem exVars_wf : ∀ v ∈ exVars, v.kind.WF := by
  simp only [exVars, List.mem_cons, List.not_mem_nil, or_false, forall_eq_or_imp, forall_eq]
  refine ⟨?_, ?_, ?_, ?_, ?_, ?_⟩ <;> simp [Kind.WF]
  norm_num

example : ∃ (x : List ℚ) (gs : List detVGen.G), (∀ v ∈ exVars, v.kind.WF)
    ∧ x.length = nDims exVars ∧ gs.length = exVars.length ∧ nDims exVars = 11 :=
  ⟨[9, -7, 2, 5, 3, 1, 2, 0, 1, 4, 4], [(0 : Nat), (0 : Nat), (0 : Nat), (0 : Nat), (0 : Nat), (0 : Nat)],
    exVars_wf, by simp [exVars, nDims_cons, Kind.n]; rfl, rfl, by simp [exVars, nDims_cons, Kind.n]; rfl⟩

/-! ## C02 -/

/-- the kinds C02 claims to be idempotent -/
def Kind.Stable : Kind K → Prop
  | .permutation _ => False
  | .tbinary _ _ _ _ _ => False
  | .tbool _ _ _ _ => False
  | _ => True

/-- **C02.** Repairing a repaired point changes nothing (for every kind listed in the property,
whatever the bounds, label sets, input vector and generator). -/
theorem C02_correct_idempotent (as : List K → List Nat) (E : VGen K) {k : Kind K}
    (hk : Kind.Stable k) (hwf : k.WF) {x : List K} (hx : x.length = k.n) (g g' : E.G) :
    (correct as E k (correct as E k x g).1 g').1 = (correct as E k x g).1 := by
  have hz : ∀ {lb ub : List K}, (∀ l ∈ lb, l = 0) → x.length = lb.length →
      List.Forall₂ (· ≤ ·) lb ub →
      (clipL ((clipL x lb ub).map (fun y => (trunc y : K))) lb ub).map (fun y => (trunc y : K))
        = (clipL x lb ub).map (fun y => (trunc y : K)) := by
    intro lb ub h0 hl hle
    have h1 := map_trunc_inBox h0 (clipL_inBox hl hle)
    rw [clipL_of_inBox h1, List.map_map]
    apply List.map_congr_left
    intro a _
    simp [trunc_intCast]
  have hb := Kind.bounds_le hwf
  have hl : x.length = k.lb.length := by rw [hx, k.lb_length]
  cases k with
  | float lb ub => exact clipL_idem _ _ _
  | integer lb ub => exact clipL_idem _ _ _
  | binary n => exact clipL_idem _ _ _
  | bool n => exact clipL_idem _ _ _
  | string sets => exact hz (by simp [Kind.lb]) hl hb
  | categorical sets => exact hz (by simp [Kind.lb]) hl hb
  | sequence sets => exact hz (by simp [Kind.lb]) hl hb
  | permutation set => exact hk.elim
  | tbinary n tf l u az => exact hk.elim
  | tbool n tf l u => exact hk.elim

/-- ... and a point already inside the box of a float, integer, binary or Boolean variable is left
exactly as it is: repair does not disturb feasible points. -/
theorem C02_correct_fixes_feasible (as : List K → List Nat) (E : VGen K) {k : Kind K}
    (hk : match k with | .float _ _ | .integer _ _ | .binary _ | .bool _ => True | _ => False)
    {x : List K} (hx : InBoxL k.lb k.ub x) (g : E.G) :
    correct as E k x g = (x, g) := by
  cases k with
  | float lb ub => simp only [correct]; rw [clipL_of_inBox hx]
  | integer lb ub => simp only [correct]; rw [clipL_of_inBox hx]
  | binary n => simp only [correct]; rw [clipL_of_inBox hx]
  | bool n => simp only [correct]; rw [clipL_of_inBox hx]
  | _ => exact hk.elim

/-- `PermutationVar` is not idempotent, whatever `np.argsort` does on ties: repairing `[1,2,0]` gives
`[2,0,1]`, and repairing that gives `[1,2,0]`. -/
theorem C02_permutation_not_idempotent :
    ¬ ∀ (as : List ℚ → List Nat) (_ : ArgsortLaw as) (set : List Label) (x : List ℚ) (g : detVGen.G),
      x.length = set.length →
      (correct as detVGen (.permutation set) (correct as detVGen (.permutation set) x g).1 g).1
        = (correct as detVGen (.permutation set) x g).1 := by
  intro h
  have h1 := argsort_twice (K := ℚ) stableArgsort_law (p := [1, 2, 0]) (n := 3) (by decide)
  have h2 := h stableArgsort stableArgsort_law [.num 1, .num 2, .num 3] [1, 2, 0] (0 : Nat) rfl
  have e : ([1, 2, 0] : List ℚ) = ([1, 2, 0] : List Nat).map (fun i : Nat => (i : ℚ)) := by
    simp
  simp only [correct] at h2
  rw [e, h1] at h2
  have h3 := argsort_perm_inverse (K := ℚ) stableArgsort_law (p := [1, 2, 0]) (n := 3) (by decide) 0
    (by norm_num)
  have h4 := congrArg (fun l : List ℚ => l[0]?) h2
  simp only [List.getElem?_map] at h4
  cases hq : (stableArgsort (([1, 2, 0] : List Nat).map (fun i : Nat => (i : ℚ))))[0]? with
  | none => rw [hq] at h3; simp at h3
  | some j =>
    rw [hq] at h3 h4
    simp only [Option.bind_some] at h3
    simp at h4
    have : j = 1 := by exact_mod_cast h4.symm
    subst this
    simp at h3

/-- ... but repairing a permutation variable three times equals repairing it once. -/
theorem C02_permutation_three_times {as : List K → List Nat} (has : ArgsortLaw as) (E : VGen K)
    (set : List Label) (x : List K) (g g' g'' : E.G) :
    (correct as E (.permutation set) (correct as E (.permutation set)
      (correct as E (.permutation set) x g).1 g').1 g'').1
      = (correct as E (.permutation set) x g).1 := by
  simp only [correct]
  rw [argsort_twice has (has.perm x)]

/-- whole vectors: a problem made of stable variables repairs idempotently -/
theorem C02_correct_solution_idempotent {as : List K → List Nat} (has : ArgsortLaw as) (E : VGen K)
    (vars : List (Var K)) (hwf : ∀ v ∈ vars, v.kind.WF) (hst : ∀ v ∈ vars, Kind.Stable v.kind)
    (x : List K) (hx : x.length = nDims vars) (gs gs' : List E.G) (hgs : gs.length = vars.length)
    (hgs' : gs'.length = vars.length) :
    (correctSolution as E vars (correctSolution as E vars x gs).1 gs').1
      = (correctSolution as E vars x gs).1 := by
  have main : ∀ (vs : List (Var K)) (pre x : List K) (gs gs' : List E.G),
      (∀ v ∈ vs, v.kind.WF) → (∀ v ∈ vs, Kind.Stable v.kind) → gs.length = vs.length →
      gs'.length = vs.length → ∀ off, off + nDims vs ≤ x.length →
      (correctFrom as E (pre ++ (correctFrom as E x vs off gs).1) vs pre.length gs').1
        = (correctFrom as E x vs off gs).1 := by
    intro vs
    induction vs with
    | nil => intro pre x gs gs' _ _ _ _ off _; simp [correctFrom]
    | cons v vs ih =>
      intro pre x gs gs' hwf hst hg hg' off hoff
      match gs, gs', hg, hg' with
      | g :: gs, g' :: gs', hg, hg' =>
        rw [nDims_cons] at hoff
        have hlen : ((x.drop off).take v.kind.n).length = v.kind.n := by
          rw [List.length_take, List.length_drop]; omega
        have hc := correct_length has E (hwf v (by simp)) hlen g
        simp only [correctFrom]
        have hslice : (List.drop pre.length (pre ++ ((correct as E v.kind ((x.drop off).take v.kind.n) g).1
            ++ (correctFrom as E x vs (off + v.kind.n) gs).1))).take v.kind.n
            = (correct as E v.kind ((x.drop off).take v.kind.n) g).1 := by
          rw [List.drop_left, List.take_append_of_le_length (by omega), List.take_of_length_le (by omega)]
        rw [hslice, C02_correct_idempotent as E (hst v (by simp)) (hwf v (by simp)) hlen]
        congr 1
        have := ih (pre ++ (correct as E v.kind ((x.drop off).take v.kind.n) g).1) x gs gs'
          (fun w hw => hwf w (List.mem_cons_of_mem _ hw)) (fun w hw => hst w (List.mem_cons_of_mem _ hw))
          (by simpa using hg) (by simpa using hg') (off + v.kind.n) (by omega)
        rw [List.length_append, hc, List.append_assoc] at this
        exact this
  have := main vars [] x gs gs' hwf hst hgs hgs' 0 (by omega)
  simpa [correctSolution] using this

example : Kind.Stable (Kind.categorical (K := ℚ) [[.str "a", .none]])
    ∧ (Kind.categorical (K := ℚ) [[.str "a", .none]]).WF
    ∧ ([7] : List ℚ).length = (Kind.categorical (K := ℚ) [[.str "a", .none]]).n := by
  simp [Kind.Stable, Kind.WF, Kind.n]

/-! ## C08 -/

/-- **C08.** `correct_solution` acts slice by slice: the coordinates of variable `i` in the result
are that variable's own repair of its own slice, with its own generator. -/
theorem C08_correct_slice {as : List K → List Nat} (has : ArgsortLaw as) (E : VGen K)
    (vars : List (Var K)) (hwf : ∀ v ∈ vars, v.kind.WF) (x : List K)
    (hx : x.length = nDims vars) (gs : List E.G) (hgs : gs.length = vars.length)
    (i : Nat) (v : Var K) (g : E.G) (hv : vars[i]? = some v) (hg : gs[i]? = some g) :
    ((correctSolution as E vars x gs).1.drop (offset vars i)).take v.kind.n
      = (correct as E v.kind ((x.drop (offset vars i)).take v.kind.n) g).1 := by
  have := (correctFrom_slice has E x vars 0 gs hwf hgs (by omega) i v g hv hg).1
  simpa [correctSolution] using this

/-- Non-interference: two vectors that agree on variable `i`'s slice are repaired alike there, even
if the other variables' slices and generators differ. -/
theorem C08_correct_noninterference {as : List K → List Nat} (has : ArgsortLaw as) (E : VGen K)
    (vars : List (Var K)) (hwf : ∀ v ∈ vars, v.kind.WF) (x x' : List K)
    (hx : x.length = nDims vars) (hx' : x'.length = nDims vars) (gs gs' : List E.G)
    (hgs : gs.length = vars.length) (hgs' : gs'.length = vars.length)
    (i : Nat) (v : Var K) (hv : vars[i]? = some v) (hg : gs[i]? = gs'[i]?)
    (hsame : (x.drop (offset vars i)).take v.kind.n = (x'.drop (offset vars i)).take v.kind.n) :
    ((correctSolution as E vars x gs).1.drop (offset vars i)).take v.kind.n
      = ((correctSolution as E vars x' gs').1.drop (offset vars i)).take v.kind.n := by
  have hi : i < vars.length := (List.getElem?_eq_some_iff.1 hv).1
  have hgi : gs[i]? = some (gs[i]'(by omega)) := List.getElem?_eq_getElem (by omega)
  rw [C08_correct_slice has E vars hwf x hx gs hgs i v _ hv hgi,
    C08_correct_slice has E vars hwf x' hx' gs' hgs' i v _ hv (hg ▸ hgi), hsame]

/-- `n_dims` is the sum of the variables' `n_vars`, and slices tile the vector: each starts where the
previous one ends. -/
theorem C08_n_dims (vars : List (Var K)) :
    nDims vars = (vars.map (fun v => v.kind.n)).sum
    ∧ offset vars 0 = 0 ∧ offset vars vars.length = nDims vars
    ∧ ∀ i v, vars[i]? = some v → offset vars (i + 1) = offset vars i + v.kind.n := by
  refine ⟨nDims_eq vars, by simp [offset, nDims, problemLb], by simp [offset], ?_⟩
  intro i v hv
  have hi : i < vars.length := (List.getElem?_eq_some_iff.1 hv).1
  have hvi : vars[i] = v := (List.getElem?_eq_some_iff.1 hv).2
  simp only [offset, nDims_eq]
  rw [List.take_add_one, hv]
  simp

/-- `decode_solution`: the entry under the name of variable `i` is the decoding of variable `i`'s own
slice, provided no later variable has the same name. -/
theorem C08_decode_entry (as : List K → List Nat) (E : VGen K) (vars : List (Var K)) (x : List K)
    (gs gs' : List E.G) (d : List (String × Entry K))
    (h : decodeSolution as E vars x gs = .ok (d, gs'))
    (i : Nat) (v : Var K) (g : E.G) (hv : vars[i]? = some v) (hg : gs[i]? = some g)
    (hlast : ∀ j w, i < j → vars[j]? = some w → w.name ≠ v.name) :
    ∃ y g' e, decode as E v.kind ((x.drop (offset vars i)).take v.kind.n) g = .ok (y, g')
      ∧ unwrap v.kind.n y = .ok e ∧ dictGet d v.name = some e := by
  have := decodeFrom_lookup as E x vars 0 gs [] d gs' h i v g hv hg hlast
  simpa using this

/-- With distinct names the decoded dictionary has exactly one entry per variable, in order. -/
theorem C08_decode_one_entry_per_variable (as : List K → List Nat) (E : VGen K)
    (vars : List (Var K)) (x : List K) (gs gs' : List E.G) (hgs : gs.length = vars.length)
    (d : List (String × Entry K)) (h : decodeSolution as E vars x gs = .ok (d, gs'))
    (hn : (vars.map (·.name)).Nodup) : d.map (·.1) = vars.map (·.name) := by
  have := decodeFrom_keys as E x vars 0 gs [] d gs' hgs h (by simpa using hn)
  simpa using this

/-- In general the dictionary has one entry per distinct name: variables that share a name share
one entry. -/
theorem C08_decode_one_entry_per_name (as : List K → List Nat) (E : VGen K)
    (vars : List (Var K)) (x : List K) (gs gs' : List E.G) (hgs : gs.length = vars.length)
    (d : List (String × Entry K)) (h : decodeSolution as E vars x gs = .ok (d, gs')) :
    (d.map (·.1)).Nodup ∧ ∀ k, k ∈ d.map (·.1) ↔ k ∈ vars.map (·.name) := by
  have := decodeFrom_keys_general as E x vars 0 gs [] d gs' hgs h (by simp)
  simpa using this

/-- Two variables with the same name: the dictionary has a single entry and it is the later
variable's, whatever the earlier one decoded to. -/
theorem C08_same_name_later_wins (as : List K → List Nat) (E : VGen K) (n : String)
    (k₁ k₂ : Kind K) (x : List K) (g₁ g₂ : E.G) (gs' : List E.G) (d : List (String × Entry K))
    (h : decodeSolution as E [⟨n, k₁⟩, ⟨n, k₂⟩] x [g₁, g₂] = .ok (d, gs')) :
    d.map (·.1) = [n] ∧ ∃ y g' e, decode as E k₂ ((x.drop k₁.n).take k₂.n) g₂ = .ok (y, g')
      ∧ unwrap k₂.n y = .ok e ∧ dictGet d n = some e := by
  have h1 := C08_decode_entry as E _ x _ gs' d h 1 ⟨n, k₂⟩ g₂ rfl rfl (by
    intro j w hj hw
    exfalso
    have := (List.getElem?_eq_some_iff.1 hw).1
    simp at this; omega)
  have hoff : offset [⟨n, k₁⟩, (⟨n, k₂⟩ : Var K)] 1 = k₁.n := by
    simp [offset, nDims_eq]
  rw [hoff] at h1
  refine ⟨?_, h1⟩
  obtain ⟨h2, h3⟩ := C08_decode_one_entry_per_name as E _ x _ gs' rfl d h
  have h4 : (d.map (·.1)).Perm [n] := by
    rw [List.perm_ext_iff_of_nodup h2 (by simp)]
    intro k; rw [h3]; simp
  exact List.perm_singleton.1 h4

example : ∃ d gs', decodeSolution stableArgsort detVGen
    [⟨"a", Kind.float [(0 : ℚ)] [1]⟩, ⟨"a", Kind.binary 1⟩] [3, 1] [(0 : Nat), (0 : Nat)]
      = .ok (d, gs') := ⟨_, _, rfl⟩

example : ∃ d gs', decodeSolution stableArgsort detVGen
    [⟨"a", Kind.float [(0 : ℚ)] [1]⟩, ⟨"b", Kind.integer [0, 1] [5, 6]⟩] [3, 1, 2]
      [(0 : Nat), (0 : Nat)] = .ok (d, gs') ∧ d.length = 2 := ⟨_, _, rfl, rfl⟩

end Mealpy
