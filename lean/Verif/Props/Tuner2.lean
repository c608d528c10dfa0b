import Verif.Tuner
import Mathlib.Data.List.Basic
import Mathlib.Data.List.Forall2
import Mathlib.Order.Defs.LinearOrder
import Mathlib.Data.List.MinMax
import Mathlib.Algebra.Order.Ring.Rat
import Mathlib.Tactic.Linarith

/-!
# C44, C45: which combination `Tuner` selects, and which runs it makes
-/

set_option linter.unusedSectionVars false

namespace Mealpy
open Tuner Spec

variable {κ V σ P K : Type}

theorem Tuner.length_filter_le {α : Type} {p q : α → Bool} {l : List α} (h : ∀ a ∈ l, p a = true → q a = true) :
    (l.filter p).length ≤ (l.filter q).length := by
  induction l with
  | nil => exact Nat.le_refl _
  | cons a t ih =>
    have ih := ih (fun b hb => h b (by simp [hb]))
    by_cases hp : p a = true
    · have hq := h a (by simp) hp
      simp only [List.filter_cons, hp, hq, if_true, List.length_cons]
      omega
    · simp only [List.filter_cons, hp]
      split
      · rename_i hc; exact absurd hc (by simp)
      · split
        · simp only [List.length_cons]; omega
        · exact ih

theorem Tuner.length_filter_lt {α : Type} {p q : α → Bool} {l : List α} (h : ∀ a ∈ l, p a = true → q a = true)
    {x : α} (hx : x ∈ l) (hp : p x = false) (hq : q x = true) : (l.filter p).length < (l.filter q).length := by
  induction l with
  | nil => cases hx
  | cons a t ih =>
    have hle := Tuner.length_filter_le (l := t) (fun b hb => h b (by simp [hb]))
    by_cases hax : x = a
    · subst hax
      simp only [List.filter_cons, hp, hq, if_true, List.length_cons, Bool.false_eq_true, if_false]
      omega
    · have ih := ih (fun b hb => h b (by simp [hb])) (by simpa [hax] using hx)
      by_cases hpa : p a = true
      · have hqa := h a (by simp) hpa
        simp only [List.filter_cons, hpa, hqa, if_true, List.length_cons]
        omega
      · simp only [List.filter_cons, hpa]
        split
        · rename_i hc; exact absurd hc (by simp)
        · split
          · simp only [List.length_cons]; omega
          · exact ih

/-- a strictly smaller value gets a strictly smaller ascending rank -/
theorem Tuner.rank2_asc [LinearOrder K] {col : List K} {x y : K} (hx : x ∈ col) (hy : y ∈ col) (h : x < y) :
    rank2 true col x < rank2 true col y := by
  unfold rank2
  simp only [if_true]
  have h1 : (col.filter (fun z => decide (z < x))).length + (col.filter (fun z => decide (z = x))).length ≤
      (col.filter (fun z => decide (z < y))).length := by
    clear hx hy
    induction col with
    | nil => exact Nat.le_refl _
    | cons a t ih =>
      simp only [List.filter_cons, decide_eq_true_eq]
      rcases lt_trichotomy a x with hax | hax | hax
      · simp only [hax, hax.ne, hax.trans h, if_true, if_false, List.length_cons]; omega
      · subst hax
        simp only [lt_irrefl, h, if_true, if_false, List.length_cons]; omega
      · simp only [hax.not_gt, hax.ne', if_false]
        split
        · simp only [List.length_cons]; omega
        · exact ih
  have h2 : 0 < (col.filter (fun z => decide (z = x))).length :=
    List.length_pos_of_mem (List.mem_filter.2 ⟨hx, by simp⟩)
  have h3 : 0 < (col.filter (fun z => decide (z = y))).length :=
    List.length_pos_of_mem (List.mem_filter.2 ⟨hy, by simp⟩)
  omega

/-- a strictly smaller value gets a strictly larger descending rank -/
theorem Tuner.rank2_desc [LinearOrder K] {col : List K} {x y : K} (hx : x ∈ col) (hy : y ∈ col) (h : x < y) :
    rank2 false col y < rank2 false col x := by
  unfold rank2
  simp only [Bool.false_eq_true, if_false]
  have h1 : (col.filter (fun z => decide (y < z))).length + (col.filter (fun z => decide (z = y))).length ≤
      (col.filter (fun z => decide (x < z))).length := by
    clear hx hy
    induction col with
    | nil => exact Nat.le_refl _
    | cons a t ih =>
      simp only [List.filter_cons, decide_eq_true_eq]
      rcases lt_trichotomy a y with hax | hax | hax
      · simp only [hax.not_gt, hax.ne, if_false]
        split
        · simp only [List.length_cons]; omega
        · exact ih
      · subst hax
        simp only [lt_irrefl, h, if_true, if_false, List.length_cons]; omega
      · simp only [hax, hax.ne', h.trans hax, if_true, if_false, List.length_cons]; omega
  have h2 : 0 < (col.filter (fun z => decide (z = x))).length :=
    List.length_pos_of_mem (List.mem_filter.2 ⟨hx, by simp⟩)
  have h3 : 0 < (col.filter (fun z => decide (z = y))).length :=
    List.length_pos_of_mem (List.mem_filter.2 ⟨hy, by simp⟩)
  omega

theorem Tuner.tupleLt_iff {a b : Nat × Nat} : tupleLt a b = true ↔ a.1 < b.1 ∨ (a.1 = b.1 ∧ a.2 < b.2) := by
  unfold tupleLt; simp

/-- the least dense rank belongs to a tuple with no better tuple -/
theorem Tuner.denseRank_lt {asc : Bool} {col : List (Nat × Nat)} {x y : Nat × Nat} (hy : y ∈ col)
    (h : (if asc then tupleLt y x else tupleLt x y) = true) : denseRank asc col y < denseRank asc col x := by
  unfold denseRank
  refine Nat.add_lt_add_left (Tuner.length_filter_lt (x := y) ?_ (List.mem_eraseDups.2 hy) ?_ h) 1
  · intro a _ ha
    cases asc <;> simp only [Bool.false_eq_true, if_false, if_true, Tuner.tupleLt_iff] at h ha ⊢ <;> omega
  · cases asc <;> simp [tupleLt]

theorem Tuner.bestRow_spec [LinearOrder K] {mean std : List K → K} {asc : Bool} {rows : List (Row P K)} {r : Row P K}
    (h : bestRow mean std asc rows = .ok r) : r ∈ rows ∧ ∀ r' ∈ rows, mean r.fits ≤ mean r'.fits ∧
      (mean r'.fits = mean r.fits → std r.fits ≤ std r'.fits) := by
  unfold bestRow at h
  dsimp only at h
  generalize hmeans : rows.map (fun r => mean r.fits) = means at h
  generalize hstds : rows.map (fun r => std r.fits) = stds at h
  generalize htup : rows.map (fun r => (rank2 asc means (mean r.fits), rank2 asc stds (std r.fits))) = tuples at h
  split at h
  · cases h
  rename_i m hm
  split at h
  · cases h
  rename_i p hp
  injection h with h
  subst h
  have hpm := List.mem_of_find?_eq_some hp
  have hpe := List.find?_some hp
  simp only [beq_iff_eq] at hpe
  obtain ⟨i, hi, he⟩ := List.getElem_of_mem hpm
  have hi' := hi
  rw [List.length_zip] at hi'
  have hrow : p.1 = rows[i]'(by omega) := by rw [← he]; simp
  have hrank : p.2 = denseRank asc tuples (rank2 asc means (mean p.1.fits), rank2 asc stds (std p.1.fits)) := by
    rw [← he]
    subst htup
    simp
  have hmem : p.1 ∈ rows := by rw [hrow]; exact List.getElem_mem _
  have hmin : ∀ t ∈ tuples, denseRank asc tuples (rank2 asc means (mean p.1.fits), rank2 asc stds (std p.1.fits)) ≤
      denseRank asc tuples t := by
    intro t ht
    rw [← hrank, hpe]
    exact (List.min?_eq_some_iff.1 hm).2 _ (List.mem_map_of_mem ht)
  have hnone : ∀ r' ∈ rows, ¬ (if asc then
      tupleLt (rank2 asc means (mean r'.fits), rank2 asc stds (std r'.fits)) (rank2 asc means (mean p.1.fits), rank2 asc stds (std p.1.fits))
      else tupleLt (rank2 asc means (mean p.1.fits), rank2 asc stds (std p.1.fits)) (rank2 asc means (mean r'.fits), rank2 asc stds (std r'.fits))) = true := by
    intro r' hr' hlt
    have hin : (rank2 asc means (mean r'.fits), rank2 asc stds (std r'.fits)) ∈ tuples := by
      rw [← htup]; exact List.mem_map_of_mem (f := fun r => (rank2 asc means (mean r.fits), rank2 asc stds (std r.fits))) hr'
    exact absurd (Tuner.denseRank_lt hin hlt) (not_lt.2 (hmin _ hin))
  have inm : ∀ r' ∈ rows, mean r'.fits ∈ means := by
    intro r' hr'; rw [← hmeans]; exact List.mem_map_of_mem (f := fun r => mean r.fits) hr'
  have ins : ∀ r' ∈ rows, std r'.fits ∈ stds := by
    intro r' hr'; rw [← hstds]; exact List.mem_map_of_mem (f := fun r => std r.fits) hr'
  refine ⟨hmem, fun r' hr' => ⟨?_, ?_⟩⟩
  · by_contra hc
    rw [not_le] at hc
    apply hnone r' hr'
    cases asc with
    | true =>
      simp only [if_true, Tuner.tupleLt_iff]
      exact .inl (Tuner.rank2_asc (inm r' hr') (inm _ hmem) hc)
    | false =>
      simp only [Bool.false_eq_true, if_false, Tuner.tupleLt_iff]
      exact .inl (Tuner.rank2_desc (inm r' hr') (inm _ hmem) hc)
  · intro heq
    by_contra hc
    rw [not_le] at hc
    apply hnone r' hr'
    cases asc with
    | true =>
      simp only [if_true, Tuner.tupleLt_iff]
      exact .inr ⟨by rw [heq], Tuner.rank2_asc (ins r' hr') (ins _ hmem) hc⟩
    | false =>
      simp only [Bool.false_eq_true, if_false, Tuner.tupleLt_iff]
      exact .inr ⟨by rw [heq], Tuner.rank2_desc (ins r' hr') (ins _ hmem) hc⟩

theorem Tuner.bestRow_ok [LinearOrder K] (mean std : List K → K) (asc : Bool) {rows : List (Row P K)} (hne : rows ≠ []) :
    ∃ r, bestRow mean std asc rows = .ok r := by
  unfold bestRow
  dsimp only
  generalize hr : (rows.map _).map _ = ranks
  have hlen : ranks.length = rows.length := by rw [← hr]; simp
  cases hm : ranks.min? with
  | none =>
    rw [List.min?_eq_none_iff] at hm
    rw [hm] at hlen
    exact absurd (List.length_eq_zero_iff.1 hlen.symm) hne
  | some m =>
    dsimp only
    have hmem := (List.min?_eq_some_iff.1 hm).1
    obtain ⟨i, hi, he⟩ := List.getElem_of_mem hmem
    cases hf : (rows.zip ranks).find? (fun p => p.2 == m) with
    | some p => exact ⟨p.1, rfl⟩
    | none =>
      rw [List.find?_eq_none] at hf
      have hz : i < (rows.zip ranks).length := by rw [List.length_zip]; omega
      have := hf _ (List.getElem_mem hz)
      simp [he] at this

/-- C44, minimisation: the selected row has the least mean, and the least standard deviation among the
rows with that mean; a non-empty table always yields a row. -/
theorem C44_min_selects_best [LinearOrder K] (mean std : List K → K) (rows : List (Row P K)) (hne : rows ≠ []) :
    ∃ asc r, ascendingOf (.dict (some "min")) = .ok asc ∧ bestRow mean std asc rows = .ok r ∧ r ∈ rows ∧
      ∀ r' ∈ rows, NoWorse .min (mean r.fits) (mean r'.fits) ∧
        (mean r'.fits = mean r.fits → std r.fits ≤ std r'.fits) := by
  obtain ⟨r, hr⟩ := Tuner.bestRow_ok mean std true hne
  obtain ⟨h1, h2⟩ := Tuner.bestRow_spec hr
  exact ⟨true, r, rfl, hr, h1, h2⟩

/-- C44, maximisation: the selected row has the WORST mean: every combination is at least as good. -/
theorem C44_max_selects_worst [LinearOrder K] (mean std : List K → K) (rows : List (Row P K)) (hne : rows ≠ []) :
    ∃ asc r, ascendingOf (.dict (some "max")) = .ok asc ∧ bestRow mean std asc rows = .ok r ∧ r ∈ rows ∧
      ∀ r' ∈ rows, NoWorse .max (mean r'.fits) (mean r.fits) := by
  obtain ⟨r, hr⟩ := Tuner.bestRow_ok mean std false hne
  obtain ⟨h1, h2⟩ := Tuner.bestRow_spec hr
  exact ⟨false, r, rfl, hr, h1, fun r' hr' => (h2 r' hr').1⟩

/-- C44: three combinations with means 5, 1, 9: the second is chosen, for `min` and for `max` alike. -/
example : let rows : List (Row String ℚ) := [⟨"a", [some 4, some 6]⟩, ⟨"b", [some 1, some 1]⟩, ⟨"c", [some 9, some 9]⟩]
    let mean := fun l : List ℚ => l.sum / l.length
    bestRow mean (fun l => l.sum) true rows = .ok ⟨"b", [some 1, some 1]⟩ ∧
    bestRow mean (fun l => l.sum) false rows = .ok ⟨"b", [some 1, some 1]⟩ := by
  decide +kernel

/-! ## C45 -/

/-- an algorithm object that keeps a record of its runs: `cur` are the parameters in force, `log` the
finished runs (parameters and best fitness) -/
structure Tuner.Recorded (A : Algorithm σ P K) (cur : σ → Option P) (log : σ → List (P × K)) : Prop where
  set_cur : ∀ p s s', A.setParameters p s = .ok s' → cur s' = some p
  set_log : ∀ p s s', A.setParameters p s = .ok s' → log s' = log s
  solve_cur : ∀ s f s', A.solve s = .ok (f, s') → cur s' = cur s
  solve_log : ∀ s f s' p, A.solve s = .ok (f, s') → cur s = some p → log s' = log s ++ [(p, f)]

theorem Tuner.writeCells_go (n : Nat) : ∀ (fs : List K) (k : Nat) (pre : List K), pre.length = k → k + fs.length ≤ n →
    ((List.range' k fs.length).zip fs).foldl (fun cells r => cells.set r.1 (some r.2))
      (pre.map some ++ List.replicate (n - k) none) = (pre ++ fs).map some ++ List.replicate (n - k - fs.length) none
  | [], k, pre, hk, hn => by simp
  | f :: fs, k, pre, hk, hn => by
    simp only [List.length_cons] at hn
    rw [List.length_cons, List.range'_succ, List.zip_cons_cons, List.foldl_cons]
    have e : (pre.map some ++ List.replicate (n - k) (none : Option K)).set k (some f) =
        (pre ++ [f]).map some ++ List.replicate (n - (k + 1)) none := by
      rw [List.set_append_right _ _ (by simp [hk])]
      rw [show n - k = (n - (k + 1)) + 1 by omega, List.replicate_succ]
      simp [hk]
    have ih := Tuner.writeCells_go n fs (k + 1) (pre ++ [f]) (by simp [hk]) (by omega)
    rw [show ((k, f) : Nat × K).1 = k from rfl, show ((k, f) : Nat × K).2 = f from rfl, e, ih]
    simp only [List.append_assoc, List.singleton_append]
    congr 2
    omega

theorem Tuner.writeCells_range (fs : List K) :
    writeCells fs.length ((List.range fs.length).zip fs) = fs.map some := by
  have := Tuner.writeCells_go fs.length fs 0 [] rfl (by omega)
  simpa [writeCells, List.range_eq_range'] using this

theorem Tuner.trialsSeq_ok {A : Algorithm σ P K} {cur : σ → Option P} {log : σ → List (P × K)}
    (hA : Tuner.Recorded A cur log) {p : P} : ∀ {idx : List Nat} {s s' : σ} {fs : List (Nat × K)},
    cur s = some p → trialsSeq A idx s = .ok (fs, s') →
    ∃ ks, fs = idx.zip ks ∧ ks.length = idx.length ∧ cur s' = some p ∧ log s' = log s ++ ks.map (fun f => (p, f))
  | [], s, s', fs, hc, h => by
    injection h with h
    injection h with h1 h2
    subst h1 h2
    exact ⟨[], rfl, rfl, hc, by simp⟩
  | i :: idx, s, s', fs, hc, h => by
    unfold trialsSeq at h
    split at h
    · cases h
    rename_i f s1 h1
    split at h
    · cases h
    rename_i fs1 s2 h2
    injection h with h
    injection h with h3 h4
    subst h3 h4
    have hc1 : cur s1 = some p := by rw [hA.solve_cur s f s1 h1, hc]
    obtain ⟨ks, e1, e2, e3, e4⟩ := Tuner.trialsSeq_ok hA hc1 h2
    refine ⟨f :: ks, by rw [e1]; rfl, by simp [e2], e3, ?_⟩
    rw [e4, hA.solve_log s f s1 p h1 hc]
    simp

/-- C45, sequential: the table has one row per combination, in grid order; every row has `n_trials`
filled cells; and the runs the algorithm object actually made are, in order, the cells of the table
row by row, each made with the parameters of its row. -/
theorem C45_sequential {A : Algorithm σ P K} {cur : σ → Option P} {log : σ → List (P × K)}
    (hA : Tuner.Recorded A cur log) {n : Nat} {ps : List P} {s s' : σ} {rows : List (Row P K)}
    (h : executeRows A none n ps s = .ok (rows, s')) :
    rows.map (·.params) = ps ∧
    (∀ r ∈ rows, r.cells.length = n ∧ ∀ c ∈ r.cells, c ≠ none) ∧
    (log s').map (fun e => (e.1, some e.2)) =
      (log s).map (fun e => (e.1, some e.2)) ++ rows.flatMap (fun r => r.cells.map (fun c => (r.params, c))) := by
  induction ps generalizing s s' rows with
  | nil =>
    injection h with h
    injection h with h1 h2
    subst h1 h2
    simp
  | cons p ps ih =>
    unfold executeRows at h
    split at h
    · cases h
    rename_i s1 h1
    dsimp only at h
    split at h
    · cases h
    rename_i fs s2 h2
    split at h
    · cases h
    rename_i rows2 s3 h3
    injection h with h
    injection h with h4 h5
    subst h4 h5
    obtain ⟨i1, i2, i3⟩ := ih h3
    obtain ⟨ks, e1, e2, e3, e4⟩ := Tuner.trialsSeq_ok hA (hA.set_cur p s s1 h1) h2
    rw [List.length_range] at e2
    have hw : writeCells n fs = ks.map some := by
      rw [e1, ← e2]
      exact Tuner.writeCells_range ks
    refine ⟨by simp [i1], ?_, ?_⟩
    · intro r hr
      rcases List.mem_cons.1 hr with rfl | hr
      · simp [hw, e2]
      · exact i2 r hr
    · rw [i3, e4, hA.set_log p s s1 h1]
      simp [hw, List.flatMap_cons, Function.comp_def]

theorem Tuner.trialsPool_ok {A : Algorithm σ P K} {copy : Nat → σ → σ} {s : σ} : ∀ {idx : List Nat} {fs : List (Nat × K)},
    trialsPool A copy idx s = .ok fs →
    ∃ ks, fs = idx.zip ks ∧ List.Forall₂ (fun t f => ∃ t', A.solve (copy t s) = .ok (f, t')) idx ks
  | [], fs, h => by
    injection h with h
    subst h
    exact ⟨[], rfl, .nil⟩
  | i :: idx, fs, h => by
    unfold trialsPool at h
    split at h
    · cases h
    rename_i f s1 h1
    split at h
    · cases h
    rename_i fs1 h2
    injection h with h
    subst h
    obtain ⟨ks, e1, e2⟩ := Tuner.trialsPool_ok h2
    exact ⟨f :: ks, by rw [e1]; rfl, .cons ⟨s1, h1⟩ e2⟩

/-- the states of the parent's algorithm object after each `set_parameters` -/
inductive Tuner.ParamStates (A : Algorithm σ P K) : σ → List P → List σ → Prop
  | nil (s) : ParamStates A s [] []
  | cons {s s' p ps ss} : A.setParameters p s = .ok s' → ParamStates A s' ps ss → ParamStates A s (p :: ps) (s' :: ss)

/-- C45, process pool: cell `t` of the row of a combination is the best fitness of a run started from
task `t`'s own copy of the algorithm object with that combination's parameters set, for every trial
number; no run influences another or the parent. -/
theorem C45_pool {A : Algorithm σ P K} {copy : Nat → σ → σ} {n : Nat} {ps : List P} {s s' : σ}
    {rows : List (Row P K)} (h : executeRows A (some copy) n ps s = .ok (rows, s')) :
    rows.map (·.params) = ps ∧
    ∃ ss, Tuner.ParamStates A s ps ss ∧
      List.Forall₂ (fun (r : Row P K) st => r.cells.length = n ∧
        ∀ t < n, ∃ f st', r.cells[t]? = some (some f) ∧ A.solve (copy t st) = .ok (f, st')) rows ss := by
  induction ps generalizing s s' rows with
  | nil =>
    injection h with h
    injection h with h1 h2
    subst h1 h2
    exact ⟨rfl, [], .nil _, .nil⟩
  | cons p ps ih =>
    unfold executeRows at h
    split at h
    · cases h
    rename_i s1 h1
    dsimp only at h
    split at h
    · cases h
    rename_i fs s2 h2
    split at h
    · cases h
    rename_i rows2 s3 h3
    injection h with h
    injection h with h4 h5
    subst h4 h5
    cases hp : trialsPool A copy (List.range n) s1 with
    | error e => rw [hp] at h2; cases h2
    | ok fs' =>
      rw [hp] at h2
      injection h2 with h2
      injection h2 with h6 h7
      subst h6 h7
      obtain ⟨i1, ss, i2, i3⟩ := ih h3
      obtain ⟨ks, e1, e2⟩ := Tuner.trialsPool_ok hp
      have hl := e2.length_eq
      rw [List.length_range] at hl
      have hw : writeCells n fs' = ks.map some := by
        rw [e1, hl]
        exact Tuner.writeCells_range ks
      refine ⟨by simp [i1], s1 :: ss, .cons h1 i2, .cons ⟨by rw [hw, List.length_map, ← hl], ?_⟩ i3⟩
      intro t ht
      have hk : t < ks.length := by omega
      have := e2.get (i := t) (by simpa using ht) hk
      obtain ⟨st', hst⟩ := this
      refine ⟨ks[t], st', by simp [hw, hk], by simpa using hst⟩

/-- C45: a run that raises stops the tuning with the same exception: nothing is skipped silently. -/
theorem C45_run_error {A : Algorithm σ P K} {n : Nat} {p : P} {ps : List P} {s s1 : σ} {e : Err}
    (h : A.setParameters p s = .ok s1) (he : A.solve s1 = .error e) :
    executeRows A none (n + 1) (p :: ps) s = .error e := by
  unfold executeRows
  rw [h]
  dsimp only
  have : trialsSeq A (List.range (n + 1)) s1 = .error e := by
    rw [List.range_succ_eq_map]
    unfold trialsSeq
    rw [he]
  rw [this]

/-- a recorded algorithm: the state is the current parameters, the log and a counter that serves as the
best fitness -/
def Tuner.exAlg : Algorithm (Option String × List (String × Nat) × Nat) String Nat where
  setParameters p s := .ok (some p, s.2.1, s.2.2)
  solve s := .ok (s.2.2, (s.1, (match s.1 with | some p => s.2.1 ++ [(p, s.2.2)] | none => s.2.1), s.2.2 + 1))

theorem Tuner.exAlg_recorded : Tuner.Recorded Tuner.exAlg (·.1) (·.2.1) where
  set_cur p s s' h := by injection h with h; subst h; rfl
  set_log p s s' h := by injection h with h; subst h; rfl
  solve_cur s f s' h := by injection h with h; injection h with _ h; subst h; rfl
  solve_log s f s' p h hc := by
    injection h with h
    injection h with h1 h2
    subst h1 h2
    simp [hc]

example : executeRows Tuner.exAlg none 2 ["a", "b"] (none, [], 0) =
    .ok ([⟨"a", [some 0, some 1]⟩, ⟨"b", [some 2, some 3]⟩], (some "b", [("a", 0), ("a", 1), ("b", 2), ("b", 3)], 4)) ∧
    (∃ s, executeRows Tuner.exAlg (some fun _ s => s) 2 ["a", "b"] (none, [], 0) =
      .ok ([⟨"a", [some 0, some 0]⟩, ⟨"b", [some 0, some 0]⟩], s)) := ⟨rfl, _, rfl⟩

end Mealpy
