import Verif.Multitask
import Mathlib.Data.List.Basic
import Mathlib.Data.List.Forall2
import Mathlib.Data.List.Nodup

/-!
# C46, C47: `Multitask`
-/

set_option linter.unusedSectionVars false

namespace Mealpy
open Multitask

variable {ω π T K σ : Type}

/-- the value pair (algorithm `i`, problem `j`) gets from the argument `values` -/
def Multitask.given (n m : Nat) (sub : T → Nat → Except Err T) (values : List T) (i j : Nat) : Except Err (Option T) := do
  let f ← checkInput n m (some values)
  lookup sub i j f

/-- C46: one value is given to every (algorithm, problem) pair. -/
theorem C46_one_value (n m : Nat) (sub : T → Nat → Except Err T) (v : T) {i j : Nat} (hi : i < n) (hj : j < m) :
    given n m sub [v] i j = .ok (some v) := by
  show lookup sub i j (.table (List.replicate n (List.replicate m v))) = _
  unfold lookup
  simp [hi, hj]

/-- C46: `m` values (`m` problems, `m ≠ 1`, `m` different from the number of algorithms): problem `j` gets
the `j`-th value, for every algorithm. -/
theorem C46_one_per_problem (n m : Nat) (sub : T → Nat → Except Err T) (values : List T) (hl : values.length = m)
    (h1 : m ≠ 1) (hn : m ≠ n) {i j : Nat} (hi : i < n) (hj : j < m) :
    given n m sub values i j = .ok values[j]? := by
  subst hl
  have e : checkInput n values.length (some values) = .ok (.table (List.replicate n values)) := by
    unfold checkInput
    dsimp only
    rw [if_neg h1, if_neg hn, if_pos rfl]
  unfold given
  rw [e]
  show lookup sub i j (.table (List.replicate n values)) = _
  unfold lookup
  simp [hi, hj]

/-- C46: `n` values (`n ≥ 2` algorithms) raise `TypeError`, also when there are as many problems as
algorithms: algorithm `i` never gets the `i`-th value. -/
theorem C46_one_per_algorithm_raises (n m : Nat) (values : List T) (hl : values.length = n) (hn : 2 ≤ n) :
    checkInput n m (some values) = .error .type := by
  unfold checkInput
  dsimp only
  rw [if_neg (by omega), if_pos hl, if_neg (by omega)]

/-- C46: `n * m` values: pair `(i, j)` gets element `j` *of* the `i`-th value, not value `i * m + j`. -/
theorem C46_flat (n m : Nat) (sub : T → Nat → Except Err T) (values : List T) (hl : values.length = n * m)
    (h1 : n * m ≠ 1) (hn : n * m ≠ n) (hm : n * m ≠ m) {i j : Nat} {v : T} (hi : values[i]? = some v) :
    given n m sub values i j = (sub v j).map some := by
  have e : checkInput n m (some values) = .ok (.flat values) := by
    unfold checkInput
    dsimp only
    rw [if_neg (by rw [hl]; exact h1), if_neg (by rw [hl]; exact hn), if_neg (by rw [hl]; exact hm), if_pos hl]
  unfold given
  rw [e]
  show lookup sub i j (.flat values) = _
  unfold lookup
  dsimp only
  rw [hi]

/-- C46: in particular, with `n * m` terminations, which have no elements, every pair raises. -/
theorem C46_flat_terminations_raise (n m : Nat) (values : List T) (hl : values.length = n * m)
    (hn2 : 2 ≤ n) (hm2 : 2 ≤ m) {i j : Nat} (hi : i < n) :
    given n m (fun _ _ => .error .type) values i j = .error .type := by
  have h1 : n * m ≠ 1 := by have : 2 * 2 ≤ n * m := Nat.mul_le_mul hn2 hm2; omega
  have h2 : n * m ≠ n := by
    intro h
    have : n * 2 ≤ n * m := Nat.mul_le_mul_left n hm2
    omega
  have h3 : n * m ≠ m := by
    intro h
    have : 2 * m ≤ n * m := Nat.mul_le_mul_right m hn2
    omega
  have hlt : i < values.length := by
    rw [hl]
    have : n * 1 ≤ n * m := Nat.mul_le_mul_left n (by omega)
    omega
  rw [C46_flat n m _ values hl h1 h2 h3 (List.getElem?_eq_getElem hlt)]
  rfl

/-- C46: any other length raises `ValueError`. -/
theorem C46_other_lengths (n m : Nat) (values : List T) (h1 : values.length ≠ 1) (hn : values.length ≠ n)
    (hm : values.length ≠ m) (hnm : values.length ≠ n * m) : checkInput n m (some values) = .error .value := by
  unfold checkInput
  dsimp only
  rw [if_neg h1, if_neg hn, if_neg hm, if_neg hnm]

/-- two algorithms, three problems -/
example : given 2 3 (fun _ _ => .error .type) ["x"] 1 2 = .ok (some "x") ∧
    given 2 3 (fun _ _ => .error .type) ["x", "y", "z"] 1 2 = .ok (some "z") ∧
    checkInput 2 3 (some ["x", "y"]) = .error .type ∧
    given 2 3 (fun _ _ => .error .type) ["a", "b", "c", "d", "e", "f"] 0 1 = .error .type := by decide

/-! ## C47 -/

/-- one finished run: optimizer, problem, termination, mode and best fitness -/
abbrev Multitask.Event (ω π T K : Type) := ω × π × Option T × Option T × K

/-- a world that records the finished runs; the reported name depends on the problem only -/
structure Multitask.Recorded (solve : Solve ω π T K σ) (nameP : π → String) (log : σ → List (Event ω π T K)) : Prop where
  log : ∀ o p t m s f c nm s', solve o p t m s = .ok ((f, c, nm), s') → log s' = log s ++ [(o, p, t, m, f)]
  name : ∀ o p t m s f c nm s', solve o p t m s = .ok ((f, c, nm), s') → nm = nameP p

theorem Multitask.trials_ok {solve : Solve ω π T K σ} {nameP : π → String} {log : σ → List (Event ω π T K)}
    (hS : Recorded solve nameP log) {o : ω} {p : π} {t m : Option T} : ∀ {idx : List Nat} {s s' : σ} {rs : List (Result K)},
    trials solve none o p t m idx s = .ok (rs, s') →
    rs.map (·.idTrial) = idx ∧ (∀ r ∈ rs, r.problemName = nameP p) ∧
      log s' = log s ++ rs.map (fun r => (o, p, t, m, r.bestFitness))
  | [], s, s', rs, h => by
    injection h with h
    injection h with h1 h2
    subst h1 h2
    simp
  | i :: idx, s, s', rs, h => by
    unfold trials at h
    dsimp only at h
    split at h
    · cases h
    rename_i r s1 h1
    split at h
    · cases h
    rename_i rs1 s2 h2
    injection h with h
    injection h with h3 h4
    subst h3 h4
    obtain ⟨f, c, nm⟩ := r
    obtain ⟨e1, e2, e3⟩ := Multitask.trials_ok hS h2
    refine ⟨by simp [e1], ?_, ?_⟩
    · intro r hr
      rcases List.mem_cons.1 hr with rfl | hr
      · exact hS.name _ _ _ _ _ _ _ _ _ h1
      · exact e2 r hr
    · rw [e3, hS.log _ _ _ _ _ _ _ _ _ h1]
      simp

/-- what one (algorithm, problem) pair ran: its termination, mode and the best fitness of every trial -/
abbrev Multitask.Block (T K : Type) := Option T × Option T × List K

/-- the events of one algorithm -/
def Multitask.events (o : ω) (l : List ((π × Nat) × Block T K)) : List (Event ω π T K) :=
  l.flatMap (fun x => x.2.2.2.map (fun f => (o, x.1.1, x.2.1, x.2.2.1, f)))

/-- the column dict of one algorithm: assignment per problem, later problems overwrite -/
def Multitask.columns (nameP : π → String) (l : List ((π × Nat) × Block T K)) : List (String × List K) :=
  l.foldl (fun d x => dictSet d (nameP x.1.1) x.2.2.2) []

theorem Multitask.problemsLoop_ok {solve : Solve ω π T K σ} {nameP : π → String} {log : σ → List (Event ω π T K)}
    (hS : Recorded solve nameP log) {sub : T → Nat → Except Err T} {name : String} {terms modes : Final T} {n : Nat}
    {sc : Bool} {i : Nat} {o : ω} : ∀ {ps : List (π × Nat)} {best best' : List (String × List K)} {files files' : List (File K)}
    {s s' : σ}, problemsLoop solve none sub name terms modes n sc i o ps best files s = .ok (best', files', s') →
    ∃ blocks : List (Block T K),
      List.Forall₂ (fun (pj : π × Nat) (b : Block T K) => lookup sub i pj.2 terms = .ok b.1 ∧
        lookup sub i pj.2 modes = .ok b.2.1 ∧ b.2.2.length = n) ps blocks ∧
      log s' = log s ++ events o (ps.zip blocks) ∧
      best' = (ps.zip blocks).foldl (fun d x => dictSet d (nameP x.1.1) x.2.2.2) best ∧
      files'.filterMap (fun f => match f with | .bestFit a b => some (a, b) | _ => none) =
        files.filterMap (fun f => match f with | .bestFit a b => some (a, b) | _ => none)
  | [], best, best', files, files', s, s', h => by
    injection h with h
    injection h with h1 h2
    injection h2 with h2 h3
    subst h1 h2 h3
    exact ⟨[], .nil, by simp [events], rfl, rfl⟩
  | (p, j) :: ps, best, best', files, files', s, s', h => by
    unfold problemsLoop at h
    cases ht : lookup sub i j terms with
    | error e => rw [ht] at h; cases h
    | ok t =>
      cases hm : lookup sub i j modes with
      | error e => rw [ht, hm] at h; cases h
      | ok m =>
        rw [ht, hm] at h
        change (trials solve none o p t m (List.range' 1 n) s >>= _) = _ at h
        cases hr : trials solve none o p t m (List.range' 1 n) s with
        | error e => rw [hr] at h; cases h
        | ok q =>
          obtain ⟨rs, s1⟩ := q
          rw [hr] at h
          change (match rs.getLast? with | none => _ | some result => _) = _ at h
          cases hl : rs.getLast? with
          | none => rw [hl] at h; cases h
          | some result =>
            rw [hl] at h
            dsimp only at h
            obtain ⟨e1, e2, e3⟩ := Multitask.trials_ok hS hr
            obtain ⟨blocks, f1, f2, f3, f4⟩ := Multitask.problemsLoop_ok hS h
            have hnm : result.problemName = nameP p := e2 _ (List.mem_of_getLast? hl)
            have hlen : rs.length = n := by
              have := congrArg List.length e1
              simpa using this
            refine ⟨(t, m, rs.map (·.bestFitness)) :: blocks, .cons ⟨ht, hm, by simp [hlen]⟩ f1, ?_, ?_, ?_⟩
            · rw [f2, e3]
              simp [events, List.flatMap_cons, Function.comp_def]
            · rw [f3, hnm]
              rfl
            · rw [f4]
              cases sc <;> simp [List.filterMap_append]

/-- C47: the runs made.  Objects that are not optimizers are skipped; the others are run in order, on
every problem in order, `n_trials` times each, with the termination and mode looked up for that pair;
nothing else is run.  The best-fit file of an algorithm holds, under each problem's name, the best
fitness of its runs in trial order. -/
theorem C47_runs {solve : Solve ω π T K σ} {nameP : π → String} {log : σ → List (Event ω π T K)}
    (hS : Recorded solve nameP log) {sub : T → Nat → Except Err T} {nameOf : ω → String} {terms modes : Final T} {n : Nat}
    {sc : Bool} {problems : List π} {algs : List (Option ω × Nat)} {files files' : List (File K)} {s s' : σ}
    (h : execute solve none sub nameOf terms modes n sc problems algs files s = .ok (files', s')) :
    ∃ runs : List ((ω × Nat) × List (Block T K)),
      runs.map (·.1) = algs.filterMap (fun a => a.1.map (fun o => (o, a.2))) ∧
      (∀ r ∈ runs, List.Forall₂ (fun (pj : π × Nat) (b : Block T K) => lookup sub r.1.2 pj.2 terms = .ok b.1 ∧
        lookup sub r.1.2 pj.2 modes = .ok b.2.1 ∧ b.2.2.length = n) problems.zipIdx r.2) ∧
      log s' = log s ++ runs.flatMap (fun r => events r.1.1 (problems.zipIdx.zip r.2)) ∧
      files'.filterMap (fun f => match f with | .bestFit a b => some (a, b) | _ => none) =
        files.filterMap (fun f => match f with | .bestFit a b => some (a, b) | _ => none) ++
        runs.map (fun r => (nameOf r.1.1, columns nameP (problems.zipIdx.zip r.2))) := by
  induction algs generalizing files files' s s' with
  | nil =>
    injection h with h
    injection h with h1 h2
    subst h1 h2
    exact ⟨[], rfl, by simp, by simp, by simp⟩
  | cons a algs ih =>
    obtain ⟨oo, i⟩ := a
    cases oo with
    | none =>
      unfold execute at h
      obtain ⟨runs, r1, r2, r3, r4⟩ := ih h
      exact ⟨runs, by simpa using r1, r2, r3, r4⟩
    | some o =>
      unfold execute at h
      cases hp : problemsLoop solve none sub (nameOf o) terms modes n sc i o problems.zipIdx [] files s with
      | error e => rw [hp] at h; cases h
      | ok q =>
        obtain ⟨best, files1, s1⟩ := q
        rw [hp] at h
        change execute solve none sub nameOf terms modes n sc problems algs (files1 ++ [.bestFit (nameOf o) best]) s1 = _ at h
        obtain ⟨blocks, f1, f2, f3, f4⟩ := Multitask.problemsLoop_ok hS hp
        obtain ⟨runs, r1, r2, r3, r4⟩ := ih h
        refine ⟨((o, i), blocks) :: runs, by simp [r1], ?_, ?_, ?_⟩
        · intro r hr
          rcases List.mem_cons.1 hr with rfl | hr
          · exact f1
          · exact r2 r hr
        · rw [r3, f2]
          simp [List.flatMap_cons]
        · rw [r4, List.filterMap_append, f4, f3]
          simp [columns]

theorem Multitask.dictSet_new {β : Type} {d : List (String × β)} {k : String} {v : β} (h : k ∉ d.map (·.1)) :
    dictSet d k v = d ++ [(k, v)] := by
  unfold dictSet
  rw [if_neg]
  intro hc
  rw [List.any_eq_true] at hc
  obtain ⟨e, he, hk⟩ := hc
  simp only [beq_iff_eq] at hk
  exact h (hk ▸ List.mem_map_of_mem he)

theorem Multitask.foldl_dictSet {α β : Type} (key : α → String) (val : α → β) : ∀ (l : List α) (d : List (String × β)),
    (d.map (·.1) ++ l.map key).Nodup →
    l.foldl (fun d x => dictSet d (key x) (val x)) d = d ++ l.map (fun x => (key x, val x))
  | [], d, _ => by simp
  | x :: l, d, h => by
    have hx : key x ∉ d.map (·.1) := by
      rw [List.nodup_append] at h
      intro hc
      exact h.2.2 _ hc (key x) (by simp) rfl
    rw [List.foldl_cons, Multitask.dictSet_new hx, Multitask.foldl_dictSet key val l _ (by simpa using h)]
    simp

/-- C47: if the problems have distinct names, the best-fit table of an algorithm has exactly one column per
problem, in order, with the fitness values of that pair's runs. -/
theorem C47_one_column_per_problem {nameP : π → String} {problems : List π} (hd : (problems.map nameP).Nodup)
    {blocks : List (Block T K)} (hl : blocks.length = problems.length) :
    columns nameP (problems.zipIdx.zip blocks) = (problems.map nameP).zip (blocks.map (·.2.2)) := by
  have hk : (problems.zipIdx.zip blocks).map (fun x => nameP x.1.1) = problems.map nameP := by
    have : (problems.zipIdx.zip blocks).map (fun x => nameP x.1.1) =
        (((problems.zipIdx.zip blocks).map (·.1)).map (·.1)).map nameP := by simp [Function.comp_def]
    rw [this, List.map_fst_zip (by simp [hl]), List.zipIdx_map_fst]
  have hv : (problems.zipIdx.zip blocks).map (fun x => x.2.2.2) = blocks.map (·.2.2) := by
    have : (problems.zipIdx.zip blocks).map (fun x => x.2.2.2) = ((problems.zipIdx.zip blocks).map (·.2)).map (·.2.2) := by
      simp [Function.comp_def]
    rw [this, List.map_snd_zip (by simp [hl])]
  unfold columns
  rw [Multitask.foldl_dictSet (fun (x : (π × Nat) × Block T K) => nameP x.1.1) (fun x => x.2.2.2) _ _ (by simpa [hk] using hd)]
  rw [List.nil_append, ← hk, ← hv]
  exact List.zip_map'.symm

/-- C47: a problem that shares its name with an earlier one overwrites that column: the values of the
earlier problem are in no column. -/
theorem C47_same_name_overwrites (nameP : π → String) (p q : π) (h : nameP p = nameP q) (a b : Block T K) :
    columns nameP ([p, q].zipIdx.zip [a, b]) = [(nameP q, b.2.2)] := by
  simp [columns, dictSet, h]

/-- C47: padding makes all convergence columns equally long without losing or moving a value. -/
theorem C47_padding (conv : List (String × List K)) :
    (pad conv).map (·.1) = conv.map (·.1) ∧
    (∀ (i : Nat) (c : String × List K), conv[i]? = some c → ∃ k, (pad conv)[i]? = some (c.1, c.2.map some ++ List.replicate k none)) ∧
    ∃ L, (∀ c ∈ pad conv, c.2.length = L) ∧ (conv ≠ [] → ∃ c ∈ conv, c.2.length = L) := by
  have hmax : ∀ (l : List Nat) (a : Nat), (∀ x ∈ l, x ≤ l.foldl max a) ∧ a ≤ l.foldl max a ∧ (l.foldl max a = a ∨ l.foldl max a ∈ l) := by
    intro l
    induction l with
    | nil => intro a; simp
    | cons x l ih =>
      intro a
      obtain ⟨h1, h2, h3⟩ := ih (max a x)
      refine ⟨?_, le_trans (le_max_left _ _) h2, ?_⟩
      · intro y hy
        rcases List.mem_cons.1 hy with rfl | hy
        · exact le_trans (le_max_right _ _) h2
        · exact h1 y hy
      · rcases h3 with h3 | h3
        · rw [List.foldl_cons, h3]
          rcases max_choice a x with hc | hc
          · exact .inl hc
          · exact .inr (by rw [hc]; simp)
        · exact .inr (by simp [h3])
  obtain ⟨m1, -, m3⟩ := hmax (conv.map (fun c => c.2.length)) 0
  refine ⟨by simp [pad], ?_, (conv.map (fun c => c.2.length)).foldl max 0, ?_, ?_⟩
  · intro i c hc
    exact ⟨_, by unfold pad; rw [List.getElem?_map, hc]; rfl⟩
  · intro c hc
    unfold pad at hc
    rw [List.mem_map] at hc
    obtain ⟨c', hc', rfl⟩ := hc
    have := m1 _ (List.mem_map_of_mem (f := fun c => c.2.length) hc')
    simp only [List.length_append, List.length_map, List.length_replicate]
    omega
  · intro hne
    rcases m3 with m3 | m3
    · obtain ⟨c, hc⟩ := List.exists_mem_of_ne_nil conv hne
      have := m1 _ (List.mem_map_of_mem (f := fun c => c.2.length) hc)
      exact ⟨c, hc, by omega⟩
    · obtain ⟨c, hc, he⟩ := List.mem_map.1 m3
      exact ⟨c, hc, he⟩

/-- a world whose state is the record itself; the best fitness is the number of earlier runs -/
def Multitask.exSolve : Solve String String String Nat (List (Event String String String Nat)) :=
  fun o p t m s => .ok ((s.length, List.range s.length, p), s ++ [(o, p, t, m, s.length)])

theorem Multitask.exSolve_recorded : Recorded exSolve id id where
  log o p t m s f c nm s' h := by injection h with h; injection h with h1 h2; injection h1 with h1 h3; subst h1 h2; rfl
  name o p t m s f c nm s' h := by
    injection h with h; injection h with h1 h2; injection h1 with h1 h3; injection h3 with h3 h4; exact h4.symm

/-- two optimizers and one other object, two problems, two trials -/
example : ∃ s, execute exSolve none (fun _ _ => .error .type) id .none .none 2 false ["p", "q"]
    [(some "A", 0), (none, 1), (some "B", 2)] [] [] =
      .ok ([.bestFit "A" [("p", [0, 1]), ("q", [2, 3])], .bestFit "B" [("p", [4, 5]), ("q", [6, 7])]], s) ∧ s.length = 8 :=
  ⟨_, rfl, rfl⟩

end Mealpy
