import Verif.Env
import Verif.Spec

/-!
# `mealpy/tuner.py`

Parameter values are of any type `V`, keys of any type `κ`.  A dict is its item list in insertion order.
-/

namespace Mealpy.Tuner

variable {κ V : Type}

/-- one sub-grid: a dict from parameter names to non-empty lists of values -/
abbrev SubGrid (κ V : Type) := List (κ × List V)

/-- one combination: a dict from parameter names to values -/
abbrev Params (κ V : Type) := List (κ × V)

/-- `ParameterGrid.__init__` (`mealpy/tuner.py:58-80`) for a list of dicts whose values are sequences: the
only remaining check is that no sequence is empty. -/
def gridInit (g : List (SubGrid κ V)) : Except Err (List (SubGrid κ V)) :=
  if g.any (fun p => p.any (fun kv => kv.2.isEmpty)) then .error .value else .ok g

/-- `itertools.product(*values)`, as its documentation defines it:
`result = [[]]; for pool in pools: result = [x+[y] for x in result for y in pool]` -/
def product (values : List (List V)) : List (List V) :=
  values.foldl (fun result pool => result.flatMap (fun x => pool.map (fun y => x ++ [y]))) [[]]

/-- `list(ParameterGrid(g))` (`mealpy/tuner.py:82-98`) -/
def gridIter (g : List (SubGrid κ V)) : List (Params κ V) :=
  g.flatMap (fun p =>
    if p.isEmpty then [[]]
    else (product (p.map (·.2))).map (fun v => (p.map (·.1)).zip v))

/-- `ParameterGrid.__len__` (`mealpy/tuner.py:100-104`) -/
def gridLen (g : List (SubGrid κ V)) : Nat :=
  (g.map (fun p =>
    match p.map (fun kv => kv.2.length) with
    | [] => 1
    | n :: ns => ns.foldl (· * ·) n)).sum

/-- the loop `for key, v_list, n in zip(keys, values_lists, sizes)` (`mealpy/tuner.py:141-143`) with python's
`divmod`, which rounds down; `v_list[offset]` cannot fail as `0 <= offset < n` for `n > 0`
(`none` covers the excluded empty list) -/
def pick : SubGrid κ V → Int → Option (Params κ V)
  | [], _ => some []
  | (k, vs) :: rest, ind =>
    match vs[(ind.fmod vs.length).toNat]? with
    | none => none
    | some v => (pick rest (ind.fdiv vs.length)).map (fun out => (k, v) :: out)

/-- `ParameterGrid.__getitem__` (`mealpy/tuner.py:106-146`), for a numpy that has `np.product` -/
def gridGet : List (SubGrid κ V) → Int → Except Err (Params κ V)
  | [], _ => .error .index
  | [] :: rest, ind => if ind = 0 then .ok [] else gridGet rest (ind - 1)
  | (kv :: p) :: rest, ind =>
    let total : Int := (((kv :: p).map (fun kv => kv.2.length)).foldl (· * ·) 1 : Nat)
    if total ≤ ind then gridGet rest (ind - total)
    else match pick (kv :: p) ind with
      | some out => .ok out
      | none => .error .index

/-! ## `Tuner.execute` -/

/-- what `execute` may be given as `problem` -/
inductive ProblemArg where
  /-- a dict, with the value of its key `minmax` if present -/
  | dict (minmax : Option String)
  /-- an instance of `Problem` -/
  | instance (minmax : String)

/-- `ascending = True if self.problem["minmax"] == "min" else False` (`mealpy/tuner.py:399`): a `Problem` is not
subscriptable -/
def ascendingOf : ProblemArg → Except Err Bool
  | .dict none => .error .key
  | .dict (some s) => .ok (if s = "min" then true else false)
  | .instance _ => .error .type

/-- one line of `df_fit`: the combination and its cells `trial_1`, `trial_2`, ... -/
structure Row (P K : Type) where
  params : P
  cells : List (Option K)
  deriving DecidableEq

/-- the algorithm object as `Tuner` uses it: `set_parameters` and `solve`, both of which may raise -/
structure Algorithm (σ P K : Type) where
  setParameters : P → σ → Except Err σ
  /-- best fitness and the new state of the algorithm object -/
  solve : σ → Except Err (K × σ)

variable {σ P K : Type}

/-- `best_fit_results[-1][trial_columns[idx]] = fitness` for each result in turn (`mealpy/tuner.py:413,420`) -/
def writeCells (n : Nat) (results : List (Nat × K)) : List (Option K) :=
  results.foldl (fun cells r => cells.set r.1 (some r.2)) (List.replicate n none)

/-- the sequential trials of one combination (`mealpy/tuner.py:418-421`): every run continues from the
state the previous one left -/
def trialsSeq (A : Algorithm σ P K) : List Nat → σ → Except Err (List (Nat × K) × σ)
  | [], s => .ok ([], s)
  | idx :: rest, s =>
    match A.solve s with
    | .error e => .error e
    | .ok (f, s) =>
      match trialsSeq A rest s with
      | .error e => .error e
      | .ok (fs, s) => .ok ((idx, f) :: fs, s)

/-- the trials of one combination in a process pool (`mealpy/tuner.py:409-414`): every task works on a
pickled copy of the tuner, so each run starts from the state at submission, and the state of the
parent does not change; `executor.map` yields results in the order of the trial list, whatever the
order of completion.  `copy t` is the state task `t` gets by unpickling. -/
def trialsPool (A : Algorithm σ P K) (copy : Nat → σ → σ) : List Nat → σ → Except Err (List (Nat × K))
  | [], _ => .ok []
  | idx :: rest, s =>
    match A.solve (copy idx s) with
    | .error e => .error e
    | .ok (f, _) =>
      match trialsPool A copy rest s with
      | .error e => .error e
      | .ok fs => .ok ((idx, f) :: fs)

/-- the loop over combinations (`mealpy/tuner.py:403-423`); `pool = none` is `n_cpus is None` -/
def executeRows (A : Algorithm σ P K) (pool : Option (Nat → σ → σ)) (nTrials : Nat) :
    List P → σ → Except Err (List (Row P K) × σ)
  | [], s => .ok ([], s)
  | p :: ps, s =>
    match A.setParameters p s with
    | .error e => .error e
    | .ok s =>
      match (match pool with
        | none => trialsSeq A (List.range nTrials) s
        | some copy => (trialsPool A copy (List.range nTrials) s).map (fun fs => (fs, s))) with
      | .error e => .error e
      | .ok (fs, s) =>
        match executeRows A pool nTrials ps s with
        | .error e => .error e
        | .ok (rows, s) => .ok (⟨p, writeCells nTrials fs⟩ :: rows, s)

/-- `Series.rank(ascending)`, method `average`, times two: twice the number of strictly better entries
plus the number of equal entries plus one -/
def rank2 [LinearOrder K] (ascending : Bool) (col : List K) (x : K) : Nat :=
  2 * (col.filter (fun y => if ascending then decide (y < x) else decide (x < y))).length +
    (col.filter (fun y => decide (y = x))).length + 1

/-- tuples are compared lexicographically -/
def tupleLt (a b : Nat × Nat) : Bool := decide (a.1 < b.1 ∨ (a.1 = b.1 ∧ a.2 < b.2))

/-- `Series.rank(method='dense', ascending)` on tuples: one plus the number of distinct better ones -/
def denseRank (ascending : Bool) (col : List (Nat × Nat)) (x : Nat × Nat) : Nat :=
  1 + (col.eraseDups.filter (fun y => if ascending then tupleLt y x else tupleLt x y)).length

/-- the numbers of a row; pandas statistics skip missing cells -/
def Row.fits (r : Row P K) : List K := r.cells.filterMap id

/-- `_best_row` and `_best_params` (`mealpy/tuner.py:425-433`): ranks of mean and standard deviation, dense
rank of the pairs, first row of the least rank.  `mean` and `std` are the row statistics pandas computes
(numbers: `n_trials >= 2`). -/
def bestRow [LinearOrder K] (mean std : List K → K) (ascending : Bool) (rows : List (Row P K)) :
    Except Err (Row P K) :=
  let means := rows.map (fun r => mean r.fits)
  let stds := rows.map (fun r => std r.fits)
  let tuples := rows.map (fun r => (rank2 ascending means (mean r.fits), rank2 ascending stds (std r.fits)))
  let ranks := tuples.map (denseRank ascending tuples)
  match ranks.min? with
  | none => .error .index
  | some m =>
    match (rows.zip ranks).find? (fun p => p.2 == m) with
    | none => .error .index
    | some p => .ok p.1

/-- `Tuner.execute` (`mealpy/tuner.py:388-434`) after the argument checks, up to `best_row`; `df_loss` is left out -/
def execute [LinearOrder K] (A : Algorithm σ (Params κ V) K) (pool : Option (Nat → σ → σ)) (mean std : List K → K)
    (problem : ProblemArg) (grid : SubGrid κ V) (nTrials : Nat) (s : σ) :
    Except Err (List (Row (Params κ V) K) × Row (Params κ V) K × σ) := do
  let g ← gridInit [grid]
  let ascending ← ascendingOf problem
  let (rows, s) ← executeRows A pool nTrials (gridIter g) s
  let best ← bestRow mean std ascending rows
  pure (rows, best, s)

end Mealpy.Tuner
