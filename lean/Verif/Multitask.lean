import Verif.Env

/-!
# `mealpy/multitask.py`

`ω` optimizers, `π` problems, `T` terminations, `K` fitness values; `σ` is the state of the world (all
optimizer objects).
-/

namespace Mealpy.Multitask

variable {ω π T K σ : Type}

/-- what `check_input` returns: nothing, one row per algorithm, or the argument itself -/
inductive Final (T : Type) where
  | none
  | table (rows : List (List T))
  | flat (values : List T)
  deriving DecidableEq

/-- `Multitask.check_input` (`mealpy/multitask.py:97-113`) for `None`, lists and tuples.  In the second branch the
comprehension is the argument of `deepcopy`, so a generator object is copied, which python rejects with a
`TypeError` (there is at least one algorithm: the list of length `n` is compared after length 1). -/
def checkInput (n m : Nat) : Option (List T) → Except Err (Final T)
  | .none => .ok .none
  | some values =>
    if values.length = 1 then
      match values[0]? with
      | .none => .error .index
      | some v => .ok (.table (List.replicate n (List.replicate m v)))
    else if values.length = n then
      if n = 0 then .ok (.table []) else .error .type
    else if values.length = m then .ok (.table (List.replicate n values))
    else if values.length = n * m then .ok (.flat values)
    else .error .value

/-- `self.terminations[id_optimizer][id_prob]` (`mealpy/multitask.py:196-202`); `sub v j` is `v[j]` for a single
termination or mode: a `Termination` is not subscriptable, a dict has no integer keys, a mode string
gives its `j`-th character -/
def lookup (sub : T → Nat → Except Err T) (i j : Nat) : Final T → Except Err (Option T)
  | .none => .ok .none
  | .table rows =>
    match rows[i]? with
    | .none => .error .index
    | some row =>
      match row[j]? with
      | .none => .error .index
      | some v => .ok (some v)
  | .flat values =>
    match values[i]? with
    | .none => .error .index
    | some v => (sub v j).map some

/-- the dict `__run__` returns (`mealpy/multitask.py:131-138`) -/
structure Result (K : Type) where
  idTrial : Nat
  bestFitness : K
  convergence : List K
  problemName : String
  deriving DecidableEq

/-- `d[k] = v` on a dict in insertion order -/
def dictSet {β : Type} (d : List (String × β)) (k : String) (v : β) : List (String × β) :=
  if d.any (fun e => e.1 == k) then d.map (fun e => if e.1 == k then (k, v) else e) else d ++ [(k, v)]

/-- `optimizer.solve(problem, mode=..., termination=...)` on the state of the world: best fitness,
convergence list and problem name -/
abbrev Solve (ω π T K σ : Type) := ω → π → Option T → Option T → σ → Except Err ((K × List K × String) × σ)

/-- the trials of one pair: in a loop (`mealpy/multitask.py:217-222`), each on the state the last one left, or in
a process pool (`mealpy/multitask.py:209-215`), each on its own copy of the state, results in trial order -/
def trials (solve : Solve ω π T K σ) (pool : Option (Nat → σ → σ)) (o : ω) (p : π) (term mode : Option T) :
    List Nat → σ → Except Err (List (Result K) × σ)
  | [], s => .ok ([], s)
  | idx :: rest, s =>
    match solve o p term mode (match pool with | .none => s | some copy => copy idx s) with
    | .error e => .error e
    | .ok (r, s') =>
      match trials solve pool o p term mode rest (match pool with | .none => s' | some _ => s) with
      | .error e => .error e
      | .ok (rs, s) => .ok (⟨idx, r.1, r.2.1, r.2.2⟩ :: rs, s)

/-- a convergence table: columns in order, `none` is NaN -/
abbrev Columns (K : Type) := List (String × List (Option K))

/-- padding of the convergence columns (`mealpy/multitask.py:226-229`) -/
def pad (conv : List (String × List K)) : Columns K :=
  let maxLength := (conv.map (fun c => c.2.length)).foldl max 0
  conv.map (fun c => (c.1, c.2.map some ++ List.replicate (maxLength - c.2.length) .none))

/-- the files written: path and table -/
inductive File (K : Type) where
  | convergence (optimizer problem : String) (t : Columns K)
  | bestFit (optimizer : String) (t : List (String × List K))
  deriving DecidableEq

/-- the loop over problems for one optimizer (`mealpy/multitask.py:195-230`): best-fit dict, convergence files -/
def problemsLoop (solve : Solve ω π T K σ) (pool : Option (Nat → σ → σ)) (sub : T → Nat → Except Err T) (name : String)
    (terms modes : Final T) (nTrials : Nat) (saveConv : Bool) (i : Nat) (o : ω) :
    List (π × Nat) → List (String × List K) → List (File K) → σ → Except Err (List (String × List K) × List (File K) × σ)
  | [], best, files, s => .ok (best, files, s)
  | (p, j) :: rest, best, files, s => do
    let term ← lookup sub i j terms
    let mode ← lookup sub i j modes
    let (rs, s) ← trials solve pool o p term mode (List.range' 1 nTrials) s
    match rs.getLast? with
    | .none => .error .key
    | some result =>
      let best := dictSet best result.problemName (rs.map (·.bestFitness))
      let conv := rs.foldl (fun d r => dictSet d (s!"trial_{r.idTrial}") r.convergence) []
      let files := if saveConv then files ++ [.convergence name result.problemName (pad conv)] else files
      problemsLoop solve pool sub name terms modes nTrials saveConv i o rest best files s

/-- `Multitask.execute` (`mealpy/multitask.py:183-233`) after the argument checks; `none` in the list of algorithms
is an object that is not an `Optimizer` -/
def execute (solve : Solve ω π T K σ) (pool : Option (Nat → σ → σ)) (sub : T → Nat → Except Err T) (nameOf : ω → String)
    (terms modes : Final T) (nTrials : Nat) (saveConv : Bool) (problems : List π) :
    List (Option ω × Nat) → List (File K) → σ → Except Err (List (File K) × σ)
  | [], files, s => .ok (files, s)
  | (.none, _) :: rest, files, s => execute solve pool sub nameOf terms modes nTrials saveConv problems rest files s
  | (some o, i) :: rest, files, s => do
    let (best, files, s) ← problemsLoop solve pool sub (nameOf o) terms modes nTrials saveConv i o problems.zipIdx [] files s
    execute solve pool sub nameOf terms modes nTrials saveConv problems rest (files ++ [.bestFit (nameOf o) best]) s

end Mealpy.Multitask
