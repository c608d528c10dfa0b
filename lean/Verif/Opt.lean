import Verif.Draws
import Verif.Term

/-!
# The optimizer loop

Models `mealpy/optimizer.py:126-436,609-644`: initialization, the main loop of `solve`, history
bookkeeping, generation and evaluation of populations in the four modes.  The algorithm is a
parameter (`Algo`); the algorithms themselves are in `Verif/Alg/`.

Simplifications (all of this file): logging, tqdm and wall-clock formatting are left out;
`Agent.copy()` is the identity on values (object identity is in `Verif.Heap`); a numpy draw of size
`n` is `n` consecutive scalar draws; the tasks of a pool draw from the shared generator one task
after the other (thread) or each from a copy of it (process).
-/

namespace Mealpy

/-- The part of a `Problem` (`mealpy/utils/problem.py`) the optimizers use.  `S` is the state of the
generators owned by the variables (`mealpy/utils/space.py:132`).  `Verif.Bridge` builds one from the
variables modelled in `Verif.Space`. -/
structure Prob (d : Nat) (K : Type) where
  S : Type
  /-- `problem.lb` (`mealpy/utils/problem.py:77-79`) -/
  lb : Vec d K
  /-- `problem.ub` -/
  ub : Vec d K
  /-- `problem.minmax` -/
  mm : MinMax
  /-- `problem.get_target` (`mealpy/utils/problem.py:190-199`); the objective is a function -/
  target : Vec d K → Target K
  /-- `problem.correct_solution` (`mealpy/utils/problem.py:166-176`) -/
  correct : Vec d K → S → Vec d K × S
  /-- `problem.generate_solution(encoded=True)` (`mealpy/utils/problem.py:178-188`) -/
  generate : S → Vec d K × S

/-- What C01 and C02 establish for the bundled variables: correction and generation stay in the
box. -/
structure Prob.Lawful {d : Nat} {K : Type} [LinearOrder K] (P : Prob d K) : Prop where
  correct_in : ∀ x s, Spec.InBox P.lb P.ub (P.correct x s).1
  generate_in : ∀ s, Spec.InBox P.lb P.ub (P.generate s).1

/-- Everything fixed during one call of `solve`: environment, problem, mode, `epoch`, `pop_size`. -/
structure Cfg (d : Nat) (K : Type) where
  E : Env K
  P : Prob d K
  mode : Valid.Mode
  popSize : Nat
  epoch : Nat

variable {d : Nat} {K : Type}

/-- `self.mode in self.AVAILABLE_MODES` (`mealpy/optimizer.py:45`). -/
def Cfg.swarmLike (c : Cfg d K) : Bool :=
  match c.mode with
  | .single => false
  | _ => true

/-! ## Three layers of state

Code that only draws random numbers runs in `D`: it cannot touch the population, the log or the
counter, by its type. -/

/-- computations that only use the generators -/
abbrev D (c : Cfg d K) := StateT (c.E.σ × c.P.S) (Except Err)

/-- generators, the (ghost) list of positions passed to the objective so far, and `nfe_counter` -/
structure Base (c : Cfg d K) where
  rng : c.E.σ
  vg : c.P.S
  log : List (Vec d K)
  nfe : Nat

/-- computations that may also evaluate the objective -/
abbrev B (c : Cfg d K) := StateT (Base c) (Except Err)

/-- `History` (`mealpy/utils/history.py:78-100`) during the run. -/
structure Hist (d : Nat) (K X : Type) where
  globalBest : List (Agent d K X)
  currentBest : List (Agent d K X)
  globalWorst : List (Agent d K X)
  currentWorst : List (Agent d K X)
  globalBestFit : List K
  currentBestFit : List K
  diversity : List K
  epochTime : List K
  population : List (List (Agent d K X))

/-- The optimizer object during the main loop: population, `g_best`, history and the
algorithm-specific attributes `ext`.  `g_best` is always a copy of a population agent
(`mealpy/optimizer.py:526,571-573`), so updating population agents does not reach it; writes into a
solution array would (C35), and the model excludes them. -/
structure St (c : Cfg d K) (X Y : Type) where
  base : Base c
  pop : List (Agent d K X)
  gbest : Agent d K X
  hist : Hist d K X
  ext : Y

/-- computations of an algorithm's `evolve` -/
abbrev M (c : Cfg d K) (X Y : Type) := StateT (St c X Y) (Except Err)

/-- run generator code inside `B` -/
def liftD {c : Cfg d K} {α : Type} (m : D c α) : B c α := fun b =>
  match m (b.rng, b.vg) with
  | .ok (a, g) => .ok (a, { b with rng := g.1, vg := g.2 })
  | .error e => .error e

/-- run generator/evaluation code inside `M` -/
def liftB {c : Cfg d K} {X Y α : Type} (m : B c α) : M c X Y α := fun s =>
  match m s.base with
  | .ok (a, b) => .ok (a, { s with base := b })
  | .error e => .error e

/-- run generator code inside `M` -/
def draw {c : Cfg d K} {X Y α : Type} (m : D c α) : M c X Y α := liftB (liftD m)

/-- `for i in range(n): a = f(i, a)` -/
def iter {m : Type → Type} [Monad m] {α : Type} : Nat → (Nat → α → m α) → α → m α
  | 0, _, a => pure a
  | n + 1, f, a => iter n f a >>= f n

/-- one draw per coordinate, in order -/
def vecM {c : Cfg d K} {α : Type} : {n : Nat} → (Fin n → D c α) → D c (Fin n → α)
  | 0, _ => pure Fin.elim0
  | _ + 1, m => do
    let a ← m 0
    let t ← vecM (fun i => m i.succ)
    pure (fun i => Fin.cases a t i)

/-! ## Generator calls -/

section Draws
variable {c : Cfg d K}

/-- use the optimizer's generator -/
def rngCall {α : Type} (f : c.E.σ → α × c.E.σ) : D c α := fun g =>
  let r := f g.1
  .ok (r.1, (r.2, g.2))

/-- use the variables' generators -/
def vgCall {α : Type} (f : c.P.S → α × c.P.S) : D c α := fun g =>
  let r := f g.2
  .ok (r.1, (g.1, r.2))

/-- raise -/
def dthrow {α : Type} (e : Err) : D c α := fun _ => .error e

/-- `self.generator.random()` -/
def random : D c K := rngCall c.E.random
/-- `self.generator.random(n_dims)` -/
def randomVec : D c (Vec d K) := vecM (fun _ => random)
/-- `self.generator.uniform(lo, hi)` -/
def uniform (lo hi : K) : D c K := rngCall (c.E.uniform lo hi)
/-- `self.generator.uniform(lo, hi)` with arrays of bounds, or `uniform(lo, hi, n_dims)` -/
def uniformVec (lo hi : Vec d K) : D c (Vec d K) := vecM (fun j => uniform (lo j) (hi j))
/-- `self.generator.normal(loc, scale)` -/
def normal (loc scale : K) : D c K := rngCall (c.E.normal loc scale)
/-- `self.generator.normal(loc, scale, n_dims)` -/
def normalVec (loc scale : K) : D c (Vec d K) := vecM (fun _ => normal loc scale)
/-- other continuous distributions -/
def dist (name : String) (args : List K) : D c K := rngCall (c.E.dist name args)
/-- `self.generator.integers(lo, hi)`; numpy raises ValueError for an empty range -/
def integers (lo hi : Int) : D c Int :=
  if lo < hi then rngCall (c.E.integers lo hi) else dthrow .value
/-- `self.generator.integers(0, n)` as an index -/
def index (n : Nat) : D c Nat := do
  let i ← integers 0 n
  pure i.toNat
/-- `self.generator.choice(n, size=k, replace=r)`: indices -/
def choice (n k : Nat) (r : Bool) : D c (List Nat) :=
  if choiceErr n k r then dthrow .value else rngCall (c.E.choice n k r)
/-- `self.generator.choice(n)`: one index -/
def choice1 (n : Nat) : D c Nat := do
  let l ← choice n 1 true
  match l with
  | i :: _ => pure i
  | [] => dthrow .value
/-- `self.generator.permutation(n)`, `shuffle` of `range(n)` -/
def permutation (n : Nat) : D c (List Nat) := rngCall (c.E.permutation n)
/-- `sample_indexes_exclude_one(...)` (`mealpy/optimizer.py:646-656`) -/
def sampleOne [LinearOrder K] (popSize excl n : Nat) (replace : Bool := false) : D c (List Nat) := fun g =>
  match sampleExcludeOne c.E popSize excl n replace g.1 with
  | .ok (l, s) => .ok (l, (s, g.2))
  | .error e => .error e
/-- `sample_indexes_exclude_list(...)` (`mealpy/optimizer.py:658-671`) -/
def sampleList [LinearOrder K] (popSize : Nat) (excl : List Nat) (n : Nat) (replace : Bool := false) :
    D c (List Nat) := fun g =>
  match sampleExcludeList c.E popSize excl n replace g.1 with
  | .ok (l, s) => .ok (l, (s, g.2))
  | .error e => .error e
/-- `l[i]` -/
def nth {α : Type} (l : List α) (i : Nat) : D c α :=
  match l[i]? with
  | some a => pure a
  | none => dthrow .index
/-- `time.perf_counter()` -/
def clock : D c K := rngCall c.E.clock
/-- `problem.generate_solution(encoded=True)` -/
def genSolution : D c (Vec d K) := vgCall c.P.generate

/-- `Optimizer.amend_solution` (`mealpy/optimizer.py:365-376`), the default. -/
def amendClip [LinearOrder K] (x : Vec d K) : D c (Vec d K) :=
  pure (fun j => clip (x j) (c.P.lb j) (c.P.ub j))

/-- The `amend_solution` several algorithms override with: coordinates outside the bounds are
redrawn uniformly (`mealpy/swarm_based/PSO.py:88-91`, `mealpy/math_based/SCA.py:146-148`,
`mealpy/physics_based/NRO.py:62-65`, ...). -/
def amendRandom [LinearOrder K] (x : Vec d K) : D c (Vec d K) := do
  let r ← uniformVec c.P.lb c.P.ub
  pure (fun j => if c.P.lb j ≤ x j ∧ x j ≤ c.P.ub j then x j else r j)

/-- `Optimizer.correct_solution` (`mealpy/optimizer.py:378-390`). -/
def correctWith (amend : Vec d K → D c (Vec d K)) (x : Vec d K) : D c (Vec d K) := do
  let y ← amend x
  vgCall (c.P.correct y)

/-- `correct_solution` with the default `amend_solution`. -/
def correct [LinearOrder K] (x : Vec d K) : D c (Vec d K) := correctWith amendClip x

end Draws

/-! ## Evaluation and generation of agents -/

section Agents
variable {c : Cfg d K} {X : Type}

/-- `Optimizer.get_target` (`mealpy/optimizer.py:423-436`); the call of the objective is recorded in
the ghost log. -/
def getTarget (x : Vec d K) (counted : Bool := true) : B c (Target K) := fun b =>
  .ok (c.P.target x, { b with log := b.log ++ [x], nfe := if counted then b.nfe + 1 else b.nfe })

/-- `Optimizer.generate_agent(solution)` (`mealpy/optimizer.py:327-336`); `mkExt` supplies the extra
keyword attributes of the algorithm's `generate_empty_agent`. -/
def agentOf (mkExt : Vec d K → D c X) (x : Vec d K) : B c (Agent d K X) := do
  let e ← liftD (mkExt x)
  let t ← getTarget x
  pure ⟨x, t, e⟩

/-- `Optimizer.generate_agent()` (`mealpy/optimizer.py:327-336`). -/
def generateAgent (mkExt : Vec d K → D c X) : B c (Agent d K X) := do
  let x ← liftD genSolution
  agentOf mkExt x

/-- `[self.generate_agent() for _ in range(n)]` (`mealpy/optimizer.py:362`). -/
def generateSeq (mkExt : Vec d K → D c X) (n : Nat) : B c (List (Agent d K X)) :=
  iter n (fun _ acc => do
    let a ← generateAgent mkExt
    pure (acc ++ [a])) []

/-- The completion order of the tasks of a pool. -/
def poolOrder (n : Nat) : D c (List Nat) := rngCall (c.E.order n)

/-- `Optimizer.generate_population` (`mealpy/optimizer.py:338-363`).  Thread mode: the agents come in
completion order and concurrent `nfe_counter += 1` may be lost.  Process mode: every task runs on a
pickled copy of the optimizer, so all of them start from the same generators, and neither their
counter nor their generator state comes back. -/
def generatePopulation (mkExt : Vec d K → D c X) (n : Nat) : B c (List (Agent d K X)) :=
  match c.mode with
  | .thread => do
    let pop ← generateSeq mkExt n
    let ord ← liftD (poolOrder n)
    let l ← liftD (rngCall (c.E.lost n))
    modify (fun b => { b with nfe := b.nfe - l })
    pure (ord.filterMap (fun i => pop[i]?))
  | .process => fun b => do
    let ord := (c.E.order n b.rng).1
    let rng' := (c.E.order n b.rng).2
    -- each worker: unpickle (the snapshot `b`), generate one agent
    let tasks ← (List.replicate n ()).mapM (fun _ => generateAgent mkExt b)
    let agents := tasks.map (·.1)
    pure (ord.filterMap (fun i => agents[i]?),
      { b with rng := rng', log := b.log ++ agents.map Agent.sol })
  | _ => generateSeq mkExt n

/-- The results of `executor.map(f, xs)` when the tasks complete in the order `ord`: each completed
task stores its result at its own position, and the results are read in the order of the inputs. -/
def poolMap {α β : Type} (f : α → β) (xs : List α) (ord : List Nat) : List (Option β) :=
  let done : List (Nat × β) := ord.filterMap (fun i => xs[i]?.map (fun x => (i, f x)))
  (List.range xs.length).map (fun i => (done.find? (fun p => p.1 == i)).map (·.2))

/-- `pop[idx].target = target` for the results in order. -/
def setTargets (pop : List (Vec d K × X)) (ts : List (Target K)) : List (Agent d K X) :=
  List.zipWith (fun p t => ⟨p.1, t, p.2⟩) pop ts

/-- `Optimizer.update_target_for_population` (`mealpy/optimizer.py:392-421`) on agents made by
`generate_empty_agent`.  In `single` mode the agents keep `target = None`; every later use of their
fitness raises AttributeError, which the model raises at once. -/
def updateTargets (pop : List (Vec d K × X)) : B c (List (Agent d K X)) :=
  match c.mode with
  | .single => fun _ => .error .attribute
  | .swarm => do
    let ts ← iter pop.length (fun i acc => do
      match pop[i]? with
      | some p =>
        let t ← getTarget p.1 (counted := false)
        pure (acc ++ [t])
      | none => pure acc) []
    modify (fun b => { b with nfe := b.nfe + pop.length })
    pure (setTargets pop ts)
  | _ => do
    let ord ← liftD (poolOrder pop.length)
    let ts := poolMap (fun x => c.P.target x) (pop.map (·.1)) ord
    modify (fun b => { b with
      log := b.log ++ ord.filterMap (fun i => pop[i]?.map (·.1))
      nfe := b.nfe + pop.length })
    pure (setTargets pop (ts.filterMap id))

end Agents

/-! ## History -/

section History
variable {c : Cfg d K} {X Y : Type} [Num K]

/-- sum of a list, left to right -/
def sumL (l : List K) : K := l.foldl (· + ·) 0

/-- `np.mean` -/
def meanL (l : List K) : K := sumL l / Num.ofNat l.length

/-- `np.median`: the middle element of the sorted list, or the mean of the two middle ones. -/
def medianL (l : List K) : K :=
  let s := l.mergeSort (fun a b => decide (a ≤ b))
  let n := s.length
  if n % 2 = 1 then s.getD (n / 2) 0 else (s.getD (n / 2 - 1) 0 + s.getD (n / 2) 0) / 2

/-- the diversity of a population (`mealpy/optimizer.py:296-298`) -/
def diversity (pop : List (Agent d K X)) : K :=
  let div : Fin d → K := fun j =>
    let col := pop.map (fun a => a.sol j)
    let m := medianL col
    meanL (col.map (fun x => Num.abs (m - x)))
  meanL (List.ofFn div)

/-- `Optimizer.update_global_best_agent(pop, save=True)` (`mealpy/optimizer.py:621-632`). -/
def updateGlobalBest (pop : List (Agent d K X)) : M c X Y (List (Agent d K X) × Agent d K X) :=
  fun s =>
  let sorted := (getSorted c.E.argsort pop c.P.mm).1
  match sorted.head?, sorted.getLast?, s.hist.globalBest.getLast?, s.hist.globalWorst.getLast? with
  | some cb, some cw, some gb, some gw =>
    let better := getBetterAgent cb gb c.P.mm
    let worse := getBetterAgent cw gw c.P.mm true
    .ok ((sorted, better), { s with hist := { s.hist with
      currentBest := s.hist.currentBest ++ [cb]
      globalBest := s.hist.globalBest ++ [better]
      currentWorst := s.hist.currentWorst ++ [cw]
      globalWorst := s.hist.globalWorst ++ [worse] } })
  | _, _, _, _ => .error .index

/-- `list[-1] = x` -/
def setLast {α : Type} (l : List α) (x : α) : List α := l.dropLast ++ [x]

/-- `Optimizer.update_global_best_agent(pop, save=False)` (`mealpy/optimizer.py:621-622,633-644`). -/
def updateGlobalBestNoSave (pop : List (Agent d K X)) :
    M c X Y (List (Agent d K X) × Agent d K X) := fun s =>
  let sorted := (getSorted c.E.argsort pop c.P.mm).1
  match sorted.head?, sorted.getLast?, s.hist.currentBest.getLast?, s.hist.globalBest.getLast?,
      s.hist.currentWorst.getLast?, s.hist.globalWorst.getLast? with
  | some cb, some cw, some lb, some gb, some lw, some gw =>
    let gbNew := getBetterAgent cb gb c.P.mm
    .ok ((sorted, gbNew), { s with hist := { s.hist with
      currentBest := setLast s.hist.currentBest (getBetterAgent cb lb c.P.mm)
      globalBest := setLast s.hist.globalBest gbNew
      currentWorst := setLast s.hist.currentWorst (getBetterAgent cw lw c.P.mm true)
      globalWorst := setLast s.hist.globalWorst (getBetterAgent cw gw c.P.mm true) } })
  | _, _, _, _, _, _ => .error .index

/-- `Optimizer.track_optimize_step` (`mealpy/optimizer.py:280-301`) without the log line. -/
def trackStep (savePop : Bool) (pop : List (Agent d K X)) (runtime : K) : M c X Y Unit := fun s =>
  match s.hist.globalBest.getLast?, s.hist.currentBest.getLast? with
  | some gb, some cb =>
    .ok ((), { s with hist := { s.hist with
      population := if savePop then s.hist.population ++ [pop] else s.hist.population
      epochTime := s.hist.epochTime ++ [runtime]
      globalBestFit := s.hist.globalBestFit ++ [gb.fit]
      currentBestFit := s.hist.currentBestFit ++ [cb.fit]
      diversity := s.hist.diversity ++ [diversity pop] } })
  | _, _ => .error .index

/-- `History` after `track_optimize_process`. -/
structure FinalHist (d : Nat) (K X : Type) where
  epoch : Nat
  exploration : List K
  exploitation : List K
  globalBest : List (Agent d K X)
  currentBest : List (Agent d K X)
  globalWorst : List (Agent d K X)
  currentWorst : List (Agent d K X)
  globalBestFit : List K
  currentBestFit : List K
  diversity : List K
  epochTime : List K
  population : List (List (Agent d K X))

/-- `Optimizer.track_optimize_process` (`mealpy/optimizer.py:303-314`); `np.max([])` raises. -/
def trackProcess (h : Hist d K X) : Except Err (FinalHist d K X) :=
  match listMax h.diversity with
  | none => .error .value
  | some divMax =>
    let explo := h.diversity.map (fun x => 100 * (x / divMax))
    .ok { epoch := h.diversity.length
          exploration := explo
          exploitation := explo.map (fun x => 100 - x)
          globalBest := h.globalBest.tail
          currentBest := h.currentBest.tail
          globalWorst := h.globalWorst.tail
          currentWorst := h.currentWorst.tail
          globalBestFit := h.globalBestFit
          currentBestFit := h.currentBestFit
          diversity := h.diversity
          epochTime := h.epochTime
          population := h.population }

/-! ## solve -/

/-- What an algorithm class overrides. -/
structure Algo (c : Cfg d K) (X Y : Type) where
  /-- `self.sort_flag` -/
  sortFlag : Bool
  /-- extra attributes made by `generate_empty_agent` -/
  mkExt : Vec d K → D c X
  /-- `initialize_variables` -/
  initVars : D c Y
  /-- `initialization`: gets the population made from `starting_solutions`, if any -/
  initialization : Y → Option (List (Agent d K X)) → B c (List (Agent d K X) × Y)
  /-- `before_main_loop` -/
  beforeMain : M c X Y Unit
  /-- `evolve(epoch)` -/
  evolve : Nat → M c X Y Unit

/-- `Optimizer.initialization` (`mealpy/optimizer.py:145-147`), the default. -/
def defaultInit (mkExt : Vec d K → D c X) (y : Y) (p : Option (List (Agent d K X))) :
    B c (List (Agent d K X) × Y) :=
  match p with
  | some pop => pure (pop, y)
  | none => do
    let pop ← generatePopulation mkExt c.popSize
    pure (pop, y)

/-- An algorithm that overrides only `evolve` (no extra attributes). -/
def Algo.plain (sortFlag : Bool) (evolve : Nat → M c Unit Unit Unit) : Algo c Unit Unit where
  sortFlag := sortFlag
  mkExt := fun _ => pure ()
  initVars := pure ()
  initialization := defaultInit (fun _ => pure ())
  beforeMain := pure ()
  evolve := evolve

/-- The `starting_solutions` argument of `solve`. -/
inductive Starting (K : Type) where
  | none
  /-- not a list, tuple or array -/
  | notArray
  /-- a list/tuple/array whose first entry is not one -/
  | flat (n : Nat)
  | rows (l : List (List K))

/-- a row as a position; a row of another length has no meaning as a position -/
def rowVec (r : List K) : Option (Vec d K) :=
  if h : r.length = d then some (fun j => r[j]'(by omega)) else none

/-- evaluate the rows one after the other (`mealpy/optimizer.py:139`) -/
def agentsOf (mkExt : Vec d K → D c X) (xs : List (Vec d K)) : B c (List (Agent d K X)) :=
  xs.mapM (agentOf mkExt)

/-- `generate_empty_agent` for each row (`mealpy/optimizer.py:136`) -/
def pendingOf (mkExt : Vec d K → D c X) (xs : List (Vec d K)) : D c (List (Vec d K × X)) :=
  xs.mapM (fun x => do
    let e ← mkExt x
    pure (x, e))

/-- `Optimizer.before_initialization` (`mealpy/optimizer.py:126-143`).  Only the first row's length
is compared with `n_dims`; for a later row of another length the model raises ValueError, standing
for whatever the objective does with it. -/
def beforeInit (mkExt : Vec d K → D c X) (st : Starting K) : B c (Option (List (Agent d K X))) :=
  match st with
  | .none => pure none
  | .notArray => fun _ => .error .value
  | .flat _ => fun _ => .error .value
  | .rows l =>
    if l.length ≠ c.popSize then fun _ => .error .value
    else match l with
      | [] => fun _ => .error .index
      | r :: _ =>
        if r.length ≠ d then fun _ => .error .value
        else match l.mapM (rowVec (d := d)) with
          | none => fun _ => .error .value
          | some xs =>
            if c.swarmLike then do
              let pend ← liftD (pendingOf mkExt xs)
              let pop ← updateTargets pend
              pure (some pop)
            else do
              let pop ← agentsOf mkExt xs
              pure (some pop)

/-- `Optimizer.after_initialization` (`mealpy/optimizer.py:149-155`) with
`History.store_initial_best_worst` (`mealpy/utils/history.py:96-100`). -/
def afterInit (sortFlag : Bool) (pop : List (Agent d K X)) (y : Y) (b : Base c) :
    Except Err (St c X Y) :=
  let sp := getSpecial c.E.argsort pop (some 1) (some 1) c.P.mm
  match sp.2.1.bind List.head?, sp.2.2.bind List.head? with
  | some best, some worst =>
    .ok { base := b
          pop := if sortFlag then sp.1 else pop
          gbest := best
          hist := { globalBest := [best], currentBest := [best], globalWorst := [worst]
                    currentWorst := [worst], globalBestFit := [], currentBestFit := []
                    diversity := [], epochTime := [], population := [] }
          ext := y }
  | _, _ => .error .index

/-- Options of one `solve` call. -/
structure RunOpts (K : Type) where
  term : Option (Term K)
  starting : Starting K
  savePop : Bool

/-- `Optimizer.check_termination("end", None, epoch)` (`mealpy/optimizer.py:207-214`). -/
def checkEnd (o : RunOpts K) (epoch : Nat) : M c X Y Bool :=
  match o.term with
  | none => pure false
  | some t => do
    let s ← get
    let es := repeatedTimes Num.abs t.epsilon (s.hist.globalBest.map Agent.fit)
    let time ← draw clock
    pure (shouldTerminate t epoch s.base.nfe time es).isSome

/-- One pass of the main loop (`mealpy/optimizer.py:256-276`): `true` means `break`. -/
def epochStep (A : Algo c X Y) (o : RunOpts K) (epoch : Nat) : M c X Y Bool := do
  let t0 ← draw clock
  A.evolve epoch
  let s ← get
  let (popTemp, g) ← updateGlobalBest s.pop
  modify (fun s => { s with gbest := g, pop := if A.sortFlag then popTemp else s.pop })
  let t1 ← draw clock
  let s ← get
  trackStep o.savePop s.pop (t1 - t0)
  checkEnd o epoch

/-- `for epoch in range(first, first + n)` with the `break` (`mealpy/optimizer.py:255-276`). -/
def mainLoop (A : Algo c X Y) (o : RunOpts K) : Nat → Nat → M c X Y Unit
  | 0, _ => pure ()
  | n + 1, epoch => do
    let stop ← epochStep A o epoch
    if stop then pure () else mainLoop A o n (epoch + 1)

/-- `check_termination("start", ...)` (`mealpy/optimizer.py:196-206`) as far as the counter and the
clock go: with a termination the counter restarts at 0. -/
def startTermination (o : RunOpts K) : B c (RunOpts K) :=
  match o.term with
  | none => pure o
  | some t => do
    modify (fun b => { b with nfe := 0 })
    let now ← liftD clock
    pure { o with term := some { t with startTime := now } }

/-- The initial population and the algorithm's attributes (`mealpy/optimizer.py:240-243`). -/
def initialPop (A : Algo c X Y) (o : RunOpts K) : B c (List (Agent d K X) × Y) := do
  let y ← liftD A.initVars
  let p ← beforeInit A.mkExt o.starting
  A.initialization y p

/-- Everything before the main loop (`mealpy/optimizer.py:239-246`). -/
def solveInit (A : Algo c X Y) (o : RunOpts K) (b : Base c) : Except Err (RunOpts K × St c X Y) := do
  let (o, b) ← startTermination o b
  let ((pop, y), b) ← initialPop A o b
  let s ← afterInit A.sortFlag pop y b
  let ((), s) ← A.beforeMain s
  pure (o, s)

/-- `Optimizer.solve` (`mealpy/optimizer.py:216-278`) after `check_problem` and
`check_mode_and_workers` (C41): the final optimizer state and the final history; the returned agent
is `gbest`. -/
def solve (A : Algo c X Y) (o : RunOpts K) (b : Base c) : Except Err (St c X Y × FinalHist d K X) := do
  let (o, s) ← solveInit A o b
  let ((), s) ← mainLoop A o c.epoch 1 s
  let h ← trackProcess s.hist
  pure (s, h)

end History

end Mealpy
