import Verif.Select

/-!
# Object identity

The rest of the model treats agents as values.  Here agents are heap objects and solutions are heap
arrays, to state what happens to recorded agents when population agents are changed later (C35).
Models `mealpy/utils/agent.py:14-48`, `mealpy/optimizer.py:149-155,555-573,609-632` and
`mealpy/utils/history.py:96-100`.
-/

namespace Mealpy

variable {d : Nat} {K X : Type}

/-- an `Agent` object: a reference to its solution array, its target and its other attributes.
Targets are never written into, so they are values here. -/
structure Obj (K X : Type) where
  sol : Nat
  tgt : Target K
  ext : X

/-- objects and arrays; a reference is a position -/
structure Heap (d : Nat) (K X : Type) where
  objs : List (Obj K X)
  arrs : List (Vec d K)

/-- what a user sees when looking at the agent object `r` -/
def Heap.view (h : Heap d K X) (r : Nat) : Option (Agent d K X) :=
  match h.objs[r]? with
  | none => none
  | some o =>
    match h.arrs[o.sol]? with
    | none => none
    | some x => some ⟨x, o.tgt, o.ext⟩

/-- `Agent(...)`: a new object -/
def Heap.alloc (h : Heap d K X) (o : Obj K X) : Nat × Heap d K X :=
  (h.objs.length, { h with objs := h.objs ++ [o] })

/-- `Agent.copy` (`mealpy/utils/agent.py:30-36`): a new object with the same solution array, an equal
target and the same attribute values. -/
def Heap.copy (h : Heap d K X) (r : Nat) : Option (Nat × Heap d K X) :=
  match h.objs[r]? with
  | none => none
  | some o => some (h.alloc o)

/-- `agent.update(solution=..., target=..., ...)`, `agent.update_agent(...)`, `agent.x = ...`
(`mealpy/utils/agent.py:39-45`): the object's attributes are rebound. -/
def Heap.assign (h : Heap d K X) (r : Nat) (o : Obj K X) : Heap d K X := { h with objs := h.objs.set r o }

/-- `agent.solution[j] = v`: a write into the array `a` -/
def Heap.write (h : Heap d K X) (a : Nat) (j : Fin d) (v : K) : Heap d K X :=
  { h with arrs := h.arrs.modify a (fun x i => if i = j then v else x i) }

/-- optimizer and history: the references they hold (`list_global_worst` and `list_current_worst` are
handled like the two best lists and left out) -/
structure Refs (d : Nat) (K X : Type) where
  heap : Heap d K X
  pop : List Nat
  gbest : Nat
  globalBest : List Nat
  currentBest : List Nat

/-- does `get_better_agent(x, y)` take `x` (`mealpy/optimizer.py:555-573`)? -/
def takesFirst [LinearOrder K] (x y : Agent d K X) : MinMax → Bool
  | .min => decide (x.fit < y.fit)
  | .max => !decide (x.fit < y.fit)

/-- `update_global_best_agent(pop, save=True)` on references (`mealpy/optimizer.py:621-632`): the
current best object itself goes to `list_current_best`; a copy of the better of it and the last
entry goes to `list_global_best` and becomes `g_best` (`mealpy/optimizer.py:262`). -/
def Refs.record [LinearOrder K] (argsort : List K → List Nat) (mm : MinMax) (s : Refs d K X) :
    Option (Refs d K X) := do
  let views ← s.pop.mapM s.heap.view
  let i ← (getSorted argsort views mm).2.head?
  let cb ← s.pop[i]?
  let gb ← s.globalBest.getLast?
  let x ← s.heap.view cb
  let y ← s.heap.view gb
  let (r, heap) ← s.heap.copy (if takesFirst x y mm then cb else gb)
  pure { s with heap := heap, gbest := r, globalBest := s.globalBest ++ [r], currentBest := s.currentBest ++ [cb] }

/-- `after_initialization` (`mealpy/optimizer.py:149-155`): `get_special_agents` returns copies, and
`store_initial_best_worst` copies again. -/
def Refs.start [LinearOrder K] (argsort : List K → List Nat) (mm : MinMax) (heap : Heap d K X) (pop : List Nat) :
    Option (Refs d K X) := do
  let views ← pop.mapM heap.view
  let i ← (getSorted argsort views mm).2.head?
  let best ← pop[i]?
  let (g, heap) ← heap.copy best
  let (r1, heap) ← heap.copy g
  let (r2, heap) ← heap.copy g
  pure ⟨heap, pop, g, [r1], [r2]⟩

/-- what the code between two recordings does with agents, writes into arrays excepted -/
inductive HeapOp (d : Nat) (K X : Type) where
  /-- a new solution array -/
  | array (x : Vec d K)
  /-- a new agent -/
  | agent (o : Obj K X)
  /-- `agent.copy()` -/
  | copy (r : Nat)
  /-- attribute assignment -/
  | assign (r : Nat) (o : Obj K X)
  /-- `self.pop = ...` or `self.pop[i] = ...` -/
  | setPop (rs : List Nat)
  /-- `update_global_best_agent` -/
  | record

/-- one step -/
def HeapOp.run [LinearOrder K] (argsort : List K → List Nat) (mm : MinMax) (s : Refs d K X) :
    HeapOp d K X → Option (Refs d K X)
  | .array x => some { s with heap := { s.heap with arrs := s.heap.arrs ++ [x] } }
  | .agent o => some { s with heap := (s.heap.alloc o).2 }
  | .copy r =>
    match s.heap.copy r with
    | none => none
    | some p => some { s with heap := p.2 }
  | .assign r o => some { s with heap := s.heap.assign r o }
  | .setPop rs => some { s with pop := rs }
  | .record => s.record argsort mm

end Mealpy
