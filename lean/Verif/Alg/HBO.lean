import Verif.Alg.Alias

/-! # Heap-based optimizer

`mealpy/human_based/HBO.py`. `cur_agent` is a copy of an agent of the population and shares its solution array, so the new position is
written into the array of that agent before it is evaluated. -/

set_option linter.unusedSectionVars false
set_option linter.unusedVariables false

namespace Mealpy
open Spec

variable {d : Nat} {K : Type} [Num K] {c : Cfg d K}

namespace OriginalHBO

/-- `next`: the next array identity; `heap`: pairs of a target and an index (`mealpy/human_based/HBO.py:105`) -/
structure Vars (K : Type) where
  next : Nat
  heap : List (Target K × Nat)

/-- exchange two entries -/
def swap {α : Type} (l : List α) (i j : Nat) : List α :=
  match l[i]?, l[j]? with
  | some a, some b => (l.set i b).set j a
  | _, _ => l

/-- a Python index, possibly negative -/
def wrap (n : Nat) (i : Int) : Nat := if 0 ≤ i then i.toNat else n - (-i).toNat

/-- the inner loop of `heapifying__` (`mealpy/human_based/HBO.py:94-101`); it compares the agents, not the entries of the heap. `fuel` bounds
the number of rounds: `t` decreases. -/
def siftUp (degree : Nat) (pop : List (Agent d K Nat)) (fuel : Nat) (t : Int) (heap : List (Target K × Nat)) : List (Target K × Nat) :=
  match fuel with
  | 0 => heap
  | fuel + 1 =>
    if t ≤ 0 then heap
    else
      let q : Int := (t + 1) / degree - 1
      match pop[wrap pop.length q]?, pop[wrap pop.length t]? with
      | some a, some b =>
        if compareTarget a.tgt b.tgt c.P.mm then heap
        else siftUp degree pop fuel q (swap heap (wrap heap.length t) (wrap heap.length q))
      | _, _ => heap

/-- `heapifying__` (`mealpy/human_based/HBO.py:88-102`) -/
def heapify (degree : Nat) (pop : List (Agent d K Nat)) : List (Target K × Nat) :=
  pop.zipIdx.foldl (fun heap q => siftUp (c := c) degree pop (q.2 + 1) q.2 (heap ++ [(q.1.tgt, q.2)])) []

/-- the last loop of `evolve` (`mealpy/human_based/HBO.py:151-158`) -/
def settle (degree : Nat) (fuel : Nat) (t : Nat) (heap : List (Target K × Nat)) : List (Target K × Nat) :=
  match fuel with
  | 0 => heap
  | fuel + 1 =>
    if t ≤ 1 then heap
    else
      let q := (t + 1) / degree
      match heap[q]?, heap[t]? with
      | some a, some b => if compareTarget a.1 b.1 c.P.mm then heap else settle degree fuel q (swap heap t q)
      | _, _ => heap

/-- `colleagues_limits_generator__` (`mealpy/human_based/HBO.py:78-86`): the limits of agent `k` -/
def limits (n degree k : Nat) : Int × Int :=
  let hi : Int := Num.ceil (Num.ufunc "log10" (♯(k * degree - k + 1) : K) / Num.ufunc "log10" (♯degree : K)) - 1
  let lower : K := ((♯degree : K) * Num.pow (♯degree : K) (Num.ofInt (hi - 1)) - 1) / (♯degree - 1) + 1
  let upper : K := ((♯degree : K) * Num.pow (♯degree : K) (Num.ofInt hi) - 1) / (♯degree - 1)
  (Num.trunc (if lower ≤ ♯n then lower else ♯n), Num.trunc (if upper ≤ ♯n then upper else ♯n))

/-- one agent (`mealpy/human_based/HBO.py:119-158`) -/
def step (degree : Nat) (table : Nat → Int × Int) (ep k : Nat) : M c Nat (Vars K) Unit := do
  let cycles : K := Num.ofInt (Num.floor ((♯c.epoch : K) / 25))
  let per : K := ♯c.epoch / cycles
  let gama : K := Num.abs (2 - (Num.mod (♯ep) per + 1) / (per / 4))
  let p1 : K := 1 - ♯ep / ♯c.epoch
  let p2 : K := p1 + (1 - p1) / 2
  let s ← get
  let q ← draw (nthI s.ext.heap (((k + 1) / degree : Nat) - 1 : Int))
  let me ← draw (nth s.ext.heap k)
  let cur ← popAt me.2
  let par ← popAt q.2
  let lim := table k
  let fi ← draw (if lim.1 < lim.2 + 1 then pure lim.1 else do
    let l := ((List.range (lim.2 - lim.1).toNat).map (fun i => lim.1 + (i : Int))).filter (fun i => i ≠ (k : Int))
    let i ← index l.length
    nth l i)
  let fr ← draw (nthI s.ext.heap fi)
  let fri ← popAt fr.2
  let rr ← draw randomVec
  let rn ← draw randomVec
  -- the parent and the friend may hold the same array: then coordinate `j` of `cur` is read before it is written
  let pos : Vec d K := fun j =>
    let w : K := (2 * rn j - 1) * gama
    if rr j < p1 then cur.sol j
    else if rr j < p2 then par.sol j + w * Num.abs (par.sol j - cur.sol j)
    else if compareTarget fr.1 me.1 c.P.mm then fri.sol j + w * Num.abs (fri.sol j - cur.sol j)
    else cur.sol j + w * Num.abs (fri.sol j - cur.sol j)
  poke cur.ext pos
  let x ← draw (correct pos)
  let s ← get
  modExt (fun y => { y with next := y.next + 1 })
  let t ← liftB (getTarget x)
  if compareTarget t me.1 c.P.mm then do
    setAt me.2 ⟨x, t, s.ext.next⟩
    modExt (fun y => { y with heap := y.heap.set k (t, me.2) })
  else pure ()
  modExt (fun y => { y with heap := settle (c := c) degree (k + 1) k y.heap })

/-- `evolve` (`mealpy/human_based/HBO.py:108-158`) -/
def evolve (degree : Nat) (table : Nat → Int × Int) (ep : Nat) : M c Nat (Vars K) Unit :=
  iter (c.popSize - 1) (fun i _ => step degree table ep (c.popSize - 1 - i)) ()

/-- `OriginalHBO` (`mealpy/human_based/HBO.py:12-158`); `table` is `self.friend_limits`, in the code `limits c.popSize degree`. It is a parameter
so that runs in exact arithmetic can use the table that real logarithms and powers give. -/
def algo (degree : Nat) (table : Nat → Int × Int) : Algo c Nat (Vars K) where
  sortFlag := false
  mkExt := fun _ => pure 0
  initVars := pure ⟨0, []⟩
  initialization := fun y p => do
    let r ← tagInit 0 p
    pure (r.1, ⟨c.popSize, []⟩)
  beforeMain := do
    let s ← get
    modExt (fun y => { y with heap := heapify (c := c) degree s.pop })
  evolve := evolve degree table

end OriginalHBO

end Mealpy
