import Verif.Opt

/-!
# Loop shapes shared by the algorithms

Nearly all `evolve` methods follow one of a few shapes (build a position for each index, correct it,
evaluate it, select).  They are modelled once here; each algorithm supplies the code that builds
the position (`mk`), which runs in `D` and sees the current optimizer state.
-/

namespace Mealpy

variable {d : Nat} {K : Type} [LinearOrder K] {c : Cfg d K} {X Y : Type}

/-- raise -/
def mthrow {α : Type} (e : Err) : M c X Y α := fun _ => .error e

/-- `self.pop[i]` -/
def popAt (i : Nat) : M c X Y (Agent d K X) := fun s =>
  match s.pop[i]? with
  | some a => .ok (a, s)
  | none => .error .index

/-- `self.pop[i] = a`: the list slot is rebound to another object -/
def setAt (i : Nat) (a : Agent d K X) : M c X Y Unit := fun s =>
  if i < s.pop.length then
    .ok ((), { s with pop := s.pop.set i a })
  else .error .index

/-- `self.pop[i].update(solution=x, target=t)` (`mealpy/utils/agent.py:42-44`): the object is
changed in place; its other attributes stay -/
def updateAt (i : Nat) (x : Vec d K) (t : Target K) : M c X Y Unit := fun s =>
  match s.pop[i]? with
  | some a => .ok ((), { s with
      pop := s.pop.set i { a with sol := x, tgt := t } })
  | none => .error .index

/-- `agent.target = self.get_target(pos_new)`;
`self.pop[idx] = self.get_better_agent(agent, self.pop[idx], minmax)`
(for example `mealpy/swarm_based/GWO.py:94-96`). -/
def tryBetter (i : Nat) (p : Vec d K × X) : M c X Y Unit := do
  let t ← liftB (getTarget p.1)
  let old ← popAt i
  setAt i (getBetterAgent ⟨p.1, t, p.2⟩ old c.P.mm)

/-- `agent = self.generate_agent(pos_new)`;
`if self.compare_target(agent.target, self.pop[idx].target, minmax): self.pop[idx] = agent`
(for example `mealpy/swarm_based/POA.py:94-97`). -/
def tryCompare (mkExt : Vec d K → D c X) (i : Nat) (x : Vec d K) : M c X Y Unit := do
  let a ← liftB (agentOf mkExt x)
  let old ← popAt i
  if compareTarget a.tgt old.tgt c.P.mm then setAt i a else pure ()

/-- build `n` pending agents without evaluating them; the population does not change meanwhile -/
def buildPending (n : Nat) (mk : Nat → D c (Vec d K × X)) : D c (List (Vec d K × X)) :=
  iter n (fun i acc => do
    let p ← mk i
    pure (acc ++ [p])) []

/-- `self.pop = self.greedy_selection_population(self.pop, pop_new, minmax)` -/
def selectGreedy (new : List (Agent d K X)) : M c X Y Unit := fun s =>
  match greedySelection s.pop new c.P.mm with
  | .ok pop => .ok ((), { s with pop := pop })
  | .error e => .error e

/-- The commonest `evolve`:

```
pop_new = []
for idx in range(0, n):
    pos_new = ...                       # mk
    agent = self.generate_empty_agent(pos_new)
    pop_new.append(agent)
    if self.mode not in self.AVAILABLE_MODES:
        agent.target = self.get_target(pos_new)
        self.pop[idx] = self.get_better_agent(agent, self.pop[idx], self.problem.minmax)
if self.mode in self.AVAILABLE_MODES:
    pop_new = self.update_target_for_population(pop_new)
    self.pop = self.greedy_selection_population(self.pop, pop_new, self.problem.minmax)
```

In `single` mode `mk` sees the population as updated so far, otherwise the old one. -/
def greedyLoop (n : Nat) (mk : St c X Y → Nat → D c (Vec d K × X)) : M c X Y Unit :=
  if c.swarmLike then do
    let s ← get
    let pend ← draw (buildPending n (mk s))
    let new ← liftB (updateTargets pend)
    selectGreedy new
  else
    iter n (fun i _ => do
      let s ← get
      let p ← draw (mk s i)
      tryBetter i p) ()

/-- The replacing shape: as `greedyLoop`, but in `single` mode
`self.pop[idx].update(solution=pos_new, target=self.get_target(pos_new))` and otherwise
`self.pop = self.update_target_for_population(pop_new)` (`mealpy/swarm_based/WOA.py:101-105`). -/
def replaceLoop (n : Nat) (mk : St c X Y → Nat → D c (Vec d K × X)) : M c X Y Unit :=
  if c.swarmLike then do
    let s ← get
    let pend ← draw (buildPending n (mk s))
    let new ← liftB (updateTargets pend)
    modify (fun s => { s with pop := new })
  else
    iter n (fun i _ => do
      let s ← get
      let p ← draw (mk s i)
      let t ← liftB (getTarget p.1)
      updateAt i p.1 t) ()

/-- As `replaceLoop` with `agent.target = self.get_target(pos_new); self.pop[idx] = agent` in `single`
mode: the slot is rebound (`mealpy/swarm_based/GJO.py:93-98`, `mealpy/bio_based/SMA.py:200-204`). -/
def rebindLoop (n : Nat) (mk : St c X Y → Nat → D c (Vec d K × X)) : M c X Y Unit :=
  if c.swarmLike then do
    let s ← get
    let pend ← draw (buildPending n (mk s))
    let new ← liftB (updateTargets pend)
    modify (fun s => { s with pop := new })
  else
    iter n (fun i _ => do
      let s ← get
      let p ← draw (mk s i)
      let t ← liftB (getTarget p.1)
      setAt i ⟨p.1, t, p.2⟩) ()

/-- Build and evaluate `n` agents that do not enter the population yet:

```
for idx in range(0, n):
    ...                                  # mk
    pop_new.append(agent)
    if self.mode not in self.AVAILABLE_MODES:
        pop_new[-1].target = self.get_target(pos_new)
pop_new = self.update_target_for_population(pop_new)
```
(`mealpy/music_based/HS.py:94-99`). -/
def buildEval (n : Nat) (mk : St c X Y → Nat → D c (Vec d K × X)) : M c X Y (List (Agent d K X)) :=
  if c.swarmLike then do
    let s ← get
    let pend ← draw (buildPending n (mk s))
    liftB (updateTargets pend)
  else
    iter n (fun i acc => do
      let s ← get
      let p ← draw (mk s i)
      let t ← liftB (getTarget p.1)
      pure (acc ++ [⟨p.1, t, p.2⟩])) []

/-- `self.pop = self.get_sorted_and_trimmed_population(self.pop + pop_new, n, minmax)` -/
def mergeTrim (n : Nat) (new : List (Agent d K X)) : M c X Y Unit :=
  modify (fun s => { s with
    pop := getSortedTrimmed c.E.argsort (s.pop ++ new) n c.P.mm })

/-- `self.pop = l` -/
def setPop (l : List (Agent d K X)) : M c X Y Unit :=
  modify (fun s => { s with pop := l })

end Mealpy
