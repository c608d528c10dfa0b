import Verif.Alg.Sharing
import Verif.Alg.ORCA
import Verif.Alg.Risky
import Verif.Alg.SAPDE

/-!
# One optimizer object, several calls of `solve`

`solve` makes the generators, the history and the population anew (`mealpy/optimizer.py:166-181`) and calls `initialize_variables`.  What is left
from one call to the next are the evaluation counter, which only a call with a termination sets back (`mealpy/optimizer.py:196-206`), and the
attributes that `__init__` sets, `evolve` changes and `initialize_variables` does not set again.
-/

set_option linter.unusedSectionVars false

namespace Mealpy

variable {d : Nat} {K : Type} [Num K] {c : Cfg d K} {X Y A : Type}

/-- An optimizer object with the attributes that outlive a call of `solve`. -/
structure Object (c : Cfg d K) (X Y A : Type) where
  /-- the attributes as `__init__` leaves them -/
  built : A
  /-- what `solve` does when it finds them so -/
  algo : A → Algo c X Y
  /-- the attributes after a call that ended in this state -/
  left : A → St c X Y → A

/-- The arguments of a call of `solve`: a seed stands for the states of the two generators made from it (`mealpy/optimizer.py:166-177`). -/
structure Request (c : Cfg d K) where
  opts : RunOpts K
  rng : c.E.σ
  vg : c.P.S

/-- a new object: the attributes and `nfe_counter` (`mealpy/optimizer.py:62`) -/
def Object.fresh (O : Object c X Y A) : A × Nat := (O.built, 1)

/-- one call of `solve` (`mealpy/optimizer.py:216-278`) and what the object is then -/
def Object.call (O : Object c X Y A) (m : A × Nat) (r : Request c) : Except Err ((St c X Y × FinalHist d K X) × (A × Nat)) := do
  let q ← solve (O.algo m.1) r.opts ⟨r.rng, r.vg, [], m.2⟩
  pure (q, (O.left m.1 q.1, q.1.base.nfe))

/-- calls that end without an exception, one after the other -/
def Object.calls (O : Object c X Y A) : A × Nat → List (Request c) → Except Err (A × Nat)
  | m, [] => .ok m
  | m, r :: rs => do
    let q ← O.call m r
    O.calls q.2 rs

/-- Whatever was solved before, a call with a termination gives what it gives on a new object: the same state, the same history, the same error. -/
def Object.Repeats (O : Object c X Y A) : Prop :=
  ∀ rs m, O.calls O.fresh rs = .ok m → ∀ r : Request c, r.opts.term.isSome = true →
    (O.call m r).map Prod.fst = (O.call O.fresh r).map Prod.fst

/-- a class that keeps no attributes -/
def Object.plain (B : Algo c X Y) : Object c X Y Unit := ⟨(), fun _ => B, fun _ _ => ()⟩

/-- with a termination the counter starts from 0, whatever it was (`mealpy/optimizer.py:205`) -/
theorem solve_term {B : Algo c X Y} {o : RunOpts K} (h : o.term.isSome = true) (g : c.E.σ) (v : c.P.S) (n n' : Nat) :
    solve B o ⟨g, v, [], n⟩ = solve B o ⟨g, v, [], n'⟩ := by
  obtain ⟨t, ht⟩ := Option.isSome_iff_exists.1 h
  have e : ∀ k, startTermination o (⟨g, v, [], k⟩ : Base c) = startTermination o ⟨g, v, [], 0⟩ := fun k => by
    unfold startTermination
    rw [ht]
    rfl
  unfold solve solveInit
  rw [e n, e n']

/-- Attributes that make no difference to the next call make no difference to any later one. -/
theorem Object.repeats (O : Object c X Y A) (h : ∀ a s, O.algo (O.left a s) = O.algo a) : O.Repeats := by
  have key : ∀ rs (m m' : A × Nat), O.algo m.1 = O.algo O.built → O.calls m rs = .ok m' → O.algo m'.1 = O.algo O.built := by
    intro rs
    induction rs with
    | nil =>
      intro m m' hm hr
      cases hr
      exact hm
    | cons r rs ih =>
      intro m m' hm hr
      unfold calls at hr
      cases hc : O.call m r with
      | error e => rw [hc] at hr; cases hr
      | ok q =>
        rw [hc] at hr
        refine ih q.2 m' ?_ hr
        unfold call at hc
        cases hs : solve (O.algo m.1) r.opts ⟨r.rng, r.vg, [], m.2⟩ with
        | error e => rw [hs] at hc; cases hc
        | ok z =>
          rw [hs] at hc
          cases hc
          exact (h _ _).trans hm
  intro rs m hm r hr
  have ha := key rs O.fresh m rfl hm
  unfold call
  rw [ha, solve_term hr r.rng r.vg m.2 O.fresh.2]
  show _ = Except.map Prod.fst (solve (O.algo O.built) r.opts ⟨r.rng, r.vg, [], O.fresh.2⟩ >>= _)
  cases solve (O.algo O.built) r.opts ⟨r.rng, r.vg, [], O.fresh.2⟩ <;> rfl

/-- `dyn_radius` of `OriginalBeesA`: set by `__init__` and at the end of `evolve` (`mealpy/swarm_based/BeesA.py:209,261`); there is at least one epoch -/
def OriginalBeesA.object (p : OriginalBeesA.Params K) : Object c Nat Nat K :=
  ⟨p.radius, fun r => OriginalBeesA.algo { p with radius0 := r }, fun _ _ => p.reduction * p.radius⟩

/-- `dyn_radius` of `ProbBeesA` (`mealpy/swarm_based/BeesA.py:327,377`) -/
def ProbBeesA.object (p : ProbBeesA.Params K) : Object c Nat Nat K :=
  ⟨p.radius, fun r => ProbBeesA.algo { p with radius0 := r }, fun _ _ => p.reduction * p.radius⟩

/-- `R` of `OriginalOrcaOA` (`mealpy/swarm_based/ORCA.py:62,113`) -/
def OriginalOrcaOA.object (p : OriginalOrcaOA.Params K) : Object c Unit K K :=
  ⟨p.r0, fun r => Algo.full true (fun _ => pure ()) (pure r) (OriginalOrcaOA.evolve p), fun _ s => s.ext⟩

/-- `C_s` and `C_e` of `ABFO`: `initialize_variables` multiplies them by the width of the box, each time (`mealpy/swarm_based/BFO.py:241-242,251-253`);
numbers after `__init__`, vectors later -/
def ABFO.object (p : ABFO.Params K) : Object c (ABFO.Own d K) (Vec d K × Vec d K) (Vec d K × Vec d K) :=
  ⟨(fun _ => p.cs, fun _ => p.ce),
   fun a => Algo.full false (fun x => pure (ABFO.fresh x (c.P.target x)))
    (pure (fun j => a.1 j * (c.P.ub j - c.P.lb j), fun j => a.2 j * (c.P.ub j - c.P.lb j))) (ABFO.evolve p),
   fun _ s => s.ext⟩

/-- `pop_size` of `SAP_DE` (`mealpy/evolutionary_based/DE.py:484,573`): the next call generates as many agents as the last one ended with.
`fixed_pop_size` stays.  (That the length of `starting_solutions` is also compared with it is left out.) -/
def SAP_DE.object (abs : Bool) : Object c (SAP_DE.Own K) Unit Nat :=
  ⟨c.popSize, fun n => Algo.custom false (SAP_DE.mkExt abs) (pure ()) (fun y q => match q with
      | some pop => pure (pop, y)
      | none => do
        let pop ← generatePopulation (SAP_DE.mkExt abs) n
        pure (pop, y)) (SAP_DE.evolve abs),
   fun _ s => s.pop.length⟩

end Mealpy
