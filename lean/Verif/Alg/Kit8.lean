import Verif.Alg.Kit7

/-! # Combinators, part 8

The particle-swarm slot update: an agent carries a velocity and the best position it has visited itself. -/

set_option linter.unusedSectionVars false
set_option linter.unusedVariables false

namespace Mealpy
open Spec

variable {d : Nat} {K : Type} [Num K] {c : Cfg d K} {X Y : Type}
variable {Er : Err → Prop} {F : Agent d K X → Prop} {J : Y → Prop}

/-- assign attributes other than position and target of the agent in slot `i` -/
def setExtAt (i : Nat) (f : Agent d K X → X) : M c X Y Unit :=
  mapExt (fun k a => if k = i then f a else a.ext)

theorem IT.setExtAt {i : Nat} {f : Agent d K X → X} : IT (FA c) J 0 0 (setExtAt i f : M c X Y Unit) (fun _ => True) :=
  IT.mapExt (fun _ _ h => h)

theorem WT.setExtAt {i : Nat} {f : Agent d K X → X} {I : Y → Prop} :
    WT Er (Inv.std c X I) 0 0 (setExtAt i f : M c X Y Unit) (fun _ => True) := WT.mapExt

theorem Framed.setExtAt {q : Bool} {i : Nat} {f : Agent d K X → X} : Framed q (setExtAt i f : M c X Y Unit) := by
  unfold Mealpy.setExtAt; framed

/-- the attributes `velocity`, `local_solution`, `local_target` of a particle (`mealpy/swarm_based/PSO.py:80-91`) -/
structure Bird (d : Nat) (K : Type) where
  vel : Vec d K
  lsol : Vec d K
  ltgt : Target K

namespace Bird

/-- `generate_empty_agent` and `generate_agent` (`mealpy/swarm_based/PSO.py:76-91`, and the same in the other variants): a random velocity
within half the width of the box; the particle's own best is where it stands -/
def mk' (x : Vec d K) : D c (Bird d K) := do
  let v ← uniformVec (fun j => -(0.5 * (c.P.ub j - c.P.lb j))) (fun j => 0.5 * (c.P.ub j - c.P.lb j))
  pure ⟨v, x, c.P.target x⟩

theorem dt_mk' {x : Vec d K} {Q : Bird d K → Prop} (h : ∀ e, Q e) : DT Er (mk' x : D c (Bird d K)) Q := by
  unfold mk'
  exact DT.bind DT.uniformVec' fun w _ => DT.pure (h _)

/-- `self.pop[idx].velocity = v` followed by the evaluation of `x`, the comparison with the agent and the comparison with the agent's own
best (`mealpy/swarm_based/PSO.py:109-117`); the targets are pure values, so the second comparison may recompute the target -/
def move (i : Nat) (v x : Vec d K) : M c (Bird d K) Y Unit := do
  setExtAt i (fun a => { a.ext with vel := v })
  let _ ← tryUpd i x
  setExtAt i (fun a =>
    if compareTarget (c.P.target x) a.ext.ltgt c.P.mm then { a.ext with lsol := x, ltgt := c.P.target x } else a.ext)

theorem it_move {i : Nat} (hi : i < c.popSize) {v x : Vec d K} (hx : Feas c x) :
    IT (FA c) J 1 1 (move i v x : M c (Bird d K) Y Unit) (fun _ => True) := by
  unfold move
  refine IT.bind0 IT.setExtAt fun _ _ => IT.bindS (IT.tryUpd hi hx (FA.updF hx)) (by omega) fun _ _ => ?_
  exact IT.weaken IT.setExtAt (by omega) (by omega)

theorem wt_move {I : Y → Prop} {i : Nat} (hi : i < c.popSize) {v x : Vec d K} (hx : Feas c x) :
    WT Er (Inv.std c (Bird d K) I) 1 1 (move i v x : M c (Bird d K) Y Unit) (fun _ => True) := by
  unfold move
  refine WT.bind0 WT.setExtAt fun _ _ => WT.bindS (WT.tryUpd Inv.std_upd (by wsz) hx) (by omega) fun _ _ => ?_
  exact WT.weaken WT.setExtAt (by omega) (by omega)

theorem framed_move {q : Bool} {i : Nat} {v x : Vec d K} : Framed q (move i v x : M c (Bird d K) Y Unit) :=
  .bind .setExtAt fun _ => .bind .tryUpd fun _ => .setExtAt

end Bird

macro_rules
  | `(tactic| fprim) => `(tactic| first
    | (at_last setExtAt; exact Framed.setExtAt)
    | (at_last Bird.move; exact Bird.framed_move))

macro_rules
  | `(tactic| dprim) => `(tactic| (at_head Bird.mk'; exact Bird.dt_mk' (fun _ => by dfin)))

macro_rules
  | `(tactic| istep) => `(tactic| first
    | (at_bind setExtAt; refine IT.bind0 IT.setExtAt (fun _ _ => ?_))
    | (at_head setExtAt; exact IT.weaken IT.setExtAt (by omega) (by omega))
    | (at_head Bird.move; exact IT.weaken (Bird.it_move (by omega) (by dfin)) (by omega) (by omega)))

macro_rules
  | `(tactic| wstep) => `(tactic| first
    | (at_bind setExtAt; refine WT.bind0 WT.setExtAt (fun _ _ => ?_))
    | (at_head setExtAt; exact WT.weaken WT.setExtAt (by omega) (by omega))
    | (at_head Bird.move; exact WT.weaken (Bird.wt_move (by omega) (by dfin)) (by omega) (by omega)))

end Mealpy
