import Verif.Alg.Hang
import Verif.Alg.Simple20
import Verif.Climb

/-! Two classes whose population never loses ground although `climb` alone does not see it. -/

set_option linter.unusedVariables false

namespace Mealpy
open Spec

variable {d : Nat} {K : Type} [Num K] {c : Cfg d K}

namespace OriginalHCO
theorem keep_noWorse (mm : MinMax) (o n : Agent d K Unit) : NoWorse mm (keep mm n o).fit o.fit := by
  unfold keep
  split
  · rename_i h
    exact compareTarget_true h
  · exact NoWorse.rfl

theorem climbs (hE : c.E.Lawful) (p : Params K) (ep : Nat) (q : List _) : Up q (evolve p ep : M c Unit (Vars d K) Unit) := by
  unfold evolve
  refine .bindGet fun s hs => .bindS .draw fun lam _ => ?_
  refine .bindS (.drawR (DT.repM (Q := fun _ => True) fun i hi => fun g => Wp.any fun _ _ _ => trivial)) fun pend hp => ?_
  refine .bindS (.evalAll hE) fun new hn => .bind (.setPop fun hl => ?_) fun _ _ _ => .ofStill .modExt
  rw [hs, List.zipWith_comm]
  exact Climbed.zip (f := fun o n => keep c.P.mm n o) (keep_noWorse _) (by rw [hn, hp.1, hl])
end OriginalHCO

namespace ImprovedLCO
theorem climbs (hE : c.E.Lawful) (ep : Nat) (q : List _) : Up q (evolve ep : M c Unit Unit Unit) := by
  have hagain : ∀ (k : Nat) (q : List (Agent d K Unit)), Up q (again k : M c Unit Unit Unit) := fun k q => by
    intro hl
    unfold again
    exact Up.bindGet (fun s hs => .bindS (.evalAll hE) fun new hn => .betterSuffix (by
      have hn' : new.length = _ := hn
      rw [hn', List.length_map, List.length_drop, hs, hl])) hl
  unfold evolve
  refine .bind .greedyLoop fun _ q1 _ => .bind (.sortPop hE) fun _ q2 _ => .bindGet fun s _ => .bindS .draw fun best _ => ?_
  refine .bind (.greedyFirst hE (by omega)) fun _ q3 _ => .bindGet fun s _ => ?_
  dsimp only
  refine .ite (fun _ => .bindS .draw fun _ _ => hagain _ _) fun _ => .iter fun _ _ _ _ => .bindS .draw fun _ _ => .tryBetterR
end ImprovedLCO

end Mealpy
