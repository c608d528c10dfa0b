import Lean.Elab.Tactic

/-!
# Dispatching proof steps on the next instruction

`at_head f` succeeds if the goal is a judgement `J … m Q` about a program `m` whose head symbol is `f`;
`at_bind f` if `m` is `x >>= k` and `f` is the head symbol of `x`.  They prove nothing: they only
keep the other tactics from trying steps that cannot apply.
-/

namespace Mealpy.Tactics
open Lean Elab Tactic Meta

/-- look through annotations, `have`/`let` and applied lambdas -/
partial def strip (e : Expr) : Expr :=
  match e with
  | .mdata _ e => strip e
  | .letE _ _ v b _ => strip (b.instantiate1 v)
  | e => if e.isHeadBetaTarget then strip e.headBeta else e

/-- the program a judgement is about: its last argument but one (`HJ` and `RJ` have one more) -/
def program (e : Expr) : MetaM Expr := do
  let e := strip (← instantiateMVars e)
  let a := e.getAppArgs
  let k := if e.getAppFn.constName? == some `Mealpy.HJ || e.getAppFn.constName? == some `Mealpy.RJ then 3 else 2
  if a.size < k then throwError "not a judgement"
  return strip a[a.size - k]!

/-- the goal's program is an application of this constant -/
elab "at_head " x:ident : tactic => withMainContext do
  let n ← realizeGlobalConstNoOverload x
  let m ← program (← getMainTarget)
  unless m.getAppFn.constName? == some n do throwError "other program"

/-- the goal's program is a bind whose first part is an application of this constant -/
elab "at_bind " x:ident : tactic => withMainContext do
  let n ← realizeGlobalConstNoOverload x
  let m ← program (← getMainTarget)
  unless m.isAppOfArity ``Bind.bind 6 do throwError "not a bind"
  let y := strip m.getAppArgs[4]!
  unless y.getAppFn.constName? == some n do throwError "other program"

/-- the goal's last argument is an application of this constant -/
elab "at_last " x:ident : tactic => withMainContext do
  let n ← realizeGlobalConstNoOverload x
  let e := strip (← instantiateMVars (← getMainTarget))
  let a := e.getAppArgs
  if a.size < 1 then throwError "not a judgement"
  unless (strip a[a.size - 1]!).getAppFn.constName? == some n do throwError "other program"

end Mealpy.Tactics
