import Verif.Env
import Mathlib.Data.Rat.Floor
import Mathlib.Algebra.Order.Floor.Ring

/-!
# Validation of user input

Models `mealpy/utils/validator.py:17-129`, `Optimizer.set_parameters`
(`mealpy/optimizer.py:71-102`) and `Optimizer.check_mode_and_workers` (`mealpy/optimizer.py:179-193`).
-/

namespace Mealpy.Valid

/-- A python real number: exact finite value (floats are rationals), infinities, NaN. -/
inductive Ext where
  | ninf | fin (q : ℚ) | pinf | nan
  deriving DecidableEq

/-- IEEE `a < b`. -/
def Ext.lt : Ext → Ext → Bool
  | .nan, _ => false
  | _, .nan => false
  | .fin a, .fin b => decide (a < b)
  | .ninf, .ninf => false
  | .ninf, _ => true
  | _, .ninf => false
  | .pinf, _ => false
  | _, .pinf => true

/-- IEEE `a <= b`. -/
def Ext.le : Ext → Ext → Bool
  | .nan, _ => false
  | _, .nan => false
  | .fin a, .fin b => decide (a ≤ b)
  | .ninf, _ => true
  | _, .ninf => false
  | _, .pinf => true
  | .pinf, _ => false

/-- A range argument: a tuple means an open range, a list a closed one. -/
inductive Bound where
  | tuple (lo hi : Ext)
  | list (lo hi : Ext)
  deriving DecidableEq

/-- first entry of the range -/
def Bound.lo : Bound → Ext | .tuple l _ => l | .list l _ => l
/-- second entry of the range -/
def Bound.hi : Bound → Ext | .tuple _ h => h | .list _ h => h
/-- `operator.lt` for a tuple, `operator.le` for a list (`mealpy/utils/validator.py:19-22`) -/
def Bound.ops : Bound → Ext → Ext → Bool | .tuple .. => Ext.lt | .list .. => Ext.le

/-- `is_in_bound` (`mealpy/utils/validator.py:17-31`), the five branches in order. -/
def isInBound (value : Ext) (b : Bound) : Bool :=
  if b.lo = .ninf && b.hi = .pinf then true
  else if b.lo = .ninf && b.ops value b.hi then true
  else if b.ops b.lo value && b.hi = .pinf then true
  else if b.ops b.lo value && b.ops value b.hi then true
  else false

/-- Dynamically typed python values as far as the validator distinguishes them.  `complex` numbers
(instances of `Number` that cannot be ordered) are not modelled.  `bool` is an instance of
`Number` and `int`, but `type(True)` is not `int`. -/
inductive PyVal where
  | int (z : Int)
  | float (x : Ext)
  | bool (b : Bool)
  | str (s : String)
  | none
  | other
  deriving DecidableEq

/-- `isinstance(value, Number)` together with the numeric value. -/
def PyVal.number : PyVal → Option Ext
  | .int z => some (.fin z)
  | .float x => some x
  | .bool b => some (.fin (if b then 1 else 0))
  | _ => Option.none

/-- `isinstance(value, (int, np.integer))` together with the numeric value. -/
def PyVal.digit : PyVal → Option Ext
  | .int z => some (.fin z)
  | .bool b => some (.fin (if b then 1 else 0))
  | _ => Option.none

/-- python's `int(x)`: truncation toward zero; OverflowError on infinities, ValueError on NaN. -/
def pyInt : Ext → Except Err Int
  | .fin q => .ok (if 0 ≤ q then ⌊q⌋ else ⌈q⌉)
  | .nan => .error .value
  | _ => .error .overflow

/-- `Validator.check_int` (`mealpy/utils/validator.py:52-59`). -/
def checkInt (value : PyVal) (bound : Option Bound) : Except Err Int :=
  match value.number with
  | some x =>
    match bound with
    | Option.none => pyInt x
    | some b => if isInBound x b then pyInt x else .error .value
  | Option.none => .error .value

/-- `Validator.check_float` (`mealpy/utils/validator.py:61-68`). -/
def checkFloat (value : PyVal) (bound : Option Bound) : Except Err Ext :=
  match value.number with
  | some x =>
    match bound with
    | Option.none => .ok x
    | some b => if isInBound x b then .ok x else .error .value
  | Option.none => .error .value

/-- `Validator.check_str` with `is_str_in_list` (`mealpy/utils/validator.py:34-37,70-75`). -/
def checkStr (value : PyVal) (bound : Option (List String)) : Except Err String :=
  match value with
  | .str s =>
    match bound with
    | Option.none => .ok s
    | some l => if s ∈ l then .ok s else .error .value
  | _ => .error .value

/-- `Validator.check_bool` (`mealpy/utils/validator.py:77-82`). -/
def checkBool (value : PyVal) (bound : List Bool) : Except Err Bool :=
  match value with
  | .bool b => if b ∈ bound then .ok b else .error .value
  | _ => .error .value

/-- The common body of `check_tuple_int` and `check_tuple_float`
(`mealpy/utils/validator.py:84-108`); `num` is the `isinstance` test.  A non-sequence argument is
`none`. -/
def checkTuple (num : PyVal → Option Ext) (values : Option (List PyVal))
    (bounds : Option (List Bound)) : Except Err (List PyVal) :=
  match values with
  | Option.none => .error .value
  | some vs =>
    if vs.length > 1 then
      if vs.all (fun v => (num v).isSome) then
        match bounds with
        | some bs =>
          if bs.length = vs.length then
            if (List.zipWith (fun v b => match num v with
                  | some x => isInBound x b | Option.none => false) vs bs).all id
            then .ok vs else .error .value
          else .ok vs
        | Option.none => .ok vs
      else .error .value
    else .error .value

/-- `Validator.check_tuple_int` (`mealpy/utils/validator.py:84-95`). -/
def checkTupleInt := checkTuple PyVal.digit
/-- `Validator.check_tuple_float` (`mealpy/utils/validator.py:97-108`). -/
def checkTupleFloat := checkTuple PyVal.number

/-- `Validator.check_list_tuple` (`mealpy/utils/validator.py:110-113`); `none`: neither tuple nor
list. -/
def checkListTuple {α : Type} (value : Option (List α)) : Except Err (List α) :=
  match value with
  | some l => if l.length ≥ 1 then .ok l else .error .value
  | Option.none => .error .value

/-- `Validator.check_is_int_and_float` (`mealpy/utils/validator.py:120-129`); `type(value) is int`
excludes `bool`. -/
def checkIsIntAndFloat (value : PyVal) (boundInt boundFloat : Option Bound) : Except Err PyVal :=
  match value with
  | .int z =>
    if (match boundInt with | Option.none => true | some b => isInBound (.fin z) b)
    then .ok (.int z) else .error .value
  | .float x =>
    if (match boundFloat with | Option.none => true | some b => isInBound x b)
    then .ok (.float x) else .error .value
  | _ => .error .value

/-! ## Optimizer.set_parameters -/

/-- The part of an optimizer object that `set_parameters` touches: its `__dict__`, the dict
`parameters` (insertion ordered) and `params_name_ordered`. -/
structure ParamState (V : Type) where
  attrs : String → Option V
  parameters : List (String × V)
  namesOrdered : Option (List String)

/-- `d[key] = value` on an insertion-ordered dict -/
def dictPut {V : Type} (d : List (String × V)) (k : String) (v : V) : List (String × V) :=
  if d.any (fun p => p.1 = k) then d.map (fun p => if p.1 = k then (k, v) else p) else d ++ [(k, v)]

/-- `d.get(key)` -/
def dictFind {V : Type} (d : List (String × V)) (k : String) : Option V :=
  (d.find? (fun p => p.1 = k)).map (·.2)

/-- `setattr(self, key, value)` -/
def setAttr {V : Type} (a : String → Option V) (k : String) (v : V) : String → Option V :=
  fun n => if n = k then some v else a n

/-- `set_parameters(list)` (`mealpy/optimizer.py:81-85`).  The state is returned beside the outcome
because the assignments before a KeyError survive. -/
def setParamsList {V : Type} (names : List String) (st : ParamState V) :
    Except Err Unit × ParamState V :=
  go names { st with namesOrdered := some names, parameters := [] }
where
  /-- the loop of lines 84-85 -/
  go : List String → ParamState V → Except Err Unit × ParamState V
    | [], st => (.ok (), st)
    | n :: ns, st =>
      match st.attrs n with
      | some v => go ns { st with parameters := dictPut st.parameters n v }
      | Option.none => (.error .key, st)

/-- `set_parameters(dict)` (`mealpy/optimizer.py:87-96`). -/
def setParamsDict {V : Type} (params : List (String × V)) (st : ParamState V) :
    Except Err Unit × ParamState V :=
  if params.all (fun p => st.parameters.any (fun q => q.1 = p.1)) then
    (.ok (), params.foldl (fun st p =>
      { st with attrs := setAttr st.attrs p.1 p.2, parameters := dictPut st.parameters p.1 p.2 }) st)
  else (.error .value, st)

/-! ## Optimizer.check_mode_and_workers -/

/-- execution modes (`mealpy/optimizer.py:44`) -/
inductive Mode where
  | process | thread | swarm | single
  deriving DecidableEq, Repr

/-- the mode strings -/
def Mode.name : Mode → String
  | .process => "process" | .thread => "thread" | .swarm => "swarm" | .single => "single"

/-- `SUPPORTED_MODES` (`mealpy/optimizer.py:44`) -/
def Mode.all : List Mode := [.process, .thread, .swarm, .single]

/-- the mode named by a string -/
def Mode.ofString (s : String) : Option Mode := Mode.all.find? (fun m => m.name = s)

/-- `min(61, os.cpu_count() - 1)` and friends are python integers -/
def cpuBound (lo hi : Int) : Bound := .list (.fin lo) (.fin hi)

/-- `check_mode_and_workers` (`mealpy/optimizer.py:179-193`): the resulting `self.mode` and
`self.n_workers` (`old` is the value of `self.n_workers` before the call; `cpu` is
`os.cpu_count()`).  Logging is dropped. -/
def checkModeAndWorkers (mode nWorkers : PyVal) (parallelizable : Bool) (cpu : Int)
    (old : Option Int) : Except Err (Mode × Option Int) := do
  let s ← checkStr mode (some (Mode.all.map Mode.name))
  let m := (Mode.ofString s).getD .single
  if m = .process || m = .thread then
    if !parallelizable then .ok (.single, old)
    else if nWorkers ≠ .none then
      if m = .process then
        let w ← checkInt nWorkers (some (cpuBound 2 (min 61 (cpu - 1))))
        .ok (m, some w)
      else
        let w ← checkInt nWorkers (some (cpuBound 2 (min 32 (cpu + 4))))
        .ok (m, some w)
    else .ok (m, some 4)
  else .ok (m, old)

end Mealpy.Valid
