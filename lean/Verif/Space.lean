import Verif.SelectLemmas
import Mathlib.Algebra.Order.Floor.Ring
import Mathlib.Data.Prod.Lex
import Mathlib.Data.String.Basic
import Mathlib.Data.List.Dedup
import Mathlib.Data.Rat.Cast.Order

/-!
# Variables and problems

Models `mealpy/utils/space.py` and the solution handling of `mealpy/utils/problem.py`, over an
arbitrary ordered field with floor (`ℚ` and `ℝ` are instances).  Floating-point rounding is not
modelled; everything else is branch by branch.
-/

namespace Mealpy.Space

/-! ## Labels -/

/-- A hashable label as `LabelEncoder.fit` classifies it (`mealpy/utils/space.py:38-47`): `None`,
a number, a string, or another object (which sorts by `str(val)`; simplification: two such objects
are taken as equal iff their `str` is).  Sequences (list/tuple/ndarray) are not labels here because
`set_y` (`:24-27`) treats them as many labels. -/
inductive Label where
  | none
  | num (q : ℚ)
  | str (s : String)
  | obj (s : String)
  deriving DecidableEq, Repr

/-- `safe_key` (`mealpy/utils/space.py:38-47`), with the unused component filled in. -/
def Label.key : Label → ℕ ×ₗ (ℚ ×ₗ String)
  | .none => toLex (0, toLex (0, ""))
  | .num q => toLex (1, toLex (q, ""))
  | .str s => toLex (2, toLex (0, s))
  | .obj s => toLex (3, toLex (0, s))

theorem Label.key_injective : Function.Injective Label.key := by
  intro a b h
  cases a <;> cases b <;> simp_all [Label.key, Prod.ext_iff]

/-- labels are ordered by `safe_key` -/
instance : LinearOrder Label := LinearOrder.lift' Label.key Label.key_injective

/-- `LabelEncoder.fit`: `sorted(set(y), key=safe_key)` (`mealpy/utils/space.py:50`). -/
def uniqueLabels (y : List Label) : List Label :=
  y.dedup.mergeSort (fun a b => decide (a ≤ b))

/-- `LabelEncoder.transform` of one label (`mealpy/utils/space.py:54-71`); KeyError if unseen. -/
def transform1 (unique : List Label) (l : Label) : Except Err Nat :=
  if l ∈ unique then .ok (unique.idxOf l) else .error .key

/-- `LabelEncoder.transform` (`mealpy/utils/space.py:54-71`). -/
def transform (unique : List Label) (y : List Label) : Except Err (List Nat) :=
  y.mapM (transform1 unique)

/-- `LabelEncoder.inverse_transform` of one integer code (`mealpy/utils/space.py:88-106`). -/
def inverse1 (unique : List Label) (i : Int) : Label :=
  if 0 ≤ i ∧ i < unique.length then (unique[i.toNat]?).getD (.str "unknown") else .str "unknown"

/-- `LabelEncoder.inverse_transform` (`mealpy/utils/space.py:88-106`). -/
def inverse (unique : List Label) (y : List Int) : List Label := y.map (inverse1 unique)

/-! ## Numbers -/

variable {K : Type} [Field K] [LinearOrder K] [IsStrictOrderedRing K] [FloorRing K]

/-- `self.eps = 1e-4` (`mealpy/utils/space.py:193,228,283,315,346,403`). -/
def eps : K := 1 / 10000

/-- `np.array(x, dtype=int)` on one number: truncation towards zero. -/
def trunc (x : K) : Int := if 0 ≤ x then ⌊x⌋ else ⌈x⌉

/-- `BaseVar.round` (`mealpy/utils/space.py:151-155`). -/
def round (x : K) : Int := if x - ⌊x⌋ < 1 / 2 then ⌊x⌋ else ⌈x⌉

/-- `np.clip(x, lb, ub)` on arrays of equal length. -/
def clipL (x lb ub : List K) : List K :=
  List.zipWith (fun p u => clip p.1 p.2 u) (List.zip x lb) ub

/-! ## Variables -/

/-- The ten supported variable classes (`mealpy/utils/space.py`), after construction.  `integer`
stores the user's bounds (already truncated by the constructor if they were scalars). -/
inductive Kind (K : Type) where
  | float (lb ub : List K)
  | integer (lb ub : List K)
  | string (sets : List (List Label))
  | categorical (sets : List (List Label))
  | sequence (sets : List (List Label))
  | permutation (set : List Label)
  | binary (n : Nat)
  | bool (n : Nat)
  | tbinary (n : Nat) (tf : K → K) (lb ub : K) (allZeros : Bool)
  | tbool (n : Nat) (tf : K → K) (lb ub : K)

/-- a variable: its kind and its `name` -/
structure Var (K : Type) where
  name : String
  kind : Kind K

/-- `FloatVar(lb, ub)` with array bounds (`mealpy/utils/space.py:163-174`); scalars are the
one-element case. -/
def mkFloat (lb ub : List K) : Except Err (Kind K) :=
  if lb.length = ub.length then .ok (.float lb ub) else .error .value

/-- `IntegerVar(lb, ub)` with scalar bounds (`mealpy/utils/space.py:197-200`). -/
def mkIntScalar (lb ub : K) : Kind K := .integer [(trunc lb : K)] [(trunc ub : K)]

/-- `IntegerVar(lb, ub)` with array bounds (`mealpy/utils/space.py:201-206`). -/
def mkIntArray (lb ub : List K) : Except Err (Kind K) :=
  if lb.length = ub.length then .ok (.integer lb ub) else .error .value

/-- `StringVar`/`CategoricalVar` with a flat valid set (`mealpy/utils/space.py:233-239`);
`valid_sets[0]` of an empty list raises. -/
def mkStringFlat (set : List Label) : Except Err (Kind K) :=
  if set = [] then .error .index else .ok (.string [set])

/-- ... with nested valid sets (`mealpy/utils/space.py:241-253`). -/
def mkStringNested (sets : List (List Label)) : Except Err (Kind K) :=
  if sets = [] then .error .index
  else if sets.all (fun s => decide (1 < s.length)) then .ok (.string sets) else .error .value

/-- `PermutationVar(valid_set)` (`mealpy/utils/space.py:319-326`). -/
def mkPermutation (set : List Label) : Except Err (Kind K) :=
  if 1 < set.length then .ok (.permutation set) else .error .type

namespace Kind

/-- `n_vars` (`mealpy/utils/space.py:119-123,166,170,200,204,234,241,288,321`). -/
def n : Kind K → Nat
  | .float lb _ => lb.length
  | .integer lb _ => lb.length
  | .string sets => sets.length
  | .categorical sets => sets.length
  | .sequence _ => 1
  | .permutation set => set.length
  | .binary n => n
  | .bool n => n
  | .tbinary n _ _ _ _ => n
  | .tbool n _ _ _ => n

/-- `var.lb` (`mealpy/utils/space.py:165-169,198-203,238,250,289,323,347,375,404,433`). -/
def lb : Kind K → List K
  | .float lb _ => lb
  | .integer lb _ => lb.map (fun x => x - 1 / 2)
  | .string sets => sets.map (fun _ => 0)
  | .categorical sets => sets.map (fun _ => 0)
  | .sequence _ => [0]
  | .permutation set => set.map (fun _ => 0)
  | .binary n => List.replicate n 0
  | .bool n => List.replicate n 0
  | .tbinary n _ lb _ _ => List.replicate n (lb * 0)
  | .tbool n _ lb _ => List.replicate n (lb * 0)

/-- `var.ub` (`mealpy/utils/space.py:165-169,198-203,239,251,290,324,348,376,405,434`). -/
def ub : Kind K → List K
  | .float _ ub => ub
  | .integer _ ub => ub.map (fun x => x + (1 / 2 - eps))
  | .string sets => sets.map (fun s => (s.length : K) - eps)
  | .categorical sets => sets.map (fun s => (s.length : K) - eps)
  | .sequence sets => [(sets.length : K) - eps]
  | .permutation set => set.map (fun _ => (set.length : K) - eps)
  | .binary n => List.replicate n (2 - eps)
  | .bool n => List.replicate n (2 - eps)
  | .tbinary n _ _ ub _ => List.replicate n (ub * 1)
  | .tbool n _ _ ub => List.replicate n (ub * 1)

end Kind

/-! ## Random generators of the variables -/

/-- What a variable asks of its `np.random.Generator` (`mealpy/utils/space.py:117,132`). -/
structure VGen (K : Type) where
  G : Type
  /-- `np.random.default_rng(seed)` -/
  seed : Int → G
  random : G → K × G
  uniform : K → K → G → K × G
  integers : Int → Int → G → Int × G
  /-- index drawn by `choice` from an array of the given length -/
  choice : Nat → G → Nat × G
  permutation : Nat → G → List Nat × G

/-- documented ranges of the draws -/
structure VGen.Lawful (E : VGen K) : Prop where
  uniform_ge : ∀ lo hi g, lo ≤ hi → lo ≤ (E.uniform lo hi g).1
  uniform_le : ∀ lo hi g, lo ≤ hi → (E.uniform lo hi g).1 ≤ hi
  random_ge : ∀ g, 0 ≤ (E.random g).1
  random_lt : ∀ g, (E.random g).1 < 1
  integers_ge : ∀ lo hi g, lo < hi → lo ≤ (E.integers lo hi g).1
  integers_lt : ∀ lo hi g, lo < hi → (E.integers lo hi g).1 < hi
  choice_lt : ∀ n g, 0 < n → (E.choice n g).1 < n
  permutation_perm : ∀ n g, (E.permutation n g).1.Perm (List.range n)

/-- one draw per list element, in order -/
def mapG {α β G : Type} (f : α → G → β × G) : List α → G → List β × G
  | [], g => ([], g)
  | a :: as, g =>
    let (b, g) := f a g
    let (bs, g) := mapG f as g
    (b :: bs, g)

/-! ## correct -/

/-- `TransferBinaryVar._get_correct_x` (`mealpy/utils/space.py:379-385`). -/
def fixZeros (E : VGen K) (allZeros : Bool) (x : List K) (g : E.G) : List K × E.G :=
  if allZeros then (x, g)
  else if x.sum = 0 then
    let (i, g) := E.integers 0 x.length g
    (x.set i.toNat 1, g)
  else (x, g)

/-- `np.where(cons < tf(x), 1, 0)` with `cons = generator.random(len(x))`
(`mealpy/utils/space.py:389-391,438-440`). -/
def transferBits (E : VGen K) (tf : K → K) (x : List K) (g : E.G) : List K × E.G :=
  mapG (fun xi g => let (c, g) := E.random g; ((if c < tf xi then 1 else 0 : K), g)) x g

/-- `var.correct(x)` (`mealpy/utils/space.py:183,218,264,303,335,357,387,415,436`), for a vector of
`n_vars` entries (numpy broadcasting of other lengths is not modelled). -/
def correct (as : List K → List Nat) (E : VGen K) (k : Kind K) (x : List K) (g : E.G) :
    List K × E.G :=
  match k with
  | .float _ _ => (clipL x k.lb k.ub, g)
  | .integer _ _ => (clipL x k.lb k.ub, g)
  | .string _ => ((clipL x k.lb k.ub).map (fun y => (trunc y : K)), g)
  | .categorical _ => ((clipL x k.lb k.ub).map (fun y => (trunc y : K)), g)
  | .sequence _ => ((clipL x k.lb k.ub).map (fun y => (trunc y : K)), g)
  | .permutation _ => ((as x).map (fun i : Nat => (i : K)), g)
  | .binary _ => (clipL x k.lb k.ub, g)
  | .bool _ => (clipL x k.lb k.ub, g)
  | .tbinary _ tf _ _ az =>
    let (b, g) := transferBits E tf (clipL x k.lb k.ub) g
    fixZeros E az b g
  | .tbool _ tf _ _ => transferBits E tf (clipL x k.lb k.ub) g

/-! ## decode -/

/-- A decoded (real-world) coordinate. -/
inductive Val (K : Type) where
  | real (x : K)
  | int (z : Int)
  | label (l : Label)
  | seq (s : List Label)
  | bool (b : Bool)

/-- `var.decode(x)` (`mealpy/utils/space.py:179,213,260,298,331,353,410`): every decode first
corrects.  Only `SequenceVar` can fail (KeyError, empty `valid_sets`). -/
def decode (as : List K → List Nat) (E : VGen K) (k : Kind K) (x : List K) (g : E.G) :
    Except Err (List (Val K) × E.G) :=
  let (y, g) := correct as E k x g
  match k with
  | .float _ _ => .ok (y.map .real, g)
  | .integer _ _ => .ok (y.map (fun v => .int (round v)), g)
  | .string sets =>
    .ok (List.zipWith (fun s v => .label (inverse1 (uniqueLabels s) (trunc v))) sets y, g)
  | .categorical sets =>
    .ok (List.zipWith (fun s v => .label (inverse1 (uniqueLabels s) (trunc v))) sets y, g)
  | .sequence sets =>
    match y with
    | [] => .error .index
    | v :: _ =>
      if trunc v < 0 then .error .key
      else match sets[(trunc v).toNat]? with
        | some s => .ok ([.seq s], g)
        | none => .error .key
  | .permutation set => .ok (y.map (fun v => .label (inverse1 (uniqueLabels set) (trunc v))), g)
  | .binary _ => .ok (y.map (fun v => .int (trunc v)), g)
  | .bool _ => .ok (y.map (fun v => .bool (trunc v = 1)), g)
  | .tbinary _ _ _ _ _ => .ok (y.map (fun v => .int (trunc v)), g)
  | .tbool _ _ _ _ => .ok (y.map (fun v => .bool (trunc v = 1)), g)

/-! ## encode -/

/-- `float(v)` for one entry of `np.array(x, dtype=float)`; a string that is not a numeral or a
sequence raises ValueError (numerals in strings are not modelled). -/
def Val.toNum : Val K → Except Err K
  | .real x => .ok x
  | .int z => .ok (z : K)
  | .bool b => .ok (if b then 1 else 0)
  | .label (.num q) => .ok (q : K)
  | .label _ => .error .value
  | .seq _ => .error .value

/-- an entry used as a label -/
def Val.toLabel : Val K → Except Err Label
  | .label l => .ok l
  | _ => .error .key

/-- position of the last occurrence: `{val: i for i, val in enumerate(valid_sets)}`
(`mealpy/utils/space.py:286`). -/
def lastIdx (sets : List (List Label)) (s : List Label) : Option Nat :=
  if s ∈ sets then some (sets.length - 1 - sets.reverse.idxOf s) else none

/-- `var.encode(v)` (`mealpy/utils/space.py:176,210,257,292,328,350,407`).  A sequence variable takes
the sequence itself (its labels). -/
def encode (k : Kind K) (v : List (Val K)) : Except Err (List K) :=
  match k with
  | .string sets => (List.zip sets v).mapM (fun p => do
      let l ← p.2.toLabel
      let i ← transform1 (uniqueLabels p.1) l
      pure (i : K))
  | .categorical sets => (List.zip sets v).mapM (fun p => do
      let l ← p.2.toLabel
      let i ← transform1 (uniqueLabels p.1) l
      pure (i : K))
  | .sequence sets => do
      let s ← v.mapM Val.toLabel
      match lastIdx sets s with
      | some i => pure [(i : K)]
      | none => .error .value
  | .permutation set => v.mapM (fun w => do
      let l ← w.toLabel
      let i ← transform1 (uniqueLabels set) l
      pure (i : K))
  | _ => v.mapM Val.toNum

/-! ## generate -/

/-- `np.array(vl_set, dtype=str)` on one label (`mealpy/utils/space.py:269`); the exact numeral
format is irrelevant, it only matters that it becomes a string. -/
def Label.castStr : Label → Label
  | .none => .str "None"
  | .num q => .str (toString q)
  | .str s => .str s
  | .obj s => .str s

/-- `generator.choice(array)` of labels; an empty array raises ValueError -/
def choiceLabel (E : VGen K) (s : List Label) (g : E.G) : Except Err (Val K × E.G) :=
  match s[(E.choice s.length g).1]? with
  | some l => .ok (.label l, (E.choice s.length g).2)
  | none => .error .value

/-- sequential draws that may fail -/
def mapGE {α β G : Type} (f : α → G → Except Err (β × G)) : List α → G → Except Err (List β × G)
  | [], g => .ok ([], g)
  | a :: as, g => do
    let (b, g) ← f a g
    let (bs, g) ← mapGE f as g
    pure (b :: bs, g)

/-- `var.generate()` (`mealpy/utils/space.py:186,221,268,276,307,338,360,394,418`).
`IntegerVar` draws from `integers(lb+0.5, ub+0.5+eps)` on the *effective* bounds, i.e. from
`[lb, ub+1)`; the conversion of these (float) arguments to integers is `floor` here. -/
def generate (E : VGen K) (k : Kind K) (g : E.G) : Except Err (List (Val K) × E.G) :=
  match k with
  | .float lb ub =>
    let (x, g) := mapG (fun p g => let (r, g) := E.uniform p.1 p.2 g; (Val.real r, g)) (lb.zip ub) g
    .ok (x, g)
  | .integer _ _ =>
    let (x, g) := mapG (fun (p : K × K) g =>
      let (r, g) := E.integers ⌊p.1 + 1 / 2⌋ ⌊p.2 + 1 / 2 + eps⌋ g
      (Val.int r, g)) (k.lb.zip k.ub) g
    .ok (x, g)
  | .string sets => mapGE (fun s g => choiceLabel E (s.map Label.castStr) g) sets g
  | .categorical sets => mapGE (fun s g => choiceLabel E s g) sets g
  | .sequence sets =>
    let (i, g) := E.integers 0 sets.length g
    match sets[i.toNat]? with
    | some s => .ok (s.map .label, g)
    | none => .error .value
  | .permutation set =>
    let (p, g) := E.permutation set.length g
    .ok ((p.filterMap (fun i => set[i]?)).map .label, g)
  | .binary n =>
    let (x, g) := mapG (fun _ g => let (r, g) := E.integers 0 2 g; (Val.int r, g)) (List.range n) g
    .ok (x, g)
  | .bool n =>
    let (x, g) := mapG (fun _ g => let (r, g) := E.choice 2 g; (Val.bool (r = 0), g))
      (List.range n) g
    .ok (x, g)
  | .tbinary n _ _ _ az =>
    let (x, g) := mapG (fun _ g => let (r, g) := E.integers 0 2 g; ((r : K), g)) (List.range n) g
    let (x, g) := fixZeros E az x g
    .ok (x.map (fun v => .int (trunc v)), g)
  | .tbool n _ _ _ =>
    let (x, g) := mapG (fun _ g => let (r, g) := E.choice 2 g; (Val.bool (r = 0), g))
      (List.range n) g
    .ok (x, g)

/-! ## Problem -/

/-- `problem.lb` (`mealpy/utils/problem.py:77`). -/
def problemLb (vars : List (Var K)) : List K := (vars.map (fun v => v.kind.lb)).flatten
/-- `problem.ub` (`mealpy/utils/problem.py:78`). -/
def problemUb (vars : List (Var K)) : List K := (vars.map (fun v => v.kind.ub)).flatten
/-- `problem.n_dims` (`mealpy/utils/problem.py:79`). -/
def nDims (vars : List (Var K)) : Nat := (problemLb vars).length

/-- `set_seed` / `set_bounds` (`mealpy/utils/problem.py:60-84`): one generator per variable, all
made from the same seed. -/
def setSeed (E : VGen K) (vars : List (Var K)) (seed : Int) : List E.G :=
  vars.map (fun _ => E.seed seed)

/-- loop of `correct_solution_with_bounds` (`mealpy/utils/problem.py:131-137`) from offset `off`;
`gs` are the generators of the remaining variables. -/
def correctFrom (as : List K → List Nat) (E : VGen K) (x : List K) :
    List (Var K) → Nat → List E.G → List K × List E.G
  | v :: vs, off, g :: gs =>
    let (y, g) := correct as E v.kind ((x.drop off).take v.kind.n) g
    let (ys, gs) := correctFrom as E x vs (off + v.kind.n) gs
    (y ++ ys, g :: gs)
  | _, _, gs => ([], gs)

/-- `problem.correct_solution` (`mealpy/utils/problem.py:131-137,161-171`). -/
def correctSolution (as : List K → List Nat) (E : VGen K) (vars : List (Var K)) (x : List K)
    (gs : List E.G) : List K × List E.G := correctFrom as E x vars 0 gs

/-- python dict assignment `d[k] = v`: replaces in place, or appends a new key -/
def dictSet {α : Type} (d : List (String × α)) (k : String) (v : α) : List (String × α) :=
  if d.any (fun p => p.1 = k) then d.map (fun p => if p.1 = k then (k, v) else p)
  else d ++ [(k, v)]

/-- dict lookup -/
def dictGet {α : Type} (d : List (String × α)) (k : String) : Option α :=
  (d.find? (fun p => p.1 = k)).map (·.2)

/-- an entry of the decoded dictionary: a scalar for one-dimensional variables, otherwise a list -/
inductive Entry (K : Type) where
  | one (v : Val K)
  | many (l : List (Val K))

/-- `if var.n_vars == 1: temp[0] else temp` (`mealpy/utils/problem.py:124-127`). -/
def unwrap (n : Nat) (l : List (Val K)) : Except Err (Entry K) :=
  if n = 1 then match l with
    | v :: _ => .ok (.one v)
    | [] => .error .index
  else .ok (.many l)

/-- loop of `decode_solution_with_bounds` (`mealpy/utils/problem.py:119-129`). -/
def decodeFrom (as : List K → List Nat) (E : VGen K) (x : List K) :
    List (Var K) → Nat → List E.G → List (String × Entry K) →
      Except Err (List (String × Entry K) × List E.G)
  | v :: vs, off, g :: gs, d => do
    let (y, g) ← decode as E v.kind ((x.drop off).take v.kind.n) g
    let e ← unwrap v.kind.n y
    let (d, gs) ← decodeFrom as E x vs (off + v.kind.n) gs (dictSet d v.name e)
    pure (d, g :: gs)
  | _, _, gs, d => .ok (d, gs)

/-- `problem.decode_solution` (`mealpy/utils/problem.py:119-129,149-159`). -/
def decodeSolution (as : List K → List Nat) (E : VGen K) (vars : List (Var K)) (x : List K)
    (gs : List E.G) : Except Err (List (String × Entry K) × List E.G) :=
  decodeFrom as E x vars 0 gs []

/-- `problem.encode_solution` (`mealpy/utils/problem.py:112-117`); too short a list raises
IndexError. -/
def encodeSolution : List (Var K) → List (List (Val K)) → Except Err (List K)
  | [], _ => .ok []
  | _ :: _, [] => .error .index
  | v :: vs, x :: xs => do
    let y ← encode v.kind x
    let ys ← encodeSolution vs xs
    pure (y ++ ys)

/-- `generate_solution(encoded=False)` (`mealpy/utils/problem.py:139-144`): every variable draws
from its own generator. -/
def generateRaw (E : VGen K) : List (Var K) → List E.G → Except Err (List (List (Val K)) × List E.G)
  | v :: vs, g :: gs => do
    let (x, g) ← generate E v.kind g
    let (xs, gs) ← generateRaw E vs gs
    pure (x :: xs, g :: gs)
  | _, gs => .ok ([], gs)

/-- `generate_solution(encoded=True)` (`mealpy/utils/problem.py:139-144`). -/
def generateSolution (E : VGen K) (vars : List (Var K)) (gs : List E.G) :
    Except Err (List K × List E.G) := do
  let (x, gs) ← generateRaw E vars gs
  let y ← encodeSolution vars x
  pure (y, gs)

end Mealpy.Space
