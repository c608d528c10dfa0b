import Verif.Env

/-! # Chaotic maps (`mealpy/utils/chaotic.py`) and fuzzy weights (`mealpy/utils/fuzzy.py`) -/

namespace Mealpy
variable {K : Type} [Num K]

namespace Chaotic

/-- `np.pi` -/
def pi : K := 3.141592653589793

/-- `ChaoticMap.bernoulli_map` (`mealpy/utils/chaotic.py:16-21`), default `a = 0.5` -/
def bernoulli (x : K) (a : K := 0.5) : K := if 0 ≤ x ∧ x ≤ a then x / (1 - a) else (x - a) / a

/-- `ChaoticMap.logistic_map` (`mealpy/utils/chaotic.py:24-26`), default `a = 4.0` -/
def logistic (x : K) (a : K := 4) : K := a * x * (1 - x)

/-- `ChaoticMap.chebyshev_map` (`mealpy/utils/chaotic.py:29-31`) -/
def chebyshev (x : K) (a : K := 4) : K := Num.cos (a * Num.ufunc "arccos" x)

/-- `ChaoticMap.circle_map` (`mealpy/utils/chaotic.py:34-36`) -/
def circle (x : K) (a : K := 0.5) (b : K := 0.2) : K :=
  Num.mod (x + b - (a / (2 * pi)) * Num.sin (2 * pi * x)) 1

/-- `ChaoticMap.cubic_map` (`mealpy/utils/chaotic.py:39-41`) -/
def cubic (x : K) (q : K := 2.59) : K := q * x * (1 - x * x)

/-- `ChaoticMap.icmic_map` (`mealpy/utils/chaotic.py:44-48`) -/
def icmic (x : K) (a : K := 0.7) : K := if x = 0 then 0.1 else Num.abs (Num.sin (a / x))

/-- `ChaoticMap.piecewise_map` (`mealpy/utils/chaotic.py:51-60`) -/
def piecewise (x : K) (a : K := 0.4) : K :=
  if 0 ≤ x ∧ x < a then x / a
  else if a ≤ x ∧ x < 0.5 then (x - a) / (0.5 - a)
  else if 0.5 ≤ x ∧ x < 1 - a then (1 - a - x) / (0.5 - a)
  else (1 - x) / a

/-- `ChaoticMap.singer_map` (`mealpy/utils/chaotic.py:63-65`); `x ** k` is written as a product -/
def singer (x : K) (a : K := 1.07) : K :=
  a * (7.86 * x - 23.31 * (x * x) + 28.75 * (x * x * x) - 13.302875 * (x * x * x * x))

/-- `ChaoticMap.sinusoidal_map` (`mealpy/utils/chaotic.py:68-70`) -/
def sinusoidal (x : K) (a : K := 2.3) : K := a * x * x * Num.sin (pi * x)

/-- `ChaoticMap.tent_map` (`mealpy/utils/chaotic.py:73-78`) -/
def tent (x : K) : K := if x < 0.7 then x / 0.7 else (10 / 3) * (1 - x)

/-- the keys of `ChaoticGWO.CHAOTIC_MAPS` (`mealpy/swarm_based/GWO.py:426-437`) -/
inductive Name where
  | bernoulli | logistic | chebyshev | circle | cubic | icmic | piecewise | singer | sinusoidal | tent
  deriving DecidableEq

/-- `ChaoticGWO.CHAOTIC_MAPS[name]` (`mealpy/swarm_based/GWO.py:426-437`) -/
def map : Name → K → K
  | .bernoulli, x => bernoulli x
  | .logistic, x => logistic x
  | .chebyshev, x => chebyshev x
  | .circle, x => circle x
  | .cubic, x => cubic x
  | .icmic, x => icmic x
  | .piecewise, x => piecewise x
  | .singer, x => singer x
  | .sinusoidal, x => sinusoidal x
  | .tent, x => tent x

/-- `ChaoticGWO._update_chao_value` (`mealpy/swarm_based/GWO.py:460-464`) -/
def update (n : Name) (x : K) : K := clip (map n x) 0 1

end Chaotic

namespace Fuzzy

/-- `FuzzySystem.triangular_membership` (`mealpy/utils/fuzzy.py:18-25`) -/
def triangular (x a b c : K) : K :=
  if x ≤ a ∨ c ≤ x then 0
  else if a < x ∧ x ≤ b then (x - a) / (b - a)
  else (c - x) / (c - b)

/-- a membership dict with keys `low`, `medium`, `high` -/
structure Membership (K : Type) where
  low : K
  medium : K
  high : K

/-- `FuzzySystem.fuzzify_iterations` (`mealpy/utils/fuzzy.py:27-32`) -/
def fuzzify (x : K) : Membership K where
  low := triangular x 0 0 0.5
  medium := triangular x 0 0.5 1
  high := triangular x 0.5 1 1

/-- `FuzzySystem.defuzzify_centroid` (`mealpy/utils/fuzzy.py:34-49`) -/
def defuzzify (m : Membership K) : K :=
  let num := m.low * 25 + m.medium * 50 + m.high * 75
  let den := 0 + m.low + m.medium + m.high
  if den = 0 then 50 else num / den

/-- the membership dicts of `get_fuzzy_weights` (`mealpy/utils/fuzzy.py:58-92`); `increase` is
`self.pyramid_type == 'increase'` -/
def memberships (increase : Bool) (i : Membership K) : Membership K × Membership K × Membership K :=
  if increase then
    (⟨i.low, max i.medium i.low, i.high⟩,
     ⟨i.high, max (max i.low i.medium) i.high, 0⟩,
     ⟨max i.medium i.high, i.low, 0⟩)
  else
    (⟨i.high, max i.medium i.high, i.low⟩,
     ⟨i.high, max (max i.low i.medium) i.high, 0⟩,
     ⟨max i.low i.medium, i.high, 0⟩)

/-- `FuzzySystem.get_fuzzy_weights` (`mealpy/utils/fuzzy.py:51-95`) as a function of
`current_iteration / max_iterations` -/
def weights (increase : Bool) (x : K) : K × K × K :=
  let m := memberships increase (fuzzify x)
  (defuzzify m.1, defuzzify m.2.1, defuzzify m.2.2)

/-- python's `a / b` -/
def pdiv (a b : K) : Except Err K := if b = 0 then .error .zeroDiv else .ok (a / b)

/-- `FuzzySystem.triangular_membership` (`mealpy/utils/fuzzy.py:18-25`) with division errors -/
def triangularE (x a b c : K) : Except Err K :=
  if x ≤ a ∨ c ≤ x then .ok 0
  else if a < x ∧ x ≤ b then pdiv (x - a) (b - a)
  else pdiv (c - x) (c - b)

/-- `FuzzySystem.fuzzify_iterations` (`mealpy/utils/fuzzy.py:27-32`) with division errors -/
def fuzzifyE (x : K) : Except Err (Membership K) := do
  let low ← triangularE x 0 0 0.5
  let medium ← triangularE x 0 0.5 1
  let high ← triangularE x 0.5 1 1
  pure ⟨low, medium, high⟩

/-- `FuzzySystem.defuzzify_centroid` (`mealpy/utils/fuzzy.py:34-49`) with division errors -/
def defuzzifyE (m : Membership K) : Except Err K :=
  let num := m.low * 25 + m.medium * 50 + m.high * 75
  let den := 0 + m.low + m.medium + m.high
  if den = 0 then .ok 50 else pdiv num den

/-- `FuzzySystem.get_fuzzy_weights` (`mealpy/utils/fuzzy.py:51-95`) with division errors -/
def getFuzzyWeights (increase : Bool) (i n : K) : Except Err (K × K × K) := do
  let x ← pdiv i n
  let inp ← fuzzifyE x
  let m := memberships increase inp
  let alpha ← defuzzifyE m.1
  let beta ← defuzzifyE m.2.1
  let delta ← defuzzifyE m.2.2
  pure (alpha, beta, delta)

end Fuzzy
end Mealpy
