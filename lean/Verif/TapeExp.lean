import Verif.TapeEnv

/-!
# Rationals with a stand-in for the exponential

The rationals of `Verif/Witness.lean` read `exp` as the identity, so `exp(-x) < 0` for `x > 0`.  A run that accepts a worse point with the probability
`exp(-x)` needs it positive.  Here `exp x = 1 + x`, not below 0.
-/

namespace Mealpy

/-- the rationals -/
def RatE : Type := ℚ

/-- as `instNumRat`, but for `exp` -/
instance instNumRatE : Num RatE := { instNumRat with exp := fun (x : ℚ) => (max 0 (1 + x) : ℚ) }

/-- `tapeCfg` over these numbers -/
def tapeCfgE (q t d : Nat) (f : Vec d ℚ → ℚ) (mm : MinMax) (mode : Valid.Mode) (n e : Nat) : Cfg d RatE := tapeCfg q t d f mm mode n e

theorem tapeCfgE_lawful {q t d : Nat} {f : Vec d ℚ → ℚ} {mm : MinMax} {mode : Valid.Mode} {n e : Nat} : (tapeCfgE q t d f mm mode n e).E.Lawful where
  random_ge := tapeEnv_lawful.random_ge
  random_lt := tapeEnv_lawful.random_lt
  uniform_ge := tapeEnv_lawful.uniform_ge
  uniform_le := tapeEnv_lawful.uniform_le
  integers_ge := tapeEnv_lawful.integers_ge
  integers_lt := tapeEnv_lawful.integers_lt
  choice_length := tapeEnv_lawful.choice_length
  choice_lt := tapeEnv_lawful.choice_lt
  choice_nodup := tapeEnv_lawful.choice_nodup
  choiceP_lt := tapeEnv_lawful.choiceP_lt
  choiceP_pos := tapeEnv_lawful.choiceP_pos
  permutation_perm := tapeEnv_lawful.permutation_perm
  order_perm := tapeEnv_lawful.order_perm
  lost_lt := tapeEnv_lawful.lost_lt
  argsort_perm := tapeEnv_lawful.argsort_perm
  argsort_sorted := tapeEnv_lawful.argsort_sorted

end Mealpy
