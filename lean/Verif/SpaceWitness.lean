import Verif.SpaceLemmas2
import Verif.Witness
import Mathlib.Data.Rat.Floor

/-! A concrete lawful generator for the variables, used by the `example`s. -/

namespace Mealpy.Space

/-- counter-driven generator over `ℚ` -/
def detVGen : VGen ℚ where
  G := Nat
  seed z := z.toNat
  random g := ((g % 7 : Nat) / 7, g + 1)
  uniform lo hi g := (lo + ((g % 7 : Nat) / 7) * (hi - lo), g + 1)
  integers lo hi g := (lo + ((g : Int) % (hi - lo)), g + 1)
  choice n g := (g % n, g + 1)
  permutation n g := ((List.range n).reverse, g + 1)

theorem detVGen_lawful : detVGen.Lawful where
  uniform_ge lo hi g h := by
    change Nat at g
    have h0 : (0 : ℚ) ≤ ((g % 7 : Nat) : ℚ) / 7 := by positivity
    have := mul_nonneg h0 (sub_nonneg.2 h)
    show lo ≤ lo + ((g % 7 : Nat) / 7) * (hi - lo)
    linarith
  uniform_le lo hi g h := by
    change Nat at g
    have h1 : ((g % 7 : Nat) : ℚ) ≤ 7 := by exact_mod_cast (Nat.mod_lt g (by norm_num)).le
    have h2 : ((g % 7 : Nat) : ℚ) / 7 ≤ 1 := by rw [div_le_one (by norm_num)]; exact h1
    have := mul_le_mul_of_nonneg_right h2 (sub_nonneg.2 h)
    show lo + ((g % 7 : Nat) / 7) * (hi - lo) ≤ hi
    linarith
  random_ge g := by
    change Nat at g
    show (0 : ℚ) ≤ ((g % 7 : Nat) : ℚ) / 7
    positivity
  random_lt g := by
    change Nat at g
    show ((g % 7 : Nat) : ℚ) / 7 < 1
    rw [div_lt_one (by norm_num)]
    exact_mod_cast Nat.mod_lt g (by norm_num)
  integers_ge lo hi g h := by
    change Nat at g
    have := Int.emod_nonneg (g : Int) (b := hi - lo) (by omega)
    show lo ≤ lo + ((g : Int) % (hi - lo))
    omega
  integers_lt lo hi g h := by
    change Nat at g
    have := Int.emod_lt_of_pos (g : Int) (b := hi - lo) (by omega)
    show lo + ((g : Int) % (hi - lo)) < hi
    omega
  choice_lt n g h := Nat.mod_lt _ h
  permutation_perm n g := List.reverse_perm _

end Mealpy.Space
