import Verif.RunLemmas
import Verif.Contract
import Verif.Witness
import Mathlib.Tactic.NormNum

/-!
# A concrete problem

The sphere function on a box, exact rationals, deterministic generators: shows that the hypotheses
`c.E.Lawful`, `c.P.Lawful` can be met, and is used by the `example`s beside the theorems.
-/

namespace Mealpy

/-- `sum_j x_j ** 2` on `[-5, 5]^d`; the variables' generator is a counter -/
def sphereProb (d : Nat) (mm : MinMax) : Prob d ℚ where
  S := Nat
  lb := fun _ => -5
  ub := fun _ => 5
  mm := mm
  target := fun x => ⟨[(List.ofFn fun j => x j * x j).sum], (List.ofFn fun j => x j * x j).sum⟩
  correct := fun x s => (fun j => clip (x j) (-5) 5, s)
  generate := fun s => (fun j => ((s + j) % 5 : Nat), s + 1)

theorem sphereProb_lawful (d : Nat) (mm : MinMax) : (sphereProb d mm).Lawful where
  correct_in x s j := by
    show (-5 : ℚ) ≤ min (max (x j) (-5)) 5 ∧ min (max (x j) (-5)) 5 ≤ 5
    exact ⟨le_min (le_max_right _ _) (by norm_num), min_le_right _ _⟩
  generate_in s j := by
    change Nat at s
    show (-5 : ℚ) ≤ (((s + (j : Nat)) % 5 : Nat) : ℚ) ∧ (((s + (j : Nat)) % 5 : Nat) : ℚ) ≤ 5
    have h1 : (s + (j : Nat)) % 5 < 5 := Nat.mod_lt _ (by norm_num)
    have h2 : ((((s + (j : Nat)) % 5 : Nat)) : ℚ) < 5 := by exact_mod_cast h1
    have h3 : (0 : ℚ) ≤ (((s + (j : Nat)) % 5 : Nat) : ℚ) := Nat.cast_nonneg _
    constructor <;> linarith

/-- two variables, five agents, three epochs -/
def exCfg (mode : Valid.Mode) : Cfg 2 ℚ := ⟨detEnv, sphereProb 2 .min, mode, 5, 3⟩

theorem exCfg_lawful (mode : Valid.Mode) : (exCfg mode).E.Lawful ∧ (exCfg mode).P.Lawful :=
  ⟨detEnv_lawful, sphereProb_lawful 2 .min⟩

/-- an optimizer just constructed -/
def exBase (mode : Valid.Mode) : Base (exCfg mode) := ⟨(0 : Nat), (0 : Nat), [], 1⟩

/-- stop after two epochs at the latest; early stopping after 30 equal epochs -/
def exTerm : Term ℚ := ⟨some 2, none, none, some 30, 1 / 1000, 0⟩

def exOpts : RunOpts ℚ := ⟨some exTerm, .none, true⟩

end Mealpy
