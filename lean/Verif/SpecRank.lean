import Verif.Spec

/-! # Specification: one list of fitness values is, rank by rank, no worse than another -/

namespace Mealpy.Spec

/-- However the two lists are arranged from best to worst, they are equally long, and the `k`-th value of the second is no worse than the `k`-th
value of the first, for every `k`. -/
def NoRankWorse {K : Type} [LinearOrder K] (mm : MinMax) (before after : List K) : Prop :=
  ∀ r r' : List K, r.Perm before → BestFirst mm r → r'.Perm after → BestFirst mm r' →
    r'.length = r.length ∧ ∀ (k : Nat) (x x' : K), r[k]? = some x → r'[k]? = some x' → NoWorse mm x' x

end Mealpy.Spec
