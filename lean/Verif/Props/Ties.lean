import Verif.Props.Leaves

/-! Elitism and ties.

The elitist genetic algorithms never choose the best agents as parents (`mealpy/evolutionary_based/GA.py:551-553`, `:778-780`), so the array of the
best agent is written to only after that agent has lost its place among the first.  `np.argsort` promises no order among equal targets, and neither
does `Env.Lawful`.  The environment here puts the later of two equal agents first, and a child as good as the best agent takes its place: the best
agent stays the one reported, becomes a parent, and has its array overwritten. -/

namespace Mealpy

/-- `np.argsort` with the later of two equal entries first -/
def tieArgsort (l : List ℚ) : List Nat := (l.zipIdx.reverse.insertionSort (fun a b => a.1 ≤ b.1)).map (·.2)

theorem tieArgsort_law : ArgsortLaw tieArgsort where
  perm l := by
    have h := ((List.perm_insertionSort (fun a b : ℚ × Nat => a.1 ≤ b.1) l.zipIdx.reverse).trans (List.reverse_perm _)).map (·.2)
    refine h.trans ?_
    have : l.zipIdx.map (·.2) = List.range l.length := by
      rw [List.zipIdx_map_snd, List.range_eq_range']
    rw [this]
  sorted l := by
    have : Std.Total (fun a b : ℚ × Nat => a.1 ≤ b.1) := ⟨fun a b => le_total a.1 b.1⟩
    have : IsTrans (ℚ × Nat) (fun a b : ℚ × Nat => a.1 ≤ b.1) := ⟨fun a b c h1 h2 => le_trans h1 h2⟩
    have hp := List.pairwise_insertionSort (fun a b : ℚ × Nat => a.1 ≤ b.1) l.zipIdx.reverse
    have hm : ∀ p ∈ l.zipIdx.reverse.insertionSort (fun a b : ℚ × Nat => a.1 ≤ b.1), l[p.2]? = some p.1 := by
      intro p hp
      rw [List.mem_insertionSort, List.mem_reverse] at hp
      rwa [← List.mem_zipIdx_iff_getElem?]
    unfold tieArgsort
    rw [List.pairwise_map]
    refine hp.imp_of_mem ?_
    intro p q hpm hqm hle a b ha hb
    rw [hm p hpm] at ha
    rw [hm q hqm] at hb
    simp only [Option.some.injEq] at ha hb
    subst ha; subst hb
    exact hle

/-- the environment of the concrete runs, with ties in reverse -/
def tieEnv : Env ℚ := { tapeEnv with argsort := tieArgsort }

theorem tieEnv_lawful : tieEnv.Lawful :=
  { tapeEnv_lawful with argsort_perm := tieArgsort_law.perm, argsort_sorted := tieArgsort_law.sorted }

/-- the configuration of the concrete runs, with ties in reverse -/
abbrev tieCfg (d : Nat) (f : Vec d ℚ → ℚ) (mm : MinMax) (mode : Valid.Mode) (n e : Nat) : Cfg d ℚ := ⟨tieEnv, tapeProb 1 3 d f mm, mode, n, e⟩

/-- an objective of the first coordinate, with ties -/
def fold (x : Vec 2 ℚ) : ℚ := if x 0 < 0 then -x 0 else x 0

/-- `EliteSingleGA(pc=0.25, pm=0.8, selection="random", mutation="swap")` with one elite: the returned target is not the objective at the returned
solution.  The swap (`mealpy/evolutionary_based/GA.py:433-436`) writes into the array of a former elite. -/
theorem C53_elite_single_ga_lies : Accepted (tieCfg 2 fold .min .single 6 2) 5 ∧ (tieCfg 2 fold .min .single 6 2).E.Lawful ∧
    (tieCfg 2 fold .min .single 6 2).P.Lawful ∧
    ∃ s h, solve (EliteSingleGA.algo (c := tieCfg 2 fold .min .single 6 2) ⟨1/4, 4/5, .frac (1/5), .random, .uniform, .swap, false⟩ ⟨1, 1, 0⟩)
        ⟨none, .none, false⟩ ⟨(1 : Nat), (18 : Nat), [], 1⟩ = .ok (s, h) ∧
      s.gbest.tgt ≠ (tieCfg 2 fold .min .single 6 2).P.target s.gbest.sol := by
  refine ⟨⟨by decide, by decide⟩, tieEnv_lawful, tapeProb_lawful, lies_spec ?_⟩
  decide +kernel

/-- `EliteMultiGA(pc=0.25, pm=0.8, selection="random", mutation="swap")` with one elite: likewise. -/
theorem C53_elite_multi_ga_lies : Accepted (tieCfg 2 fold .min .single 6 2) 5 ∧ (tieCfg 2 fold .min .single 6 2).E.Lawful ∧
    (tieCfg 2 fold .min .single 6 2).P.Lawful ∧
    ∃ s h, solve (EliteMultiGA.algo (c := tieCfg 2 fold .min .single 6 2) ⟨1/4, 4/5, .frac (1/5), .random, .uniform, .swap, true⟩ ⟨1, 1, 0⟩)
        ⟨none, .none, false⟩ ⟨(1 : Nat), (18 : Nat), [], 1⟩ = .ok (s, h) ∧
      s.gbest.tgt ≠ (tieCfg 2 fold .min .single 6 2).P.target s.gbest.sol := by
  refine ⟨⟨by decide, by decide⟩, tieEnv_lawful, tapeProb_lawful, lies_spec ?_⟩
  decide +kernel

end Mealpy
