import Verif.TapeEnv
import Verif.Props.Algorithms

/-!
# C54: the algorithms that lose the best point they evaluated

`C54_returns_best_evaluated_partial`, `C54_keeping_returns_best_partial` and `C54_remembers_best_partial` list the algorithms that return the best point they ever evaluated.  For
the ones below the property is false: each theorem exhibits a run, with parameters the constructor accepts (mostly the default ones) and no starting
solutions, that evaluates a point strictly better than the agent `solve` returns.  One variable in `[-4, 4]` and an objective given in the statement are
enough.  The runs are evaluated by the kernel over `ℚ`; there `exp`, `log`, `sin`, `cos`, `sqrt` are read as the identity (`Verif/Witness.lean`), like
every theorem of the model, which assumes nothing about them.
-/

namespace Mealpy
open Spec

variable {d : Nat} {K : Type} [Num K] {c : Cfg d K} {X Y : Type}

/-- Some run of `A`, with lawful draws, a lawful problem and a `pop_size` and `epoch` the constructor accepts, returns an agent worse than a point it has
evaluated. -/
def LosesBest (lo : Nat) (A : Algo c X Y) : Prop :=
  c.E.Lawful ∧ c.P.Lawful ∧ Accepted c lo ∧ ∃ b : Base c, b.log = [] ∧ ∃ s h, solve A ⟨none, .none, false⟩ b = .ok (s, h) ∧
    ∃ x ∈ s.base.log, ¬ NoWorse c.P.mm s.gbest.tgt.fitness (c.P.target x).fitness

theorem LosesBest.of {q t d n e lo : Nat} {f : Vec d ℚ → ℚ} {mm : MinMax} {mode : Valid.Mode} {A : Algo (tapeCfg q t d f mm mode n e) X Y}
    (seed : Nat) (hacc : Accepted (tapeCfg q t d f mm mode n e) lo)
    (h : forgets (solve A ⟨none, .none, false⟩ ⟨seed, seed + 17, [], 1⟩) = true) : LosesBest lo A :=
  ⟨tapeEnv_lawful, tapeProb_lawful, hacc, ⟨seed, seed + 17, [], 1⟩, rfl, forgets_spec h⟩

/-- evaluates the run from the given seed -/
macro "loses" n:num : tactic => `(tactic| exact LosesBest.of $n ⟨by decide, by decide⟩ (by decide +kernel))

theorem C54_originalCSO_forgets : LosesBest 5
    (OriginalCSO.algo (c := tapeCfg 1 3 1 (fun x => if x 0 = 1 then -99 else x 0) .min .single 5 1) ⟨3 / 20, 5, false, 4 / 5, 3 / 20, 2 / 5, 2 / 5, 9 / 10, 1⟩) := by
  loses 0

theorem C54_originalCCO_forgets : LosesBest 10
    (OriginalCCO.algo (c := tapeCfg 1 3 1 (fun x => if x 0 = -4 then 99 else x 0) .max .single 10 2) ⟨134 / 100, 3 / 10⟩) := by
  loses 0

theorem C54_originalBA_forgets : LosesBest 5
    (OriginalBA.algo (c := tapeCfg 1 3 1 (fun x => x 0) .min .single 5 1) ⟨8 / 10, 95 / 100, 1 / 10, 10⟩) := by
  loses 0

theorem C54_originalDMOA_forgets : LosesBest 10
    (OriginalDMOA.algo (c := tapeCfg 1 3 1 (fun x => if x 0 = -177 / 512 then -99 else x 0) .min .single 10 2) ⟨3, 2⟩) := by
  loses 0

theorem C54_devDMOA_forgets : LosesBest 10
    (DevDMOA.algo (c := tapeCfg 1 3 1 (fun x => x 0) .min .single 10 1) 2) := by
  loses 0

theorem C54_improvedBSO_forgets : LosesBest 10
    (ImprovedBSO.algo (c := tapeCfg 1 3 1 (fun x => if x 0 = -2 then -99 else x 0) .min .single 10 2) ⟨2, 1 / 4, 1 / 2, 3 / 4, 1 / 2⟩) := by
  loses 1

theorem C54_originalBSO_forgets : LosesBest 10
    (OriginalBSO.algo (c := tapeCfg 1 3 1 (fun x => if x 0 = -2 then -99 else x 0) .min .single 10 1) ⟨⟨2, 2 / 10, 8 / 10, 4 / 10, 5 / 10⟩, 20⟩) := by
  loses 1

theorem C54_enhancedTWO_forgets : LosesBest 5
    (EnhancedTWO.algo (c := tapeCfg 1 3 1 (fun x => if x 0 = -1 then -99 else x 0) .min .single 5 1)) := by
  loses 0

theorem C54_originalOrcaPA_forgets : LosesBest 5
    (OriginalOrcaPA.algo (c := tapeCfg 1 3 1 (fun x => if x 0 = -9 / 4 then -99 else x 0) .min .single 5 1) ⟨1 / 2, 1 / 10, 9 / 10⟩) := by
  loses 0

theorem C54_originalEO_forgets : LosesBest 5
    (OriginalEO.algo (c := tapeCfg 1 3 1 (fun x => if x 0 = 1 / 4 then -99 else x 0) .min .single 5 1)) := by
  loses 1

theorem C54_adaptiveEO_forgets : LosesBest 5
    (AdaptiveEO.algo (c := tapeCfg 1 3 1 (fun x => if x 0 = 5 / 4 then 99 else x 0) .max .single 5 1)) := by
  loses 0

theorem C54_modifiedEO_forgets : LosesBest 5
    (ModifiedEO.algo (c := tapeCfg 1 3 1 (fun x => if x 0 = 1 / 4 then -99 else x 0) .min .single 5 1)) := by
  loses 1

theorem C54_originalSHO_forgets : LosesBest 5
    (OriginalSHO.algo (c := tapeCfg 1 3 1 (fun x => x 0 * x 0) .min .single 5 1) ⟨5, 10⟩) := by
  loses 0

theorem C54_originalCA_forgets : LosesBest 5
    (OriginalCA.algo (c := tapeCfg 1 3 1 (fun x => if x 0 = -1 then -99 else x 0) .min .single 7 1) ⟨1⟩) := by
  loses 3

theorem C54_originalCoatiOA_forgets : LosesBest 5
    (OriginalCoatiOA.algo (c := tapeCfg 1 3 1 (fun x => if x 0 = 1 then -99 else x 0) .min .single 5 1)) := by
  loses 0

theorem C54_originalHHO_forgets : LosesBest 5
    (OriginalHHO.algo (c := tapeCfg 1 3 1 (fun x => x 0) .min .single 5 2)) := by
  loses 0

theorem C54_originalAHO_forgets : LosesBest 5
    (OriginalAHO.algo (c := tapeCfg 1 3 1 (fun x => x 0) .min .single 5 3) ⟨26 / 100, 1 / 100⟩) := by
  loses 0

theorem C54_modifiedSLO_forgets : LosesBest 5
    (ModifiedSLO.algo (c := tapeCfg 1 3 1 (fun x => x 0) .min .single 5 1)) := by
  loses 0

theorem C54_improvedSLO_forgets : LosesBest 5
    (ImprovedSLO.algo (c := tapeCfg 1 3 1 (fun x => x 0) .min .single 5 1) ⟨12 / 10, 12 / 10⟩) := by
  loses 0

theorem C54_devBRO_forgets : LosesBest 5
    (DevBRO.algo (c := tapeCfg 1 3 1 (fun x => if x 0 = -7 / 4 then -99 else x 0) .min .single 5 1) 3) := by
  loses 0

theorem C54_c_PSO_forgets : LosesBest 5
    (C_PSO.algo (c := tapeCfg 1 3 1 (fun x => if x 0 = -1 / 2 then -99 else x 0) .min .single 5 1) ⟨205 / 100, 205 / 100, 4 / 10, 9 / 10⟩) := by
  loses 0

theorem C54_originalWOAmM_forgets : LosesBest 5
    (OriginalWOAmM.algo (c := tapeCfg 1 3 1 (fun x => if x 0 = 27 / 8 then -99 else x 0) .min .single 5 2) ⟨false, 0, 1 / 10, .clip⟩) := by
  loses 0

theorem C54_originalSFO_forgets : LosesBest 5
    (OriginalSFO.algo (c := tapeCfg 1 3 1 (fun x => if x 0 = 1 then -99 else x 0) .min .single 5 1) ⟨1 / 10, 4, 1 / 10000⟩) := by
  loses 1

theorem C54_improvedSFO_forgets : LosesBest 5
    (ImprovedSFO.algo (c := tapeCfg 1 3 1 (fun x => if x 0 = -2 then -99 else x 0) .min .single 5 1) (1 / 10)) := by
  loses 1

theorem C54_originalHGSO_forgets : LosesBest 10
    (OriginalHGSO.algo (c := tapeCfg 1 3 1 (fun x => x 0) .min .single 10 1) 2) := by
  loses 0

theorem C54_mLFA_GD_forgets : LosesBest 5
    (MLFA_GD.algo (c := tapeCfg 1 3 1 (fun x => if x 0 = -1 / 2 then -99 else x 0) .min .single 6 1) ⟨3, 1, 1, 10⟩) := by
  loses 0

theorem C54_originalTOA_forgets : LosesBest 5
    (OriginalTOA.algo (c := tapeCfg 1 3 1 (fun x => if x 0 = -1 / 2 then -99 else x 0) .min .single 5 1)) := by
  loses 0

theorem C54_originalSRSR_forgets : LosesBest 5
    (OriginalSRSR.algo (c := tapeCfg 1 3 1 (fun x => if x 0 = 41 / 24 then 99 else x 0) .max .single 5 1)) := by
  loses 0

theorem C54_iOBL_GWO_forgets : LosesBest 5
    (IOBL_GWO.algo (c := tapeCfg 1 3 1 (fun x => if x 0 = 25 / 16 then 99 else x 0) .max .single 5 1)) := by
  loses 3

theorem C54_originalFFA_forgets : LosesBest 5
    (OriginalFFA.algo (c := tapeCfg 1 3 1 (fun x => if x 0 = 493 / 160 then -99 else x 0) .min .single 5 1) ⟨1 / 1000, 2, 2 / 10, 99 / 100, 5 / 100, 2⟩) := by
  loses 0

theorem C54_devSMO_forgets : LosesBest 5
    (DevSMO.algo (c := tapeCfg 1 3 1 (fun x => if x 0 = -9 / 4 then -99 else x 0) .min .single 6 1) ⟨2, 7 / 10, 50⟩) := by
  loses 0

theorem C54_aBFO_forgets : LosesBest 5
    (ABFO.algo (c := tapeCfg 1 3 1 (fun x => x 0) .min .single 5 1) ⟨1 / 10, 1 / 1000, 1 / 100, 4, 2, 40⟩) := by
  loses 0

theorem C54_sAP_DE_forgets : LosesBest 5
    (SAP_DE.algo (c := tapeCfg 1 3 1 (fun x => if x 0 = 13 / 4 then -99 else x 0) .min .single 5 2) true) := by
  loses 0

theorem C54_originalWHO_forgets : LosesBest 5
    (OriginalWHO.algo (c := tapeCfg 1 3 1 (fun x => if x 0 = 71 / 20 then -99 else x 0) .min .single 5 1) ⟨3, 3, 15 / 100, 9 / 10, 9 / 10, 3 / 10, 2 / 10, 8 / 10, 2, 2⟩) := by
  loses 0

theorem C54_originalBCO_forgets : LosesBest 5
    (OriginalBCO.algo (c := tapeCfg 1 3 1 (fun x => if x 0 = -439 / 400 then -99 else x 0) .min .single 5 1) ⟨1 / 100, 2 / 10, 1, 4, 1 / 10⟩) := by
  loses 0

theorem C54_originalABC_forgets : LosesBest 5
    (OriginalABC.algo (c := tapeCfg 1 3 1 (fun x => if x 0 = 1 / 4 then -99 else x 0) .min .single 5 1) ⟨1⟩) := by
  loses 0

theorem C54_oppoTWO_forgets : LosesBest 5
    (OppoTWO.algo (c := tapeCfg 1 3 1 (fun x => if x 0 = -3 then -99 else x 0) .min .single 6 1)) := by
  loses 2

end Mealpy
