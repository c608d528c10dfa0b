import Verif.Props.Empires
import Verif.Props.Raises2
import Verif.TapeEnv

/-!
# C57: runs that raise

For classes whose line in the catalogue lists an exception, a run with accepted parameters on the sphere function (unless stated otherwise)
that raises it.
-/

namespace Mealpy
open Spec

/-- the sphere function -/
def bowl {d : Nat} (x : Vec d ℚ) : ℚ := (List.ofFn x).foldl (fun a y => a + y * y) 0

theorem tapeCfg_lawful {q t d : Nat} {f : Vec d ℚ → ℚ} {mm : MinMax} {mode : Valid.Mode} {n e : Nat} :
    (tapeCfg q t d f mm mode n e).E.Lawful ∧ (tapeCfg q t d f mm mode n e).P.Lawful := ⟨tapeEnv_lawful, tapeProb_lawful⟩

/-- `DevGSKA` with five agents and the default `pb` and `kr`: a tenth of the population is no agent, and one is chosen from the empty range of the
best (`mealpy/human_based/GSKA.py:105-107`). -/
theorem C57_dev_gska_may_raise : Accepted (tapeCfg 1 3 1 bowl .min .single 5 1) 5 ∧
    solve (DevGSKA.algo (c := tapeCfg 1 3 1 bowl .min .single 5 1) (⟨1/10, 7/10⟩)) ⟨none, .none, false⟩ ⟨(0 : Nat), (17 : Nat), [], 1⟩ = .error .value := by
  refine ⟨⟨by decide, by decide⟩, raised_spec ?_⟩
  decide +kernel

/-- `OriginalGSKA` with five agents and the default `pb`, `kf` and `kr`, likewise (`mealpy/human_based/GSKA.py:235-237`); `kg` is the only
value accepted with one epoch (`mealpy/human_based/GSKA.py:195`). -/
theorem C57_gska_may_raise : Accepted (tapeCfg 1 3 1 bowl .min .single 5 1) 5 ∧
    solve (OriginalGSKA.algo (c := tapeCfg 1 3 1 bowl .min .single 5 1) (⟨1/10, 1/2, 9/10, 1⟩)) ⟨none, .none, false⟩ ⟨(0 : Nat), (17 : Nat), [], 1⟩ = .error .value := by
  refine ⟨⟨by decide, by decide⟩, raised_spec ?_⟩
  decide +kernel

/-- `OriginalINFO` with five agents: `self.pop[self.generator.integers(2, 6)]` may ask for a sixth (`mealpy/math_based/INFO.py:74-75`). -/
theorem C57_info_may_raise : Accepted (tapeCfg 1 3 1 bowl .min .single 5 1) 5 ∧
    solve (OriginalINFO.algo (c := tapeCfg 1 3 1 bowl .min .single 5 1)) ⟨none, .none, false⟩ ⟨(3 : Nat), (20 : Nat), [], 1⟩ = .error .index := by
  refine ⟨⟨by decide, by decide⟩, raised_spec ?_⟩
  decide +kernel

/-- `ImprovedNMRA` in one dimension with default parameters: `integers(0, n_dims / 2)` has an empty range (`mealpy/swarm_based/NMRA.py:150`). -/
theorem C57_improved_nmra_may_raise : Accepted (tapeCfg 1 3 1 bowl .min .single 5 1) 5 ∧
    solve (ImprovedNMRA.algo (c := tapeCfg 1 3 1 bowl .min .single 5 1) (⟨3/4, 1/100⟩)) ⟨none, .none, false⟩ ⟨(0 : Nat), (17 : Nat), [], 1⟩ = .error .value := by
  refine ⟨⟨by decide, by decide⟩, raised_spec ?_⟩
  decide +kernel

/-- `OriginalSHO` with five agents and default parameters: one agent more than there were trials is chosen without replacement
(`mealpy/swarm_based/SHO.py:90-101`). -/
theorem C57_sho_may_raise : Accepted (tapeCfg 1 3 1 bowl .min .single 5 1) 5 ∧
    solve (OriginalSHO.algo (c := tapeCfg 1 3 1 bowl .min .single 5 1) (⟨5, 10⟩)) ⟨none, .none, false⟩ ⟨(1 : Nat), (18 : Nat), [], 1⟩ = .error .value := by
  refine ⟨⟨by decide, by decide⟩, raised_spec ?_⟩
  decide +kernel

/-- `DevSMO` with seven agents and default parameters: the groups have four and three members, but a partner is chosen among four in both
(`mealpy/swarm_based/SMO.py:105`, `:160-164`). -/
theorem C57_dev_smo_may_raise : Accepted (tapeCfg 1 3 1 bowl .min .single 7 1) 5 ∧
    solve (DevSMO.algo (c := tapeCfg 1 3 1 bowl .min .single 7 1) (⟨5, 7/10, 50⟩)) ⟨none, .none, false⟩ ⟨(0 : Nat), (17 : Nat), [], 1⟩ = .error .index := by
  refine ⟨⟨by decide, by decide⟩, raised_spec ?_⟩
  decide +kernel

/-- `OriginalCHIO`: a partner is asked of a type that no agent has (`mealpy/human_based/CHIO.py:97-98`, `:101-103`). -/
theorem C57_chio_may_raise : Accepted (tapeCfg 1 3 2 bowl .min .single 5 1) 5 ∧
    solve (OriginalCHIO.algo (c := tapeCfg 1 3 2 bowl .min .single 5 1) (⟨19/20, 1⟩)) ⟨none, .none, false⟩ ⟨(1 : Nat), (18 : Nat), [], 1⟩ = .error .value := by
  refine ⟨⟨by decide, by decide⟩, raised_spec ?_⟩
  decide +kernel

/-- `DevCHIO` refills the infected and the susceptible, but not the immune, of whom there may be none (`mealpy/human_based/CHIO.py:216-218`). -/
theorem C57_dev_chio_may_raise : Accepted (tapeCfg 1 3 2 bowl .min .single 5 1) 5 ∧
    solve (DevCHIO.algo (c := tapeCfg 1 3 2 bowl .min .single 5 1) (⟨19/20, 1⟩)) ⟨none, .none, false⟩ ⟨(1 : Nat), (18 : Nat), [], 1⟩ = .error .value := by
  refine ⟨⟨by decide, by decide⟩, raised_spec ?_⟩
  decide +kernel

/-- `OriginalCSO` with `smp = 2` and the other parameters at their defaults: the tournament chooses four of the two copies
(`mealpy/swarm_based/CSO.py:141-142`). -/
theorem C57_cso_may_raise : Accepted (tapeCfg 1 3 1 bowl .min .single 5 1) 5 ∧
    solve (OriginalCSO.algo (c := tapeCfg 1 3 1 bowl .min .single 5 1) (⟨3/20, 2, false, 4/5, 3/20, 2/5, 1/2, 9/10, 1⟩)) ⟨none, .none, false⟩ ⟨(0 : Nat), (17 : Nat), [], 1⟩ = .error .value := by
  refine ⟨⟨by decide, by decide⟩, raised_spec ?_⟩
  decide +kernel

/-- `OriginalWCA` starting on the optimum of the sphere function: the best river has cost 0, so it gets no stream, and the best of its streams is
asked for (`mealpy/system_based/WCA.py:98-106`, `:136`). -/
theorem C57_wca_index_may_raise : Accepted (tapeCfg 1 3 1 bowl .min .single 5 1) 5 ∧
    solve (OriginalWCA.algo (c := tapeCfg 1 3 1 bowl .min .single 5 1) (⟨2, 2, 1/1000000⟩)) ⟨none, .rows [[0], [1], [2], [3], [4]], false⟩ ⟨(0 : Nat), (17 : Nat), [], 1⟩ = .error .index := by
  refine ⟨⟨by decide, by decide⟩, raised_spec ?_⟩
  decide +kernel

/-- `OriginalWCA` with costs -3 and 2 of the rivers: the first is to get nine streams out of three (`mealpy/system_based/WCA.py:99`, `:106`). -/
theorem C57_wca_value_may_raise : Accepted (tapeCfg 1 3 1 (fun x => x 0) .min .single 5 1) 5 ∧
    solve (OriginalWCA.algo (c := tapeCfg 1 3 1 (fun x => x 0) .min .single 5 1) (⟨2, 2, 1/1000000⟩)) ⟨none, .rows [[-3], [2], [3], [4], [4]], false⟩ ⟨(0 : Nat), (17 : Nat), [], 1⟩ = .error .value := by
  refine ⟨⟨by decide, by decide⟩, raised_spec ?_⟩
  decide +kernel

/-- `OriginalTS` at a corner of the box: every neighbour of the best position falls outside and is brought back onto it, so none is a candidate,
and the best of none is asked for (`mealpy/math_based/TS.py:98-109`). -/
theorem C57_ts_may_raise : Accepted (tapeCfg 1 3 1 (fun x => x 0) .min .single 2 1) 2 ∧
    solve (OriginalTS.algo (c := tapeCfg 1 3 1 (fun x => x 0) .min .single 2 1) (⟨2, 2, 1/20⟩)) ⟨none, .rows [[-4], [-4]], false⟩
      ⟨(1 : Nat), (18 : Nat), [], 1⟩ = .error .index := by
  refine ⟨⟨by decide, by decide⟩, raised_spec ?_⟩
  decide +kernel

/-- the environment and the problem are lawful -/
example : (tapeCfg 1 3 1 bowl .min .single 5 1).E.Lawful ∧ (tapeCfg 1 3 1 bowl .min .single 5 1).P.Lawful := tapeCfg_lawful

end Mealpy
