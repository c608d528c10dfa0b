# Formal model of mealpy in Lean 4 - design

Source read: `/repo` (mealpy 3.1.0, python). Nothing of it is executed here.

## 1. Shape of the model

| Lean module | python modelled |
|---|---|
| `Verif/Num.lean`, `Verif/RealNum.lean` | the number type: IEEE doubles without NaN, seen as a linear order with *lawless* arithmetic; the rationals and the reals are instances |
| `Verif/Spec.lean`, `Verif/SpaceSpec.lean` | small independent vocabulary of the properties (better, in-bounds, best-of, legal value, ...) |
| `Verif/Space.lean` (+ `SpaceLemmas`, `SpaceLemmas2`, `SpaceWitness`) | `utils/space.py` (all variable types, LabelEncoder), `utils/problem.py` (slicing, encode, decode, correct, generate) over exact rationals |
| `Verif/Transfer.lean` | `utils/transfer.py` over the reals |
| `Verif/Target.lean` | `utils/target.py`, `utils/agent.py` |
| `Verif/Select.lean` (+ `SelectLemmas`) | static helpers of `optimizer.py`: comparison, sorting, greedy, trimming, groups, samplers, roulette, tournament, crossover |
| `Verif/Term.lean`, `Verif/Valid.lean` | `utils/termination.py`, `utils/validator.py`, parameter / mode checking |
| `Verif/Env.lean`, `Verif/Draws.lean` (+ `DrawLemmas`, `RunEnv`, `Witness`) | the environment: random generator, worker pools, clock, tie order; the draws the algorithms make; concrete lawful environments |
| `Verif/Opt.lean` (+ `OptLemmas`, `RunLemmas`, `SolveLemmas`, `OptWitness`) | the `Optimizer` base class as a state+exception monad: get_target, generate_*, update_target_for_population, update_global_best_agent, history, solve |
| `Verif/Hoare.lean`, `Verif/Tactics.lean` | Hoare triples for that monad, proof automation |
| `Verif/Heap.lean` | object identity: agents and arrays as heap cells, `Agent.copy`, history aliasing |
| `Verif/NaN.lean` | selection with NaN fitness |
| `Verif/Tuner.lean`, `Verif/Multitask.lean`, `Verif/Io.lean`, `Verif/Chaotic.lean` | `tuner.py`, `multitask.py`, `utils/io.py`, `utils/fuzzy.py`, `utils/chaotic.py` |
| `Verif/Comb.lean` (+ `CombLemmas`), `Verif/Alg/Kit*.lean` | loop shapes and helper code shared by many `evolve` methods, with their proof rules |
| `Verif/Bridge.lean` | the `Problem` made from declared variables as an instance of the abstract problem of the algorithm models |
| `Verif/Contract.lean`, `Verif/Frame.lean`, `Verif/Alg/{Rules,Hold,Weak,Cover,Light,Exact}.lean` | the contracts an `evolve` is proved to meet and the calculi for proving them: `Weak` keeps targets coherent, `Light` does not (for code that stores a target with another solution), `Exact` counts evaluations exactly |
| `Verif/Alg/Alias.lean`, `Verif/Alg/{GA,HBO,Sharing,Enhanced}.lean` | agents with array identities, for the optimizers that write into solution arrays |
| `Verif/Alg/{Base,GWO,GWO2,DE,SA,FFA,FOA,ORCA,SARO,SAPDE,LSHADEcn,Simple*}.lean` | `evolve` (and overridden hooks) of individual algorithms, one namespace per class |
| `Verif/Alg/Risky.lean`, `Careless.lean` | algorithms that may raise while resizing; algorithms whose stored targets may not belong to the stored solutions |
| `Verif/StopLemmas.lean` | comparing two runs with different terminations |
| `Verif/Alg/SLOPool.lean` | ModifiedSLO and ImprovedSLO in the pool modes, where an agent may lack its local best |
| `Verif/StartRaise.lean`, `Verif/Alg/ESOReal.lean`, `Verif/Alg/FLAReal.lean` | runs that raise in the first epoch, from the starting solutions, the bounds or the parameters; the spread of a population in a box |
| `Verif/Alg/Hang.lean` | algorithms with a loop that may not end: the loop gets an arbitrary amount of fuel, running out is the error `Err.hang` |
| `Verif/Alg/Raise*.lean` | runs that provably raise |
| `Verif/Catalogue.lean` | the list of modelled algorithms with accepted parameters and budgets; generated by `tools/catalogue.py` from `tools/rows/*.py`; `ALGORITHMS.md` is the same list for reading |
| `Verif/Inhabited.lean` | a configuration for every line of the catalogue that meets its hypotheses; generated by `tools/inhabited.py` |
| `Verif/Props/*.lean` | the property theorems `Cnn_*`, with non-vacuity examples, nothing else |

Tools: `tools/props.py` (properties.jsonl), `tools/manifest.py` and `tools/notes.py` (MANIFEST.json), `tools/catalogue.py`,
`tools/citecheck.py` (checks that every `file:lines` citation exists and points at the cited definition),
`tools/axioms.py` (the table in section 3), `tools/mutate.py` (wrong programs, results in `seeded/LOG.jsonl`).

Modelling decisions

* **Numbers.** Where a property needs no arithmetic law (feasibility, selection, history, all
  algorithms) numbers are any type with a linear order and *arbitrary* total operations
  `+ - * / exp ...` (class `Num`): theorems then hold for doubles as long as no NaN appears.
  Where a law is needed (rounding, probabilities, means) exact rationals or reals are used:
  floating-point rounding is not modelled there.
* **Randomness and other environment choices** (numpy generator, argsort tie order, worker
  completion order, lost increments, wall clock) are an abstract state machine `Env` with
  *lawfulness* hypotheses saying only what the library documents (range, distinctness, permutation).
  Every theorem quantifies over all lawful environments and all start states; the seed selects the
  start state. A concrete lawful environment is exhibited, so the hypotheses are satisfiable.
* **Exceptions** are values: the monad is `State -> Except Err (a x State)`.
* **Evaluation log.** A ghost field records every position handed to the objective.
* **Mutable objects** are values in the algorithm models; the separate heap model justifies this
  (C35) and exhibits what it means for the history. The optimizers that write into arrays (GA, HBO, ICA) are modelled with array identities
  (`Verif/Alg/Alias.lean`); their failures are proved in `Verif/Props/InPlace.lean` and `Verif/Props/Empires.lean`. ICA, whose empires share
  agents, is modelled with a table of agent objects (`Verif/Alg/ICA.lean`). Several classes rebind an attribute
  (`agent.solution = ...`) of an agent that stays in the population: TWO, PO, BRO, SSpiderA, SRSR, ChameleonSA, ESOA, DSO, SSpiderO, WHO, SBO, ABFO.
  The models update the slot. In the code such a write also changes entries that `history.list_current_best` and
  `list_current_worst` recorded in earlier epochs, because those lists hold the live agents (C35); the history of the algorithm models
  holds snapshots, so C28 and C29 for these classes speak of the values at the time of recording.

## 2. Plan per property

| id | modelled | proof idea |
|---|---|---|
| C01 | every `correct`, slicing over the variable list | clip/argsort/int lemmas, induction over variables |
| C02 | same | idempotence of clip, trunc; argsort is inversion of a permutation, so argsort^3 = argsort |
| C03 | every `decode` | range lemmas of trunc/round, membership through the label table |
| C04 | encode/decode | table lookup lemmas; permutation: explicit inverse, negation witness |
| C05 | IntegerVar | floor arithmetic |
| C06 | generate+encode | from generator range laws |
| C07 | LabelEncoder | sorted dedup list, indexOf |
| C08 | slicing | induction over variables |
| C09 | StringVar/PermutationVar with duplicates | pigeonhole: fewer codes than slots |
| C10 | transfer functions over the reals | exp/tanh/arctan/sqrt lemmas, erf as Gaussian integral |
| C11, C12 | TransferBinaryVar | case split on the sum; lb = lb*0 |
| C13 | seeds of variables | equal initial states give equal streams, induction over generations |
| C14 | Target | list algebra |
| C15, C16 | Agent, compare | order reasoning, witnesses |
| C17-C22 | selection helpers | permutations, `Pairwise`, take/drop |
| C23-C27 | samplers, roulette, tournament, crossover | offset-trick bijection; sum of shares; sorted take |
| C28-C33 | solve loop for an arbitrary `evolve` | induction over epochs with a history invariant |
| C34 | diversity | sums of absolute deviations |
| C35 | heap | frame reasoning over arbitrary update sequences |
| C36, C37 | executor pools | any completion permutation; copies of the generator state |
| C38-C41 | starting solutions, set_parameters, validator, mode | case analysis |
| C42-C45 | ParameterGrid, Tuner | cartesian product, mixed radix; rank of tuples |
| C46, C47 | Multitask | list algebra |
| C48-C50 | io, fuzzy, chaotic | string suffix; field arithmetic; real analysis for sin |
| C51 | fitness with NaN | explicit `Option`-like float model |
| C52, C53, C55-C57 | algorithms | Hoare triples; one invariant (log feasible, agents coherent) with a budget; weaker rules (`Verif/Alg/Light.lean`) for the untidy classes; concrete runs refute the rest |
| C54 | algorithms | log covered by population or best, or a step that never loses the best (`Verif/Keep.lean`, `Verif/KeepFit.lean` for shared arrays, `Verif/KeepGA.lean`, `Verif/KeepBRO.lean`; `Verif/Props/Keeps.lean`); runs that forget it (`Verif/TapeEnv.lean`, `Verif/TapeExp.lean`, `Verif/Props/Forgets.lean`, `Verif/Props/Forgets2.lean`) |
| C58 | `Problem.n_objs` | case analysis on the first evaluation |
| C59 | greedy algorithms, recorded populations | for each threshold, the number of agents at least that good never falls (`Verif/Climb.lean`); one rule per program construct, one lemma per class |
| C60 | several `solve` calls on one object | the counter is set back by a termination; attributes that outlive a call are a parameter of the algorithm (`Verif/Reuse.lean`); that the other classes set theirs in `initialize_variables`, or at the start of `evolve`, was checked by reading and by a script over the syntax trees, not proved; repeated calls evaluated by the kernel |
| C61 | two calls of `solve` with different limits | one epoch does not depend on the limits except in its stop flag (`Verif/StopLemmas.lean`), so the shorter run is a prefix of the longer by induction on the epochs; `Tighter` limits stop no later |
| C62 | the comparison, sorting and selection helpers, the roulette wheel | a function that turns better into better (`Judges`) commutes with each helper; a permutation sorted by distinct values is unique; ties, the wheel and a run on a constant objective by example |
| C63 | two calls of `solve` on an objective and on the objective followed by an increasing function | both runs in step: one rule per program construct says that the second does what the first does with every fitness sent through the function (`Verif/Rescale.lean`), one lemma per class (`Verif/Alg/RankBased.lean`); `np.argsort` is assumed to give the same positions on both scales; early stopping, which compares fitness differences with an epsilon, is excluded |

Nothing is declared inexpressible; what the model leaves out is listed in section 3.

## 3. Trusted base

### 3.1 Kernel and axioms

Lean 4.33.0's kernel and the part of Mathlib that is imported (single modules, all checked by the same kernel). No axiom
is added, there is no `sorry`/`admit`, no `native_decide`/`bv_decide`. `decide` is used as `decide +kernel` on closed terms
for concrete witnesses (counterexamples and non-vacuity), never for a universal claim. Axioms per theorem, as printed by
`#print axioms` (table written by `tools/axioms.py`):

<!-- axioms:begin -->
* propext (25 theorems): `C14_weighted_sum`, `C14_plain_sum`, `C14_scalar_weight`, `C14_single_objective`, `C14_copy`, `C16_helpers_agree`, `C16_total_order`, `C19_none`, `C20_length_mismatch`, `C40_is_in_bound`, `C40_finite`, `C40_nan`, `C40_check_str_bool`, `C43_index_is_not_iteration_order`, `C46_one_value`, `C46_one_per_problem`, `C46_flat`, `C46_other_lengths`, `C48_suffix_optional`, `C51_compare_nan`, `C51_min_nan_global_best_is_forever`, `C51_clip`, `C58_read_preserves_fitness`, `C58_raises_iff`, `C58_raises_once`
* Quot.sound, propext (52 theorems): `C02_correct_fixes_feasible`, `C05_scalar_bounds_integer`, `C08_n_dims`, `C12_lower_bound_ignored`, `C12_s_shaped_probability_at_least_half`, `C14_rejects`, `C18_empty`, `C19_special_agents`, `C20_greedy`, `C21_sort_trim`, `C24_when_it_raises`, `C30_unique`, `C35_global_best_record_is_immune`, `C35_population_is_separate`, `C35_start_is_well_formed`, `C35_current_best_record_is_live`, `C37_thread_completion_order`, `C37_process_identical`, `C38_none`, `C38_rejected`, `C39_unknown_rejected`, `C39_known_accepted`, `C39_list_unknown`, `C39_roundtrip`, `C39_not_revalidated`, `C40_check_float`, `C40_check_tuple_skips`, `C40_others`, `C42_members`, `C42_exactly_once`, `C42_last_key_fastest`, `C42_len`, `C43_negative_index_never_raises`, `C45_sequential`, `C45_pool`, `C45_run_error`, `C46_one_per_algorithm_raises`, `C46_flat_terminations_raise`, `C47_runs`, `C47_one_column_per_problem`, `C47_padding`, `C48_load_after_save`, `C48_file_written`, `C48_other_files_untouched`, `C51_min_nan_is_never_best`, `C51_max_nan_is_best`, `C51_max_nan_destroys_global_best`, `C51_min_number_survives`, `C60_repeats`, `C60_plain_repeats`, `C62_greedy_selection`, `C62_sorted`
* Classical.choice, Quot.sound, propext (348 theorems): `C01_correct_solution_in_box`, `C01_correct_solution_coordinate`, `C01_inverted_bounds_escape`, `C01_transfer_small_ub_escape`, `C02_correct_idempotent`, `C02_permutation_not_idempotent`, `C02_permutation_three_times`, `C02_correct_solution_idempotent`, `C03_decode_legal`, `C03_decode_solution_legal`, `C04_encode_decode`, `C04_sequence_round_trip`, `C04_sequence_unknown_rejected`, `C04_permutation_round_trip_inverse`, `C04_permutation_round_trip_fails`, `C05_integer_decode`, `C05_integer_surjective`, `C05_integer_monotone`, `C05_fractional_array_bounds_escape`, `C06_generated_solution_feasible`, `C06_string_var_numeric_labels_raise`, `C07_label_bijection`, `C07_codes_follow_key_order`, `C07_order_and_multiplicity_irrelevant`, `C07_unknown`, `C07_transform_list`, `C08_correct_slice`, `C08_correct_noninterference`, `C08_decode_entry`, `C08_decode_one_entry_per_variable`, `C08_decode_one_entry_per_name`, `C08_same_name_later_wins`, `C09_duplicate_label_leaks_unknown`, `C09_permutation_duplicates_always_unknown`, `C09_distinct_labels_never_unknown`, `C10_range`, `C10_v_shaped`, `C10_s_shaped`, `C10_v_monotone`, `C11_correct_never_all_zero`, `C11_decode_never_all_zero`, `C11_generate_never_all_zero`, `C11_all_zeros_true_can_be_zero`, `C13_equal_variables_equal_values`, `C15_eq_iff`, `C15_refl`, `C15_hash_eq_imp_eq`, `C15_eq_not_hash`, `C15_not_symmetric`, `C15_not_transitive`, `C15_sync`, `C16_compare_fitness`, `C16_ties`, `C17_sorted_population`, `C18_best`, `C18_worst`, `C19_special_indices`, `C19_special_fitness`, `C22_groups`, `C23_exclude_one`, `C23_when_it_raises`, `C23_bijection`, `C24_exclude_list`, `C24_candidates`, `C25_roulette_weights`, `C25_worst_weight_zero`, `C25_roulette_index`, `C26_tournament`, `C26_tournament_reverse`, `C26_when_it_raises`, `C26_small_population`, `C27_crossover`, `C27_crossover_feasible`, `C28_catalogue_best_monotone`, `C28_global_best_monotone`, `C28_global_best_is_a_member`, `C29_save_false_misaligned`, `C29_catalogue_lengths`, `C29_history_lines_up`, `C29_lengths`, `C30_trailing_streak`, `C31_should_terminate`, `C31_constructor`, `C32_catalogue_stops`, `C32_stops_at_first_true_test`, `C32_no_termination`, `C32_max_epoch`, `C33_counter_counts`, `C33_process_misses_initial_population`, `C33_counter_at_most_calls`, `C33_thread_loses_increments`, `C34_diversity_nonneg`, `C34_diversity_zero_iff`, `C34_percentages`, `C35_array_write_reaches_copies`, `C36_pool_results_in_input_order`, `C36_parallel_evaluation`, `C37_generates_n_evaluated_agents`, `C38_rows_used_verbatim`, `C38_not_clipped`, `C39_list`, `C39_consistent_preserved`, `C40_check_int`, `C40_check_int_closed`, `C40_check_int_open_escapes`, `C40_check_tuple`, `C41_unknown_mode`, `C41_mode_and_workers`, `C41_small_machine`, `C43_index_hits_every_combination`, `C44_min_selects_best`, `C44_max_selects_worst`, `C47_same_name_overwrites`, `C49_weights_in_range`, `C49_zero_iterations`, `C49_increase_pyramid_not_ranked`, `C50_unit_interval`, `C50_orbits`, `C50_logistic`, `C50_chebyshev`, `C50_singer_escapes`, `C50_clipped_update`, `C51_greedy_rejects_nan`, `C51_greedy_keeps_nan`, `C52_evaluates_feasible_points_partial`, `C52_original_sa_leaves_box`, `C52_gaussian_sa_leaves_box`, `C52_declared_variables`, `C52_hc_stays_in_box`, `C52_foa_leaves_box`, `C52_whale_foa_leaves_box`, `C52_who_leaves_box`, `C52_oppo_two_leaves_box`, `C52_levy_two_leaves_box`, `C52_tseeda_leaves_box`, `C52_archoa_leaves_box`, `C52_dev_foa_leaves_box`, `C52_bco_leaves_box`, `C52_enhanced_two_leaves_box`, `C53_targets_are_values_partial`, `C53_targets_belong_to_solutions_partial`, `C53_ica_lies`, `C53_single_ga_lies`, `C53_base_ga_lies`, `C53_single_ga_strays`, `C53_hbo_lies`, `C53_dev_foa_lies`, `C53_multi_ga_lies`, `C53_oppo_two_lies`, `C53_levy_two_lies`, `C53_tseeda_lies`, `C53_archoa_lies`, `C53_whale_foa_lies`, `C53_foa_lies`, `C53_elite_single_ga_lies`, `C53_elite_multi_ga_lies`, `C53_who_lies`, `C53_sbo_lies`, `C53_bco_lies`, `C53_bees_lies`, `C53_prob_bees_lies`, `C53_enhanced_two_lies`, `C53_thro_lies`, `C53_aaa_lies`, `C54_returns_best_evaluated_partial`, `C54_keeping_returns_best_partial`, `C54_cg_gwo_forgets`, `C54_originalCSO_forgets`, `C54_originalCCO_forgets`, `C54_originalBA_forgets`, `C54_originalDMOA_forgets`, `C54_devDMOA_forgets`, `C54_improvedBSO_forgets`, `C54_originalBSO_forgets`, `C54_enhancedTWO_forgets`, `C54_originalOrcaPA_forgets`, `C54_originalEO_forgets`, `C54_adaptiveEO_forgets`, `C54_modifiedEO_forgets`, `C54_originalSHO_forgets`, `C54_originalCA_forgets`, `C54_originalCoatiOA_forgets`, `C54_originalHHO_forgets`, `C54_originalAHO_forgets`, `C54_modifiedSLO_forgets`, `C54_improvedSLO_forgets`, `C54_devBRO_forgets`, `C54_c_PSO_forgets`, `C54_originalWOAmM_forgets`, `C54_originalSFO_forgets`, `C54_improvedSFO_forgets`, `C54_originalHGSO_forgets`, `C54_mLFA_GD_forgets`, `C54_originalTOA_forgets`, `C54_originalSRSR_forgets`, `C54_iOBL_GWO_forgets`, `C54_originalFFA_forgets`, `C54_devSMO_forgets`, `C54_aBFO_forgets`, `C54_sAP_DE_forgets`, `C54_originalWHO_forgets`, `C54_originalBCO_forgets`, `C54_originalABC_forgets`, `C54_oppoTWO_forgets`, `C54_originalESO_forgets`, `C54_originalEP_forgets`, `C54_levyEP_forgets`, `C54_originalBFO_forgets`, `C54_originalIMODE_forgets`, `C54_originalCOA_forgets`, `C54_originalDO_forgets`, `C54_originalCHIO_forgets`, `C54_devCHIO_forgets`, `C54_originalWCA_forgets`, `C54_adaptiveBA_forgets`, `C54_originalGJA_forgets`, `C54_iChameleonSA_forgets`, `C54_originalAAA_forgets`, `C54_originalICA_forgets`, `C54_swarmSA_forgets`, `C54_originalGRSA_forgets`, `C54_remembers_best_partial`, `C55_population_size_partial`, `C55_sa_hc_resize`, `C55_ffa_grows`, `C55_orca_shrinks`, `C55_ica_loses_at_most_one`, `C55_ica_shrinks`, `C55_ica_drops_the_best`, `C55_dev_saro_doubles`, `C55_original_saro_doubles`, `C55_sap_de_resizes`, `C55_ts_resizes`, `C55_abfo_shrinks`, `C55_lshade_cn_between`, `C55_lshade_cn_shrinks`, `C55_hgso_sizes`, `C55_hgso_shrinks`, `C55_original_bso_shrinks`, `C55_improved_tlo_sizes`, `C55_improved_tlo_shrinks`, `C56_evaluation_budget`, `C56_original_gwo_exact`, `C57_never_raises_partial`, `C57_raises_only_partial`, `C57_ds_gwo_raises`, `C57_original_de_raises`, `C57_eho_raises`, `C57_jade_raises`, `C57_orca_raises`, `C57_squirrel_raises`, `C57_pss_raises`, `C57_nro_raises`, `C57_ica_index_error`, `C57_ica_zero_costs`, `C57_ica_opposite_costs`, `C57_ica_mixed_costs`, `C57_shade_real`, `C57_lshade_real`, `C57_wso_real`, `C57_iwo_real`, `C57_sspidero_real`, `C57_cro_real`, `C57_ocro_real`, `C57_srsr_real`, `C57_sapde_real`, `C57_dev_efo_real`, `C57_efo_real`, `C57_dev_gska_real`, `C57_gska_real`, `C57_fla_real`, `C57_cro_one_dim_raises`, `C57_ocro_one_dim_raises`, `C57_foa_raises`, `C57_dev_foa_raises`, `C57_bees_raises`, `C57_abfo_raises`, `C57_oppo_two_raises`, `C57_dev_hs_raises`, `C57_ao_raises`, `C57_aao_raises`, `C57_dandelion_raises`, `C57_ca_raises`, `C57_coa_raises`, `C57_doa_raises`, `C57_doa_one_dim_raises`, `C57_base_ga_raises`, `C57_multi_ga_raises`, `C57_single_ga_raises`, `C57_ma_raises`, `C57_dev_efo_raises`, `C57_efo_raises`, `C57_improved_bso_raises`, `C57_bfo_raises`, `C57_clever_book_bees_raises`, `C57_dev_gska_may_raise`, `C57_gska_may_raise`, `C57_info_may_raise`, `C57_improved_nmra_may_raise`, `C57_sho_may_raise`, `C57_dev_smo_may_raise`, `C57_chio_may_raise`, `C57_dev_chio_may_raise`, `C57_cso_may_raise`, `C57_wca_index_may_raise`, `C57_wca_value_may_raise`, `C57_ts_may_raise`, `C57_lshadecn_raises`, `C57_lshadecn_one_dim_raises`, `C57_lshadecn_one_dim_may_raise`, `C57_mslo_pool_fresh`, `C57_islo_pool_fresh`, `C57_mslo_pool_started_may_raise`, `C57_eso_real`, `C57_eso_corners_raise`, `C57_qlesca_collapsed_raises`, `C57_cddo_narrow_raises`, `C57_sfo_may_raise`, `C57_fla_overfull_raises`, `C57_srsr_negative_may_raise`, `C57_islo_pool_started_may_raise`, `C57_elite_ga_raises`, `C57_elite_ga_two_groups_raises`, `C57_original_bso_may_raise`, `C57_aaa_raises`, `C59_no_rank_gets_worse`, `C59_best_and_worst`, `C59_aeo_loses_ground`, `C60_originalBeesA_drifts`, `C60_probBeesA_drifts`, `C60_originalOrcaOA_drifts`, `C60_aBFO_drifts`, `C60_sAP_DE_drifts`, `C61_same_epochs`, `C61_history_begins`, `C61_looser_runs_longer`, `C61_looser_raises_too`, `C61_catalogue`, `C62_compare`, `C62_compare_target`, `C62_ties_differ`, `C62_roulette`, `C62_roulette_differs`, `C62_constant_objective`, `C63_run`, `C63_same_points`, `C63_same_exception`, `C63_mean_fitness_differs`
<!-- axioms:end -->

### 3.2 What the theorems assume about the environment

* `Env.Lawful` (`Verif/Env.lean`): what numpy documents about `Generator` (uniform draws lie in the range, `integers` in
  `[lo, hi)`, `permutation` permutes, `choice(replace=False)` returns distinct positions, and so on), `np.argsort` returns a
  sorting permutation (any tie order), a pool completes each task once in any order, at most as many increments are
  lost as were made. `detEnv`, `runEnv a b` are concrete environments proved lawful.
* `Prob.Lawful` (`Verif/Opt.lean`): `problem.correct_solution` and `problem.generate_solution` land in the box. C01, C02 and C06
  prove this of the variable types of `utils/space.py`, over exact rationals.
* `Accepted c lo`: `1 <= epoch`, `lo <= pop_size <= 10000`, as every constructor validates.
* The objective function is a mathematical function of the position: deterministic, no side effects, no exceptions, no NaN
  (C51 treats NaN separately).
* `FeasibleStart`: `starting_solutions`, when given, lie in the box.

### 3.3 Simplifications

* **Floating point.** Arithmetic in the algorithm models is uninterpreted: every operation is an arbitrary total function on
  a linear order, so the algorithm theorems cannot depend on rounding, and hold for doubles as long as no NaN appears
  (infinities are allowed). Python raises on none of the modelled float operations (numpy returns inf/nan); a NaN
  produced by an algorithm's own arithmetic (for instance 0/0) is outside the model. Clipping is `min (max x lb) ub`.
  Theorems C01-C14, C25-C27, C34 use exact rationals, C10, C49, C50 exact reals: rounding is not modelled there.
* **Int conversions** such as `int(0.1 * pop_size)` in constructors are parameters of the algorithm models with the range the
  code guarantees as hypothesis, or exact division when exact for doubles in the accepted range; each is noted at the definition.
* **numpy argument errors.** Errors by sizes and ranges are modelled (`choice` of more elements than there are, `integers` with an
  empty range, indexing out of bounds, `np.min` of nothing, negative scale in `normal` where marked); other argument
  errors of numpy are not.
* **Randomness.** Each draw is one step of the abstract generator. Distributions without a range law
  (`normal`, `standard_cauchy`, ...) may return anything. Rejection loops (`while True: ... break`) that only draw are one draw
  of an accepted value; other loops that may run for ever get an arbitrary amount of fuel
  (`Verif/Alg/Hang.lean`).
* **Objects.** The algorithm models treat agents as values. Where code writes into an array that another agent shares, the model
  writes both or the definition says so; `Verif/Heap.lean` treats identity itself (C35).
* **Threads.** A pool evaluates tasks in any order, each task atomically, except the non-atomic `nfe_counter += 1`, which may
  be lost. Process workers see a pickled snapshot.
* **Not modelled at all:** logging, `save_as`-figures (`history.save_*`, `utils/visualize`), pandas/export code of `Tuner` and
  `Multitask` (`export_to_*`), `Problem.set_bounds` error messages, tensor or multi-dimensional objectives, signal and crash behaviour,
  and LinAlgError of matrix routines. Every concrete optimizer class of the repository has at least one line in `Verif/Catalogue.lean`.

### 3.4 Which algorithms

`Verif/Catalogue.lean` lists every modelled class, `ALGORITHMS.md` shows the list with the contract, the smallest population,
the extra hypotheses on settings, the evaluation budget and the possible errors of each. The contracts, strongest first:
`Elitist` (everything, including C54), `Tracked` (all but C54, which is proved of those in `Remembers`, `Verif/Props/Keeps.lean`, and refuted of many others,
`Verif/Props/Forgets.lean`), `Resizing`
(the population may change size), `Fallible`/`Risky` (Tracked/Resizing unless a listed error is raised), `Keeping`/`Loose` (points outside
the box may be evaluated), `Careless`/`InPlace`/`Wild`/`Shrinking` (targets may not belong to solutions). The predicates in front of the theorems C52-C57
(`StaysIn`, `Contained`, `Listed`, `KeepsSize`, `Catalogued`, ...) are unions of these, defined next to them.

A hypothesis beyond `Accepted` marks settings the python constructor accepts but for which the run may raise, or leave the
contract. Those with a name of their own:

* `MirrorsBox c`: `lb + ub - x` lies in the box when `x` does. Arithmetic is lawless, so this has to be said; it holds over the rationals and reals.
* `OriginalESO.Calm`, `OriginalSRSR.Calm`, `OriginalFLA.Calm`, `RoundMono`, `OriginalWSO.Indexes`, `SHADE.Tops`, `L_SHADE.Tops`, `GSKA.Groups`, `CRO.Rates`,
  `EFO.Fields`, `OriginalSFO.Narrow`, `SSpiderO.Shares`: computed counts, indices or scales lie in the range the code then assumes. Stated at the definition.
* Where such a hypothesis only keeps a draw or an index in range, the class has a second, `Fallible` line without it (`Verif/Alg/Tolerant.lean`,
  `Verif/Alg/Tolerant2.lean`): the run may then raise one of the listed errors, and every claim of the line still holds if it does not. Where the
  run must raise, that is a theorem of its own (`Verif/Props/Raises*.lean`).
* In exact arithmetic most of these conditions follow from the ranges the constructors check: `Verif/Alg/ExactReal.lean` derives them over the reals
  (`Tops`, `Indexes`, `Shares`, `Rates`, `Sows`, `Fields`, `Groups`, `Calm`) and `Verif/Props/Exact.lean` states that the classes then never raise. `Verif/RealEnv.lean`
  is a lawful environment and problem over the reals. What is left open there is floating-point rounding.
* `swarmLike = true/false`: only the pool modes (`process`, `thread`, `swarm`) or only `single` meets that contract; the two modes run different code.
* Eigen-decompositions and matrix inverses (CMA-ES, LSHADEcnEpSin, SSA) are left to the environment: any result is allowed, `LinAlgError` is not modelled.
* `starting_solutions` of the FOA classes stand for the rows after normalisation.
* `PSS` draws its latin hypercube without the seeded generator; the model takes it from the environment.

`OriginalICA` is the only `Shrinking` line: it stays in the box and in the budget, but its population may lose an agent, and it writes into
arrays shared with the history. Its budget grows with the epoch, so its proof uses an attribute condition indexed by the epoch (`Algo.LOkE`).

## Status of the per-class properties

C52, C53, C54, C55 and C57 are false of the code when read over every class. They are reported as `partial`: the theorems over the catalogue carry the
suffix `_partial`, the violations are separate theorems with concrete runs, and the notes in MANIFEST.json name the classes and parameter settings
that are neither proved nor refuted. A line of the catalogue with a condition on the parameters says nothing outside that condition.

The concrete runs use exact rational numbers and a fixed random tape (`Verif/TapeEnv.lean`) in which exp, sin, sqrt and the like are the identity. For
the runs in `Props/Raises3.lean` the line that raises was traced in the source and does not depend on those functions; a run elsewhere that passes
through them is a run of the model with that arithmetic, not a replay of numpy.
