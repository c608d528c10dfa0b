{"id": "C01", "title": "correct_solution lands inside the declared box", "statement": "For a Problem built from any mix of the ten supported variable types whose user bounds satisfy lb <= ub, correct_solution(x) returns a vector of length n_dims whose i-th coordinate lies in [problem.lb[i], problem.ub[i]].", "quantifier": "every non-empty list of variables, every real vector of length n_dims, every state of the variables' random generators", "why_tests_cant": "the vector, the number and the order of variables are unbounded; tests sample a few float boxes", "anchors": ["mealpy/utils/problem.py:Problem.correct_solution_with_bounds", "mealpy/utils/space.py:*.correct"]}
{"id": "C02", "title": "correct_solution is stable on already-corrected points", "statement": "correct(correct(x)) = correct(x) for Float, Integer, String, Categorical, Sequence, Binary and Bool variables; PermutationVar is NOT idempotent, but correcting three times equals correcting once.", "quantifier": "every variable of those types, every input vector", "why_tests_cant": "needs all real inputs, and for permutations all permutations of every length", "anchors": ["mealpy/utils/space.py:FloatVar.correct", "mealpy/utils/space.py:PermutationVar.correct"]}
{"id": "C03", "title": "decode yields only legal real-world values", "statement": "decode(x) of any real vector gives: floats in [lb,ub]; integers in [lb,ub] (integer bounds); labels from the declared set; declared sequences; a rearrangement of valid_set; 0/1; True/False - whatever x is, inside or outside the bounds.", "quantifier": "every variable, every real vector of the right length", "why_tests_cant": "off-by-one and rounding errors only show at boundary reals that sampling misses", "anchors": ["mealpy/utils/space.py:*.decode"]}
{"id": "C04", "title": "encode then decode returns the original value", "statement": "decode(encode(v)) = v for every legal v of Float, Integer, String/Categorical (distinct scalar labels), Sequence, Binary and Bool variables; for PermutationVar decode(encode(v)) rearranges valid_set by the INVERSE permutation, so the round trip fails in general.", "quantifier": "every variable and every legal value", "why_tests_cant": "round trips over all label sets and all permutations cannot be enumerated", "anchors": ["mealpy/utils/space.py:*.encode", "mealpy/utils/space.py:*.decode"]}
{"id": "C05", "title": "IntegerVar decoding is nearest-integer and reaches every integer", "statement": "For integer bounds lb <= ub, decode(x) is the half-up rounding of x clamped to [lb, ub]; every integer in [lb,ub] is decoded from some point of the box, and decode is monotone.", "quantifier": "all integer bounds, all reals x", "why_tests_cant": "quantifies over all bounds and all reals including the half-integer boundaries", "anchors": ["mealpy/utils/space.py:IntegerVar", "mealpy/utils/space.py:BaseVar.round"]}
{"id": "C06", "title": "generated solutions are feasible", "statement": "generate_solution(encoded=True) returns a vector of length n_dims inside [lb, ub] for every variable mix with lb <= ub and every generator state, and generating then encoding never raises for Float/Integer/Categorical/Sequence/Permutation/Binary/Bool variables with distinct labels.", "quantifier": "every variable list, every random stream", "why_tests_cant": "the random stream is unbounded", "anchors": ["mealpy/utils/problem.py:Problem.generate_solution_with_bounds", "mealpy/utils/space.py:*.generate"]}
{"id": "C07", "title": "LabelEncoder is a bijection between distinct labels and 0..n-1", "statement": "After fit(y), transform maps the distinct labels of y one-to-one onto 0..n-1 in sorted-key order, inverse_transform undoes it, the result does not depend on the order or multiplicity of labels in y, unknown labels raise, and out-of-range codes give 'unknown'.", "quantifier": "every finite label list", "why_tests_cant": "all label lists, all orders", "anchors": ["mealpy/utils/space.py:LabelEncoder"]}
{"id": "C08", "title": "Variables do not interfere inside a solution vector", "statement": "correct_solution and decode_solution act on each variable's own slice of the vector: changing coordinates of one variable changes nothing that another variable contributes; n_dims is the sum of n_vars; decode_solution has one entry per variable when names are distinct, and when two variables share a name the later one silently replaces the earlier.", "quantifier": "every variable list, every vector", "why_tests_cant": "slicing offsets accumulate over an unbounded number of variables", "anchors": ["mealpy/utils/problem.py:Problem.decode_solution_with_bounds", "mealpy/utils/problem.py:Problem.correct_solution_with_bounds", "mealpy/utils/problem.py:Problem.set_bounds"]}
{"id": "C09", "title": "Duplicate labels in a String/Categorical/Permutation variable leak 'unknown'", "statement": "A valid set with a repeated label makes some in-bounds point decode to the string 'unknown'; without repetition no point does.", "quantifier": "every valid set", "why_tests_cant": "requires exhibiting/excluding bad codes over all label sets", "anchors": ["mealpy/utils/space.py:StringVar._set_bounds", "mealpy/utils/space.py:LabelEncoder.inverse_transform"]}
{"id": "C10", "title": "Transfer variables: probabilities are probabilities", "statement": "Each of the eight transfer functions maps every real into [0,1]; V-shaped ones are even and vanish at 0; S-shaped ones are monotone with value 1/2 at 0.", "quantifier": "all real numbers", "why_tests_cant": "a claim over all reals", "anchors": ["mealpy/utils/transfer.py"]}
{"id": "C11", "title": "TransferBinaryVar(all_zeros=False) never yields the zero vector", "statement": "With all_zeros=False, correct, decode and generate always return a 0/1 vector with at least one 1, for every input and every random stream; with all_zeros=True they return 0/1 vectors.", "quantifier": "every n_vars >= 1, every input, every random stream", "why_tests_cant": "depends on all random draws", "anchors": ["mealpy/utils/space.py:TransferBinaryVar"]}
{"id": "C12", "title": "TransferBinaryVar / TransferBoolVar ignore the user's lower bound", "statement": "Whatever lb is passed, the effective lower bound is the zero vector, so inputs are never negative after clipping and an S-shaped transfer assigns every bit probability at least 1/2.", "quantifier": "every lb, ub >= 0, every input", "why_tests_cant": "universally quantified over lb and inputs", "anchors": ["mealpy/utils/space.py:TransferBinaryVar.__init__"]}
{"id": "C13", "title": "Same seed makes equal variables generate equal coordinates", "statement": "set_seed gives every variable its own generator seeded with the same seed, so two identical variables of one problem receive identical values in every generated solution of the run: the initial population lies on a diagonal.", "quantifier": "every variable, every seed, every number of generated solutions", "why_tests_cant": "a statement about whole random streams", "anchors": ["mealpy/utils/problem.py:Problem.set_seed", "mealpy/utils/space.py:BaseVar.seed"]}
{"id": "C14", "title": "Fitness is the weighted sum of objectives", "statement": "Target(objectives, weights).fitness = sum w_i*o_i when the lengths match, the plain sum when weights is None or has the wrong length (silently), and number weights are broadcast; copy() preserves objectives and fitness.", "quantifier": "every objective vector and weight argument", "why_tests_cant": "all lengths and values", "anchors": ["mealpy/utils/target.py:Target"]}
{"id": "C15", "title": "Agent equality versus hash", "statement": "Agents whose solutions are equal have equal hashes, but a == b does not imply hash(a) == hash(b): the tolerance comparison identifies agents whose rounded solutions differ, so sets/dicts of agents may keep two equal agents; == is reflexive but neither symmetric nor transitive.", "quantifier": "all pairs/triples of agents", "why_tests_cant": "a contract over all pairs", "anchors": ["mealpy/utils/agent.py:Agent.__eq__", "mealpy/utils/agent.py:Agent.__hash__"]}
{"id": "C16", "title": "Fitness comparison is a consistent total order", "statement": "_compare_fitness/get_better_solution/is_better_than/compare_target/compare_fitness/get_better_agent agree on strictly different fitness for min and max; exactly one of better/equal/worse holds; ties: compare_target is False for min and True for max.", "quantifier": "all pairs of agents, both problem types", "why_tests_cant": "all pairs of fitness values", "anchors": ["mealpy/optimizer.py:Optimizer.compare_target", "mealpy/utils/agent.py:Agent._compare_fitness", "mealpy/optimizer.py:Optimizer.get_better_agent"]}
{"id": "C17", "title": "Sorting a population loses nobody and orders best-first", "statement": "get_sorted_population returns a rearrangement of the population ordered from best to worst for the problem type, and the index list says where each agent came from - for every behaviour numpy's unstable argsort may show on ties.", "quantifier": "every population, min and max, every valid argsort", "why_tests_cant": "argsort's tie order is unspecified; populations are unbounded", "anchors": ["mealpy/optimizer.py:Optimizer.get_sorted_population"]}
{"id": "C18", "title": "get_best_agent / get_worst_agent are optimal and indexed", "statement": "The returned agent is a member at the returned index and no member is strictly better (worse).", "quantifier": "every non-empty population, min and max, every valid argsort", "why_tests_cant": "all populations", "anchors": ["mealpy/optimizer.py:Optimizer.get_best_agent", "mealpy/optimizer.py:Optimizer.get_worst_agent"]}
{"id": "C19", "title": "get_special_agents returns the n best and n worst", "statement": "best holds min(n_best, size) agents, each at least as good as every agent not chosen, best first; worst likewise from the other end, worst first; the index variant points to the same agents; special fitness = (sum, best, worst).", "quantifier": "every population, n_best, n_worst, min/max", "why_tests_cant": "all sizes", "anchors": ["mealpy/optimizer.py:Optimizer.get_special_agents", "mealpy/optimizer.py:Optimizer.get_special_fitness"]}
{"id": "C20", "title": "Greedy selection never makes a slot worse", "statement": "greedy_selection_population(old,new) has the same length, slot i holds old[i] or new[i], is at least as good as both, keeps old on ties, and raises when lengths differ.", "quantifier": "all pairs of populations, min/max", "why_tests_cant": "all lengths and values", "anchors": ["mealpy/optimizer.py:Optimizer.greedy_selection_population"]}
{"id": "C21", "title": "Sort-and-trim keeps the k best", "statement": "get_sorted_and_trimmed_population(pop,k) has min(k,size) members of pop, sorted best first, and nobody left out is strictly better than anybody kept.", "quantifier": "every population, k, min/max, every valid argsort", "why_tests_cant": "all sizes", "anchors": ["mealpy/optimizer.py:Optimizer.get_sorted_and_trimmed_population"]}
{"id": "C22", "title": "Splitting into groups partitions the population", "statement": "generate_group_population(pop,n,m) returns n groups; concatenated they are the first n*m agents in order; each has m agents when n*m <= size.", "quantifier": "every population, n, m", "why_tests_cant": "all sizes", "anchors": ["mealpy/optimizer.py:Optimizer.generate_group_population"]}
{"id": "C23", "title": "sample_indexes_exclude_one never returns the excluded index", "statement": "The samples are in [0,pop_size), differ from exclude_idx, are distinct when sampling without replacement, and every other index can be drawn (the offset trick is a bijection).", "quantifier": "every pop_size, exclude_idx, sample count, every random stream", "why_tests_cant": "boundary at exclude_idx for all sizes", "anchors": ["mealpy/optimizer.py:Optimizer.sample_indexes_exclude_one"]}
{"id": "C24", "title": "sample_indexes_exclude_list avoids the whole list", "statement": "The samples are in [0,pop_size), avoid every excluded index, are distinct without replacement, every non-excluded index is reachable, and asking for more than remain raises.", "quantifier": "every pop_size, exclude list (with repetitions), count, random stream", "why_tests_cant": "all exclusion lists", "anchors": ["mealpy/optimizer.py:Optimizer.sample_indexes_exclude_list"]}
{"id": "C25", "title": "Roulette wheel uses a probability vector that favours better agents", "statement": "For any fitness list that is not constant, the weights are non-negative and sum to 1, better fitness never gets smaller weight, and for minimisation the worst agent has weight 0; constant lists fall back to a uniform draw; the index returned is in range.", "quantifier": "every fitness list including negative values, min/max", "why_tests_cant": "all real fitness lists", "anchors": ["mealpy/optimizer.py:Optimizer.get_index_roulette_wheel_selection"]}
{"id": "C26", "title": "Tournament returns the best of the sampled contestants", "statement": "The result has min(output,k) distinct in-range indices, and every returned contestant is at least as good (at least as bad with reverse) as every contestant not returned; with k_way=0.2 and fewer than 10 agents fewer than two parents come back.", "quantifier": "every population, k_way, output, random stream, min/max", "why_tests_cant": "all populations and draws", "anchors": ["mealpy/optimizer.py:Optimizer.get_index_kway_tournament_selection"]}
{"id": "C27", "title": "Arithmetic crossover is convex", "statement": "Both children lie coordinate-wise between the parents (so inside the box if the parents are) and child1+child2 = dad+mom.", "quantifier": "all parents, all r in [0,1]", "why_tests_cant": "all reals", "anchors": ["mealpy/optimizer.py:Optimizer.crossover_arithmetic"]}
{"id": "C28", "title": "The global best never gets worse and is the best snapshot member", "statement": "After any number of epochs of any algorithm, history.list_global_best is monotone, its last entry equals the returned g_best, and that agent is at least as good as every member of the initial population and of every end-of-epoch population; symmetrically for list_global_worst.", "quantifier": "every evolve function, every number of epochs, min/max", "why_tests_cant": "arbitrary algorithms and run lengths", "anchors": ["mealpy/optimizer.py:Optimizer.update_global_best_agent", "mealpy/optimizer.py:Optimizer.solve"]}
{"id": "C29", "title": "History lists line up with epochs", "statement": "After solve, the lists global_best, current_best, global_worst, current_worst, global_best_fit, current_best_fit, diversity, epoch_time (and population if requested) all have length = number of executed epochs = history.epoch, and list_global_best_fit[i] is the fitness of list_global_best[i].", "quantifier": "every algorithm that leaves the history lists alone, every number of epochs, every termination", "why_tests_cant": "all run lengths", "anchors": ["mealpy/optimizer.py:Optimizer.track_optimize_step", "mealpy/optimizer.py:Optimizer.track_optimize_process"]}
{"id": "C30", "title": "Early-stopping counter is the trailing no-improvement streak", "statement": "get_global_repeated_times(eps) = the number of most recent consecutive epochs whose global best moved by at most eps.", "quantifier": "every history, every eps", "why_tests_cant": "all histories", "anchors": ["mealpy/utils/history.py:History.get_global_repeated_times"]}
{"id": "C31", "title": "should_terminate fires exactly when a criterion is met, reporting the first", "statement": "It returns True iff epoch, evaluation, time or early-stop limit (among those set) is reached, and the message names the first of them in the order MG, FE, TB, ES; a Termination with no limit is rejected, as are limits out of range.", "quantifier": "all limits and current values", "why_tests_cant": "all combinations", "anchors": ["mealpy/utils/termination.py:Termination"]}
{"id": "C32", "title": "solve stops at the first epoch that meets the criterion", "statement": "The number of epochs executed is the least e in 1..epoch with the criterion true after e, or epoch if there is none; in particular never more than min(epoch, max_epoch); nothing evolves after the stop.", "quantifier": "every algorithm, termination and run", "why_tests_cant": "all run lengths", "anchors": ["mealpy/optimizer.py:Optimizer.solve", "mealpy/optimizer.py:Optimizer.check_termination"]}
{"id": "C33", "title": "nfe_counter counts objective evaluations", "statement": "With a termination set and mode 'single' or 'swarm', nfe_counter equals the number of objective calls made by the run; without termination it starts at 1 and keeps growing over repeated solve calls; in 'process' mode the whole initial population is not counted; in 'thread' mode increments can be lost.", "quantifier": "every algorithm built on get_target/update_target_for_population, every run and schedule", "why_tests_cant": "all runs and all thread schedules", "anchors": ["mealpy/optimizer.py:Optimizer.get_target", "mealpy/optimizer.py:Optimizer.update_target_for_population", "mealpy/optimizer.py:Optimizer.check_termination"]}
{"id": "C34", "title": "Exploration and exploitation percentages", "statement": "Diversity is non-negative and zero iff all agents coincide; whenever some epoch has positive diversity, exploration lies in [0,100], reaches 100, and exploration+exploitation = 100 at each epoch.", "quantifier": "every population sequence", "why_tests_cant": "all real populations", "anchors": ["mealpy/optimizer.py:Optimizer.track_optimize_step", "mealpy/optimizer.py:Optimizer.track_optimize_process"]}
{"id": "C35", "title": "Late mutation cannot corrupt the global-best record, but can corrupt the current-best record", "statement": "Entries of list_global_best and the returned agent are copies: assigning new solution/target/attributes to population agents later leaves them unchanged; list_current_best holds the live population objects, so such assignments rewrite past entries; in-place writes into a solution array reach every copy, including g_best.", "quantifier": "every later sequence of agent updates", "why_tests_cant": "all aliasing histories", "anchors": ["mealpy/utils/agent.py:Agent.copy", "mealpy/optimizer.py:Optimizer.update_global_best_agent"]}
{"id": "C36", "title": "Parallel evaluation gives the sequential result", "statement": "In thread/process mode update_target_for_population assigns each agent the target of its own position, for every completion order of the workers, and equals the 'swarm' result.", "quantifier": "every population and every completion schedule", "why_tests_cant": "all schedules", "anchors": ["mealpy/optimizer.py:Optimizer.update_target_for_population"]}
{"id": "C37", "title": "Parallel generation: order and multiplicity", "statement": "generate_population returns exactly pop_size evaluated agents in every mode; in thread mode the order is the completion order; in process mode all agents are identical because every worker starts from the same pickled generator state.", "quantifier": "every pop_size and schedule", "why_tests_cant": "all schedules", "anchors": ["mealpy/optimizer.py:Optimizer.generate_population"]}
{"id": "C38", "title": "starting_solutions are used verbatim or rejected", "statement": "If starting_solutions is None a population is generated; if its length is pop_size and its first row has n_dims entries, the initial population's solutions are exactly these rows in order (not clipped to bounds) with their targets; otherwise ValueError.", "quantifier": "every starting_solutions argument, mode", "why_tests_cant": "all inputs", "anchors": ["mealpy/optimizer.py:Optimizer.before_initialization"]}
{"id": "C39", "title": "set_parameters is all-or-nothing", "statement": "set_parameters(dict) with only known names sets exactly these attributes and parameters and no others; with any unknown name it raises and changes nothing; setting the reported parameters back is a no-op; values are not re-validated.", "quantifier": "all parameter dicts and optimizer states", "why_tests_cant": "all dicts", "anchors": ["mealpy/optimizer.py:Optimizer.set_parameters"]}
{"id": "C40", "title": "Validator accepts exactly the in-range values", "statement": "check_int/check_float accept a number iff it is inside the (open for tuple, closed for list, possibly infinite) bound; with closed integer bounds the returned int is in the bound; with open bounds truncation may return an excluded endpoint; check_str/check_bool accept members only; check_tuple_* skip the range check when the number of bounds differs.", "quantifier": "all values and bounds", "why_tests_cant": "all values", "anchors": ["mealpy/utils/validator.py"]}
{"id": "C41", "title": "mode and n_workers checking", "statement": "An unknown mode raises; a parallel mode on a non-parallelizable optimizer is downgraded to 'single'; otherwise n_workers ends in the allowed range or 4.", "quantifier": "all modes, worker counts, cpu counts", "why_tests_cant": "all inputs", "anchors": ["mealpy/optimizer.py:Optimizer.check_mode_and_workers"]}
{"id": "C42", "title": "ParameterGrid enumerates the full product exactly once", "statement": "list(ParameterGrid(g)) contains every combination of every sub-grid exactly once (distinct values), last key fastest; len() equals its length.", "quantifier": "every grid", "why_tests_cant": "all grids", "anchors": ["mealpy/tuner.py:ParameterGrid.__iter__", "mealpy/tuner.py:ParameterGrid.__len__"]}
{"id": "C43", "title": "ParameterGrid indexing", "statement": "grid[i] for 0 <= i < len(grid) hits every combination exactly once and raises IndexError from len(grid) on, but grid[i] is NOT list(grid)[i] in general although documented so.", "quantifier": "every grid and index", "why_tests_cant": "all grids", "anchors": ["mealpy/tuner.py:ParameterGrid.__getitem__"]}
{"id": "C44", "title": "Tuner picks the best parameter set", "statement": "For minimisation best_params is a combination with the least mean fitness (ties by rank of std); for maximisation the code selects a combination with the WORST mean.", "quantifier": "every table of trial results", "why_tests_cant": "all result tables", "anchors": ["mealpy/tuner.py:Tuner.execute"]}
{"id": "C45", "title": "Tuner runs every combination n_trials times", "statement": "execute runs the algorithm exactly n_trials times for each grid combination, in grid order, with that combination's parameters set, sequentially or with a process pool, and records each run's best fitness in the cell of its combination and trial.", "quantifier": "every grid, n_trials, schedule", "why_tests_cant": "all grids", "anchors": ["mealpy/tuner.py:Tuner.execute"]}
{"id": "C46", "title": "Multitask distributes terminations/modes", "statement": "check_input(values): length 1 gives every (algorithm, problem) pair that value; length m gives problem j the j-th value; length n (n != 1) raises instead of giving algorithm i the i-th value; length n*m is kept flat so pair (i,j) does not get value i*m+j.", "quantifier": "all n, m, value lists", "why_tests_cant": "all sizes", "anchors": ["mealpy/multitask.py:Multitask.check_input"]}
{"id": "C47", "title": "Multitask runs each (algorithm, problem, trial) once", "statement": "execute runs every valid algorithm on every problem n_trials times; the best-fit table of an algorithm has one column per distinct problem name with n_trials entries in trial order; convergence columns are padded to equal length without losing values; problems sharing a name overwrite each other.", "quantifier": "all lists of algorithms, problems, n_trials, schedules", "why_tests_cant": "all sizes", "anchors": ["mealpy/multitask.py:Multitask.execute"]}
{"id": "C48", "title": "save_model and load_model agree on the file name", "statement": "For any path, load_model(p) opens exactly the file save_model(p) wrote; the name always ends in .pkl and normalising twice is the same as once.", "quantifier": "all strings", "why_tests_cant": "all strings", "anchors": ["mealpy/utils/io.py"]}
{"id": "C49", "title": "Fuzzy weights stay in range", "statement": "get_fuzzy_weights(i, n) returns three weights in [25,75] for both pyramid types and never divides by zero for n != 0.", "quantifier": "all i, n", "why_tests_cant": "all reals", "anchors": ["mealpy/utils/fuzzy.py"]}
{"id": "C50", "title": "Chaotic maps keep the unit interval", "statement": "bernoulli (a=0.5), logistic (a in [0,4]), circle, icmic, piecewise, tent, sinusoidal and cubic maps send [0,1] into [0,1], so every iterate of an orbit stays there.", "quantifier": "all x in [0,1], any number of iterations", "why_tests_cant": "all reals, all orbit lengths", "anchors": ["mealpy/utils/chaotic.py"]}
{"id": "C51", "title": "NaN fitness", "statement": "With NaN fitness: np.argsort puts NaN last, so for minimisation a NaN agent is never the best of a population having a number, but for maximisation a single NaN agent is reported as best; greedy selection never accepts a NaN newcomer; np.clip leaves NaN positions unrepaired.", "quantifier": "every population", "why_tests_cant": "all populations", "anchors": ["mealpy/optimizer.py:Optimizer.get_sorted_population", "mealpy/optimizer.py:Optimizer.greedy_selection_population"]}
{"id": "C52", "title": "Algorithms evaluate feasible points only", "statement": "For each optimizer class, every position passed to the objective during solve lies inside the box (given feasible or no starting_solutions), in every mode. Violated, each by a proved concrete run, by OriginalSA, GaussianSA, OriginalFOA, WhaleFOA, DevFOA, OriginalBCO, by OriginalWHO in mode thread, and by EnhancedTWO, OppoTWO, LevyTWO, OriginalTSeedA and OriginalArchOA in mode single.", "quantifier": "every problem, parameter setting accepted by the constructor, mode, termination, random stream", "why_tests_cant": "runs and random streams are unbounded", "anchors": ["mealpy/*_based/*.py:evolve"]}
{"id": "C53", "title": "The returned agent's target is the objective at its solution", "statement": "For each optimizer class, the agent returned by solve carries target = objective(solution), and so does every agent of the final population. Violated, each by a proved concrete run, by optimizers that write into solution arrays shared with the returned agent (SingleGA, MultiGA with mutation=swap, BaseGA with mutation_multipoints=False, OriginalHBO, OriginalBeesA, ProbBeesA, OriginalTHRO, OriginalICA) and by those that store a target with another position (OriginalFOA, DevFOA, WhaleFOA, OriginalWHO, OriginalSBO, OriginalBCO, OriginalAAA, EnhancedTWO, OppoTWO, LevyTWO, OriginalTSeedA, OriginalArchOA); the returned agent may then lie outside the box. EliteSingleGA, and EliteMultiGA with mutation=swap, violate it in a proved run whose argsort puts the later of two equal agents first.", "quantifier": "every problem, parameters, mode, termination, random stream", "why_tests_cant": "runs are unbounded", "anchors": ["mealpy/*_based/*.py:evolve"]}
{"id": "C54", "title": "solve returns the best point it ever evaluated", "statement": "For the algorithms that never drop the best point of an epoch before it is compared with the global best (Elitist and Keeping in the catalogue, and those listed in Remembers), the returned fitness is at least as good as the fitness of every objective evaluation made during the run; algorithms that discard evaluated points (e.g. the mutated leaders of CG_GWO) violate it, as a run shows.", "quantifier": "every problem, parameters, mode, termination, random stream", "why_tests_cant": "runs are unbounded", "anchors": ["mealpy/*_based/*.py:evolve"]}
{"id": "C55", "title": "Population size is preserved", "statement": "For each optimizer class the population has pop_size agents after every epoch. Exceptions: OriginalHC has neighbour_size, OriginalSA/GaussianSA 2 agents; OriginalFFA grows; OriginalOrcaOA shrinks; OriginalICA may lose one agent; DevSARO and OriginalSARO always have 2*pop_size; SAP_DE, OriginalTS and ABFO end with another size in a proved concrete run; OriginalLSHADEcnEpSin has between pop_size_min and pop_size, and shrinks in a proved concrete run; OriginalHGSO, OriginalBSO and ImprovedTLO keep only the agents their equal groups hold when the number of groups does not divide pop_size.", "quantifier": "every problem, parameters, mode, random stream", "why_tests_cant": "runs are unbounded", "anchors": ["mealpy/*_based/*.py:evolve"]}
{"id": "C56", "title": "Evaluation budget per epoch", "statement": "For each line of the catalogue (a class, with any conditions on its parameters) the number of objective evaluations of a run of e epochs lies between first + e*lo and firstMax + e*hi, where first, firstMax, lo and hi are the numbers given in that line in terms of pop_size and the parameters; the count is exact where first = firstMax and lo = hi (for instance OriginalGWO).", "quantifier": "every problem, parameters, number of epochs, random stream", "why_tests_cant": "runs are unbounded", "anchors": ["mealpy/*_based/*.py:evolve"]}
{"id": "C57", "title": "Accepted parameters never crash evolve", "statement": "For each optimizer class no parameter combination accepted by the constructor makes solve raise. Where that is false the exceptions that can occur are listed per class and no others can; for many settings it is proved that the run must raise (for example OriginalDE with strategy 3 and pop_size 5, ImprovedBSO when m_clusters does not divide pop_size, OriginalICA when an empire has no colony, OriginalCRO in one dimension, OriginalLSHADEcnEpSin when pop_size is below pop_size_min).", "quantifier": "every accepted parameter combination, problem, random stream", "why_tests_cant": "runs are unbounded", "anchors": ["mealpy/*_based/*.py:__init__", "mealpy/*_based/*.py:evolve"]}
{"id": "C58", "title": "Reading n_objs never changes fitness, and complains at most once", "statement": "Reading problem.n_objs leaves the fitness of every later evaluation unchanged; with an obj_weights array the first read raises exactly when its length differs from the number of objectives, but a second read returns normally, after which the wrong weights are silently ignored.", "quantifier": "every problem state, objective vector and weight argument", "why_tests_cant": "all lengths and states", "anchors": ["mealpy/utils/problem.py:Problem.n_objs", "mealpy/utils/problem.py:Problem.get_target", "mealpy/utils/target.py:Target"]}
{"id": "C59", "title": "Greedy algorithms never lose ground, rank by rank", "statement": "With save_population on, for each of the 150 classes whose evolve replaces agents only by greedy selection (for instance OriginalDE, OriginalGWO, OriginalTLO), every recorded population is rank by rank no worse than the one recorded an epoch earlier: the best agent, the second best, ..., the worst; OriginalAEO, which overwrites its last agent unconditionally, violates it.", "quantifier": "every accepted parameter combination, problem, mode, termination, random stream and pair of consecutive epochs", "why_tests_cant": "runs are unbounded", "anchors": ["mealpy/optimizer.py:Optimizer.greedy_selection_population", "mealpy/optimizer.py:Optimizer.get_better_agent", "mealpy/optimizer.py:Optimizer.track_optimize_step", "mealpy/*_based/*.py:evolve"]}
{"id": "C60", "title": "A used optimizer object behaves like a new one, with five exceptions", "statement": "Whatever was solved before on an optimizer object, a call of solve with given arguments, seed and termination gives the same agent, history and exception as on a new object, for every class that keeps no attribute changed by a run. Five classes keep such attributes, and there the same call repeated returns another fitness: OriginalBeesA and ProbBeesA (dance radius), OriginalOrcaOA (radius, 0 after a full run), ABFO (step sizes rescaled by each call) and SAP_DE (population size).", "quantifier": "every sequence of earlier calls that end, every later call with a termination, every random stream", "why_tests_cant": "all sequences of calls; test suites call solve once per object", "anchors": ["mealpy/optimizer.py:Optimizer.check_problem", "mealpy/optimizer.py:Optimizer.check_termination", "mealpy/optimizer.py:Optimizer.solve", "mealpy/swarm_based/BeesA.py", "mealpy/swarm_based/ORCA.py:OriginalOrcaOA", "mealpy/swarm_based/BFO.py:ABFO.initialize_variables", "mealpy/evolutionary_based/DE.py:SAP_DE"]}
{"id": "C61", "title": "A stopping condition decides when a run stops, not what it does", "statement": "Two calls of solve that differ only in the limits of their terminations (both have one, with the same epsilon) pass through the same epochs: the points evaluated by the call that stops first are the first ones evaluated by the other, its history lists are the beginnings of the other's, the other's returned agent is no worse, and if both stop after the same epoch all results are equal. A call whose limits are all at least as loose never runs fewer epochs, and it raises whenever the tighter call raises.", "quantifier": "every pair of terminations, every algorithm that leaves earlier history entries alone, every problem, mode, starting solutions and random stream; the clock is part of the environment and both calls read it equally often", "why_tests_cant": "all pairs of limits and unbounded runs; a test compares two runs", "anchors": ["mealpy/optimizer.py:Optimizer.solve", "mealpy/optimizer.py:Optimizer.check_termination", "mealpy/utils/termination.py:Termination.should_terminate"]}
{"id": "C62", "title": "Only the order of fitness values counts, and maximising f is minimising -f except on ties and on the roulette wheel", "statement": "Put the fitness values of a population through a strictly increasing function, or through a strictly decreasing one with min and max exchanged. _compare_fitness, get_better_solution, is_better_than and greedy_selection_population then make the same choices. So do compare_target, compare_fitness and get_better_agent if the direction is kept or the two values differ, and get_sorted_population, get_best_agent, get_worst_agent, get_special_agents and get_sorted_and_trimmed_population if no two values are equal. On a tie of an exchanged direction compare_target and get_better_agent answer differently, so that a maximisation of a constant moves where its minimisation stays. The roulette wheel gives the same chances for min f and max -f if some value of f is positive, and may give others if none is.", "quantifier": "every population, every strictly monotone function, both directions, every behaviour of np.argsort that numpy permits", "why_tests_cant": "all populations and all monotone functions", "anchors": ["mealpy/optimizer.py:Optimizer.compare_target", "mealpy/optimizer.py:Optimizer.get_better_agent", "mealpy/optimizer.py:Optimizer.get_sorted_population", "mealpy/optimizer.py:Optimizer.greedy_selection_population", "mealpy/optimizer.py:Optimizer.get_index_roulette_wheel_selection", "mealpy/utils/agent.py:Agent"]}
{"id": "C63", "title": "For rank-based algorithms an increasing change of the objective changes nothing but the fitness values", "statement": "For each of 52 classes (for instance OriginalDE, OriginalGWO, OriginalWOA, OriginalSCA, OriginalAVOA), compose the objective with a strictly increasing function g and call solve with the same seed, clock readings, starting solutions, mode and a termination without early stopping, or none. The call evaluates the same points in the same order, ends with the same population and the same returned solution, counts the same evaluations, records the same diversity and exploration curves, and raises the same exception if any; every recorded fitness is g of the other one. AdaptiveEO, which compares a fitness with the mean fitness, evaluates other points.", "quantifier": "every objective, strictly increasing function, direction, mode, starting population, parameter values and random stream", "why_tests_cant": "all objectives and all increasing functions; runs are unbounded", "anchors": ["mealpy/optimizer.py:Optimizer.solve", "mealpy/optimizer.py:Optimizer.update_global_best_agent", "mealpy/swarm_based/GWO.py:OriginalGWO.evolve", "mealpy/evolutionary_based/DE.py:OriginalDE.evolve", "mealpy/*_based/*.py:evolve", "mealpy/physics_based/EO.py:AdaptiveEO.evolve"]}
