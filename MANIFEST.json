{
 "claims": [
  {
   "property": "C01",
   "status": "proved",
   "theorems": [
    "Verif.Props.C01_pareto_dominance",
    "Verif.Props.C01_irreflexive",
    "Verif.Props.C01_asymmetric",
    "Verif.Props.C01_transitive"
   ],
   "note": "Comparison-only code, any linear order of finite values plus NaN and infinities."
  },
  {
   "property": "C02",
   "status": "proved",
   "theorems": [
    "Verif.Props.C02_fnds_throws",
    "Verif.Props.C02_fnds_layers"
   ],
   "note": "Full model of the three phases incl. bounds of every array access and termination of the while loop."
  },
  {
   "property": "C03",
   "status": "proved",
   "theorems": [
    "Verif.Props.C03_domination_count"
   ],
   "note": ""
  },
  {
   "property": "C04",
   "status": "proved",
   "theorems": [
    "Verif.Props.C04_front_2d",
    "Verif.Props.C04_front_2d_throws"
   ],
   "note": "std::sort is any routine meeting its contract."
  },
  {
   "property": "C05",
   "status": "proved",
   "theorems": [
    "Verif.Props.C05_select_best"
   ],
   "note": "Any arithmetic (rounded included), any sort routine meeting the std::sort contract, NaN and infinities included; two or more objectives."
  },
  {
   "property": "C06",
   "status": "proved",
   "theorems": [
    "Verif.Props.C06_sort_population"
   ],
   "note": "Any arithmetic, any valid sort routine; two or more objectives."
  },
  {
   "property": "C07",
   "status": "partial",
   "theorems": [
    "Verif.Props.C07_ideal",
    "Verif.Props.C07_nadir_partial",
    "Verif.Props.C07_nadir_single_point_throws"
   ],
   "note": "ideal fully proved. nadir is proved for two or more points; for one point the property is false of the code (it throws), proved as C07_nadir_single_point_throws."
  },
  {
   "property": "C08",
   "status": "proved",
   "theorems": [
    "Verif.Props.C08_crowding_distance",
    "Verif.Props.C08_duplicate_points_nan"
   ],
   "note": "Exact arithmetic in any ordered field; distinctness per objective as stated in the property. The witness shows the NaN outside it."
  },
  {
   "property": "C09",
   "status": "proved",
   "theorems": [
    "Verif.Props.C09_throws_iff",
    "Verif.Props.C09_weighted_monotone",
    "Verif.Props.C09_weighted_value",
    "Verif.Props.C09_tchebycheff_monotone",
    "Verif.Props.C09_tchebycheff_value"
   ],
   "note": "Monotonicity also for arithmetic rounded by any monotone function (no overflow); values in exact arithmetic."
  },
  {
   "property": "C10",
   "status": "proved",
   "theorems": [
    "Verif.Props.C10_invalid_throws",
    "Verif.Props.C10_grid",
    "Verif.Props.C10_grid_complete",
    "Verif.Props.C10_grid_H_formula",
    "Verif.Props.C10_random",
    "Verif.Props.C10_low_discrepancy"
   ],
   "note": "Exact arithmetic; binomial_coefficient idealised to the exact binomial; 64-bit wrap in reksum modelled; any sort routine, any random stream in [0,1)."
  },
  {
   "property": "C100",
   "status": "proved",
   "theorems": [
    "Verif.Props.C100_evolve",
    "Verif.Props.C100_ideal",
    "Verif.Props.C100_weighted",
    "Verif.Props.C100_throws",
    "Verif.Props.C100_no_generations",
    "Verif.Props.C100_ctor",
    "Verif.Props.C100_batch"
   ],
   "note": "The arithmetic keeps candidates in the box only under MoeadNum (shown for exact arithmetic). That one candidate can replace two individuals with limit 1 is C72_limit_false (same insertion code)."
  },
  {
   "property": "C101",
   "status": "partial",
   "theorems": [
    "Verif.Props.C101_evolve_partial",
    "Verif.Props.C101_ctor",
    "Verif.Props.C101_throws",
    "Verif.Props.C101_no_generations",
    "Verif.Props.C101_memory",
    "Verif.Props.C101_nan"
   ],
   "note": "Proved for finite parameters and memory of the same dimension; false otherwise (witnesses C101_memory, C101_nan). Termination up to engines that draw the same index again and again."
  },
  {
   "property": "C102",
   "status": "partial",
   "theorems": [
    "Verif.Props.C102_leader_partial",
    "Verif.Props.C102_maxmin",
    "Verif.Props.C102_leader_false",
    "Verif.Props.C102_own_false"
   ],
   "note": "Proved for the first generation of a run without memory and for what a negative maxmin value means; false from the second generation on, because the list of best points is re-sorted (witnesses)."
  },
  {
   "property": "C103",
   "status": "proved",
   "theorems": [
    "Verif.Props.C103_batch"
   ],
   "note": "For runs that end without an exception."
  },
  {
   "property": "C104",
   "status": "partial",
   "theorems": [
    "Verif.Props.C104_kept_partial",
    "Verif.Props.C104_false"
   ],
   "note": "Proved of the list of best points inside the object (mechanisms other than max min); false of the returned population (witness)."
  },
  {
   "property": "C105",
   "status": "partial",
   "theorems": [
    "Verif.Props.C105_ctor",
    "Verif.Props.C105_throws",
    "Verif.Props.C105_no_generations",
    "Verif.Props.C105_evolve_partial",
    "Verif.Props.C105_undefined",
    "Verif.Props.C105_nan"
   ],
   "note": "The bounds hold only if the arithmetic stays finite; sigma0 = NaN is accepted by the constructor and then NaN is evaluated although bounds are enforced (C105_nan). A fitness function that returns NaN leads to undefined behaviour in std::sort (C105_undefined)."
  },
  {
   "property": "C106",
   "status": "proved",
   "theorems": [
    "Verif.Props.C106_evolve",
    "Verif.Props.C106_weights_sum",
    "Verif.Props.C106_weights_order"
   ],
   "note": "In exact arithmetic, with any strictly increasing function for the logarithm and any function for the matrix exponential; sigma, which is only logged, is not part of the statement."
  },
  {
   "property": "C107",
   "status": "partial",
   "theorems": [
    "Verif.Props.C107_forget",
    "Verif.Props.C107_first_partial",
    "Verif.Props.C107_false",
    "Verif.Props.C106_evolve"
   ],
   "note": "For problems with one variable the first run with memory differs: the constructor leaves a standard normal distribution centred at 0, and evolve takes it for remembered values (C107_false)."
  },
  {
   "property": "C108",
   "status": "partial",
   "theorems": [
    "Verif.Props.C108_ctor",
    "Verif.Props.C108_throws",
    "Verif.Props.C108_no_generations",
    "Verif.Props.C108_evolve_partial",
    "Verif.Props.C108_nan"
   ],
   "note": "Whole evolve and constructor except log and screen output. Missing: that all components are inside the bounds, which is shown for those that are not NaN; C108_nan: the constructor accepts NaN for sigma0 and then NaN is evaluated although bounds are enforced."
  },
  {
   "property": "C109",
   "status": "proved",
   "theorems": [
    "Verif.Props.C109_evolve",
    "Verif.Props.C109_weights",
    "Verif.Props.C109_mueff",
    "Verif.Props.C109_defaults",
    "Verif.Props.C109_rates"
   ],
   "note": "Logarithm, square root, exponential, power and the eigenvalue solver are parameters with the laws stated in CmFns."
  },
  {
   "property": "C11",
   "status": "partial",
   "theorems": [
    "Verif.Props.C11_strict_partial_order_partial",
    "Verif.Props.C11_one_kind_partial",
    "Verif.Props.C11_not_strict_weak_order"
   ],
   "note": "The property is false of the code for mixed constraints (C11_not_strict_weak_order: equivalence is not transitive). Proved: strict partial order always (NaN/inf included); strict weak ordering if only equalities or only inequalities. Exact real arithmetic."
  },
  {
   "property": "C110",
   "status": "partial",
   "theorems": [
    "Verif.Props.C110_symmetric",
    "Verif.Props.C110_positive_partial",
    "Verif.Props.C110_run_partial",
    "Verif.Props.C110_default_rates",
    "Verif.Props.C110_start",
    "Verif.Props.C110_axes",
    "Verif.Props.C110_rates_false",
    "Verif.Props.C110_false"
   ],
   "note": "Positive semidefinite if c1 + cmu is at most 1, which holds for the default rates if half the population is at most (n+2)^2. Not in general: C110_rates_false and C110_false, one variable, 256 individuals, default rates: the variance becomes negative."
  },
  {
   "property": "C111",
   "status": "proved",
   "theorems": [
    "Verif.Props.C111_forget",
    "Verif.Props.C111_first",
    "Verif.Props.C111_resume"
   ],
   "note": "The continuation of a run is C109_evolve with its first alternative for the start."
  },
  {
   "property": "C112",
   "status": "proved",
   "theorems": [
    "Verif.Props.C112_batch"
   ],
   "note": "The evaluation counters of the problem are not part of the model."
  },
  {
   "property": "C113",
   "status": "partial",
   "theorems": [
    "Verif.Props.C113_ctor",
    "Verif.Props.C113_throws",
    "Verif.Props.C113_no_generations",
    "Verif.Props.C113_evolve_partial",
    "Verif.Props.C113_box"
   ],
   "note": "Missing: for arbitrary rounding a component evaluated may be NaN; the box claim is for exact arithmetic and finite bounds. The documentation says that impstop, evalstop and the oracle are checked by the constructor; C113_ctor shows that they are not."
  },
  {
   "property": "C114",
   "status": "partial",
   "theorems": [
    "Verif.Props.C114_penalty",
    "Verif.Props.C114_best_partial",
    "Verif.Props.C114_memory_partial",
    "Verif.Props.C114_last",
    "Verif.Props.C114_stopped",
    "Verif.Props.C114_memory_lost",
    "Verif.Props.C114_nan"
   ],
   "note": "Proved for all generations but the last and for runs not stopped early. False of the code otherwise: the best of the last generation is lost (C114_last), so is everything after an early stop (C114_stopped) and, from the population, with memory (C114_memory_lost); a NaN fitness ranks as penalty 0 (C114_nan)."
  },
  {
   "property": "C115",
   "status": "partial",
   "theorems": [
    "Verif.Props.C115_weights",
    "Verif.Props.C115_ants",
    "Verif.Props.C115_two_rows",
    "Verif.Props.C115_zero"
   ],
   "note": "Proved for exact arithmetic, finite bounds and q > 0. The last sentence of the property is false: with ker = 2 no new point is ever evaluated (C115_two_rows), with q = 0 the weights are NaN (C115_zero)."
  },
  {
   "property": "C116",
   "status": "partial",
   "theorems": [
    "Verif.Props.C116_kept_partial",
    "Verif.Props.C116_second",
    "Verif.Props.C116_distance"
   ],
   "note": "Proved for acc = 0 without constraints and without memory, for all generations but the last. For acc > 0 the property is false of the code: the second best is dropped whenever the best row is an old one (C116_second), and the distance acc is not kept (C116_distance)."
  },
  {
   "property": "C117",
   "status": "partial",
   "theorems": [
    "Verif.Props.C117_stopped",
    "Verif.Props.C117_never",
    "Verif.Props.C117_q",
    "Verif.Props.C117_again",
    "Verif.Props.C117_empty"
   ],
   "note": "The property is false of the code in these respects: q (and the oracle and counters) changed by a call without memory last (C117_q, C117_again); a criterion once met stops every later call (C117_stopped); with impstop or evalstop 1 nothing is ever done (C117_never); with memory a call on an empty population makes the next one read a missing row (C117_empty). What a call with memory goes on with: C114_memory_partial."
  },
  {
   "property": "C118",
   "status": "proved",
   "theorems": [
    "Verif.Props.C118_batch"
   ],
   "note": "For runs that end without an exception."
  },
  {
   "property": "C119",
   "status": "proved",
   "theorems": [
    "Verif.Props.C119_ctor",
    "Verif.Props.C119_throws",
    "Verif.Props.C119_no_generations"
   ],
   "note": "The members after a refused call: the counter of calls is increased (modelled by maCount, see C122_refused)."
  },
  {
   "property": "C12",
   "status": "proved",
   "theorems": [
    "Verif.Props.C12_throws_iff",
    "Verif.Props.C12_more_constraints",
    "Verif.Props.C12_feasible_objective"
   ],
   "note": "For any ordered field and any square root function."
  },
  {
   "property": "C120",
   "status": "partial",
   "theorems": [
    "Verif.Props.C120_evolve_partial"
   ],
   "note": "Proved for ker at least 2 and, with memory, for members left by calls with populations of the same size. False beyond that: C122_small_ker, C122_larger, C122_reload, C122_refused. The members after an exception in the main loop are not modelled. Hypervolume computation is a parameter with hypothesis HvSane (as many values as points); the library's one meets it over the reals (C121_hv_partial) but is undefined for some infinite objectives (C121_infinite)."
  },
  {
   "property": "C121",
   "status": "partial",
   "theorems": [
    "Verif.Props.C121_best",
    "Verif.Props.C121_front",
    "Verif.Props.C121_log",
    "Verif.Props.C121_run_partial",
    "Verif.Props.C121_best_partial",
    "Verif.Props.C121_hv_partial",
    "Verif.Props.C121_infinite",
    "Verif.Props.C121_first_log",
    "Verif.Props.C121_lost"
   ],
   "note": "Proved without memory for the individuals of all generations but the last. False of the code: the ideal point logged for the first generation may be wrong (C121_first_log), with exactly ker nondominated individuals one is lost and another stored twice (C121_lost), an infinite objective makes the hypervolume computation undefined (C121_infinite)."
  },
  {
   "property": "C122",
   "status": "partial",
   "theorems": [
    "Verif.Props.C122_stop_partial",
    "Verif.Props.C122_undefined",
    "Verif.Props.C122_reload",
    "Verif.Props.C122_refused",
    "Verif.Props.C122_first_call_partial",
    "Verif.Props.C122_stopped",
    "Verif.Props.C122_stagnates",
    "Verif.Props.C122_memory_loses",
    "Verif.Props.C122_larger",
    "Verif.Props.C122_small_ker",
    "Verif.Props.C122_mark"
   ],
   "note": "The property is false of the code: evalstop counts generations with an improvement, not without (C122_stop_partial, C122_stopped, C122_stagnates); a stopped run does not return the archive (C122_stopped); in the first call with memory the archive is filled anew in every generation (C122_first_call_partial, C122_memory_loses); calls after saving and loading, after a refused first call or with a larger population read missing rows (C122_undefined, C122_reload, C122_refused, C122_larger); ker below 2 is not refused (C122_small_ker)."
  },
  {
   "property": "C123",
   "status": "proved",
   "theorems": [
    "Verif.Props.C123_told",
    "Verif.Props.C123_configure"
   ],
   "note": "all questions of NLopt, all patterns"
  },
  {
   "property": "C124",
   "status": "partial",
   "theorems": [
    "Verif.Props.C124_evolve",
    "Verif.Props.C124_best",
    "Verif.Props.C124_replaces_better"
   ],
   "note": "NLopt is any function from the answers so far to the next question or the result. Missing: the norm in the log is stated by its parts of the constraint test only (as C14 computes them); that the log is that of the run when the run does not end. C124_replaces_better: the new fitness is compared with the selected individual's, so that a better individual can be overwritten"
  },
  {
   "property": "C125",
   "status": "partial",
   "theorems": [
    "Verif.Props.C125_ctor",
    "Verif.Props.C125_criteria",
    "Verif.Props.C125_roundtrip_partial",
    "Verif.Props.C125_stale_local"
   ],
   "note": "round trip proved for targets without local optimiser; false for targets with one (C125_stale_local): load() does not reset it"
  },
  {
   "property": "C126",
   "status": "proved",
   "theorems": [
    "Verif.Props.C126_told",
    "Verif.Props.C126_lagrangian"
   ],
   "note": "Vectors passed by Ipopt have the sizes it was told. The value of the hessian of the lagrangian is stated for any arithmetic as the sum in the order of the code, and for exact arithmetic as the mathematical sum."
  },
  {
   "property": "C127",
   "status": "partial",
   "theorems": [
    "Verif.Props.C127_evolve",
    "Verif.Props.C127_best",
    "Verif.Props.C127_zero",
    "Verif.Props.C127_replaces_better"
   ],
   "note": "All is proved except two parts, which are false. If Ipopt ends without calling finalize_solution, a vector of zeros is taken as the solution, also outside the bounds (C127_zero). With different selection and replacement policies the solution can overwrite a better individual (C127_replaces_better)."
  },
  {
   "property": "C128",
   "status": "proved",
   "theorems": [
    "Verif.Props.C128_set",
    "Verif.Props.C128_set_all",
    "Verif.Props.C128_options"
   ],
   "note": "The maps are lists sorted by key. Tolerances are numbers, not NaN, as set_c_tol ensures."
  },
  {
   "property": "C129",
   "status": "partial",
   "theorems": [
    "Verif.Props.C129_least",
    "Verif.Props.C129_greatest_partial",
    "Verif.Props.C129_construct",
    "Verif.Props.C129_greatest_dominated",
    "Verif.Props.C129_empty_box",
    "Verif.Props.C129_nan"
   ],
   "note": "False for greatest_contributor with dominated points, which is proved with a witness. Boxes without volume give NaN estimates, so the condition on the estimates fails and a wrong point can be returned (witness). NaN passes the constructor."
  },
  {
   "property": "C13",
   "status": "partial",
   "theorems": [
    "Verif.Props.C13_sort_partial",
    "Verif.Props.C13_sort_throws",
    "Verif.Props.C13_sort_undefined_behaviour"
   ],
   "note": "False for mixed equality/inequality constraints (std::sort on a comparator that is no strict weak ordering); proved when only one kind of constraint is present."
  },
  {
   "property": "C130",
   "status": "partial",
   "theorems": [
    "Verif.Props.C130_least",
    "Verif.Props.C130_greatest_partial",
    "Verif.Props.C130_box"
   ],
   "note": "greatest_contributor only if no point is dominated by or equal to another one; the witness C129_greatest_dominated has two points and default parameters."
  },
  {
   "property": "C131",
   "status": "proved",
   "theorems": [
    "Verif.Props.C131_estimates",
    "Verif.Props.C131_total"
   ],
   "note": "The probability itself is Hoeffding's inequality, which is not part of the model; proved is that the half width is the one for which its bound is as stated. Exact arithmetic."
  },
  {
   "property": "C132",
   "status": "partial",
   "theorems": [
    "Verif.Props.C132_compute_partial",
    "Verif.Props.C132_construct",
    "Verif.Props.C132_unsupported",
    "Verif.Props.C132_delta_one",
    "Verif.Props.C132_infinite"
   ],
   "note": "The result is a number only if a round was completed: delta = 1 always gives a NaN, no completed round gives infinity. That the result approximates the hypervolume with the stated probability is not expressed."
  },
  {
   "property": "C133",
   "status": "partial",
   "theorems": [
    "Verif.Props.C133_ctor",
    "Verif.Props.C133_published_partial",
    "Verif.Props.C133_wfg6_false",
    "Verif.Props.C133_wfg8_false",
    "Verif.Props.C133_wfg9_false"
   ],
   "note": "False of the code: std::ceil(a_par / 2) is an integer division, so the non-separable reduction of WFG6 and WFG9 is wrong for blocks of odd size above one (C133_wfg6_false, C133_wfg9_false); WFG8 uses transformed instead of original variables in the bias (C133_wfg8_false). Proved for all other cases, over the real numbers."
  },
  {
   "property": "C134",
   "status": "partial",
   "theorems": [
    "Verif.Props.C134_range_partial",
    "Verif.Props.C134_negative"
   ],
   "note": "False of the code for WFG6/WFG9 with odd block sizes above one: C134_negative has a point of WFG6 with objectives (0, -4) that no point of the box is below in any objective. Proved for all other cases, over the real numbers."
  },
  {
   "property": "C135",
   "status": "partial",
   "theorems": [
    "Verif.Props.C135_front_partial",
    "Verif.Props.C135_sphere_partial",
    "Verif.Props.C134_negative"
   ],
   "note": "False of the code for WFG6/WFG9 with odd block sizes above one (C134_negative). Proved for the other cases except that an optimal vector of WFG3 with three or more objectives is not shown to have distance zero."
  },
  {
   "property": "C136",
   "status": "proved",
   "theorems": [
    "Verif.Props.C136_members",
    "Verif.Props.C136_value",
    "Verif.Props.C136_one_owner",
    "Verif.Props.C136_no_leak",
    "Verif.Props.C136_independent",
    "Verif.Props.C136_copy_assign"
   ],
   "note": "Model/Wrapper.lean: wrappers with addresses on a heap, refined against a store of values (Spec/Wrapper.lean): a program runs exactly if it is allowed on values, with the same exceptions and values. The members of each class are listed one by one. Addresses are not reused; the copying of vectors in the noexcept move constructor of problem is taken not to fail."
  },
  {
   "property": "C137",
   "status": "proved",
   "theorems": [
    "Verif.Props.C137_ctor",
    "Verif.Props.C137_set",
    "Verif.Props.C137_cached",
    "Verif.Props.C137_stale"
   ],
   "note": "Dispatch on the methods present and what is cached; C137_stale shows the cached answer can differ from what the object would say now."
  },
  {
   "property": "C138",
   "status": "partial",
   "theorems": [
    "Verif.Props.C138_ctor",
    "Verif.Props.C138_bounds",
    "Verif.Props.C138_fitness",
    "Verif.Props.C138_defined",
    "Verif.Props.C138_g21",
    "Verif.Props.C138_g02",
    "Verif.Props.C138_g08",
    "Verif.Props.C138_g14",
    "Verif.Props.C138_best",
    "Verif.Props.C138_best16",
    "Verif.Props.C138_g17",
    "Verif.Props.C138_g22",
    "Verif.Props.C138_g20"
   ],
   "note": "Real numbers instead of doubles. g16: numbers where no divisor vanishes (C149_g16); which points of the box these are is not stated."
  },
  {
   "property": "C139",
   "status": "partial",
   "theorems": [
    "Verif.Props.C139_published",
    "Verif.Props.C139_g01",
    "Verif.Props.C139_g03",
    "Verif.Props.C139_g06",
    "Verif.Props.C139_g11",
    "Verif.Props.C139_g12",
    "Verif.Props.C139_g12_balls",
    "Verif.Props.C139_g23",
    "Verif.Props.C139_lower",
    "Verif.Props.C139_infeasible",
    "Verif.Props.C139_infeasible03",
    "Verif.Props.C139_formulas"
   ],
   "note": "Real numbers instead of doubles. g07, g09, g24: lower bounds, not the exact minimum; no minimum for the other problems."
  },
  {
   "property": "C14",
   "status": "partial",
   "theorems": [
    "Verif.Props.C14_throws",
    "Verif.Props.C14_feasible_iff_within",
    "Verif.Props.C14_feasible_iff_partial",
    "Verif.Props.C14_infinite_tolerance"
   ],
   "note": "Exact characterisation for all tolerances; equivalent to the stated property for finite tolerances; witness that it fails for an infinite constraint value against an infinite tolerance."
  },
  {
   "property": "C140",
   "status": "proved",
   "theorems": [
    "Verif.Props.C140_g20"
   ],
   "note": "Real numbers; tolerance 0."
  },
  {
   "property": "C141",
   "status": "proved",
   "theorems": [
    "Verif.Props.C141_ctor",
    "Verif.Props.C141_fitness",
    "Verif.Props.C141_bound",
    "Verif.Props.C141_any",
    "Verif.Props.C141_bounds",
    "Verif.Props.C141_small"
   ],
   "note": "Real arithmetic; the largest double, set for coincident atoms, is a distinct value. C141_any does not restrict the decision vector to the bounds."
  },
  {
   "property": "C142",
   "status": "proved",
   "theorems": [
    "Verif.Props.C142_value",
    "Verif.Props.C142_repeatable",
    "Verif.Props.C142_empty",
    "Verif.Props.C142_convex",
    "Verif.Props.C142_lower",
    "Verif.Props.C142_bounds"
   ],
   "note": "Real arithmetic; the engine and the distribution are parameters."
  },
  {
   "property": "C143",
   "status": "proved",
   "theorems": [
    "Verif.Props.C143_ctor",
    "Verif.Props.C143_bounds",
    "Verif.Props.C143_fitness",
    "Verif.Props.C143_growth",
    "Verif.Props.C143_best",
    "Verif.Props.C143_optimal"
   ],
   "note": "Real arithmetic. The documented value 0 at the documented minimiser holds up to 2e-6 per component: both constants are rounded."
  },
  {
   "property": "C144",
   "status": "proved",
   "theorems": [
    "Verif.Props.C144_ctor",
    "Verif.Props.C144_shape",
    "Verif.Props.C144_boundsUF",
    "Verif.Props.C144_boundsCF",
    "Verif.Props.C144_bounds_ub"
   ],
   "note": "The last theorem is a disagreement with the documentation: undefined behaviour for dimension 1 and ids 8-10."
  },
  {
   "property": "C145",
   "status": "proved",
   "theorems": [
    "Verif.Props.C145_uf",
    "Verif.Props.C145_small2",
    "Verif.Props.C145_small3"
   ],
   "note": "Real arithmetic; a quotient with divisor 0 is a distinct value (not a number). C145_small2 and C145_small3 are a disagreement with the documentation."
  },
  {
   "property": "C146",
   "status": "proved",
   "theorems": [
    "Verif.Props.C146_uf123",
    "Verif.Props.C146_uf4",
    "Verif.Props.C146_uf5",
    "Verif.Props.C146_uf6",
    "Verif.Props.C146_uf7",
    "Verif.Props.C146_uf8_10",
    "Verif.Props.C146_uf9"
   ],
   "note": "Exact real arithmetic. Lower bound over the whole box and attainment of every point of the front."
  },
  {
   "property": "C147",
   "status": "proved",
   "theorems": [
    "Verif.Props.C147_cf",
    "Verif.Props.C147_ub",
    "Verif.Props.C147_small2",
    "Verif.Props.C147_small3"
   ],
   "note": "Exact real arithmetic; the constraint of CF8-CF10 is not a number where the third objective has square 1."
  },
  {
   "property": "C148",
   "status": "proved",
   "theorems": [
    "Verif.Props.C148_cf1",
    "Verif.Props.C148_cf2",
    "Verif.Props.C148_cf3",
    "Verif.Props.C148_cf45",
    "Verif.Props.C148_cf67"
   ],
   "note": "Exact real arithmetic. CF8-CF10 are not covered: their constraint is not a number or changes sign with the third objective."
  },
  {
   "property": "C149",
   "status": "proved",
   "theorems": [
    "Verif.Props.C149_g01",
    "Verif.Props.C149_g02",
    "Verif.Props.C149_g03",
    "Verif.Props.C149_g04",
    "Verif.Props.C149_g05",
    "Verif.Props.C149_g06",
    "Verif.Props.C149_g07",
    "Verif.Props.C149_g08",
    "Verif.Props.C149_g09",
    "Verif.Props.C149_g10",
    "Verif.Props.C149_g11",
    "Verif.Props.C149_g13",
    "Verif.Props.C149_g14",
    "Verif.Props.C149_g15",
    "Verif.Props.C149_g17",
    "Verif.Props.C149_g18",
    "Verif.Props.C149_g19",
    "Verif.Props.C149_g21",
    "Verif.Props.C149_g22",
    "Verif.Props.C149_g23",
    "Verif.Props.C149_g24",
    "Verif.Props.C149_g16"
   ],
   "note": "Real arithmetic. g12 is in C139_g12_balls, g20 in C140; the 38 constraints of g16 are only checked at its best known solution (C139_published)."
  },
  {
   "property": "C15",
   "status": "proved",
   "theorems": [
    "Verif.Props.C15_wellformed",
    "Verif.Props.C15_call",
    "Verif.Props.C15_accepts"
   ],
   "note": "All histories from the empty population, exceptions from bad arguments, user code and any allocation."
  },
  {
   "property": "C150",
   "status": "proved",
   "theorems": [
    "Verif.Props.C150_construct",
    "Verif.Props.C150_bounds",
    "Verif.Props.C150_fitness"
   ],
   "note": "Over the reals. The tables of shifts and matrices are parameters: their definitions are not part of the source."
  },
  {
   "property": "C151",
   "status": "proved",
   "theorems": [
    "Verif.Props.C151_minimum",
    "Verif.Props.C151_schwefel",
    "Verif.Props.C151_composition",
    "Verif.Props.C151_compositionAt"
   ],
   "note": "Over the reals; the tables are arbitrary. Exact but for Schwefel's function, whose two constants are rounded (the statement includes this), and the compositions, whose other components keep a weight of at most 1 against 10^99."
  },
  {
   "property": "C152",
   "status": "partial",
   "theorems": [
    "Verif.Props.C152_basic",
    "Verif.Props.C152_composition",
    "Verif.Props.C152_all",
    "Verif.Props.C152_no_rotation",
    "Verif.Props.C152_report_differs"
   ],
   "note": "The statement is false: asyfunc leaves the entries that are not positive as they were before the rotation (C152_report_differs: problem 3 is -1199 where the report gives 998800), and grie_rosen_func drops the rotation (C152_no_rotation). The formulas proved have these two changes and are otherwise the report's. Over the reals."
  },
  {
   "property": "C153",
   "status": "proved",
   "theorems": [
    "Verif.Props.C153_construct",
    "Verif.Props.C153_bounds",
    "Verif.Props.C153_shifts",
    "Verif.Props.C153_fitness"
   ],
   "note": "Constructor, get_bounds and fitness for all 30 ids. The data files are a parameter: only the number of rows, and that the shuffles are numbers from 1 to dim, is assumed. Exact arithmetic."
  },
  {
   "property": "C154",
   "status": "proved",
   "theorems": [
    "Verif.Props.C154_single",
    "Verif.Props.C154_composition",
    "Verif.Props.C154_all"
   ],
   "note": "All 30 problems; exact arithmetic. The overflow of the sum of weights when two shifts coincide with the point is not modelled. The functions of the class that no problem uses are not modelled."
  },
  {
   "property": "C155",
   "status": "proved",
   "theorems": [
    "Verif.Props.C155_minimum",
    "Verif.Props.C155_schwefel",
    "Verif.Props.C155_composition",
    "Verif.Props.C155_compositionAt"
   ],
   "note": "Exact for the problems without Schwefel's function; with it up to the rounding of its two constants, which the statement includes. Exact arithmetic."
  },
  {
   "property": "C156",
   "status": "proved",
   "theorems": [
    "Verif.Props.C156_same",
    "Verif.Props.C156_threads",
    "Verif.Props.C156_members",
    "Verif.Props.C156_empty"
   ],
   "note": "For n = 0 the constructors differ (C156_empty): the one with an evaluator throws for bounds that cannot be drawn from. Allocation failures are not modelled here."
  },
  {
   "property": "C157",
   "status": "proved",
   "theorems": [
    "Verif.Props.C157_batch"
   ],
   "note": "Every run that ends without exception; the batch evaluator is assumed to compute the fitness function point by point (BatchOf)."
  },
  {
   "property": "C158",
   "status": "proved",
   "theorems": [
    "Verif.Props.C158_batch"
   ],
   "note": "Every run that ends without exception; the batch evaluator is assumed to compute the fitness function point by point (BatchOf)."
  },
  {
   "property": "C159",
   "status": "proved",
   "theorems": [
    "Verif.Props.C159_batch",
    "Verif.Props.C159_stochastic_order"
   ],
   "note": "Every run, also those that fail; the batch evaluator is assumed to compute the fitness function point by point (BatchOf)."
  },
  {
   "property": "C16",
   "status": "proved",
   "theorems": [
    "Verif.Props.C16_unconstrained",
    "Verif.Props.C16_constrained",
    "Verif.Props.C16_accessors_throw",
    "Verif.Props.C16_stale_after_set_c_tol"
   ],
   "note": "Constrained case over the extended reals with NaN (exact arithmetic). The last theorem shows that changing tolerances through get_problem() is outside the property."
  },
  {
   "property": "C160",
   "status": "proved",
   "theorems": [
    "Verif.Props.C160_wrong_size",
    "Verif.Props.C160_one_call",
    "Verif.Props.C160_set_c_tol",
    "Verif.Props.C160_monotone"
   ],
   "note": "Meeting a constraint is as in C14_feasible_iff_within: an infinite value does not meet an infinite tolerance."
  },
  {
   "property": "C161",
   "status": "proved",
   "theorems": [
    "Verif.Props.C161_rows",
    "Verif.Props.C161_aligned"
   ],
   "note": "Cells are given as their text; how a value is turned into text is not modelled."
  },
  {
   "property": "C162",
   "status": "proved",
   "theorems": [
    "Verif.Props.C162_vector",
    "Verif.Props.C162_map"
   ],
   "note": "Elements are given as their text; a map is the list of its entries in order."
  },
  {
   "property": "C163",
   "status": "proved",
   "theorems": [
    "Verif.Props.C163_round_trip",
    "Verif.Props.C163_short"
   ],
   "note": "Storage by columns; the elements are written by any codec that gives back what it saved (as Boost does for doubles). Eigen itself is trusted."
  },
  {
   "property": "C17",
   "status": "partial",
   "theorems": [
    "Verif.Props.C17_unconstrained_partial",
    "Verif.Props.C17_constrained_partial",
    "Verif.Props.C17_throws",
    "Verif.Props.C17_nan"
   ],
   "note": "False with NaN objectives (C17_nan) and undefined for mixed constraints (C13_sort_undefined_behaviour); proved for NaN-free unconstrained problems and for constraints of one kind."
  },
  {
   "property": "C18",
   "status": "partial",
   "theorems": [
    "Verif.Props.C18_unconstrained_partial",
    "Verif.Props.C18_constrained_partial",
    "Verif.Props.C18_migration_leaves_champion_stale"
   ],
   "note": "False: set_individuals does not update the champion (witness theorem). Proved without migration."
  },
  {
   "property": "C19",
   "status": "proved",
   "theorems": [
    "Verif.Props.C19_bounds",
    "Verif.Props.C19_construct_sound",
    "Verif.Props.C19_construct_complete"
   ],
   "note": "check_problem_bounds characterised exactly (all vectors incl. NaN and infinities); construction sound and complete w.r.t. the bounds, dimension and sparsity rules"
  },
  {
   "property": "C20",
   "status": "partial",
   "theorems": [
    "Verif.Props.C20_counts_partial",
    "Verif.Props.C20_failed_batch_counts"
   ],
   "note": "all interleavings of any number of threads; proved for calls other than a batch_fitness whose user function returns a vector of wrong size, for which the counter is incremented although the call throws (witness C20_failed_batch_counts)"
  },
  {
   "property": "C21",
   "status": "proved",
   "theorems": [
    "Verif.Props.C21_threads",
    "Verif.Props.C21_rejects",
    "Verif.Props.C21_default"
   ],
   "note": "any partition of the index range, any interleaving with single-value writes; also the default evaluator and user batch functions"
  },
  {
   "property": "C22",
   "status": "partial",
   "theorems": [
    "Verif.Props.C22_checks",
    "Verif.Props.C22_dense_gradient",
    "Verif.Props.C22_dense_hessian",
    "Verif.Props.C22_cached_gradient",
    "Verif.Props.C22_gradient_sparsity_checked",
    "Verif.Props.C22_cached_hessians_partial",
    "Verif.Props.C22_cached_hessians_overflow"
   ],
   "note": "the cached size of the dense hessian pattern wraps for nx > 2^32 (witness), proved below that"
  },
  {
   "property": "C23",
   "status": "proved",
   "theorems": [
    "Verif.Props.C23_ctor",
    "Verif.Props.C23_fitness",
    "Verif.Props.C23_batch",
    "Verif.Props.C23_bounds",
    "Verif.Props.C23_compose",
    "Verif.Props.C23_constructible"
   ],
   "note": "Fitness and batch clauses for any arithmetic; bounds and composition clauses in exact arithmetic on finite data. C23_constructible adds the exact condition (whole shifts in the integer part) under which the translated problem can be built."
  },
  {
   "property": "C24",
   "status": "proved",
   "theorems": [
    "Verif.Props.C24_ctor",
    "Verif.Props.C24_feasible",
    "Verif.Props.C24_death",
    "Verif.Props.C24_kuri",
    "Verif.Props.C24_weighted",
    "Verif.Props.C24_ignore_c",
    "Verif.Props.C24_ignore_o",
    "Verif.Props.C24_length"
   ],
   "note": "Exact arithmetic; ignore_o over the reals with infinities and NaN (squares that underflow are not covered)."
  },
  {
   "property": "C25",
   "status": "partial",
   "theorems": [
    "Verif.Props.C25_batch_partial",
    "Verif.Props.C25_ignore_o_undefined"
   ],
   "note": "Proved for every method but ignore_o, and for ignore_o with one objective. For ignore_o with two or more objectives the property is false of the code: an out-of-range read is proved for every non-empty batch."
  },
  {
   "property": "C26",
   "status": "proved",
   "theorems": [
    "Verif.Props.C26_value",
    "Verif.Props.C26_throws",
    "Verif.Props.C26_fixed",
    "Verif.Props.C26_calls"
   ],
   "note": "Any arithmetic for the decomposition; all call sequences, including throwing calls and NaN objectives."
  },
  {
   "property": "C27",
   "status": "partial",
   "theorems": [
    "Verif.Props.C27_concurrent_partial",
    "Verif.Props.C27_lost_update"
   ],
   "note": "Without adapt_ideal every interleaving of any number of calls gives the sequential results. With adapt_ideal the property is false of the code: a lost update is proved, while the thread safety of the inner problem is reported."
  },
  {
   "property": "C28",
   "status": "proved",
   "theorems": [
    "Verif.Props.C28_golomb",
    "Verif.Props.C28_golomb_ctor"
   ],
   "note": "Exact arithmetic, any number of gaps of any sign; any conforming std::sort."
  },
  {
   "property": "C29",
   "status": "partial",
   "theorems": [
    "Verif.Props.C29_single",
    "Verif.Props.C29_multi",
    "Verif.Props.C29_constrained_partial",
    "Verif.Props.C29_rejects"
   ],
   "note": "proved for one unconstrained objective and for several objectives, any arithmetic; with constraints proved for one kind of constraints (equality or inequality) over the reals. Missing: both kinds together, where compare_fc is no strict weak ordering and std::sort is undefined behaviour (C13_sort_undefined_behaviour)."
  },
  {
   "property": "C30",
   "status": "partial",
   "theorems": [
    "Verif.Props.C30_single",
    "Verif.Props.C30_multi",
    "Verif.Props.C30_constrained_partial",
    "Verif.Props.C29_rejects"
   ],
   "note": "as C29"
  },
  {
   "property": "C31",
   "status": "proved",
   "theorems": [
    "Verif.Props.C31_construct",
    "Verif.Props.C31_bound",
    "Verif.Props.C31_value"
   ],
   "note": "construction and the bound by the population size for any arithmetic; the value floor(rate*size) in exact arithmetic"
  },
  {
   "property": "C32",
   "status": "proved",
   "theorems": [
    "Verif.Props.C32_ring",
    "Verif.Props.C32_bad_weight"
   ],
   "note": "induction over the number of push_back calls"
  },
  {
   "property": "C33",
   "status": "proved",
   "theorems": [
    "Verif.Props.C33_fully_connected",
    "Verif.Props.C33_to_bgl"
   ],
   "note": "also the conversion to a graph"
  },
  {
   "property": "C34",
   "status": "proved",
   "theorems": [
    "Verif.Props.C34_invariant",
    "Verif.Props.C34_strong_guarantee",
    "Verif.Props.C34_get_connections",
    "Verif.Props.C34_effects",
    "Verif.Props.C34_free_form",
    "Verif.Props.C34_parallel_edges"
   ],
   "note": "starting from a default-constructed topology or a free_form built from a graph without parallel edges; a graph with parallel edges is accepted by free_form and breaks the one-edge-per-pair part (witness C34_parallel_edges)"
  },
  {
   "property": "C35",
   "status": "proved",
   "theorems": [
    "Verif.Props.C35_get_connections"
   ],
   "note": "exact characterisation of answers let through, rejections and user exceptions"
  },
  {
   "property": "C36",
   "status": "proved",
   "theorems": [
    "Verif.Props.C36_replace",
    "Verif.Props.C36_select"
   ],
   "note": "wrappers with an arbitrary user policy (any result or exception)"
  },
  {
   "property": "C37",
   "status": "proved",
   "theorems": [
    "Verif.Props.C37_tasks"
   ],
   "note": "Interleaving model of the queue: worker, any number of clients, schedules as lists of events incl. spurious wakeups."
  },
  {
   "property": "C38",
   "status": "proved",
   "theorems": [
    "Verif.Props.C38_wait_all",
    "Verif.Props.C38_destructor"
   ],
   "note": "Same model. Sequentially consistent memory assumed."
  },
  {
   "property": "C39",
   "status": "partial",
   "theorems": [
    "Verif.Props.C39_finite_partial",
    "Verif.Props.C39_terminates_partial",
    "Verif.Props.C39_lost_wakeup",
    "Verif.Props.C39_wrong_thread_woken",
    "Verif.Props.C39_second_waiter"
   ],
   "note": "False of the code: wait_all can miss the worker's notification (flag stored without the mutex) and hang, and notify_one can wake the wrong thread. Proved: no livelock; for one client, termination unless a notification falls in that window."
  },
  {
   "property": "C40",
   "status": "proved",
   "theorems": [
    "Verif.Props.C40_status",
    "Verif.Props.C40_wait",
    "Verif.Props.C40_wait_check",
    "Verif.Props.C40_wait_keeps",
    "Verif.Props.C40_progress"
   ],
   "note": "Interleaving of one owner thread with the task queue finishing evolutions at any time; status is exact with respect to a moment between its call and its return."
  },
  {
   "property": "C41",
   "status": "proved",
   "theorems": [
    "Verif.Props.C41_delivery",
    "Verif.Props.C41_provenance",
    "Verif.Props.C41_evict_once",
    "Verif.Props.C41_preserve",
    "Verif.Props.C41_put_get",
    "Verif.Props.C41_refused",
    "Verif.Props.C41_progress",
    "Verif.Props.C41_log_repeats",
    "Verif.Props.C41_rounds"
   ],
   "note": "Interleaving model of the migration part of island::evolve and of the database accessors of archipelago; every member access of the database is a step. Policies, topology and random draws are arbitrary inputs. C41_log_repeats: the migration log lists a migrant although the policy did not accept it when an individual with its ID is already there. C41_rounds: evolve(n) places migrants exactly n times."
  },
  {
   "property": "C42",
   "status": "proved",
   "theorems": [
    "Verif.Props.C42_refines",
    "Verif.Props.C42_foreign",
    "Verif.Props.C42_no_leak",
    "Verif.Props.C42_counts"
   ],
   "note": "Refinement of a pointer-level world (allocator returns any free address, addresses reused) to lists. If topology::push_back throws, the island is added nevertheless (in the specification). Running evolutions during copying, memory errors and failing deserialisation of islands are not modelled."
  },
  {
   "property": "C43",
   "status": "proved",
   "theorems": [
    "Verif.Props.C43_linear",
    "Verif.Props.C43_seeded",
    "Verif.Props.C43_each_once",
    "Verif.Props.C43_progress"
   ],
   "note": "Any number of threads and calls; read and write of the engine are separate steps; the engine is an arbitrary state machine."
  },
  {
   "property": "C44",
   "status": "proved",
   "theorems": [
    "Verif.Props.C44_get",
    "Verif.Props.C44_set",
    "Verif.Props.C44_no_ub",
    "Verif.Props.C44_no_leak",
    "Verif.Props.C44_progress"
   ],
   "note": "Heap of reference-counted objects, copying element by element outside the mutex; addresses are not reused; exceptions of copy constructors are not modelled."
  },
  {
   "property": "C45",
   "status": "proved",
   "theorems": [
    "Verif.Props.C45_bytes",
    "Verif.Props.C45_success",
    "Verif.Props.C45_failure",
    "Verif.Props.C45_island",
    "Verif.Props.C45_reaped",
    "Verif.Props.C45_faithful",
    "Verif.Props.C45_progress",
    "Verif.Props.C45_terminates"
   ],
   "note": "Two processes and a pipe with POSIX semantics (atomic writes of at most PIPE_BUF bytes: send_ss ignores the return value of write, which is sound only because of that), arbitrary interleaving, arbitrary read sizes, failing system calls, death of the child at any point, other processes holding the write end. Serialisation is a parameter with the round-trip property and rejection of truncated data (forkCodec meets it)."
  },
  {
   "property": "C46",
   "status": "proved",
   "theorems": [
    "Verif.Props.C46_random_decision_vector"
   ],
   "note": "Any lawful engine, any arithmetic for the overflow test; the exceptions are characterised exactly."
  },
  {
   "property": "C47",
   "status": "proved",
   "theorems": [
    "Verif.Props.C47_batch"
   ],
   "note": "Any lawful engine; the exceptions are characterised, including the size overflow."
  },
  {
   "property": "C48",
   "status": "partial",
   "theorems": [
    "Verif.Props.C48_stick",
    "Verif.Props.C48_stick_nearest",
    "Verif.Props.C48_random",
    "Verif.Props.C48_reflection_partial",
    "Verif.Props.C48_reflection_hangs",
    "Verif.Props.C48_nan"
   ],
   "note": "stick and random in full, stick moves each coordinate to the nearest point of its interval; reflection in exact arithmetic for lb < ub or x = lb = ub (termination included). False otherwise: with lb = ub and x outside the reflection loop does not end (C48_reflection_hangs); NaN is left in place (C48_nan)."
  },
  {
   "property": "C49",
   "status": "proved",
   "theorems": [
    "Verif.Props.C49_sbx",
    "Verif.Props.C49_mutation",
    "Verif.Props.C49_mutation_nan"
   ],
   "note": "Exact arithmetic, any pow with PowLaws (shown for the real power); distribution index not below -1. Below that polynomial_mutation can return NaN (C49_mutation_nan)."
  },
  {
   "property": "C50",
   "status": "proved",
   "theorems": [
    "Verif.Props.C50_sbx",
    "Verif.Props.C50_mutation"
   ],
   "note": "Any engine, arithmetic and pow."
  },
  {
   "property": "C51",
   "status": "proved",
   "theorems": [
    "Verif.Props.C51_knn_any_arithmetic",
    "Verif.Props.C51_knn_throws",
    "Verif.Props.C51_knn_euclidean"
   ],
   "note": "Any arithmetic, square root and sort routine meeting the std::sort contract; plus the Euclidean reading over the reals. k < 2^31 (the code casts k to int)."
  },
  {
   "property": "C52",
   "status": "proved",
   "theorems": [
    "Verif.Props.C52_vdc_base",
    "Verif.Props.C52_vdc_value",
    "Verif.Props.C52_radical_inverse_bounds",
    "Verif.Props.C52_radical_inverse_injective",
    "Verif.Props.C52_halton"
   ],
   "note": "Exact arithmetic in any ordered field; indices below the 32-bit wrap."
  },
  {
   "property": "C53",
   "status": "proved",
   "theorems": [
    "Verif.Props.C53_prime"
   ],
   "note": "The whole table is compared in the kernel with the list of all primes below 13500."
  },
  {
   "property": "C54",
   "status": "partial",
   "theorems": [
    "Verif.Props.C54_simplex_partial",
    "Verif.Props.C54_throws",
    "Verif.Props.C54_nan_accepted"
   ],
   "note": "False for NaN entries, which are accepted (C54_nan_accepted); proved for all finite vectors, exact arithmetic, any sort routine."
  },
  {
   "property": "C55",
   "status": "proved",
   "theorems": [
    "Verif.Props.C55_low_values",
    "Verif.Props.C55_high_values",
    "Verif.Props.C55_low_exact",
    "Verif.Props.C55_high_exact",
    "Verif.Props.C56_throws"
   ],
   "note": "Exact arithmetic over any ordered field, all dimensions, all finite-valued functions; rounding is not modelled for this property (the property is stated in exact arithmetic)."
  },
  {
   "property": "C56",
   "status": "proved",
   "theorems": [
    "Verif.Props.C56_sparsity",
    "Verif.Props.C56_throws"
   ],
   "note": "Any arithmetic (including rounding, NaN, infinities), any total function; the sort is any conforming std::sort."
  },
  {
   "property": "C57",
   "status": "proved",
   "theorems": [
    "Verif.Props.C57_area"
   ],
   "note": "Real arithmetic (no rounding); every correct sort; points weakly below the reference point."
  },
  {
   "property": "C58",
   "status": "proved",
   "theorems": [
    "Verif.Props.C58_volume"
   ],
   "note": "Real arithmetic; coordinates above the most negative double (the sentinels); points weakly below the reference point."
  },
  {
   "property": "C59",
   "status": "proved",
   "theorems": [
    "Verif.Props.C59_wfg",
    "Verif.Props.C59_wfg_stop",
    "Verif.Props.C59_stop_rejected",
    "Verif.Props.C59_default",
    "Verif.Props.C59_api"
   ],
   "note": "Real arithmetic; every dimension from 2 on, every stop dimension; also the algorithm picked by default with all checks."
  },
  {
   "property": "C60",
   "status": "partial",
   "theorems": [
    "Verif.Props.C60_exclusive",
    "Verif.Props.C60_wfg",
    "Verif.Props.C60_contributions_partial",
    "Verif.Props.C60_base",
    "Verif.Props.exclVol_eq",
    "Verif.Props.exclVol_nonneg",
    "Verif.Props.C60_wrong_contribution",
    "Verif.Props.C60_wrong_contribution_2d",
    "Verif.Props.C60_undefined",
    "Verif.Props.C60_stop_undefined",
    "Verif.Props.C60_hycon3d",
    "Verif.Props.C60_hv2d",
    "Verif.Props.C60_contributions_apart_partial"
   ],
   "note": "exclusive() in every dimension; contributions() in every dimension provided that in dimensions 2 and 3 no two points share their first coordinate. Missing because false of the code: points that share it get wrong values, or undefined behaviour if they lie on the border (witnesses)."
  },
  {
   "property": "C61",
   "status": "partial",
   "theorems": [
    "Verif.Props.C61_extreme_partial",
    "Verif.Props.C61_api",
    "Verif.Props.C61_wrong_greatest",
    "Verif.Props.C61_apart_partial"
   ],
   "note": "Proved with respect to the true contributions in dimension 4 or more, and in dimensions 2 and 3 if no two points share their first coordinate; otherwise with respect to the returned contributions only, with a witness of a wrong answer."
  },
  {
   "property": "C62",
   "status": "partial",
   "theorems": [
    "Verif.Props.C62_construct",
    "Verif.Props.C62_compute_partial",
    "Verif.Props.C62_nan_accepted"
   ],
   "note": "Doubles with any rounding. The clause on a NaN reference point is false of the code."
  },
  {
   "property": "C63",
   "status": "proved",
   "theorems": [
    "Verif.Props.C63_order",
    "Verif.Props.C63_dominated",
    "Verif.Props.C63_monotone",
    "Verif.Props.C63_single"
   ],
   "note": "Real arithmetic, every dimension from 2 on, algorithm picked by default."
  },
  {
   "property": "C64",
   "status": "proved",
   "theorems": [
    "Verif.Props.C64_evolve",
    "Verif.Props.C64_fitness",
    "Verif.Props.C64_throws",
    "Verif.Props.C64_ctor",
    "Verif.Props.C64_nan",
    "Verif.Props.noOverflow_exact",
    "Verif.Props.noOverflow_rounded",
    "Verif.Props.C64_crossover"
   ],
   "note": "Arithmetic is exact or rounded but without overflow. C64_nan: the constructor accepts F = NaN, with which NaN points are evaluated."
  },
  {
   "property": "C65",
   "status": "partial",
   "theorems": [
    "Verif.Props.C65_search_partial",
    "Verif.Props.C65_throws",
    "Verif.Props.C65_ctor",
    "Verif.Props.C65_never_ends",
    "Verif.Props.directed_exact",
    "Verif.Props.directed_rounded",
    "Verif.Props.C65_unbounded"
   ],
   "note": "Proved for max_fevals + 2*nx below 2^32, exact or monotone rounded arithmetic and finite bounds. C65_never_ends: with max_fevals = 2^32-1 and stop_range <= 0 (accepted by the constructor) the loop never terminates. C65_unbounded: a problem without bounds produces no error, against the documentation; one run is exhibited."
  },
  {
   "property": "C66",
   "status": "proved",
   "theorems": [
    "Verif.Props.C66_sea",
    "Verif.Props.C66_sea_ends",
    "Verif.Props.C66_best",
    "Verif.Props.C66_sea_throws",
    "Verif.Props.C66_sga",
    "Verif.Props.C66_sga_best",
    "Verif.Props.C66_sga_throws",
    "Verif.Props.C66_sga_ctor",
    "Verif.Props.C66_sga_nan",
    "Verif.Props.C66_sga_int",
    "Verif.Props.C66_truncated",
    "Verif.Props.C66_tournament"
   ],
   "note": "sea and sga: size, IDs, box of every evaluated point, number of evaluations; best not worse on deterministic problems with no NaN fitness. sea is total under a hypothesis on the numbers drawn (its inner loop ends almost surely, not surely). sga for every selection, crossover and mutation kind, for integer bounds representable as int; outside that range uniform mutation is undefined behaviour (C66_sga_int), and the constructor accepts NaN as mutation probability, which is undefined behaviour later (C66_sga_nan)."
  },
  {
   "property": "C67",
   "status": "proved",
   "theorems": [
    "Verif.Props.C67_anneal",
    "Verif.Props.C67_throws",
    "Verif.Props.C67_ctor"
   ],
   "note": "Every evaluated point inside the bounds, the exact number of evaluations, and the result not worse than the selected individual and than every evaluated point (accepted or not), for arbitrary user code, engine, arithmetic and exp. If the selected objective is NaN the population is unchanged. bin_size below 2^31 (the counters are int). Exact set of constructor arguments."
  },
  {
   "property": "C68",
   "status": "partial",
   "theorems": [
    "Verif.Props.C68_mbh_partial",
    "Verif.Props.C68_ends_partial",
    "Verif.Props.C68_throws",
    "Verif.Props.C68_ctor",
    "Verif.Props.C68_nan"
   ],
   "note": "Model of mbh::evolve with an arbitrary inner algorithm. Proved for problems with at most one kind of constraints and inputs without NaN objectives (exact real arithmetic in compare_fc); with a NaN objective in the input it is false (C68_nan: best_idx() takes the NaN for the best). Ends if objective vectors come from a finite set."
  },
  {
   "property": "C69",
   "status": "partial",
   "theorems": [
    "Verif.Props.C69_multi_partial",
    "Verif.Props.C69_members",
    "Verif.Props.C69_elitist",
    "Verif.Props.C69_chosen",
    "Verif.Props.C69_false",
    "Verif.Props.C69_single",
    "Verif.Props.C69_constrained_partial",
    "Verif.Props.C69_throws",
    "Verif.Props.C69_ctor"
   ],
   "note": "False as stated (C69_false): the new population is written in place, so a chosen index smaller than its position reads a slot that was already overwritten; chosen individuals can be lost and others duplicated. Proved instead: exactly what the in-place rewrite leaves (InPlace), that every member is a chosen one, that all non-dominated individuals survive when they fit, and when the statement holds; also the single-objective generations. Reflection at the bounds need not end."
  },
  {
   "property": "C70",
   "status": "proved",
   "theorems": [
    "Verif.Props.C70_evolve",
    "Verif.Props.C70_elitist",
    "Verif.Props.C70_survivors",
    "Verif.Props.C70_throws",
    "Verif.Props.C70_ctor",
    "Verif.Props.C70_tournament",
    "Verif.Props.C70_crowd"
   ],
   "note": "For any engine, distributions, sort meeting its contract, arithmetic and fitness function, with or without a batch evaluator (arbitrary: may throw, otherwise returns values of the fitness function). Needs gens < 2^32 - 1 (the loop never ends otherwise)."
  },
  {
   "property": "C71",
   "status": "partial",
   "theorems": [
    "Verif.Props.C71_evolve",
    "Verif.Props.C71_alpha_partial",
    "Verif.Props.C71_order_partial",
    "Verif.Props.C71_log_partial",
    "Verif.Props.C71_nan_false",
    "Verif.Props.C71_false",
    "Verif.Props.C71_throws",
    "Verif.Props.C71_nothing",
    "Verif.Props.C71_rate",
    "Verif.Props.C71_pull",
    "Verif.Props.C71_last"
   ],
   "note": "False of the code: the leaders start as the three worst individuals (greater_than_f in the initial sort), so the log may be in descending order and alpha worse than an input fitness (C71_false: concrete run). Proved instead: exactly what the scores are after any number of evaluations (Leaders3), alpha not worse than anything met during evolution and never rising, ascending order as soon as two different objectives below the worst input one were met; with a NaN in the input alpha stays NaN. Plus what the whole run does: every agent moves towards the leaders each generation, the population ends as the last NP points evaluated."
  },
  {
   "property": "C72",
   "status": "partial",
   "theorems": [
    "Verif.Props.C72_evolve",
    "Verif.Props.C72_ideal",
    "Verif.Props.C72_ideal_nan_false",
    "Verif.Props.C72_limit_false",
    "Verif.Props.C72_weighted",
    "Verif.Props.C72_throws",
    "Verif.Props.C72_no_generations",
    "Verif.Props.C72_ctor",
    "Verif.Props.moeadNum_exact"
   ],
   "note": "The claim's bound max(limit,1) is false (C72_limit_false: limit 1, two replaced); proved with max(limit,2). The ideal point is the minimum only in components without NaN (C72_ideal_nan_false). Replacement only by a smaller decomposed value, for every arithmetic, is proved in full. Termination up to the random engine repeating the same parent for ever. The log is not modelled."
  },
  {
   "property": "C73",
   "status": "proved",
   "theorems": [
    "Verif.Props.C73_select",
    "Verif.Props.C73_replace",
    "Verif.Props.C73_strings",
    "Verif.Props.ranked_unconstrained",
    "Verif.Props.ranked_constrained"
   ],
   "note": "Select and replace for every policy, population and engine; the Ranked hypothesis (best_idx/worst_idx find a best and a worst) is discharged by ranked_unconstrained and ranked_constrained under the conditions of C17."
  },
  {
   "property": "C74",
   "status": "partial",
   "theorems": [
    "Verif.Props.C74_violation_order_partial",
    "Verif.Props.C74_smaller_violation_not_preferred"
   ],
   "note": "Only one direction is true of the code; the converse is refuted."
  },
  {
   "property": "C75",
   "status": "partial",
   "theorems": [
    "Verif.Props.C75_single_objective_partial",
    "Verif.Props.C75_ties_throw"
   ],
   "note": "False for equal objectives (always throws, C75_ties_throw); proved for pairwise different objectives."
  },
  {
   "property": "C76",
   "status": "partial",
   "theorems": [
    "Verif.Props.C76_canonical_first_partial",
    "Verif.Props.C76_grid_not_canonical_first"
   ],
   "note": "False for grid (documentation error), proved for the other two methods; grid contains them."
  },
  {
   "property": "C77",
   "status": "proved",
   "theorems": [
    "Verif.Props.C77_refpoint",
    "Verif.Props.C77_accepted"
   ],
   "note": "Real arithmetic."
  },
  {
   "property": "C78",
   "status": "proved",
   "theorems": [
    "Verif.Props.C78_decompose_ctor"
   ],
   "note": "Sum of the weights computed exactly."
  },
  {
   "property": "C79",
   "status": "proved",
   "theorems": [
    "Verif.Props.C79_status",
    "Verif.Props.C79_wait_check"
   ],
   "note": "What island::status()/wait_check() return is arbitrary here (see C40)."
  },
  {
   "property": "C80",
   "status": "proved",
   "theorems": [
    "Verif.Props.C80_rosenbrock",
    "Verif.Props.C80_rastrigin_gradient",
    "Verif.Props.C80_rastrigin_hessian",
    "Verif.Props.C80_luksan_vlcek1",
    "Verif.Props.C80_hs71_gradient",
    "Verif.Props.C80_hs71_hessians"
   ],
   "note": "real numbers instead of doubles; the derivative is Mathlib's HasDerivAt of the fitness along the variable"
  },
  {
   "property": "C81",
   "status": "proved",
   "theorems": [
    "Verif.Props.C81_rosenbrock",
    "Verif.Props.C81_rastrigin",
    "Verif.Props.C81_ackley",
    "Verif.Props.C81_griewank",
    "Verif.Props.C81_hs71"
   ],
   "note": "real numbers instead of doubles; the minimiser is unique"
  },
  {
   "property": "C82",
   "status": "partial",
   "theorems": [
    "Verif.Props.C82_ctor",
    "Verif.Props.C82_front",
    "Verif.Props.C82_size",
    "Verif.Props.C82_zero_optimal",
    "Verif.Props.C82_optimal_zero",
    "Verif.Props.C82_dtlz7_false",
    "Verif.Props.C82_dtlz5_false",
    "Verif.Props.C82_population"
   ],
   "note": "p_distance = 0 iff Pareto-optimal is proved for DTLZ1-4 and for DTLZ5/6 with at most 3 objectives; for DTLZ5/6 zero implies optimal in general and C82_dtlz5_false is an optimal vector with distance 1/2 (4 objectives); for DTLZ7 optimal implies zero and C82_dtlz7_false is a dominated vector with distance 0. Real arithmetic."
  },
  {
   "property": "C83",
   "status": "partial",
   "theorems": [
    "Verif.Props.C83_ctor",
    "Verif.Props.C83_front",
    "Verif.Props.C83_zero_optimal",
    "Verif.Props.C83_optimal_zero",
    "Verif.Props.C83_total",
    "Verif.Props.C83_zdt5_zero_optimal",
    "Verif.Props.C83_zdt5_front",
    "Verif.Props.C83_zdt5_optimal_zero",
    "Verif.Props.C83_zdt3_false",
    "Verif.Props.C83_zdt5_false",
    "Verif.Props.C83_zdt5_wraps",
    "Verif.Props.C83_population"
   ],
   "note": "p_distance = 0 iff Pareto-optimal is proved for ZDT1, 2, 4, 6 and for ZDT5 on vectors of zeros and ones (parameters that do not wrap); for ZDT3 optimal implies zero and C83_zdt3_false refutes the converse; C83_zdt5_false: an optimal non-integer vector with distance 1 whose rounding has distance 0; C83_zdt5_wraps: zdt(5, 858993460) has 29 variables. p_distance of a population is not modelled for zdt. Real arithmetic."
  },
  {
   "property": "C84",
   "status": "partial",
   "theorems": [
    "Verif.Props.C84_ctor",
    "Verif.Props.C84_throws",
    "Verif.Props.C84_nothing",
    "Verif.Props.C84_evolve",
    "Verif.Props.C84_shares",
    "Verif.Props.C84_false",
    "Verif.Props.C84_hang"
   ],
   "note": "False of the code in two ways, both proved: after a scout the book keeps the fitness of the abandoned point, so a better individual can be overwritten by a worse candidate (C84_false), and an objective that is NaN or minus infinity makes the loop of the onlookers endless (C84_hang). Proved: the checks, and that every run that ends is a sequence of generations as specified, with the number of evaluations, the box, and no deterioration as long as no scout was possible (C84_evolve); the shares of the onlookers (C84_shares). Missing: a condition under which the run ends."
  },
  {
   "property": "C85",
   "status": "partial",
   "theorems": [
    "Verif.Props.C85_feasible",
    "Verif.Props.C85_count",
    "Verif.Props.C85_nan"
   ],
   "note": "C85_feasible holds for rounded arithmetic, NaN and infinities included. C85_count: finite values, exact arithmetic. The counting part is false for NaN constraints (C85_nan): they count as met, unlike in compare_fc and feasibility_f."
  },
  {
   "property": "C86",
   "status": "proved",
   "theorems": [
    "Verif.Props.C86_reference"
   ],
   "note": "For finite fitness values and exact arithmetic."
  },
  {
   "property": "C87",
   "status": "partial",
   "theorems": [
    "Verif.Props.C87_worst_partial",
    "Verif.Props.C87_no_reward_partial",
    "Verif.Props.C87_rewarded",
    "Verif.Props.C87_all_infeasible"
   ],
   "note": "Proved when somebody is feasible and the objectives of the population are positive (exact real arithmetic). False otherwise: C87_rewarded (negative objectives: an infeasible point is rewarded), C87_all_infeasible (nobody feasible: the worst individual gets the lowest value)."
  },
  {
   "property": "C88",
   "status": "partial",
   "theorems": [
    "Verif.Props.C88_evolve_partial",
    "Verif.Props.C88_errors",
    "Verif.Props.C88_undefined"
   ],
   "note": "For every inner algorithm (an arbitrary decision tree of fitness calls) that returns points it was given or asked for. Exact arithmetic in compare_fc, one kind of constraints (else best_idx may be undefined, C13). Undefined behaviour when the inner algorithm returns another point: C88_undefined."
  },
  {
   "property": "C89",
   "status": "partial",
   "theorems": [
    "Verif.Props.C89_kept_partial",
    "Verif.Props.C89_slot",
    "Verif.Props.C89_lost"
   ],
   "note": "All but one of the individuals returned by the inner algorithm are kept; the other is overwritten even if it is the best (C89_lost)."
  },
  {
   "property": "C90",
   "status": "partial",
   "theorems": [
    "Verif.Props.C90_ring_partial",
    "Verif.Props.C90_ring_alone",
    "Verif.Props.C90_ring_outside",
    "Verif.Props.C90_lattice",
    "Verif.Props.C90_random"
   ],
   "note": "lbest proved for 2 <= neighb_param and neighb_param/2 <= swarm size; outside of it the claim is false (witnesses C90_ring_alone, C90_ring_outside)"
  },
  {
   "property": "C91",
   "status": "partial",
   "theorems": [
    "Verif.Props.C91_ctor",
    "Verif.Props.C91_throws",
    "Verif.Props.C91_evolve_partial",
    "Verif.Props.C91_undefined",
    "Verif.Props.C91_nan",
    "Verif.Props.C91_memory"
   ],
   "note": "false for one particle with the default lbest topology, for neighb_param 1, for NaN parameters and for velocities remembered from a problem of other dimension (witnesses); proved for all others"
  },
  {
   "property": "C92",
   "status": "partial",
   "theorems": [
    "Verif.Props.C92_best_partial",
    "Verif.Props.C92_nan"
   ],
   "note": "false for NaN fitnesses (C92_nan); proved for all others"
  },
  {
   "property": "C93",
   "status": "partial",
   "theorems": [
    "Verif.Props.C93_problem",
    "Verif.Props.C93_algorithm",
    "Verif.Props.C93_topology_policies",
    "Verif.Props.C93_bfe",
    "Verif.Props.C93_population",
    "Verif.Props.C93_island",
    "Verif.Props.C93_archipelago",
    "Verif.Props.C93_not_population_based",
    "Verif.Props.C93_thread_island",
    "Verif.Props.C93_thread_island_old",
    "Verif.Props.C93_nlopt_partial",
    "Verif.Props.C93_nlopt_kept",
    "Verif.Props.C93_classes_partial",
    "Verif.Props.C93_lost",
    "Verif.Props.C93_pso_memory"
   ],
   "note": "Proved for the wrapper classes, not_population_based, thread_island and all classes that archive every member. False of pso, pso_gen, nspso, de1220 and maco, which leave members out (C93_lost, C93_pso_memory), and of nlopt loaded into an object with a local optimizer (C93_nlopt_kept). The serialization of primitive values is assumed."
  },
  {
   "property": "C94",
   "status": "proved",
   "theorems": [
    "Verif.Props.C94_failed",
    "Verif.Props.C94_truncated"
   ],
   "note": "For any serialization of the data members and of the user-defined classes that reads sequentially."
  },
  {
   "property": "C95",
   "status": "partial",
   "theorems": [
    "Verif.Props.C95_evolve_partial",
    "Verif.Props.C95_throws",
    "Verif.Props.C95_undefined",
    "Verif.Props.C95_nan",
    "Verif.Props.C95_memory",
    "Verif.Props.C95_leader"
   ],
   "note": "Proved with the hypotheses under which the behaviour is defined. False of the code: undefined behaviour for one individual or neighb_param 1 in the lbest topology and for velocities remembered from another problem; NaN parameters are accepted; on a stochastic problem with gbest the leader is the best of the present positions, not the best position known (C95_leader)."
  },
  {
   "property": "C96",
   "status": "proved",
   "theorems": [
    "Verif.Props.C96_best",
    "Verif.Props.C96_stochastic"
   ],
   "note": "Under the hypotheses of C95 for defined behaviour; no condition on NaN."
  },
  {
   "property": "C97",
   "status": "proved",
   "theorems": [
    "Verif.Props.C97_evolve",
    "Verif.Props.C97_throws",
    "Verif.Props.C97_ctor",
    "Verif.Props.C97_formula"
   ],
   "note": "Whole evolve and constructor, all 18 variants, both adaptation schemes, the exit conditions and the memory. Log and screen output not modelled."
  },
  {
   "property": "C98",
   "status": "proved",
   "theorems": [
    "Verif.Props.C98_jde",
    "Verif.Props.C98_range_exact",
    "Verif.Props.C98_range_rounded",
    "Verif.Props.C98_jde_draws",
    "Verif.Props.C98_ide_F",
    "Verif.Props.C98_ide_CR"
   ],
   "note": "Ranges for every run (C98_jde takes the result of C97_evolve and C99_evolve_partial). The formulas of iDE in exact arithmetic; for variants 11-14 (CR), 15, 16 (both) and 17, 18 (CR) they are not those of the mutation operator, as in the code."
  },
  {
   "property": "C99",
   "status": "partial",
   "theorems": [
    "Verif.Props.C99_evolve_partial",
    "Verif.Props.C99_throws",
    "Verif.Props.C99_ctor",
    "Verif.Props.C99_variant",
    "Verif.Props.C99_undefined",
    "Verif.Props.C99_unbounded"
   ],
   "note": "Holds for a non-empty list of allowed variants. C99_undefined: the constructor accepts the empty list and evolve then reads out of range, for every problem and population. C99_unbounded: against the documentation unbounded problems produce no error."
  }
 ]
}
