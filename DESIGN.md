# Design of the formal model of pagmo2

The model lives in `lean/Verif`. Model files (`*/Model.lean`-like, definitions transcribed from the C++),
helper lemmas, and property theorems are kept in different files wherever the proofs are long:
theorem statements to read are in `Verif/Props/*.lean`; the small independent specifications they
use are in `Verif/Spec/*.lean`.

## Conventions

* **Doubles.** Code that only *compares* doubles is modelled over `Verif.Fl K` (`nan | ninf | fin q | pinf`
  with IEEE comparisons; `+0` and `-0` are identified, which is exactly what IEEE comparison does; the finite
  values are any linearly ordered type `K`, e.g. the finite doubles themselves, so the theorems cover all doubles).
  Code that does *arithmetic* is modelled in exact arithmetic (rational or real numbers, or any ordered
  field); rounding is not modelled and this is said at each definition. When a guarantee does not depend on
  the arithmetic (for instance because the code clips the result), the arithmetic is an arbitrary function
  parameter, and the theorem holds for rounded arithmetic as well.
* **std::sort** and other library routines with unspecified output among ties: the result is any list that
  satisfies the C++ specification (a permutation sorted with respect to the comparator). Where the
  comparator is not a strict weak ordering the outcome is undefined behaviour, a separate outcome.
* **Exceptions** are `Except.error`; **undefined behaviour** (out of range access, null dereference,
  std::sort with a bad comparator) is a separate constructor, never conflated with a value.
* **Random numbers** are an arbitrary stream, constrained only to the range of the distribution.
* **User code** (fitness functions, user-defined topologies, policies, inner algorithms) is an arbitrary
  function, possibly throwing.
* **Threads** are interleaving transition systems whose atomic steps are the critical sections/atomic
  operations of the code; memory model effects below sequential consistency are not modelled.
* `std::size_t` arithmetic is modelled on natural numbers where an overflow guard of the code makes wrap
  impossible; the guard itself is modelled. Elsewhere the wrap is modelled or the simplification is noted.

## Trusted base

* the Lean 4.33 kernel and the axioms `propext`, `Classical.choice`, `Quot.sound` (each property theorem
  is followed by `#print axioms` in `Verif/Axioms.lean`; no other axiom occurs, no `sorry`, no `native_decide`);
* the transcription from C++ to Lean, made by reading; each definition cites file and lines;
* the C++ standard library, TBB, Boost.Graph, Boost.Serialization, Eigen, the OS: modelled by their specification;
* mathematical functions of the C++ library (`sqrt`, `pow`, `log`, `exp`, `cos`, ...) and Eigen's eigenvalue solver and matrix
  exponential: parameters of the model, with the laws used stated as hypotheses (`PowLaws`, `CmFns`, `GaFns`, `XnExact`, `EigenOk`, ...).

Which code is modelled, by file under /repo/src:

* `algorithms`: bee_colony, cmaes, compass_search, cstrs_self_adaptive, de, de1220, gaco, gwo, ihs, ipopt, maco, mbh, moead, moead_gen,
  nlopt, not_population_based, nsga2, nspso, pso, pso_gen, sade, sea, sga, simulated_annealing, xnes: constructors and `evolve`.
  Logs (except those of nlopt and ipopt), screen output, `get_extra_info` and setters for verbosity are left out.
  NLopt and Ipopt themselves are any functions that ask questions and give a result;
* `utils`: constrained, discrepancy, generic, genetic_operators, hypervolume, multi_objective, hv_algos; include/pagmo/utils/gradients_and_hessians.hpp;
* `problems`: cec2006, cec2009, cec2013, cec2014, decompose, dtlz, golomb_ruler, hock_schittkowski_71,
  inventory, lennard_jones, schwefel, translate, unconstrain, wfg, zdt and the analytic ones
  (ackley, griewank, luksan_vlcek1, minlp_rastrigin, rastrigin, rosenbrock) as far as the table of C80-C83 says;
* `r_policies`, `s_policies`, `topologies`, `batch_evaluators`, `islands`, `detail` (base_sr_policy, bfe_impl, prime_numbers, task_queue);
* algorithm, archipelago, bfe, island, population, problem, r_policy, rng, s_policy, topology: the methods cited in Model; the ownership of the
  object inside the wrappers (copy, move, assignment, destruction) in Model/Wrapper.lean.

Not modelled: null_algorithm, the functions of cec2014 that no problem uses, memory allocation (except where failure injection is stated), the type traits behind type erasure, text output (except tables, vectors and maps: C161, C162).
Rounding is modelled only where a theorem says so (`Fl.rounded`).

## Plan per property

| id | model and proof |
|---|---|
| C01 | `paretoDominance` over lists of `Fl K`, transcription of the counting loop; spec: for-all/exists over positions with the NaN-last total preorder. Proof: induction on lists, order laws from the spec. |
| C02 | `fnds` transcription: double loop building domination lists/counts, then peeling loop with decreasing counts (fuel-free: recursion on remaining points). Invariant: counts = number of not yet peeled dominators. Spec: `IsLayering`. |
| C03 | Same model: the code copies the count array before peeling, so the returned counts are the numbers of dominating points. Proved. |
| C04 | `nonDominatedFront2d` over any lexicographically sorted permutation; invariant of the sweep; spec = exactly the non-dominated indices. |
| C05 | `selectBestNMo` (Model/Crowding) on top of fnds + crowding; arithmetic and sort routine are parameters. Proved for all inputs with at least two objectives. |
| C06 | `sortPopulationMo`: any sort routine with the std::sort contract, any arithmetic. Proved. |
| C07 | `ideal`, `nadir` as folds; spec least/greatest element. Finding: nadir throws for one point because it calls fnds. |
| C08 | `crowdingDistance` in exact arithmetic; neighbours, extremes, range specified on the list of objective values. Finding: a constant objective gives 0/0 = NaN, which then sorts as the largest distance. |
| C09 | `decomposeObjectives` (Model/Decompose), all three methods; monotonicity for any monotone rounding, values in exact arithmetic, error branches for any arithmetic. Proved. |
| C10 | `reksum` with unsigned wrap, H search, grid/random/low-discrepancy branches; proof that grid enumerates the compositions of H; simplex property of every weight. Proved. |
| C11 | `compareFc` in exact reals with the asymmetric norms of the code. False: witness of non-transitive equivalence. Partial: irreflexive, asymmetric, transitive always; strict weak ordering if only one kind of constraint exists. |
| C12 | `compareFc`; number of met constraints specified independently (`Spec.numMet`); error branch characterised by sizes. Proved for any field and any sqrt. |
| C13 | `sortPopulationCon`: UB outcome if the comparator is not SWO on the given population; partial theorem for one kind of constraint. |
| C14 | `feasibilityF`; `Spec.Meets`. Finding: value +inf against tolerance +inf is reported infeasible (inf - inf). |
| C15 | Model/Population.lean: every method is a state transformer that keeps the state on exceptions, allocation failures are a list of fault bits, the user's fitness result is an argument. Invariant by induction over client histories. |
| C16 | Ghost list of inserted pairs; induction using only irreflexivity and transitivity of the comparison (C11_strict_partial_order_partial for the constrained case). |
| C17 | std::min_element / max_element transcribed; loop invariant. Witness for NaN. Constrained case through C13. |
| C18 | Witness that set_individuals leaves the champion stale; without migration from C16. |
| C19 | Model/Problem.lean: check_problem_bounds and generic_ctor_impl transcribed with exceptions; Base/Check gives an exact pass/throw characterisation of sequences of checks. |
| C20 | Calls are sequences of actions (local checks, user code, atomic counter increments); threads interleave actions arbitrarily. Finding: batch_fitness increments before it checks the output. |
| C21 | Model/Bfe.lean: shared result vector, one task per range of an arbitrary partition, micro-steps evaluate/write one value; invariant per task plus frame from disjointness. Termination for every schedule giving each task enough turns. |
| C22 | Pattern checks transcribed (loop with previous element); dense patterns generated by the code proved complete and of the cached size. Finding: nx*(nx-1) wraps for nx > 2^32 in the cached hessian size. |
| C23 | `Model/MetaProblem`: `translateCtor`, `transform`, `translateFitness`, `translateBatch`, `translateBounds` transcribe translate.cpp; the inner problem is an arbitrary user function that may throw. Theorems in `Props/Translate` describe the shifted vector component by component, not by the helper; the batch theorem assumes that the inner batch evaluation agrees with single evaluation. |
| C24 | `penalize` transcribes unconstrain.cpp 126-230 method by method on top of `Model/Constrained`. Theorems use `Meets`, `numMet` (Spec/Constrained) and `violSum`, a direct definition of the weighted violation. |
| C25 | `unconstrainBatch` transcribes the block copy with explicit bounds; `C25_batch_partial` is a loop invariant, `C25_ignore_o_undefined` shows the out-of-range read for every inner problem with two objectives (disagreement). |
| C26 | `Decomp.fitness` is a state transformer on `m_z`. `C26_calls` is by induction on the call sequence. |
| C27 | `runCallers`: interleaving semantics of single memory accesses of concurrent calls. Real data races on doubles are undefined behaviour, so the model is optimistic; the lost update shows that the property fails even then (disagreement). |
| C28 | `golombFitness` transcribes partial sums, the double loop, sort and unique. `C28_golomb` states the result by cardinalities of finite sets of pairs and distances. |
| C29 | Model/Policy.lean: fairReplace transcribes the three branches; the result is characterised by indices (FairResult): best candidates of the migrants, then the best inds_size of both together. Order: first fitness (NaN last), rank and crowding distance, or compare_fc. |
| C30 | Model/Policy.lean: selectBest; same order specification BestIdx |
| C31 | ctorFrac, ctorAbs, candidate: iff characterisation of accepted rates; count bounded by the population size whatever rounding does; floor value for exact arithmetic |
| C32 | Model/Topology.lean: graph = number of vertices + edge list in insertion order; ring::push_back as the sequence of locked calls; invariant: edge set after n insertions is the n-ring. |
| C33 | Two filling loops and to_bgl transcribed; loop invariants. |
| C34 | Each method is one step (whole body under the mutex); invariant over histories with caught exceptions; effects of each call. Finding: free_form(bgl_graph) accepts parallel edges. |
| C35 | Exact pass/throw characterisation through Base/Check. |
| C36 | rPolicyReplace, sPolicySelect: returns r iff input well-formed, user policy returns r and r is well-formed; size sums do not wrap under the checks |
| C37 | interleaving model of task_queue.cpp (`Verif.TQ`): every lock, predicate evaluation, block, notification, store is a step; invariant by induction over schedules. Log of observations: finished ++ current ++ queued = pushed, starts and finishes alternate, per-client order kept. `C37_tasks` |
| C38 | same model; at `waitRet` finished = pushed; before `dtorRet` there is a point after the stop flag where finished = pushed. `C38_wait_all`, `C38_destructor` |
| C39 | partial, false of the code: three stuck executions given as witnesses (`C39_lost_wakeup`, `C39_wrong_thread_woken`, `C39_second_waiter`). Proved: executions without spurious wakeups are finite (`C39_finite_partial`), and with one client and no notification inside the window every maximal execution ends with all calls returned and all tasks run (`C39_terminates_partial`) |
| C40 | interleaving model of evolve/wait/wait_check/status (`Verif.Isl`) with futures referring to tasks; specification is a function of the observation log (enqueued, results, last wait_check). `C40_status`: status is the documented one at some moment between call and return; `C40_wait`, `C40_wait_check`, `C40_wait_keeps`, `C40_progress`. |
| C41 | Model/Migration.lean: any number of islands run the migration part of `evolve` (island.cpp 449-620, archipelago.cpp extract/set_migrants, the log) interleaved with each other and with user calls; each read or write of a database member is a separate step, guarded by the mutex. Props/Migration.lean: invariant tying the database to the history (linearisation at unlock); migrants delivered = groups fetched; every fetched group was placed by its source island after its selection policy returned it (or by the user's `set_migrants_db`) with no change of the entry in between; evicted entries are delivered once; preserved ones stay; log entries exactly characterised, with a witness that a rejected migrant with a known ID is logged. Props/MigrationRounds.lean: a task of `n` rounds places migrants `n` times. |
| C42 | pointer-level world (`Verif.Archi`): heap of islands with back pointers, per archipelago the vector of pointers, index map, migrants, log, topology; allocator may return any free address. Representation invariant by induction over programs; refinement to a list specification. `C42_refines`, `C42_foreign`, `C42_no_leak`, `C42_counts`. |
| C43 | interleaving model (`Verif.Rdev`): lock, read of the engine, write of the engine, unlock are steps; the log replays sequentially (`C43_linear`), values after a seed are the first outputs (`C43_seeded`), each call of each thread gets one value (`C43_each_once`), no deadlock. |
| C44 | interleaving model (`Verif.Snap`) with reference-counted heap cells; counting invariant (count = pointer + references held by threads); every getter returns the value current at some moment of its call (`C44_get`), setters store once (`C44_set`), no use after free, no leak, no deadlock. |
| C45 | Model/ForkIsland.lean: parent and child of `fork_island::run_evolve` as interleaved processes over a bounded pipe, one step per system call. Props/ForkIsland.lean: inductive invariant (bytes received ++ bytes in the pipe = bytes written, a prefix of the serialised message); on return the island holds what `evolve` returned, on any throw it is unchanged; the child is reaped; no deadlock; no infinite run; with no failing call the parent reports exactly what happened in the child. |
| C46 | `Verif.Rnd` (Model/Random): generic.hpp range checks and draws, any lawful engine (Base/Rng). `C46_random_decision_vector` |
| C47 | same model with the batch loop and the size computation in 64 bits. `C47_batch` |
| C48 | `C48_stick`, `C48_random`: any vector, NaN excepted. Reflection: fuel = reflection steps, termination by the distance to the box in units of its width, exact arithmetic. Finding: lb = ub does not terminate; NaN passes through all three. |
| C49 | `Verif.Genetic` (Model/Genetic): sbx and polynomial mutation transcribed; values before clipping shown not to be NaN (the only way clipping can fail) from sign laws of pow; integer part swapped or redrawn. Finding: eta_m < -1 can give NaN. |
| C50 | checker = spec (`ValidSbx`, `ValidPoly`), then absence of further exceptions and of undefined behaviour. |
| C51 | `knn` (Model/Knn): any sort by distance, any arithmetic; remove self; trim. Proved, plus Euclidean distance over the reals. |
| C52 | digit loop (Model/Discrepancy) in an ordered field; equality with the Nat.digits based radical inverse; injectivity by comparing leading digits; Halton on top of C53. Proved. |
| C53 | table transcription; `decide +kernel` equates the whole table with the filtered list of numbers below 13500, lifted to Nat.nth Nat.Prime. Proved. |
| C54 | exact arithmetic, any sorted permutation; telescoping sum. Finding: NaN is accepted (comparisons with 0 and 1 are both false). |
| C55 | `estimate_gradient`, `estimate_gradient_h` (gradients_and_hessians.hpp) transcribed loop by loop with the work vectors; values and layout proved by a loop invariant for every finite-valued function, `invalid_argument` exactly when the size of the result changes; exactness by expanding a polynomial of degree ≤ 2 (≤ 6) in the perturbed variable. |
| C56 | `estimate_sparsity` transcribed; invariant: the pairs pushed so far are exactly the changed ones of the columns done; then sorted with any conforming sort; `check_gradient_sparsity` (Model/Problem) proved to accept the result. |
| C57 | Model/Hypervolume `hv2d`; Proof/Hv2d by induction over the sorted list; spec: Lebesgue measure of the union of boxes (Spec/Hypervolume). Proved over the reals. |
| C58 | Model/Hypervolume `hv3d` with the multiset as a list ordered by descending x (insert after equal elements); Proof/Hv3d: invariant = the list is a staircase covering the same area as the points so far, A its area, V the volume below z3. Proved over the reals. |
| C59 | Model/Hypervolume `wfg`, `computeHv`, `limitSet`; Proof/Wfg: induction over the slice; frames created outside the arrays are `ub`. Proved over the reals for every stop dimension. |
| C60 | `exclusive`, `contributionsDefault`, `wfgContributions`, HyCon3D (Model/HyCon3d). Proved for exclusive (all dimensions) and for contributions in dimension 4 or more. In dimensions 2 and 3 proved for points no two of which share their first coordinate (Proof/HyBoxes, HyStep, HyVol, HyCon3d: the open boxes of a point tile the part of the plane only it covers among the points seen so far; closed plus open volume is the exclusive volume below the current level). Finding: HyCon3D returns wrong values when two points share the first coordinate, {(2,2,0),(2,1,1),(1,1/2,2)}, ref (4,4,4) gives 13 for the third point instead of 9; undefined for such points on the border; hvwfg with a stop dimension above the dimension writes outside its arrays in contributions. |
| C61 | `extremeLoop`: first extremal index, of the true contributions where C60 is proved. Finding: greatest_contributor can return a wrong point in three dimensions (follows from C60). |
| C62 | checks with doubles and any rounding. Finding: a NaN in the reference point passes assert_minimisation. |
| C63 | consequences of C57-C59 through the measure. |
| C64 | Model/De (`C64_crossover`: at least one component of a candidate comes from the mutation): constructor, index selection, the ten mutation variants, both crossovers, repair, acceptance and exit conditions transcribed; user fitness arbitrary. `Evolved` relates the population before and after and the list of evaluations; loop invariants `Tracked`, `DeInv`. The main loop (`genLoop`) has the `unsigned` counter of the code. Disagreement: `F = NaN` passes the constructor (`C64_nan`). |
| C65 | Model/Compass: constructor and `evolve` transcribed with `unsigned` wrap-around, user fitness arbitrary and possibly throwing, every call recorded. Proved with an invariant of the search loops, arithmetic exact or rounded (`Directed`). Missing: `max_fevals` near UINT_MAX, where the loop need not end: `C65_never_ends`. Bounds are finite there; `C65_unbounded` exhibits a run on an unbounded problem that gives no error although compass_search.hpp 77-78 says it does. |
| C66 | Model/Sea follows `sea::evolve`; the inner loop `while (!mut)` has fuel and `C66_sea` allows it to run out (`wpn True`), `C66_sea_ends` assumes that any `m·nx` consecutive draws contain one below `1/nx` and proves that it ends. `SubSign` (the sign of a computed difference is right) holds in IEEE arithmetic with gradual underflow. Model/Sga follows `sga::evolve` with `std::normal_distribution`, `std::binomial_distribution` and `std::shuffle` arbitrary within their contracts (`Dist.Lawful`); Proof/Sga shows that every offspring lies in the box (bounds handling of each crossover and mutation kind; `MutNum`, `SbxNum` list what is needed of the arithmetic, satisfied exactly over ℚ/ℝ), Props/Sga that reinsertion of the sorted pool never loses the best. `C66_sga_ctor` is the exact set of accepted arguments; `C66_sga_nan`, `C66_sga_int` are the two ways into undefined behaviour. |
| C67 | Model/Annealing follows `simulated_annealing::evolve` loop by loop; `std::exp`, `std::pow` and the arithmetic are arbitrary except that NaN is passed on (`SaNan`). `C67_anneal` needs nothing else of the arithmetic: `SaNum` only decides whether `uniform_real_from_range` can throw; `saNum_rounded` proves it for every monotone rounding. The constants .6 and .4 are exact. Not modelled: the log. |
| C68 | `Model/Mbh.lean` follows `mbh::evolve` (without the log); the inner algorithm is an arbitrary computation on population and engine, assumed to return a sound population of the same size or to throw or to run forever. `C68_mbh_partial`: if evolve returns, some individual of the result is not worse by `compare_fc` than any individual of the input; perturbed points are inside the bounds. Invariant of the main loop: the best objective vector is the initial one or preferred to it. `C68_ends_partial`: it ends when the inner algorithm does and objective vectors come from a finite set (number of rounds bounded by (card + 1) * stop). Missing: problems with both equality and inequality constraints (undefined sort, C13). False for NaN objectives in the input: `C68_nan`. |
| C69 | Model/Ihs, Proof/Ihs, Props/Ihs: `ihs::evolve` as `Run` over an arbitrary engine, arithmetic, `exp`/`log`, sort and user function; per-generation relation `InPlace` by loop invariant on the in-place rewrite; elitism from the ascending first front of `fnds`. Statement false: witness `C69_false`. |
| C70 | Modelled: `nsga2` constructor and `evolve`, `mo_tournament_selection_impl`, batch evaluation (Model/Nsga2.lean). Not modelled: log and screen output. `C70_evolve`: every run makes `gens` steps of the relation `NsgaStep` (offspring evaluated in order, new population chosen from parents and offspring by rank and crowding distance as in C05), only user/bfe/memory/integer-bound exceptions, only points inside the bounds if the numbers are harmless (`NsgaNum`, shown for exact arithmetic). `C70_elitist`: all non-dominated individuals survive or only they do; `C70_survivors`: if there are at most NP of them they all survive. `C70_tournament`, `C70_crowd`: what the parents are chosen by. `C70_throws`: the checks. `C70_ctor`: accepted parameters (NaN is accepted for all four: disagreement with the documentation). |
| C71 | `gwo::evolve` is modelled with its local variables and its log. `C71_evolve` describes the whole run: number and order of evaluations, every move as a pull towards the leaders of that moment, the final population as the last NP evaluated points, and each line of the log. The scores are characterised exactly by `Leaders3` (induction over the evaluations, independent of the three `if`s). The claim itself is false: the initial sort uses `greater_than_f`, hence the leaders start as the three worst individuals (`C71_false`, `C71_nan_false`). `C71_alpha_partial`, `C71_order_partial` and `C71_log_partial` say what is left of it. Missing in `_partial`: alpha against the best (instead of the worst) of the input, and the order before two different better objectives were met. `C71_rate`, `C71_pull`, `C71_last`: the step in exact arithmetic. |
| C72 | Modelled: `moead` constructor and `evolve` with `select_parents` (Model/Moead.lean), on top of the models of `decomposition_weights`, `kNN`, `ideal`, `decompose_objectives` and polynomial mutation. Not modelled: log and screen output. `C72_evolve` (partial correctness: `StuckDraws` says when the parent selection does not end): weights on the simplex, nearest neighbourhoods, each individual one turn per generation; a turn is the relation `MoeadStep` (one evaluation, ideal point updated, individuals replaced only when worse for their own weight, all such unless stopped, at most max(limit, 2)). `C72_ideal`, `C72_weighted` by induction over the turns. Statement false in two points: `C72_limit_false`, `C72_ideal_nan_false`. |
| C73 | Model/Algo: `select_individual`, `replace_individual` and the policy strings transcribed. The chosen index is specified by `Picked` (no individual is better / worse, in range, equal to the index); replacing changes exactly that position, IDs and the rest are kept, errors leave the population unchanged. |
| C74 | Finite data: `Spec.l2viol`. Finding: the code compares the L1 combination of the two group norms of the first with the L2 norm of the second, so only one direction holds. |
| C75 | same model; every front must be a singleton, otherwise `crowding_distance` rejects one-objective points. Finding: ties always throw. |
| C76 | Finding: "grid" lists [0,..,0,1] first, against the documentation. Partial for the other methods. |
| C77 | fold of max per coordinate; positivity through C59. |
| C78 | `decomposeCtor` transcribes the checks in order; the theorem is an exact iff for both outcomes. |
| C79 | `status` with its four counters and the loop of `wait_check` transcribed; characterised by membership and `findSome?`. |
| C80 | `Model/Analytic.lean` has fitness, gradient, Hessians and patterns of five test problems over the reals, loop by loop, with out of range accesses as undefined behaviour. `GradientOf` and `HessiansOf` (Props/Analytic) say with Mathlib's `HasDerivAt` that the entries are the derivatives named by the pattern and that the others vanish. |
| C81 | `OnlyMinimum` (Props/BestKnown): in the box, fitness 0, all others positive. Proved from the closed forms (sums of non-negative terms; cos at most 1). |
| C82 | `BetweenR`, `DominatesR`, `ParetoOptimalR` (Props/Dtlz) are the textbook notions over real vectors. The objective loops are shown equal to a product form (`wt`, Proof/Dtlz) whose components add up to 1 (DTLZ1) or whose squares do (DTLZ2-6), which gives zero ⟹ optimal; projecting the tail onto the optimum gives the converse for DTLZ1-4, 7 and for 5/6 with at most 3 objectives. Witnesses for the two false directions. Missing: nothing that is true of the code. |
| C83 | Closed forms in Proof/Zdt; two abstract lemmas (`zdt_zero_optimal`, `zdt_optimal_zero`) about problems whose second objective is a function of the first and of the distance, increasing in the distance; instantiated per problem. Counting of ones in ZDT5 by induction. Witnesses for the three disagreements. `C83_population`: the average over a population. Not modelled: `get_name`. |
| C84 | Model/Bee.lean: bee_colony.cpp 48-54, 65-237 (without log). The run is related to a specification in terms of what a user sees plus the book of fitnesses and the counters (`BeeGeneration`): the first source with the most failures, one neighbour per source in order, the scout, and as many onlookers as sources. For every lawful generator and both exact and rounded arithmetic. **Disagreement**: `fit[mi]` is not updated after `set_x` (line 162), so the individual found by the scout is compared by the fitness of the abandoned one (`C84_false`); NaN or -inf in the input makes the loop 183-217 endless (`C84_hang`). |
| C85 | Model/Cstrs.lean: cstrs_self_adaptive.cpp 90-125, 132-175, 329-380 (the loops over equalities and inequalities are one loop; the cache is a map). A feasible point: every violation is exactly 0, so is the sum, for every arithmetic with a-b=0 or negative when a<=b. **Disagreement**: std::max(0., NaN) is 0, a NaN constraint counts as met (`C85_nan`). |
| C86 | Model/Cstrs.lean `caHats`, `caPick`: cstrs_self_adaptive.cpp 177-299. The loops are folds that keep the better index; a fold over a strict weak order finds an extreme element. Stated with the relation `Chosen` on indices, which mentions only infeasibility and objective. |
| C87 | Model/Cstrs.lean `caTilde`, `caPen1`, `caPen2`, `caGamma`: cstrs_self_adaptive.cpp 106-124, 286-299, over the reals with the real exponential. **Disagreement**: the scaling factor divides by an objective that may be negative, so a penalty may be a reward (`C87_rewarded`); if nobody is feasible the first penalty pulls the worst individual to the objective of the best (`C87_all_infeasible`). |
| C88 | Model/Cstrs.lean `caEvolve`: cstrs_self_adaptive.cpp 403-508. The inner algorithm is a `Plan`: a tree of fitness calls whose branches depend on the answers (its random numbers are part of the tree), ending in a population or an exception; it may differ in each iteration. Proved by induction over the tree and over the iterations with an invariant about the cache. **Disagreement**: a point that is not in the cache is undefined behaviour in release builds (`C88_undefined`). |
| C89 | As C88. **Disagreement**: worst_idx is computed before the inner algorithm runs, so whatever it puts there is overwritten (`C89_lost`). |
| C90 | Model/Pso.lean transcribes the three initialisations of `neighb` (with the wrap-around of `std::size_t`); ring positions are related by distance on the ring, the lattice by row and column, the random graph by counting occurrences. The default `neighb_param` 4 with one particle gives indices outside the swarm, 1 gives empty lists: witnesses. |
| C91 | Invariant over particles and generations (Props/Pso.lean): every step is `PsoMove`, a relation that says what velocity, position, evaluation and own best become; `PsoGeneration` adds the rewiring. Arithmetic is any without overflow whose rounding keeps signs (`PsoOps`, shown for exact and monotonously rounded arithmetic). `m_memory` is modelled by passing `m_V` in and out. Logs and the screen output are not modelled. |
| C92 | The evaluations go round the swarm, so evaluation k*n+i belongs to particle i; invariant `OwnBest`. |
| C93 | Archives are token lists, loading works in place and may fail; composition lemmas for members, sequences, vectors, optional values and polymorphic pointers; the members and archived members of each class are tables transcribed from the headers and from serialize(). False of five classes and of nlopt. |
| C94 | From the try/catch of the wrappers; truncated archives: every loader that succeeds on a prefix leaves the rest unread, contradicting the round trip. |
| C95 | Props/PsoGen.lean, with the definitions of Spec/PsoGen.lean: `PgGeneration` says what positions, velocities, evaluations, own bests, leader and neighbours are after a generation, in terms of the swarm before it; `PgDone` for a run. The loops over velocities, positions and own bests have their own invariants (Proof/PsoGen.lean), the rest is shared with pso (C90, C91). The seed of a stochastic problem is modelled by a fitness function that may depend on the calls made so far. Witnesses for the cases in which it is false are evaluated in the kernel. |
| C96 | From the `PgGeneration`s of a run, by induction over them; evaluation k*n+i belongs to particle i. |
| C97 | `Model/Sade.lean`: constructor, adaptation, mutation, crossover, repair, selection, exit conditions, memory (sade.cpp and de1220.cpp share the text). `Spec/Sade.lean` states one trial (seven different indexes, formula by table, exact shape of both crossovers), one generation and a run; `C97_evolve` proves by induction over individuals and generations that every run is one of these. `C97_formula`: the 18 formulas are the table by name. The first F and CR of the "best" are those of individual 0, as in the code. |
| C98 | `C98_jde`: invariant over the runs of C97/C99; `C98_range_*` the interval in exact and rounded arithmetic; `C98_jde_draws`: which draw decides what; `C98_ide_*`: table of formulas. |
| C99 | Same model and proof with the choice of the variant as parameter. False of the code for an empty list (`C99_undefined`) and, as to the documented error, for unbounded problems (`C99_unbounded`). |
| C100 | Model/MoeadGen (candidates, evaluation, insertion, main loop) on top of Model/Moead. `C100_evolve` by the loop rules (`wpn`): `MgGeneration` says candidates are `CandOf` the population at the start, evaluations appended in order, insertions `Passes` one by one. `C100_ideal`/`C100_weighted` by induction on the passes. `C100_batch` is an equality of runs for every fitness function `F` and batch evaluator that computes it. |
| C101 | `Model/Nspso.lean` models nspso.cpp 53-408 (all three mechanisms, the move, the batch and the sequential evaluation, the selection, the memory). `NspGeneration` says what a generation is without the model's helpers; `C101_evolve_partial` shows every run is a chain of `gens` of them. False for NaN parameters and for memory of a problem with another dimension (witnesses). |
| C102 | The index of the leader is one of the population, but is used in `m_best_dvs`, which is re-sorted after each generation; the same holds for the index of the particle itself. Witnesses `C102_leader_false`, `C102_own_false`; proved for the first generation (`C102_leader_partial`). `C102_maxmin`: what a negative maxmin value means. |
| C103 | The sequential loop and the loop followed by the batch evaluation are shown to give the same result by induction over the particles (`nspLoops`), then over the generations. |
| C104 | `C104_kept_partial`: in the selection of a generation nobody left out dominates somebody kept. Of the population it is false: `C104_false`. |
| C105 | `C105_ctor`, `C105_throws`, `C105_no_generations`; `C105_evolve_partial`: by a loop invariant on the evaluations; the population after a generation is its evaluations. False of the code: `C105_nan` (NaN for `sigma0`), `C105_undefined` (NaN returned by the fitness function). |
| C106 | `C106_evolve`: the run as a chain of generations (Proof/Xnes), translated generation by generation into the formulas with Mathlib's matrices (Spec/Xnes). `C106_weights_sum`, `C106_weights_order`. Eigen's matrix functions are parameters. |
| C107 | `C107_forget`, `C107_first_partial`; false for one variable: `C107_false`. |
| C108 | `C108_ctor`, `C108_throws`, `C108_no_generations`; `C108_evolve_partial`: by a loop invariant on the evaluations (Proof/Cmaes). False of the code: `C108_nan`. |
| C109 | `C109_evolve`: the run as a chain of generations (Proof/Cmaes), translated into the formulas with Mathlib's matrices (Spec/Cmaes). `C109_weights`, `C109_mueff`, `C109_defaults`, `C109_rates`. |
| C110 | By induction over the generations of Spec/Cmaes: `C110_symmetric`, `C110_positive_partial`; `C110_run_partial` for a whole run of the model. `C110_axes` for a solver that returns orthonormal eigenvectors. False in general: `C110_rates_false`, `C110_false` (over the reals). |
| C111 | `C111_forget`, `C111_first`, `C111_resume`. |
| C112 | The sequential loop and the batch branch give the same result, then over the generations. |
| C113 | `C113_ctor`, `C113_throws`, `C113_no_generations`; `C113_evolve_partial`: by a loop invariant (Proof/Gaco), for all doubles; there a component may be NaN. `C113_box`: in exact arithmetic every point is within the bounds. The documented checks on impstop, evalstop and oracle do not exist (`C113_ctor`). |
| C114 | `C114_penalty`; `C114_best_partial`, `C114_memory_partial`: by induction over the generations, all but the last. False of the code: `C114_last`, `C114_stopped`, `C114_memory_lost`, `C114_nan`. |
| C115 | `C115_weights`, `C115_ants`: from the same chain of generations. False for ker = 2 and q = 0, which the constructor accepts: `C115_two_rows`, `C115_zero`. |
| C116 | `C116_kept_partial`: by induction over the generations, with a counting argument for merging two lists of best ones; for acc = 0, no constraints. False for acc > 0: `C116_second`, `C116_distance`. |
| C117 | `C117_stopped`, `C117_never`: by computation of the first generation; `C117_q`: from the chain of generations. False of the code: calls without memory are not independent (`C117_again`, `C117_q`), a criterion once met stops all later calls (`C117_stopped`), with the value 1 also the first (`C117_never`), a counted call without archive (`C117_empty`). With memory: `C114_memory_partial`. |
| C118 | The sequential loop and the batch branch give the same result, then over the generations. |
| C119 | Case analysis of the checks; `maCtor`, `maEvolve` on any arithmetic. |
| C120 | `maEvolve` (Model/Maco) on top of the functions of gaco; invariant of the main loop: each stage of filling the archive (`MaStage`) writes whole rows of candidates. Proof/Maco, by induction over fronts and generations. |
| C121 | `MaArchives`: relation between generations and archive, shown of each run (`C121_run_partial`); `C121_best`, `C121_front`, `C121_log` by induction on it. Hypervolumes: through C60 and C77. False: `C121_first_log`, `C121_lost`, `C121_infinite`. |
| C122 | `MaStreak`: number of consecutive improvements, from the chain of generations. Disagreement with doc/sphinx/docs/cpp/algorithms/maco.rst 31. Undefined calls: by computation of the first generation for all inputs (`C122_undefined`); witnesses by `decide +kernel`. |
| C123 | NLopt is a parameter that asks questions (`NlAsk`); `NlTold` states the answer in terms of the user's fitness, gradient and pattern (`MatEntry`). The loops over the sparse pattern by induction with `NlPart`, dense ones by arithmetic. `C123_configure`: the set-up succeeds exactly if nothing is refused. |
| C124 | Invariant `NlHistory` over the questions and answers, by induction over the run of any solver (`Played`, `wp_nlOptimize`). Finding: comparison with the selected, replacement of another individual (`C124_replaces_better`, by computation). |
| C125 | Recursion over the nesting of local optimisers. Finding: `load()` keeps a local optimiser the target already has (`C125_stale_local`). |
| C126 | Ipopt is a parameter that calls the methods (`IpAsk`) as it likes; `IpTold` states the answers in terms of the user's problem. The loops merging a hessian's pattern with that of the lagrangian by induction over the pattern (`ipFirst_ok`, `ipAdd_ok`), the union by the fold of `std::set_union`. The lagrangian by induction over the constraints. |
| C127 | Invariant `IpHistory` over questions and answers by induction over the run of any solver. Findings: zeros taken as solution (`C127_zero`), comparison with the selected and replacement of another individual (`C127_replaces_better`), both by computation. |
| C128 | Induction over the sorted list of options. `IpOptsOf` states what options are given, by membership. |
| C129 | `Model/HvApprox` has the race of bf_approx over an engine and an exact hypervolume computation, with a history of the points drawn and of the estimates of every round. `C129_least` and `C129_greatest_partial` hold for every run: erased points are beaten, and the end condition gives the factor. The negation for dominated points is `C129_greatest_dominated`; `C129_empty_box` shows the NaN estimate of a box without volume. |
| C130 | `C130_least` and `C130_greatest_partial` are total: one round, no sampling. They rest on `box_exact`: the volume of the box less that of the points overlapping it is the contribution, as a measure. |
| C131 | `C131_estimates` states what every recorded estimate is and that Hoeffding's bound for its half width has the value of the paper; `C131_total` sums the bounds by comparison with an integral. |
| C132 | `C132_compute_partial` follows the rounds of bf_fpras with their random numbers; `C132_delta_one` holds for all points and engines, `C132_infinite` is a run. |
| C133 | Model/Wfg transcribes the nine fitness functions; Spec/Wfg (`Huband`) states the published problems case by case, without floors, loops or vectors. Proof/WfgFun: each transformation is the published one on [0, 1] and maps into [0, 1]; Proof/WfgSum: the reductions, the non-separable one written with all pairs of a block; Proof/WfgVal, WfgFit: `fitness_tab`, the vectors and loops of the code hold these functions. Real numbers. False for odd blocks (WFG6, WFG9) and WFG8, with witnesses. |
| C134 | `obj_of`: objective = distance + scale * shape with all three in range, from the ranges of C133; the shape has unit norm (`front_sq`) or sum (`front_sum`). The bound 1 of the non-separable reduction is that of a function convex in every variable, taken at the corners (`spread_le`). `C134_negative` shows how an odd block leaves the range. |
| C135 | Uses `ParetoOptimalR` of Props/Dtlz. A point with distance zero is optimal as no point of a product shape is below another one (`front_le`, by recursion over the factors); a point with positive distance is dominated by the one with the same position values and distance zero, which exists as the parameter dependent biases can be undone one variable after another (`project`, `undo_later`). |
| C136 | Heap machine (`Mach`): `m_ptr` is an address or null, `delete` of an address not allocated and the use of a null pointer are undefined behaviour. The copy assignment is what the code does: copy-construct a temporary, move-assign, destroy. `C136_value`: simulation, by an invariant (`Rep`: every object has one owner) kept by each operation, lifted to programs by induction. `C136_members` checks the member lists of the six classes. |
| C137 | `hasImpl`, `setImpl`, `getImpl` follow the `enable_if` overloads of `algo_inner`; presence of a method is an `Option`. `C137_cached` by induction over programs on values. |
| C138 | Model/Cec2006: every objective and constraint as an expression (`E`) whose evaluation gives no value for a division by zero etc.; table of the 24 problems. Finite facts by `decide +kernel` over the table; values by `Proof/Cec2006` (`eval_def`, `def_eval`, `fitness_wf`). |
| C139 | Minima by certificates: sums of squares with multipliers (`g07_min`, `g09_min`), AM-GM (`g03_min`), case analysis (`g24_core`, `g23_core`). Values at rational points by exact rational evaluation (`rat_fitness`). The published values are in Spec/Cec2006. |
| C140 | `g20_core`: the inequalities make 12 components zero, the equalities then contradict each other. |
| C141 | Model/Lennard: constructor, coordinate lookup, the pair loop, bounds. The cluster and its potential are stated with points of Euclidean space and their distance (Spec/Lennard); the fitness is proved equal to it; the lower bound is the pair minimum times the number of pairs; any cluster is moved to the canonical position by an orthonormal basis from Gram-Schmidt. |
| C142 | Model/Inventory: the loops with the engine as explicit state. The cost is stated by the recurrence and the three sums of the documentation (there the indices of I are off by one: the level before week 1 is 0 and the level after week i is I_(i+1)). Convexity: the shortage is the next level minus the balance, so the cost is linear plus levels, which are convex by induction. |
| C143 | Model/Schwefel: constructor, fitness, bounds, best_known. Components below 417 in absolute value cannot matter; beyond, the root is 13 pi/2 + u and cos u is bounded by its Taylor polynomial; the resulting polynomial is a square times a positive polynomial plus a small rest, with pi to 20 digits. |
| C144 | Model/Cec2009: tables, constructor, bounds with writes past the end as undefined behaviour. The box is stated component by component, with components numbered from 1 as in the report. |
| C145 | Model/Cec2009: UF1-UF10 with their loops, sums, products and counts. Spec/Cec2009 states the objectives with sums over the index sets of the report; a general lemma on the loop gives the sums over the groups. |
| C146 | Cec2009 model of C145 over the reals. For each problem two halves: every vector of the box is weakly dominated by a point of the front (Jordan's inequality for UF5 and UF6, the nearest of the two arcs for UF9), and every point of the front is the fitness of an explicit vector inside the bounds. Rounding of doubles is not modelled. |
| C147 | Model/Cec2009: CF1-CF10. Spec/Cec2009C states objectives and constraints with sums over the index sets of the report, sign function and branches included; the loop lemma of C145 gives the sums. |
| C148 | From C147: a feasible vector is weakly dominated by a point of the front (nearest point with the sine bound for CF1-CF3, the branches for CF4-CF7), and an explicit feasible vector attains each point. CF8-CF10 left out. |
| C149 | Same model as C138 (Model/Cec2006). Each theorem gives the fitness of an arbitrary vector and an equivalence between feasibility (`Feas 0`) and the conditions of the report, by evaluating the expressions symbolically. g17 has local variables; its objective equals the tariff only at feasible points, which the theorem states, and an example proves that such points exist. The 34 local variables of g16 are compared with the equations of the report, stated as a relation (`Spec.G16`), where no divisor vanishes; an example proves a feasible point with exact fractions. |
| C150 | Model/Cec2013: constructor, the two buffers as vectors, every read of a table guarded by its length (`Outcome.ub` otherwise). `C150_fitness` follows from the formulas of C152. |
| C151 | One lemma per basic function (Proof/Cec2013): the value is at least 0 and is 0 if the shifted vector is, as rotations, `T_osz` and `T_asy` map 0 to 0 (`CecFloor`). Weierstrass: 3^k is odd; Schwefel: the bound of C143. Compositions: a mean with positive weights (`cec13_cfCal`, `cec13_mean`). `C151_compositionAt`: at the first shift the first weight is 10^99. |
| C152 | Spec/Cec2013 states the functions with sums, products, matrices and the report's operators; `CecIs` relates each function of the class to it (Proof/Cec2013Spec), the compositions by induction over the components. Disagreements: `T_asy` keeps stale entries, problem 19 is not rotated. |
| C153 | Model/Cec2014: constructor (with the loop that erases the tail of each row), the buffers as vectors, reads guarded by the length of the table (`Outcome.ub` otherwise). `cec14_shifts` is an induction over the rows erased; `C153_fitness` follows from the formulas of C154. |
| C154 | Spec/Cec2014 states the functions, the hybrids (`c14Mix`) and compositions (`c14Comp`) with sums, matrices and permutations; Proof/Cec2014 relates each function of the class to it (`C14Is`), Proof/Cec2014Spec the hybrids (induction over the parts) and compositions. |
| C155 | One lemma per function (`C14Floor`): at least 0, and 0 at the zero vector. Hybrids: the sum over the parts (`cec14_mixFloor`). Compositions: a mean with positive weights (`cec14_meanLow`, `cec14_meanHigh`). |
| C156 | `Model/PopulationCtor` is the two constructors on top of `Model/Random` and `Model/Population`. Both ways of drawing are shown to be the same chain of draws of components (`pc_vec`, `pc_batch`); `C156_same` is the equivalence for every evaluator that satisfies `OneByOne`, `C156_threads` shows that the model of `thread_bfe` (C21) does, `C156_members` says what is in the population, `C156_empty` where the two constructors differ. Allocation is assumed to succeed; the distribution objects are assumed to keep no state between calls, as in `Gen`. |
| C157 | `C157_batch`: children are as long as their parents (`onOk_breed`), so no evaluation fails and none touches the engine; the loop without batch evaluator is then the loop with it followed by the evaluations (`nb_loops`, by induction over the groups of four parents), and the equality is carried through the generations as in C103. Runs that end with an exception differ: without batch evaluator some points have been evaluated before it. |
| C158 | `C158_batch`: the ants have the dimension of the problem (`keeps_gaAnts`), so the evaluations cannot fail and the two loops do the same (`gaEval_batch`, shared with C118); carried through the generations as in C103. |
| C159 | `C159_batch`: positions keep the dimension of the problem (`pgSteer_dim`, `pgAdvance_dim`, `pgKeep_xs`), so the evaluations cannot fail and the two programs are equal as functions, failures included. `C159_stochastic_order` is a run on a stochastic problem where the order of the evaluations differs. |
| C160 | `Model/Feasibility` is `feasibility_x` (on the model of `fitness` used by the algorithms) and the scalar `set_c_tol`; `feasibility_f` and the other `set_c_tol` are in `Model/Constrained`. `C160_wrong_size`, `C160_one_call` (case analysis, with C14), `C160_set_c_tol`, `C160_monotone` (the test of C14 is monotone in the tolerance, the case of an infinite value against an infinite tolerance included). |
| C161 | Model/Io: the table with its widths, `add_row` and `operator<<` as text, subtraction and addition of widths in 64 bit unsigned arithmetic, reading past the widths as undefined behaviour. Invariant by induction over the rows: the widths are the greatest lengths of the columns (`IoInv`); the padding then never wraps. |
| C162 | Model/Io: the loops of `stream_range` and of the map with their counter; induction over the elements. Compared with `List.intercalate`. |
| C163 | Model/EigenS11n: the loops of `save` and `load` over the pairs of indices, storage by columns, access past the storage as undefined behaviour, `resize` keeps the storage if its size is right. Induction over the pairs of indices: what was loaded agrees with the matrix saved, the rest is unchanged (`es_loop`); every place of the storage is one of the pairs. |

## Disagreements found

Places where the code at the pinned commit does not do what its documentation, or the natural reading of its API, says. Each line names the
theorem that proves it (a concrete witness unless it says otherwise).

| Where | What | Theorem |
| --- | --- | --- |
| `nadir` | throws for a single point | `C07_nadir_single_point_throws` |
| `crowding_distance` | NaN for points equal in an objective | `C08_duplicate_points_nan` |
| `compare_fc` | no strict weak ordering with both kinds of constraints, so `sort_population_con` and `best_idx` are undefined | `C11_not_strict_weak_order`, `C13_sort_undefined_behaviour` |
| `feasibility_f` | infinite violation against an infinite tolerance | `C14_infinite_tolerance` |
| `population` | champion not updated by `set_individuals`; stale after a change of the tolerances | `C18_migration_leaves_champion_stale`, `C16_stale_after_set_c_tol` |
| `population` constructors | for no individuals, one checks the bounds and the other does not | `C156_empty` |
| `best_idx` | wrong with NaN objectives | `C17_nan` |
| `problem` | counter incremented by a batch that fails; cached hessian size wraps | `C20_failed_batch_counts`, `C22_cached_hessians_overflow` |
| `algorithm` | what is cached at construction can differ from what the object says later | `C137_stale` |
| `unconstrain` | `ignore_o` reads out of range in `batch_fitness` | `C25_ignore_o_undefined` |
| `decompose` | lost update of the ideal point while thread safety is reported | `C27_lost_update` |
| `free_form` | accepts parallel edges | `C34_parallel_edges` |
| `task_queue` | `wait_all` can miss the notification and hang; `notify_one` can wake the wrong thread | `C39_lost_wakeup`, `C39_wrong_thread_woken` |
| `force_bounds_reflection` | does not end for equal bounds | `C48_reflection_hangs` |
| `polynomial_mutation` | NaN for a distribution index below -1 | `C49_mutation_nan` |
| `sample_from_simplex`, `hypervolume`, algorithm constructors | NaN passes the checks | `C54_nan_accepted`, `C62_nan_accepted`, `C64_nan`, `C91_nan`, `C101_nan`, `C105_nan`, `C108_nan` |
| `hypervolume::contributions` in 2 and 3 dimensions | wrong or undefined when points share a coordinate | `C60_wrong_contribution`, `C60_wrong_contribution_2d`, `C60_undefined`, `C61_wrong_greatest` |
| `bf_approx` | `greatest_contributor` wrong with dominated points | `C129_greatest_dominated` |
| `bf_fpras` | NaN for delta = 1, infinity if no round ends | `C132_delta_one`, `C132_infinite` |
| `compass_search` | never ends with `max_fevals` 2^32 - 1 and a stop range of 0 | `C65_never_ends` |
| `compass_search` | unbounded problems give no error: the fitness is called at infinity | `C65_unbounded` |
| `ihs` with several objectives | chosen individuals lost or doubled | `C69_false` |
| `ihs` constructor | accepts 0, 1 and NaN as probabilities, rejects a zero `bw_min` (ihs.hpp 131-132 says open interval and negative) | `C69_ctor` |
| `gwo` | starts with the three worst individuals as leaders | `C71_false` |
| `moead` | one candidate can replace two individuals with limit 1 | `C72_limit_false` |
| penalty of `cstrs_self_adaptive` | rewards infeasible points | `C87_rewarded`, `C87_all_infeasible` |
| `compare_fc` | a smaller violation is not always preferred | `C74_smaller_violation_not_preferred` |
| `cstrs_self_adaptive` | overwrites one individual even if it is the best; undefined for some inner algorithms | `C89_lost`, `C88_undefined` |
| `decomposition_weights` | `grid` does not begin with the unit vectors | `C76_grid_not_canonical_first` |
| `bee_colony` | a better individual replaced by a worse one; does not end on NaN | `C84_false`, `C84_hang` |
| `pso`, `pso_gen` | undefined for one particle or `neighb_param` 1 with lbest; the neighbourhood leaves the ring | `C91_undefined`, `C90_ring_outside`, `C95_undefined` |
| `de1220` | empty list of variants accepted and then read out of range; unbounded problems give no error | `C99_undefined`, `C99_unbounded` |
| `nspso` | leader not from the best points from the second generation on | `C102_leader_false`, `C104_false` |
| `xnes` | one variable: first run with memory differs | `C107_false` |
| `cmaes` | covariance matrix can lose positivity with default rates | `C110_false` |
| `gaco` | best of the last generation lost; state of a call without memory lasts; one stop criterion stops all later calls | `C114_last`, `C117_q`, `C117_stopped` |
| `gaco` | with ker = 2 nothing new is evaluated; distance `acc` not kept | `C115_two_rows`, `C116_distance` |
| `maco` | `evalstop` counts generations with an improvement; undefined for small `ker` | `C122_stopped`, `C122_small_ker` |
| `nlopt`, `ipopt` | a better individual can be overwritten; zeros taken as a solution | `C124_replaces_better`, `C127_replaces_better`, `C127_zero` |
| `nlopt` | `load` keeps an old local optimiser | `C125_stale_local` |
| `wfg` | integer division in the reduction of WFG6 and WFG9; WFG8 uses transformed variables; a dominated "optimum" | `C133_wfg6_false`, `C133_wfg8_false`, `C133_wfg9_false`, `C134_negative` |
| `dtlz`, `zdt` | p-distance positive on optimal points or zero on others | `C82_dtlz5_false`, `C82_dtlz7_false`, `C83_zdt3_false`, `C83_zdt5_false` |
| `cec2006` | best known points of g03, g11, g15, g23 infeasible; g20 has no feasible point | `C139_infeasible`, `C139_infeasible03`, `C140_g20` |
| `cec2009` | undefined bounds and NaN objectives for small dimensions; constraints that read out of range | `C144_bounds_ub`, `C145_small2`, `C145_small3`, `C147_ub` |
| `cec2013` | `asyfunc` leaves entries unrotated; expanded Griewank-Rosenbrock ignores the rotation | `C152_report_differs`, `C152_no_rotation` |

Seen while reading and not proved: the move constructor of `problem` is `noexcept` but copies `m_hs_dim` (src/problem.cpp 278); the error message
of `cec2014` names ids up to 28 although 30 are accepted; several functions of `cec2014` that no problem uses have slips (integer division in an
exponent, an unrotated vector, a rounding without effect); the sum of weights of its compositions overflows when two shifts coincide with the point.
