{"id": "C01", "title": "Pareto dominance is a strict partial order", "statement": "pareto_dominance(a, b) returns true exactly when a is no worse than b in every objective and better in at least one (NaN counts as worse than every number and equal to NaN). On vectors of one common length the relation is irreflexive, asymmetric and transitive; on vectors of different length the call throws.", "quantifier": "all pairs/triples of objective vectors of any length, with any double entries including NaN, infinities and signed zeros", "why_tests_cant": "the set of vectors is infinite and the order laws quantify over pairs and triples; NaN interactions are easily missed by samples", "anchors": ["src/utils/multi_objective.cpp:pareto_dominance", "include/pagmo/detail/custom_comparisons.hpp:less_than_f,greater_than_f"]}
{"id": "C02", "title": "Non-dominated sorting returns the true dominance layers", "statement": "fast_non_dominated_sorting(points) either throws (fewer than two points, or points of different sizes) or returns fronts that partition the indices 0..N-1 without repetition, such that front 0 holds exactly the points dominated by nobody, and a point is in front k+1 exactly when all its dominators lie in fronts 0..k and at least one lies in front k. The returned rank of a point is the number of its front, the returned domination list of i holds exactly the points i dominates.", "quantifier": "all lists of points of any length and any number of objectives, with any double entries", "why_tests_cant": "correctness of the peeling loop is an invariant over an unbounded number of points and fronts", "anchors": ["src/utils/multi_objective.cpp:fast_non_dominated_sorting"]}
{"id": "C03", "title": "Domination counts returned by non-dominated sorting", "statement": "The third component of the tuple returned by fast_non_dominated_sorting(points) is documented as the domination count: entry i must be the number of points that dominate point i.", "quantifier": "all lists of at least two points", "why_tests_cant": "needs a statement about the value left in an array after an arbitrary number of loop iterations", "anchors": ["src/utils/multi_objective.cpp:fast_non_dominated_sorting", "include/pagmo/utils/multi_objective.hpp:fnds_return_type"]}
{"id": "C04", "title": "The two-objective front routine returns exactly the non-dominated points", "statement": "For points with two objectives non_dominated_front_2d(points) returns, without repetition, exactly the indices of the points that no other point dominates, whatever order std::sort leaves equal points in.", "quantifier": "all lists of two-objective points of any length, all behaviours of std::sort on equivalent elements", "why_tests_cant": "unbounded inputs and unspecified sort order; ties and duplicates are the failing corner", "anchors": ["src/utils/multi_objective.cpp:non_dominated_front_2d"]}
{"id": "C05", "title": "Selecting the best N of a multi-objective population respects rank", "statement": "select_best_N_mo(f, N) returns min(N, size) distinct valid indices; every individual that is left out has a non-domination rank not better than any individual kept, and when a front is split, the ones kept have crowding distance at least that of those dropped from the same front.", "quantifier": "all populations of multi-objective fitness vectors, all N, all admissible sort orders", "why_tests_cant": "the guarantee relates every kept to every dropped individual for unbounded populations", "anchors": ["src/utils/multi_objective.cpp:select_best_N_mo"]}
{"id": "C06", "title": "Sorting a multi-objective population is a permutation ordered by rank, then crowding", "statement": "sort_population_mo(f) returns a permutation of 0..N-1 in which ranks never decrease and, inside equal ranks, crowding distances never increase.", "quantifier": "all populations with at least two individuals and finite objectives", "why_tests_cant": "quantifies over all populations and all behaviours of std::sort", "anchors": ["src/utils/multi_objective.cpp:sort_population_mo"]}
{"id": "C07", "title": "Ideal and nadir points", "statement": "ideal(points) returns the vector whose i-th entry is the smallest i-th objective present among the points; nadir(points) returns the vector whose i-th entry is the largest i-th objective present among the non-dominated points. Both are defined for every non-empty list of equally sized points.", "quantifier": "all non-empty lists of equal-length points", "why_tests_cant": "minimum/maximum over unbounded lists, plus interaction with the non-dominated front", "anchors": ["src/utils/multi_objective.cpp:ideal", "src/utils/multi_objective.cpp:nadir"]}
{"id": "C08", "title": "Crowding distance marks the extremes and measures neighbour gaps", "statement": "For a non-dominated set with finite, pairwise distinct objective values crowding_distance gives an infinite value to every point that is extreme in some objective and to every other point the sum over objectives of the gap between its two neighbours divided by the objective range; no value is negative or NaN.", "quantifier": "all fronts of any size and dimension", "why_tests_cant": "the neighbour structure depends on sorting unbounded inputs", "anchors": ["src/utils/multi_objective.cpp:crowding_distance"]}
{"id": "C09", "title": "Decomposition is consistent with Pareto dominance", "statement": "For non-negative weights, if objective vector a is component-wise no larger than b, then the weighted decomposition of a is no larger than that of b; the same holds for the Tchebycheff decomposition when the reference point is component-wise no larger than a. The weighted value is the scalar product, the Tchebycheff value the largest weighted distance to the reference point. Exactly size mismatches, empty vectors and unknown methods throw.", "quantifier": "all pairs of objective vectors, weights, reference points of any length; exact arithmetic and monotone rounding", "why_tests_cant": "monotonicity over all real vectors", "anchors": ["src/utils/multi_objective.cpp:decompose_objectives"]}
{"id": "C10", "title": "Decomposition weights are points of the simplex", "statement": "decomposition_weights(n_f, n_w, method, rng) either throws or returns exactly n_w vectors of n_f non-negative entries summing to one, for each of the three generation methods, whatever the random numbers; for 'random' and 'low discrepancy' the first n_f vectors are the canonical corners; for 'grid' the vectors are pairwise distinct.", "quantifier": "all n_f, n_w, methods and random streams (exact arithmetic)", "why_tests_cant": "unbounded sizes, all random streams; combinatorial enumeration of the grid", "anchors": ["include/pagmo/utils/multi_objective.hpp:decomposition_weights", "src/utils/multi_objective.cpp:reksum", "src/utils/discrepancy.cpp:sample_from_simplex"]}
{"id": "C100", "title": "moead_gen makes a whole generation from the old population, then evaluates, then inserts", "statement": "moead_gen::evolve: in each generation one candidate per individual is made by differential evolution (the individual plus F times the difference of two different parents from its neighbourhood, or from the whole population only with diversity preservation) and polynomial mutation, all from the population as it was at the start of the generation. All candidates are then evaluated exactly once, in order, through the batch evaluator if one is set. Then they are inserted one after the other: ideal point updated, then only individuals that are worse for their own weight are replaced, all such unless diversity preservation stops it (at most max(limit,2)). A run with a batch evaluator that computes the fitness function does exactly what a run without it does: same population, same random stream, same evaluations. IDs stay; invalid problems, populations and parameters are refused with invalid_argument before anything changes.", "quantifier": "all engines, arithmetics, problems, populations, parameters, numbers of generations, fitness functions and batch evaluators", "why_tests_cant": "Tests run a few seeds on two problems and compare final hypervolume or the logs; they cannot establish that no candidate sees an insertion of its own generation, nor equivalence of batch and sequential evaluation for every fitness function and seed.", "anchors": ["src/algorithms/moead_gen.cpp:107-347", "src/algorithms/moead_gen.cpp:57-98", "include/pagmo/algorithms/moead_gen.hpp"]}
{"id": "C101", "title": "nspso does the generations asked for", "statement": "evolve() of nspso performs exactly gen generations. In each, every particle's velocity is omega*v + c1*r1*(best[i]-x) + c2*r2*(best[leader]-x), limited to v_coeff of the bound's width per component; the particle moves by chi times it and is stopped at a bound it passes; the leader is another particle out of the first leader_selection_range per cent of the candidates given by the diversity mechanism. Every point reached is evaluated exactly once, inside the bounds. Of new points and best points so far the best are kept. With memory, velocities and best points of the run before are used. It throws for stochastic, constrained, single-objective problems and populations below 2, and the constructor throws for parameters outside the documented ranges.", "quantifier": "all problems with finite bounds, populations, engines, sort implementations, parameters, diversity mechanisms, batch evaluators and numbers of generations", "why_tests_cant": "the random engine, the unspecified order of std::sort and the number of generations give unboundedly many executions", "anchors": ["src/algorithms/nspso.cpp:53-408", "include/pagmo/algorithms/nspso.hpp", "doc/sphinx/docs/cpp/algorithms/nspso.rst"]}
{"id": "C102", "title": "nspso: a particle is led by its own best point and by a good leader", "statement": "In nspso the force c1 pulls a particle to its own previous best position, and the force c2 to its leader, which is among the best individuals of the swarm according to the diversity mechanism.", "quantifier": "all generations of all runs", "why_tests_cant": "which individual is at which index of the re-sorted list of best points depends on all the fitness values of the generation", "anchors": ["src/algorithms/nspso.cpp:195-337", "src/algorithms/nspso.cpp:369-400", "doc/sphinx/docs/cpp/algorithms/nspso.rst"]}
{"id": "C103", "title": "nspso: batch evaluation makes no difference", "statement": "If the fitness is a function of the point and the batch evaluator computes it, a run of nspso with set_bfe() that ends without exception has the same population, memory, random engine and fitness evaluations as a run without.", "quantifier": "all problems, batch evaluators, populations, engines, parameters", "why_tests_cant": "the two loops differ in the order of drawing and evaluating; equality must hold for every fitness function and engine", "anchors": ["src/algorithms/nspso.cpp:292-368"]}
{"id": "C104", "title": "nspso keeps what is best", "statement": "An individual of the population given to nspso is not lost in favour of individuals it dominates.", "quantifier": "all runs", "why_tests_cant": "depends on the unspecified fitness values and random numbers", "anchors": ["src/algorithms/nspso.cpp:369-406"]}
{"id": "C105", "title": "xnes: what a run does", "statement": "xnes::evolve throws std::invalid_argument, before anything happens, for constrained or multi-objective problems, fewer than four individuals or a bound that is not finite; the constructor throws for learning rates and sigma0 outside ]0,1] other than -1. Otherwise every generation evaluates one new point per individual, in turn, which replaces the individual whatever its fitness; there are between one and gen generations; the individuals keep their IDs. With force_bounds no point outside the bounds is evaluated.", "quantifier": "for all problems, parameters, populations, engines and fitness functions (also stateful and failing ones)", "why_tests_cant": "That bounds are respected and evaluations counted on sample runs says nothing about other parameters, such as NaN, or about fitness functions that return NaN.", "anchors": ["src/algorithms/xnes.cpp:53-82", "src/algorithms/xnes.cpp:96-317", "include/pagmo/algorithms/xnes.hpp:60-130"]}
{"id": "C106", "title": "xnes: the distribution follows the formulas of the paper", "statement": "In exact arithmetic the points of a generation are mean + A z for the normal vectors z drawn; with the vectors ordered by the fitness of their points and weights u (max(0, log(n/2+1) - log(k+1)) normalised, minus 1/n; they sum up to zero, do not increase, and are equal for the worse half), the next mean is mean + eta_mu A sum u z and the next A is A exp(1/2 (eta_sigma t I + eta_b (M - t I))), M = sum u (z z^T - I), t = tr M / dim. A run starts from the best individual and the width of the bounds times sigma0, and stops early only if the first step is shorter than xtol or the fitness values differ by less than ftol.", "quantifier": "for all dimensions, population sizes, rates, and numbers of generations", "why_tests_cant": "A wrong sign, index or normalisation still converges on the test problems.", "anchors": ["src/algorithms/xnes.cpp:150-312"]}
{"id": "C107", "title": "xnes: memory", "statement": "Without memory a run does not depend on earlier runs. With memory the distribution continues where the last run left it, unless the number of variables changed; the first run of a new algorithm with memory is the same as without.", "quantifier": "for all problems, parameters, and states left by earlier runs", "why_tests_cant": "The tests compare runs on problems with several variables.", "anchors": ["src/algorithms/xnes.cpp:78-81", "src/algorithms/xnes.cpp:178-197"]}
{"id": "C108", "title": "cmaes: what a run does", "statement": "cmaes::evolve on a population of at least five individuals of a problem with finite bounds returns the population with the same IDs. It does at most the given number of generations, each of which evaluates as many new points as there are individuals, and after at least one generation the population are the points of the last one with the fitnesses returned; if it stops before the first generation nothing is evaluated and the population is that given. With force_bounds all points evaluated are inside the bounds. Constrained, multi-objective or unbounded problems and populations of less than five throw std::invalid_argument with nothing changed, before anything is evaluated; zero generations do nothing. The constructor throws exactly for a rate that is neither in [0,1] nor -1. An exception of the fitness function or of the batch evaluator leaves evolve with the population sound.", "quantifier": "for all problems, fitness functions (NaN, exceptions), batch evaluators that return vectors of the right sizes, engines, normal distributions, eigenvalue solvers, populations, parameters, memory", "why_tests_cant": "The points depend on hundreds of draws and matrix operations; that no point leaves the box and that the population returned is the last generation holds for every seed only by proof.", "anchors": ["src/algorithms/cmaes.cpp:57-98,104-420", "include/pagmo/algorithms/cmaes.hpp:50-160"]}
{"id": "C109", "title": "cmaes: a generation follows the formulas of the paper", "statement": "In exact arithmetic each generation of cmaes::evolve draws points mean + sigma B D z with z normally distributed, sorts the new individuals by fitness and computes from the better half of them, with weights that are positive, decreasing and sum up to 1, the new mean, evolution paths, covariance matrix and step size by the formulas of Hansen's review; the decomposition of the covariance matrix is renewed when due. The run starts at the best individual with the box as axes or, with memory, where the previous run ended. It stops before the first generation in which the last step drawn is shorter than xtol or best and worst fitness differ by less than ftol. The default rates are in (0,1], the effective number of parents is at least 1, and the step size remains positive.", "quantifier": "for all problems with finite bounds, fitness functions, engines, populations with finite chromosomes and no NaN fitness, solvers, strictly increasing logarithms, positive exponentials, parameters, numbers of generations", "why_tests_cant": "A wrong coefficient, a swapped path or an update from the worse half makes the optimiser converge more slowly but still converge on test problems.", "anchors": ["src/algorithms/cmaes.cpp:140-420", "include/pagmo/algorithms/cmaes.hpp:50-110"]}
{"id": "C11", "title": "Constrained comparison is a strict weak ordering", "statement": "compare_fc(f1, f2, neq, tol) defines a strict weak ordering on fitness vectors (irreflexive, transitive, and 'neither is better' is transitive), as required by std::sort inside sort_population_con.", "quantifier": "all triples of fitness vectors of one length, all splits into equality/inequality constraints, all tolerances", "why_tests_cant": "a law over triples of real vectors; violations need specially chosen violation norms", "anchors": ["src/utils/constrained.cpp:compare_fc", "include/pagmo/utils/constrained.hpp:test_eq_constraints,test_ineq_constraints"]}
{"id": "C110", "title": "cmaes: the covariance matrix is one", "statement": "In exact arithmetic the matrix C adapted by cmaes is symmetric and positive semidefinite after any number of generations; after each decomposition (B D)(B D)^T is C and invsqrtC is the inverse of its square root, if no eigenvalue was below 1e-20.", "quantifier": "for all runs, populations, dimensions, rates, solvers that return orthonormal eigenvectors", "why_tests_cant": "Loss of definiteness depends on the ratio of population size and dimension and on the rates; the eigenvalues are cut off at 1e-20, so nothing fails visibly when C has lost its meaning.", "anchors": ["src/algorithms/cmaes.cpp:160-200,340-410"]}
{"id": "C111", "title": "cmaes: memory", "statement": "Without memory the result of evolve does not depend on runs before. With memory it does not either if the number of variables or individuals is different from the last run; a first run with memory gives the same as without. With memory and the same sizes the run goes on with step size, mean, matrices, paths and counters of the last one.", "quantifier": "for all problems, parameters, members left by earlier runs, populations, engines", "why_tests_cant": "Needs pairs of runs from all internal states; members are private.", "anchors": ["src/algorithms/cmaes.cpp:196-240"]}
{"id": "C112", "title": "cmaes: batch evaluation gives the same result", "statement": "With a batch evaluator that returns the fitnesses of the problem, evolve of cmaes gives the same population, the same engine state, the same members and the same evaluations in the same order as without one.", "quantifier": "for all deterministic problems, batch evaluators that agree with the fitness function, parameters, populations, engines, numbers of generations", "why_tests_cant": "The two branches are separate code; equality on some runs says nothing about other sizes.", "anchors": ["src/algorithms/cmaes.cpp:312-350"]}
{"id": "C113", "title": "gaco: what is evaluated and what is in the population", "statement": "gaco::evolve evaluates, in each of at most gen generations, as many new points as there are individuals; they are within the bounds and have integers where integers are required. Without memory and without an early stop the first ker individuals of the returned population are those of the solution archive, the others those of the last generation. It throws for stochastic and multi-objective problems and for fewer individuals than ker; an empty population or gen = 0 leaves everything as it is. The constructor throws for negative acc, focus or q, ker below 2 and a threshold outside 1..gen; the documentation says that also impstop, evalstop and the oracle are checked.", "quantifier": "for all problems (constrained, mixed integer), fitness functions, batch evaluators, engines, parameters, populations, memory on or off, members left by any earlier run", "why_tests_cant": "Indices into the archive and the order lists depend on the population and the acc threshold; tests run a few problems and cannot see an out-of-range read or a point outside the bounds for rare draws.", "anchors": ["src/algorithms/gaco.cpp:60-92,104-446", "include/pagmo/algorithms/gaco.hpp:60-175"]}
{"id": "C114", "title": "gaco: the best individual is not lost", "statement": "The oracle penalty orders individuals by objective if there are no constraints, and is negative only for feasible points with an objective below the oracle. The best individual (without constraints the one of smallest objective; with constraints the best feasible one, if its objective is below the oracle) of the initial population and of all generations is in the population returned by gaco::evolve; with memory it is in the archive the next call goes on with.", "quantifier": "for all problems with finite fitness, populations, engines, batch evaluators, parameters, oracles; sequences of calls with memory", "why_tests_cant": "Which individuals survive depends on random draws over many generations; a test compares one final fitness with a tolerance and does not notice that a better point was evaluated and dropped.", "anchors": ["src/algorithms/gaco.cpp:195-446,506-672"]}
{"id": "C115", "title": "gaco: how new points are drawn", "statement": "Each new point is drawn around one of the ker rows of the archive: the row of rank k is chosen with probability proportional to exp(-(k-1)^2 / (2 q^2 ker^2)), so better rows are preferred; each component is that of the row plus a normally distributed number times the standard deviation (largest minus smallest distance of rows, divided by the generation mark; bounded by the focus), moved to the bounds, rounded for integers. q becomes 0.01 at generation threshold. New points are generated for every ker the constructor accepts.", "quantifier": "for all problems with finite bounds, populations, engines, ker, q, focus, threshold, memory on or off; exact arithmetic", "why_tests_cant": "The row and deviation used are internal; a swapped index or a degenerate deviation still yields points in the bounds.", "anchors": ["src/algorithms/gaco.cpp:687-879"]}
{"id": "C116", "title": "gaco: the solution archive keeps the best", "statement": "The solution archive holds the ker best individuals of the initial population and of all generations, in order of their penalty; with acc above zero their penalties differ pairwise by at least acc. So the first ker individuals of the population returned (without memory) are the ker best seen.", "quantifier": "for all problems, populations, engines, batch evaluators, parameters; all generations", "why_tests_cant": "The archive is internal; with a wrong index in the merge the run still improves, and only a comparison with all points evaluated shows the loss.", "anchors": ["src/algorithms/gaco.cpp:566-672", "include/pagmo/algorithms/gaco.hpp:85-113"]}
{"id": "C117", "title": "gaco: what one call leaves to the next", "statement": "Without memory calls of evolve are independent of each other. With memory a call goes on with the archive of the call before. A stopping criterion stops the call in which it is met; a later call starts counting anew. impstop = n stops after n generations without improvement.", "quantifier": "for all problems, populations, parameters the constructor accepts, sequences of calls, also on empty populations", "why_tests_cant": "Tests call evolve once per algorithm object, or do not compare calls; the state that lasts is in mutable members.", "anchors": ["src/algorithms/gaco.cpp:104-190,687-746", "include/pagmo/algorithms/gaco.hpp:242-264"]}
{"id": "C118", "title": "gaco: batch evaluation changes nothing", "statement": "If the fitness is a function of the point and the batch evaluator computes it for every point, gaco::evolve with a batch evaluator gives the same population, members, random engine and evaluations in the same order as without.", "quantifier": "for all problems (also constrained), fitness functions, populations, parameters, engines", "why_tests_cant": "Equality over all runs and all ways of chunking the result cannot be sampled.", "anchors": ["src/algorithms/gaco.cpp:285-340"]}
{"id": "C119", "title": "maco: constructor and refusals", "statement": "The constructor throws exactly for a negative focus and for a threshold below 1 or (without memory) above the number of generations; otherwise the members are the arguments. evolve throws and changes nothing of the population or the engine for an empty population, a stochastic problem, and with generations for a population smaller than ker, a constrained or single-objective problem. With no generations nothing is changed.", "quantifier": "for all arguments, problems, populations, engines", "why_tests_cant": "The refusals concern all parameter combinations, including NaN.", "anchors": ["src/algorithms/maco.cpp:67-145"]}
{"id": "C12", "title": "Constrained comparison prefers feasibility, then fewer violations, then the objective", "statement": "compare_fc(f1, f2, ...) : a fitness satisfying strictly more constraints is preferred; between two feasible fitnesses the one with the lower objective is preferred (NaN last); the function throws exactly when sizes are inconsistent.", "quantifier": "all pairs of fitness vectors and tolerances, including NaN and infinities", "why_tests_cant": "decision logic over an unbounded number of constraints and NaN cases", "anchors": ["src/utils/constrained.cpp:compare_fc"]}
{"id": "C120", "title": "maco: what a run is", "statement": "A run of maco::evolve reads and writes within bounds, keeps the size and the IDs rules of the population, evaluates each ant once, keeps all new points in the bounds and integer where required, and returns a population whose first ker individuals are the solution archive and the others those of the last generation; exceptions come only from the problem or the batch evaluator.", "quantifier": "for all multi-objective problems with sane bounds, populations, engines, batch evaluators, parameters with ker at least 2, sequences of calls", "why_tests_cant": "Out-of-bounds accesses occur for special front sizes only; a run that ends normally does not show which individuals are lost.", "anchors": ["src/algorithms/maco.cpp:89-534"]}
{"id": "C121", "title": "maco: the solution archive keeps the best", "statement": "The solution archive holds for each objective an individual with the best value seen, and all nondominated individuals seen as long as they fit in; the ideal points logged are those of all individuals seen before; individuals of a front are ranked by their exclusive hypervolume.", "quantifier": "for all problems, populations, engines, parameters; all generations", "why_tests_cant": "The archive is internal; only a comparison with all points evaluated shows a loss, and the log of the first generation is plausible even if wrong.", "anchors": ["src/algorithms/maco.cpp:173-408"]}
{"id": "C122", "title": "maco: stopping and memory", "statement": "evalstop = n stops the run after n generations without improvement of the ideal point; a stopped run returns the archive. With memory a call goes on with the archive of the call before, also after the algorithm was saved and loaded, for populations of any size that is not refused.", "quantifier": "for all problems, populations, parameters the constructor accepts, sequences of calls", "why_tests_cant": "Tests use short runs, a single call and one population size; the state that lasts is in mutable members.", "anchors": ["src/algorithms/maco.cpp:91-98,283-316,569-574", "doc/sphinx/docs/cpp/algorithms/maco.rst:27-37"]}
{"id": "C123", "title": "nlopt: what NLopt is told", "statement": "For a problem with one objective, NLopt gets as objective, equality and inequality values the components 0, 1..nec and nec+1..nec+nic of the fitness the user's problem returns for the point it asks about, and as derivatives the rows of the user's gradient that belong to them, each number at row * nx + column of NLopt's array, zero where the sparsity pattern has no entry. If the problem has no gradient and derivatives are wanted, invalid_argument is thrown. The constraints are added with the tolerances of the problem, those of the equalities first. A problem with more than one objective, a solver or criterion NLopt refuses, or sizes that do not fit into unsigned are reported by exceptions.", "quantifier": "for all problems, dense or sparse gradients with every valid pattern, all points and all orders of questions", "why_tests_cant": "A shifted row or a wrong offset in the sparse loops shows only for particular patterns together with particular constraint counts, and then as slow convergence.", "anchors": ["src/algorithms/nlopt.cpp:179-339,373-649,787-800"]}
{"id": "C124", "title": "nlopt: what a run does", "statement": "evolve on an empty population does nothing. Otherwise NLopt runs from the individual the selection policy names, which must be inside the bounds and without NaN; each question of NLopt costs one evaluation at its point and is answered truthfully; the result is evaluated once more and, if it is better than the selected individual by the ordering for constrained problems, overwrites the individual the replacement policy names, identifiers staying the same; else the population is unchanged. With selection \"best\" the best never gets worse. get_last_opt_result() is the return code, the log has a line with the number of evaluations, objective, violated constraints, norm and feasibility for evaluation 1, 1+v, 1+2v, ... of the objective. If the user's code throws in a callback the last such exception is thrown by evolve after NLopt returns, with the population unchanged.", "quantifier": "for all behaviours of the NLopt library, all problems, populations, policies, fitness functions (also changing or throwing ones) and verbosities", "why_tests_cant": "NLopt's behaviour and the moment of exceptions cannot be controlled from tests; a test sees a few solvers on a few problems.", "anchors": ["src/algorithms/nlopt.cpp:433-473,776-847", "include/pagmo/algorithms/nlopt.hpp:60-180"]}
{"id": "C125", "title": "nlopt: the object", "statement": "The constructor accepts exactly the documented solver names. The setters of the stopping criteria refuse NaN and accept everything else. Saving and loading gives back the same object with its local optimisers, nested to any depth.", "quantifier": "for all names, values, objects and archives", "why_tests_cant": "Tests load into new objects only and nest once.", "anchors": ["src/algorithms/nlopt.cpp:95-119,713-770,907-969,1008-1034"]}
{"id": "C126", "title": "ipopt: what Ipopt is told", "statement": "For a problem with one objective and a gradient, every method Ipopt calls gets what the user's problem says: the sizes and numbers of nonzero entries, the bounds (0 and 0 for an equality, -infinity and 0 for an inequality), the selected individual as starting point, the objective and its gradient, the constraints in the order of the problem, the structure of the jacobian of the constraints (the rows of the gradient's pattern after the objective) with its values in that order, the structure of the hessian of the lagrangian (the union of the patterns of all hessians, sorted, each pair once), and its values: in exact arithmetic, at each pair the factor times the objective's entry plus the sum of multiplier times constraint's entry. A problem with several objectives or without gradient is refused; hessians or multipliers that do not exist, and numbers too large for int, are reported by exceptions.", "quantifier": "for all problems, dense or sparse gradients and hessians with every valid pattern, all points, factors and multipliers, all orders of questions", "why_tests_cant": "The merging of the hessians' patterns goes wrong only for particular overlaps of patterns; a wrong entry only slows the convergence down.", "anchors": ["src/algorithms/ipopt.cpp:132-563"]}
{"id": "C127", "title": "ipopt: what a run does", "statement": "evolve on an empty population does nothing. Otherwise Ipopt runs with the user's options from the individual the selection policy names, which must be inside the bounds and without NaN; each question about objective or constraints costs one evaluation at its point; its solution is evaluated once more and, if it is better than the selected individual by the ordering for constrained problems, overwrites the individual the replacement policy names, identifiers staying the same; else the population is unchanged. With selection \"best\" the best never gets worse. The last result and the log are those of the run. If something throws in a callback the last such exception is thrown by evolve after Ipopt returns, with the population unchanged. The individuals of the population stay inside the bounds.", "quantifier": "for all behaviours of the Ipopt library, all problems, populations, policies, options, fitness functions (also changing or throwing ones) and verbosities", "why_tests_cant": "Ipopt's behaviour and the moment of exceptions cannot be controlled from tests; a test sees a few problems.", "anchors": ["src/algorithms/ipopt.cpp:331-377,566-668,819-930"]}
{"id": "C128", "title": "ipopt: options", "statement": "Setting an option sets it to the value and leaves the other options alone; setting a map of options does that for each. Ipopt is given each option at most once: all the options the user has set with their values, and of the others constr_viol_tol with the smallest tolerance of the problem if that is positive, hessian_approximation = limited-memory if the problem has no hessians, print_level = 0.", "quantifier": "for all maps of options, all problems and tolerances", "why_tests_cant": "Tests try a few combinations of user options and defaults.", "anchors": ["src/algorithms/ipopt.cpp:860-894,969-1043"]}
{"id": "C129", "title": "bf_approx: the contributor found", "statement": "bf_approx::least_contributor and greatest_contributor return the index of a point. If in each round every estimate obtained by sampling was within its half width of the contribution it estimates, the point returned contributes at most 1 + eps times (at least 1 / (1 + eps) times) what any other point contributes. The constructor rejects eps and delta outside [0, 1]; compute throws.", "quantifier": "for all lists of points not worse than the reference point in any coordinate, all dimensions from 2 on, engines, parameters, numbers of rounds and samples", "why_tests_cant": "The race is random and its estimates are not observable; a wrong elimination or stop rule shows only for particular fronts and seeds.", "anchors": ["src/utils/hv_algos/hv_bf_approx.cpp:54-112,230-287,349-499", "include/pagmo/utils/hv_algos/hv_bf_approx.hpp:60-200"]}
{"id": "C13", "title": "Sorting a constrained population puts preferred individuals first", "statement": "sort_population_con(f, neq, tol) returns a permutation of the indices such that no individual is preferred (by compare_fc) to one placed before it.", "quantifier": "all populations, all admissible outputs of std::sort", "why_tests_cant": "unbounded populations and unspecified sort order; precondition of std::sort must hold", "anchors": ["src/utils/constrained.cpp:sort_population_con"]}
{"id": "C130", "title": "bf_approx: few points", "statement": "With use_exact and at most trivial_subcase_size + 1 points, bf_approx::least_contributor and greatest_contributor end after one round and return a point with the smallest (largest) contribution. All a point covers alone lies in the box that compute_bounding_box finds.", "quantifier": "for all points, dimensions from 2 on, engines", "why_tests_cant": "The box is internal; a box that is too small changes the contributor only for particular fronts.", "anchors": ["src/utils/hv_algos/hv_bf_approx.cpp:169-287,384-416"]}
{"id": "C131", "title": "bf_approx: confidence of the estimates", "statement": "An estimate obtained by sampling is the volume of the box of the point times the fraction of the points drawn from the box that no other point covers. By Hoeffding's inequality it is off by more than its half width with a probability of at most delta gamma / (n (1 + gamma)) round^-(1 + gamma); over all points and rounds these bounds add up to at most delta. The half width in a round is at most the largest volume of a box times initial_delta_coeff times delta_multiplier to the power of the round.", "quantifier": "for all points, dimensions, engines, rounds, delta in (0, 1], positive gamma, multiplier and coefficient, alpha in (0, 1]", "why_tests_cant": "Estimates and half widths are internal, and a wrong confidence shows only as a failure rate over very many runs.", "anchors": ["src/utils/hv_algos/hv_bf_approx.cpp:137-155,230-323,366"]}
{"id": "C132", "title": "bf_fpras: what compute does", "statement": "bf_fpras::compute makes exactly T = floor(12 log2(1 / delta) n / eps^2) trials and returns T V / (n M) where V is the sum of the volumes of the boxes of all points and M the number of rounds completed: a round draws a box with a probability proportional to its volume, a point from the box, and indices until the point with the index dominates it. The result is a number, not less than V / n. The constructor rejects eps and delta outside (0, 1]; all other methods throw.", "quantifier": "for all non-empty lists of points not worse than the reference point in any coordinate, engines, eps and delta", "why_tests_cant": "The result is random; degenerate runs (no round completed) depend on the seed.", "anchors": ["src/utils/hv_algos/hv_bf_fpras.cpp:54-187"]}
{"id": "C133", "title": "wfg: the published objectives", "statement": "The constructor of wfg accepts exactly a problem number 1-9, at least two objectives, 1 <= k < number of variables, k divisible by the number of objectives minus one, and for WFG2 and WFG3 an even number of distance related variables; otherwise it throws std::invalid_argument. For every decision vector in the bounds the fitness is the vector of objectives published by Huband et al. (the reference of the class): the transition functions of the problem applied to x_i / 2(i+1), reduced to one value for each position block and one for the distance, and distance plus 2(m+1) times the shape function.", "quantifier": "for all problem numbers, dimensions, numbers of objectives, k and decision vectors in the bounds", "why_tests_cant": "Nine problems with piecewise transformations, whose published values are hard to compute independently for dimensions and block sizes that matter; the repository's tests pin values computed with the code itself and with even blocks.", "anchors": ["src/problems/wfg.cpp:59-1046", "include/pagmo/problems/wfg.hpp:50-117"]}
{"id": "C134", "title": "wfg: range of the objectives", "statement": "For every decision vector in the bounds objective m (from 0) is between 0 and 1 + 2(m+1). Divided by the scales 2(m+1) the objectives are on or above the unit sphere for WFG4-WFG9 and on or above the plane with sum 1 for WFG3.", "quantifier": "for all problem numbers, dimensions, numbers of objectives, k and decision vectors in the bounds", "why_tests_cant": "A hypervolume reference point is chosen from this range; the points that leave it are at corners of the box for odd block sizes, which random samples do not meet.", "anchors": ["src/problems/wfg.cpp:147-1046"]}
{"id": "C135", "title": "wfg: the optimal front", "statement": "The Pareto optimal decision vectors of WFG1 and WFG3-WFG7 are those whose distance related variables are 0.35 of their upper bounds, those of WFG2 are among them; the optimal objective vectors of WFG4-WFG9 are those on the part of the sphere with semi-axes 2, 4, 6, ... that is reached.", "quantifier": "for all problem numbers, dimensions, numbers of objectives, k and decision vectors in the bounds", "why_tests_cant": "Optimality is a statement about all points of a continuum.", "anchors": ["src/problems/wfg.cpp:147-1046", "include/pagmo/problems/wfg.hpp:50-90"]}
{"id": "C136", "title": "Problems, algorithms, evaluators, topologies and policies are values", "statement": "A variable of type problem, algorithm, bfe, topology, r_policy or s_policy holds an object of its own: a copy is equal to its source in the object and in all cached properties and is independent of it, assignment works also onto itself and leaves everything as it was if the object cannot be copied, a move hands over object and properties, and over any program no object is shared, deleted twice or leaked.", "quantifier": "for every sequence of constructions, copies, moves, assignments, method calls and destructions, every object, and every pattern of exceptions from copying and construction", "why_tests_cant": "tests copy one object and compare a few getters; sharing, double deletion and leaks depend on the sequence of operations and on where an exception comes", "anchors": ["src/problem.cpp:252-329", "src/algorithm.cpp:57-128", "src/bfe.cpp:55-88", "src/topology.cpp:74-97", "src/r_policy.cpp:58-84", "src/s_policy.cpp:58-84", "include/pagmo/algorithm.hpp:502-506"]}
{"id": "C137", "title": "What an algorithm says about its optional methods", "statement": "has_set_seed and is_stochastic are false if the user algorithm has no set_seed, else its own answer if it gives one, else true; the same for the verbosity; the name and the thread safety are those of the object or the defaults; set_seed and set_verbosity call the method of the object or throw not_implemented_error leaving it as it was; the cached answers are always those given at construction.", "quantifier": "for every user-defined algorithm with any subset of the optional methods, every state and every program", "why_tests_cant": "the subsets of optional methods are types; tests instantiate a few, and none looks at answers that change after construction", "anchors": ["include/pagmo/algorithm.hpp:250-344", "src/algorithm.cpp:57-67", "src/algorithm.cpp:158-179"]}
{"id": "C138", "title": "cec2006: shape, bounds and where the functions are numbers", "statement": "The constructor accepts the problem numbers 1 to 24 and rejects any other with invalid_argument. Every problem has bounds of its dimension, no lower bound above an upper bound; fitness reads and writes only within its vectors and returns one objective and exactly get_nec() + get_nic() constraints. For all but g02, g08, g14, g16, g20, g21, g22 the fitness is a number everywhere, for g21 and g22 everywhere in the box; in the box the constraints of g20 are numbers exactly if neither half of the vector is zero; the objective of g02 is not a number exactly at the origin, that of g08 where x0 = 0 and that of g14 where a component is 0. The best known solutions lie within the bounds, except that the digits written for g16 are below a lower bound by less than 1e-13.", "quantifier": "for all problem numbers and all real decision vectors of the right length (in the box where stated)", "why_tests_cant": "A test evaluates some points; the points where g02, g08 and g14 have no value have measure zero.", "anchors": ["src/problems/cec2006.cpp:47-285", "src/problems/cec2006.cpp:286-1133"]}
{"id": "C139", "title": "cec2006: optima", "statement": "At the best known solution the objective is the published value to 1e-9 and the constraints hold to the tolerance 1e-4 of the competition, for the 14 problems with rational functions. g01 has minimum -15, g12 has minimum -1, both at the best known solution; g06 has its minimum at (14.095, 5 - sqrt(17.280975)); g03 with tolerance t has minimum -(1+t)^5 and g11 0.75 - t; g23 has minimum -400 (the published -400.0551 uses the tolerance); no feasible point of g07, g09, g24 is below 24.3062, 680.63, -5.5080132717. g12 is feasible exactly in the 729 balls of radius 1/4. The best known solutions of g03, g11, g15, g23 are infeasible if equalities must hold exactly.", "quantifier": "for all decision vectors in the box that meet the constraints", "why_tests_cant": "Global optimality quantifies over all feasible points.", "anchors": ["src/problems/cec2006.cpp:105-170", "src/problems/cec2006.cpp:286-1133"]}
{"id": "C14", "title": "Feasibility test means every constraint is met within tolerance", "statement": "problem::feasibility_f(f) returns true exactly when every equality constraint has |c_i| <= tol_i and every inequality constraint has c_i <= tol_i (so any NaN constraint makes it false), and throws exactly when the size of f is not nobj+nec+nic.", "quantifier": "all fitness vectors, tolerances and constraint counts", "why_tests_cant": "unbounded constraint vectors with NaN", "anchors": ["src/problem.cpp:problem::feasibility_f", "include/pagmo/utils/constrained.hpp:test_eq_constraints,test_ineq_constraints"]}
{"id": "C140", "title": "cec2006: g20 cannot be solved", "statement": "No point within the bounds of problem g20 meets its constraints, so no algorithm can return a feasible solution of it.", "quantifier": "for all decision vectors in the box", "why_tests_cant": "Infeasibility quantifies over all points; a test that finds no feasible point shows nothing.", "anchors": ["src/problems/cec2006.cpp:930-1002"]}
{"id": "C141", "title": "lennard_jones: the potential of a cluster", "statement": "The fitness of a decision vector is the Lennard-Jones potential, the sum of 4 (r^-12 - r^-6) over all pairs of atoms, of the cluster it stands for: atom 0 at the origin, atom 1 on the third axis, atom 2 in the plane of the second and third axes. It is infinite if two atoms coincide. No cluster of n atoms is below -n(n-1)/2, which is the minimum for 3 and 4 atoms and attained within the bounds. Fixing six coordinates loses nothing: every cluster of distinct atoms has the potential of some decision vector. The constructor throws for fewer than 3 atoms and for a dimension that overflows.", "quantifier": "for all numbers of atoms, decision vectors and clusters, in real arithmetic", "why_tests_cant": "The potential at a few vectors does not show that the coordinates are read from the right places for any number of atoms, that no pair is counted twice, or that any cluster can be represented.", "anchors": ["src/problems/lennard_jones.cpp:51-152", "include/pagmo/problems/lennard_jones.hpp:44-90"]}
{"id": "C142", "title": "inventory: mean cost over samples drawn from the seed", "statement": "The fitness is the mean, over the samples, of the documented cost of the weeks, with demands drawn from the engine seeded with the seed of the problem. It does not depend on what was evaluated before. It is a convex function of the orders, at least the sum of the orders and at least the mean total demand. The bounds are 0 and 200 for each week. With a sample size of 0 it is not a number.", "quantifier": "for all engines and distributions, seeds, numbers of weeks, sample sizes and decision vectors, in real arithmetic", "why_tests_cant": "Tests evaluate single points with one engine; convexity and independence of the history are statements about all pairs of points and all sequences of calls.", "anchors": ["src/problems/inventory.cpp:51-89", "include/pagmo/problems/inventory.hpp:44-104"]}
{"id": "C143", "title": "schwefel: objective and best known solution", "statement": "The fitness is 418.9828872724338 n minus the sum of x sin(sqrt|x|). Within the bounds, -500 and 500, the objective is at least -2e-6 n and grows with the distance from best_known; at best_known it is 0 up to 2e-6 n. So no point of the box is better than best_known by more than 4e-6 n, and a point with a component at a distance of 1 or more is worse. The constructor throws for dimension 0.", "quantifier": "for all dimensions (the last part up to 17000) and points of the box, in real arithmetic", "why_tests_cant": "The function has many local minima: that none of them is below the documented one is a statement about all points of the box.", "anchors": ["src/problems/schwefel.cpp:44-91", "include/pagmo/problems/schwefel.hpp:46-55"]}
{"id": "C144", "title": "cec2009: construction, shape and bounds", "statement": "The constructor throws for ids outside 1-10 and dimension 0. There are 2 objectives for ids 1-7 and 3 for 8-10; UF problems have no constraints, CF6 and CF7 two, the other CF problems one. The bounds are the boxes of the report. For ids 8-10 the constructor accepts dimension 1, for which get_bounds writes past the end of its vectors, although the documentation says that all problems are scalable.", "quantifier": "for all ids, both kinds, all dimensions and all vectors", "why_tests_cant": "The tests look at a few ids and at dimension 2 and more; the boxes are not compared with those of the report.", "anchors": ["src/problems/cec2009.cpp:62-208", "include/pagmo/problems/cec2009.hpp:60-110"]}
{"id": "C145", "title": "cec2009: the objectives of UF1-UF10", "statement": "For dimension 3 or more (5 or more for UF8-UF10) the objectives are those of the technical report. For smaller dimensions, which the constructor accepts, an objective is not a number whatever the decision vector.", "quantifier": "for all dimensions and decision vectors, in real arithmetic", "why_tests_cant": "The tests exclude the formulas from coverage and only call fitness; a wrong index set or constant would not be seen.", "anchors": ["src/problems/cec2009.cpp:223-538"]}
{"id": "C146", "title": "The Pareto fronts of the unconstrained CEC 2009 problems", "statement": "For every dimension with no empty index group, the nondominated objective vectors of UF1-UF10 over the box are the published ones. UF1-UF3: f2 = 1 - sqrt(f1), f1 in [0,1]. UF4: f2 = 1 - f1^2. UF5: the 21 points (k/20, 1 - k/20). UF6: f2 = 1 - f1 with f1 = 0 or in [1/4,1/2] or [3/4,1]. UF7: f2 = 1 - f1. UF8 and UF10: the first octant of the unit sphere. UF9: (ab, (1-a)b, 1-b) with a in [0,1/4] or [3/4,1] and b in [0,1]. Each point of the front is the fitness of a vector inside the bounds, and no vector inside the bounds lies strictly below the front.", "quantifier": "all dimensions n >= 3 (two objectives) or n >= 5 (three objectives), all decision vectors inside the bounds, all points of the front", "why_tests_cant": "The front is a statement about every vector of a continuous box in every dimension; a test evaluates finitely many vectors of one dimension.", "anchors": ["src/problems/cec2009.cpp:UF1-UF10", "include/pagmo/problems/cec2009.hpp"]}
{"id": "C147", "title": "Objectives and constraints of the constrained CEC 2009 problems", "statement": "For every dimension large enough that no index group is empty and no component is read past the end, and every vector inside the bounds, cec2009 fitness of CF1-CF10 returns the objectives of the technical report followed by the negated left hand sides of its constraints. For CF4 and CF5 with dimension 1 and CF6 and CF7 with dimension below 4, which the constructor accepts, fitness reads past the end of the decision vector; for CF1-CF3 with dimension at most 2 and CF8-CF10 with dimension 2 to 4 an objective and the constraint are not numbers.", "quantifier": "all ten problems, all dimensions, all decision vectors inside the bounds", "why_tests_cant": "A test compares a few vectors of one dimension; the formulas have branches, products and index groups that depend on the dimension.", "anchors": ["src/problems/cec2009.cpp:543-826", "src/problems/cec2009.cpp:223-275"]}
{"id": "C148", "title": "The Pareto fronts of the constrained CEC 2009 problems CF1-CF7", "statement": "Over the feasible vectors inside the bounds the nondominated objective vectors are the published ones. CF1: the 21 points (k/20, 1 - k/20). CF2: f2 = 1 - sqrt(f1) with sqrt(f1) = 0 or in [1/4,1/2] or [3/4,1]. CF3: f2 = 1 - f1^2 with f1^2 in the same set. CF4 and CF5: f2 = 1 - f1, 3/4 - f1/2, 9/8 - f1 on the three intervals ending at 1/2, 3/4, 1. CF6 and CF7: (1 - f1)^2, (1 - f1)/2, sqrt(1 - f1)/4 on the same intervals. Each point of the front is attained by a feasible vector, and every feasible vector is weakly dominated by one.", "quantifier": "all dimensions for which the problem is defined, all feasible decision vectors inside the bounds, all points of the front", "why_tests_cant": "The front is a statement about every feasible vector of a continuous box in every dimension.", "anchors": ["src/problems/cec2009.cpp:543-732", "include/pagmo/problems/cec2009.hpp"]}
{"id": "C149", "title": "The CEC 2006 problems have the feasible sets of the report", "statement": "For the problems g01 to g11, g13 to g19 and g21 to g24 the fitness of a decision vector is feasible (equalities zero, inequalities not positive) exactly when the vector meets the conditions of the report, written as bounds on quantities; where the objective has no partial operation its value is the published formula. In g17 the objective of a feasible vector within the bounds is the tariff of the report, although the code computes it from other components.", "quantifier": "all decision vectors of the right length (for g16: with no divisor of its formulas zero; for g21 and g22: with the logarithms and powers defined)", "why_tests_cant": "The feasible sets are continua; tests evaluate single points, mostly the best known one, where a wrong index or sign often changes nothing.", "anchors": ["src/problems/cec2006.cpp:289-1103", "include/pagmo/problems/cec2006.hpp:60-110"]}
{"id": "C15", "title": "A population is always well formed, also after failures", "statement": "After any history of push_back, set_x, set_xf calls, successful or throwing, get_ID(), get_x() and get_f() have equal length size(), every decision vector has the problem dimension and every fitness the fitness dimension; a call that throws leaves IDs, decision vectors, fitnesses and champion as before; set_x/set_xf keep IDs.", "quantifier": "all histories of calls with arbitrary arguments, including failing fitness evaluations and failing allocations at any point", "why_tests_cant": "all histories and failure points cannot be enumerated", "anchors": ["src/population.cpp:push_back_impl,set_xf,set_x,update_champion"]}
{"id": "C150", "title": "cec2013: construction, box and one objective", "statement": "The constructor of cec2013 accepts exactly the dimensions 2, 5, 10, 20, ..., 100 and the ids 1 to 28 and throws std::invalid_argument otherwise. get_bounds() is [-100, 100] in every component. fitness() returns one number for every decision vector and reads no table and no buffer out of bounds.", "quantifier": "for all ids, all dimensions, all decision vectors of that dimension, all tables with at least five shifts and six rotation matrices", "why_tests_cant": "The offsets into the tables depend on the id, the component and the dimension; a read past the end of a table usually returns a number that looks valid.", "anchors": ["src/problems/cec2013.cpp:50-68,78-210", "include/pagmo/problems/cec2013.hpp:60-162"]}
{"id": "C151", "title": "cec2013: the shift is the global minimum", "statement": "For the problems 1 to 13 and 16 to 20 of cec2013 no decision vector has a fitness below the stated optimum (-1400, -1300, ..., -100 for the ids 1 to 14, 100, 200, ..., 1400 for 15 to 28), and the vector equal to the shift has exactly this fitness. For the problems 14 and 15 both hold up to 0.000002 per variable, from the rounded constants of Schwefel's function. For the compositions 21 to 28 no vector is below the optimum by more than 0.000005 per variable. At their first shift, when the other shifts are at a distance of at least 1, the fitness is the optimum up to that and to the share of the other components, which is divided by 10^99.", "quantifier": "for all decision vectors, also outside the box, all dimensions, all shifts and all rotation matrices, orthogonal or not", "why_tests_cant": "The minimum over a continuum in up to 100 dimensions cannot be sampled, and it must hold for every table of data.", "anchors": ["src/problems/cec2013.cpp:78-196,317-1121", "doc/sphinx/docs/cpp/problems/cec2013.rst"]}
{"id": "C152", "title": "cec2013: the functions of the technical report", "statement": "The fitness of each of the 28 problems of cec2013 is the function of the CEC 2013 report for the shift and the rotation matrices of the problem: the 20 basic functions, and the 8 compositions as means of scaled basic functions weighted by the distance from their shifts.", "quantifier": "for all ids, dimensions, decision vectors and tables", "why_tests_cant": "Two deviations change values without moving the minimum or breaking any check on the optimum, so tests that evaluate the optimum or compare with the original C code, which shares them, pass.", "anchors": ["src/problems/cec2013.cpp:78-196,317-1121"]}
{"id": "C153", "title": "cec2014: construction, bounds and shape of the fitness", "statement": "The constructor accepts exactly the dimensions 2, 10, 20, 30, 50, 100 and the ids 1 to 30, except that the hybrid problems 17-22, 29 and 30 are refused in dimension 2; everything else throws invalid_argument. The box is [-100, 100] in every dimension. Of the table of shifts exactly the first dim numbers of each row of 100 are kept. The fitness of every point of the right length is one number and no table is read out of range.", "quantifier": "for all ids, dimensions, points, and all tables with as many rows as the problem has components", "why_tests_cant": "Tests evaluate a few points of each id; an out-of-range read of the flattened tables in one of the compositions or a wrong erase for one dimension returns a plausible number.", "anchors": ["src/problems/cec2014.cpp:49-119", "src/problems/cec2014.cpp:119-250"]}
{"id": "C154", "title": "cec2014: the problems are the functions of the report", "statement": "Problem id at x is f(M (s (x - o))) + 100 id with the function, the scaling, the shift and the matrix of the report for ids 1-16; for the hybrids 17-22 the rotated vector is permuted by the shuffle table and cut into parts whose lengths are the stated fractions of the dimension, and the functions of the parts are added; for the compositions 23-30 it is the weighted mean of lambda_k g_k + bias_k with the weights of the report (the largest double at an optimum).", "quantifier": "for all dimensions accepted, points, shifts, matrices and shuffles", "why_tests_cant": "Expected values in a test are produced by the same code; a wrong offset into the shifts, matrices or shuffles of one component changes a number nobody knows.", "anchors": ["src/problems/cec2014.cpp:119-250", "src/problems/cec2014.cpp:375-1275", "src/problems/cec2014.cpp:1319-1380"]}
{"id": "C155", "title": "cec2014: the minimum is 100 id", "statement": "No point of problem id has a fitness below 100 id, and for ids up to 22 the first dim numbers of the shift table have exactly that fitness. With Schwefel's function (10, 11, 17, 21, 22) both hold up to 0.000002 dim, as its constants are rounded; for the compositions the lower bound holds up to 0.000005 dim, and at the first shift, when the others are at least 1 away, the fitness is 100 id up to that and to the share of the other components, which is divided by the largest double.", "quantifier": "for all dimensions accepted, points, shifts, matrices (also singular ones) and shuffles", "why_tests_cant": "That no point is lower is a statement about all points.", "anchors": ["src/problems/cec2014.cpp:119-250", "src/problems/cec2014.cpp:375-1275", "src/problems/cec2014.cpp:1319-1380"]}
{"id": "C156", "title": "A population built with a batch evaluator is the population built without one", "statement": "population(prob, b, n, seed) and population(prob, n, seed) give the same population, with the same decision vectors, fitness vectors, IDs and champion, if the evaluator b gives the fitness vectors of a batch one after the other; one fails if the other does. thread_bfe is such an evaluator whatever the threads do. The population has n individuals inside the bounds, integer where required, each with its own fitness, and the IDs are drawn after all decision vectors. For n = 0 the two differ: with an evaluator the constructor throws for bounds that cannot be drawn from (e.g. infinite ones), without one it does not.", "quantifier": "for all engines, seeds, problems with proper bounds (continuous and integer parts), fitness functions, population sizes whose total number of variables is below 2^64, evaluators, partitions and interleavings of threads", "why_tests_cant": "Equality for two or three seeds on small problems says nothing about mixed-integer bounds, fixed components (no number is drawn) or the order in which IDs are drawn; the difference for empty populations shows only for unbounded problems.", "anchors": ["src/population.cpp:62-104", "include/pagmo/population.hpp:128-180", "include/pagmo/utils/generic.hpp:325-389"]}
{"id": "C157", "title": "nsga2: batch evaluation makes no difference", "statement": "If the fitness is a function of the point and the batch evaluator computes it, a run of nsga2 with set_bfe() that ends without exception has the same population, random engine and fitness evaluations, in the same order, as a run without; and a run without that ends without exception is also the run with.", "quantifier": "all problems, batch evaluators, populations, engines, parameters", "why_tests_cant": "the code with a batch evaluator draws the children of all parents before the first evaluation, in a copy of the loop; equality must hold for every fitness function and engine", "anchors": ["src/algorithms/nsga2.cpp:203-297"]}
{"id": "C158", "title": "maco: batch evaluation makes no difference", "statement": "If the fitness is a function of the point and the batch evaluator computes it, a run of maco with set_bfe() that ends without exception has the same population, members, log, random engine and fitness evaluations, in the same order, as a run without; and a run without that ends without exception is also the run with.", "quantifier": "all problems, batch evaluators, populations, engines, parameters, members left by earlier calls", "why_tests_cant": "the two ways of evaluating are separate code; equality must hold for every fitness function, engine and state of the memory", "anchors": ["src/algorithms/maco.cpp:465-516"]}
{"id": "C159", "title": "pso_gen: batch evaluation makes no difference", "statement": "On a problem that is not stochastic, if the fitness is a function of the point and the batch evaluator computes it, a run of pso_gen with set_bfe() is the run without: same outcome, velocities kept for the next call, population, random engine and fitness evaluations in the same order. On a stochastic problem the order of the evaluations differs.", "quantifier": "all problems, batch evaluators, populations, engines, parameters, velocities left by earlier calls", "why_tests_cant": "the two ways of evaluating are separate code; equality must hold for every fitness function, engine and state of the memory", "anchors": ["src/algorithms/pso_gen.cpp:365-440"]}
{"id": "C16", "title": "The champion is the best individual ever inserted", "statement": "For a single-objective problem, after any history of push_back/set_x/set_xf no individual that was ever successfully inserted is better than champion_f() (lower objective for unconstrained problems, compare_fc for constrained ones), and champion_x()/champion_f() is one of the inserted pairs. Multi-objective or stochastic problems make both accessors throw.", "quantifier": "all histories of insertions, constrained or not, with NaN fitness allowed", "why_tests_cant": "property of arbitrary histories; relies on transitivity of the comparison", "anchors": ["src/population.cpp:update_champion,champion_x,champion_f"]}
{"id": "C160", "title": "Feasibility of a decision vector, and constraint tolerances", "statement": "problem::feasibility_x(x) refuses a vector of wrong size without calling the fitness function; else it calls it exactly once, passes its exceptions on, and answers whether the result meets every constraint within the tolerances. set_c_tol accepts exactly non-negative tolerances that are not NaN, as many as there are constraints, and stores them; with one number it stores the vector that repeats it. Larger tolerances make no fitness vector infeasible.", "quantifier": "all problems, user fitness functions, decision vectors, tolerances, infinities and NaN included", "why_tests_cant": "the user function, the values and the tolerances are arbitrary; infinite values against infinite tolerances are a corner case tests do not reach", "anchors": ["src/problem.cpp:612-721"]}
{"id": "C161", "title": "Tables are printed aligned", "statement": "A table refuses a row whose number of cells is not that of the headers and accepts every other row. It prints the headers, a line of dashes and the rows, one line each; all these lines have the same length, begin with the indentation, and column k begins at the same place in all of them, with the text of the cell followed by at least two blanks.", "quantifier": "all headers, indentations and sequences of rows with cells below the greatest length of a string", "why_tests_cant": "The width of a column depends on all rows; a test prints a few tables, an unsigned subtraction that wraps needs a row wider than the recorded width.", "anchors": ["include/pagmo/io.hpp:175-202", "src/io.cpp:46-75"]}
{"id": "C162", "title": "Containers are printed up to five elements", "statement": "stream() writes a vector with at most five elements as all of them in brackets, separated by a comma and a blank; a longer vector as its first five and an ellipsis, whatever the others are. A map is written in the same way with keys and values in braces.", "quantifier": "all vectors and maps, however their elements are written", "why_tests_cant": "Off-by-one errors at the limit of five or in the separators show at single lengths only.", "anchors": ["include/pagmo/io.hpp:76-156"]}
{"id": "C163", "title": "Eigen matrices survive saving and loading", "statement": "Saving a matrix reads only its own elements, and loading what was saved, into a matrix of any size and with anything following in the archive, gives the same dimensions and elements and leaves what follows. An archive that ends before both dimensions are read leaves the matrix as it was.", "quantifier": "all matrices of dynamic size, all targets, all archives that continue", "why_tests_cant": "Square matrices, the only ones the algorithms keep, hide exchanged dimensions and indices; tests save a few fixed states.", "anchors": ["include/pagmo/detail/eigen_s11n.hpp:42-80"]}
{"id": "C17", "title": "best_idx / worst_idx return extremal individuals", "statement": "For a non-empty single-objective population best_idx() returns a valid index such that no individual is better than the one there, worst_idx() one such that it is not better than any individual (comparison: objective with NaN last, or compare_fc with the given tolerance); empty or multi-objective populations throw.", "quantifier": "all populations of any size, including NaN fitness values", "why_tests_cant": "unbounded populations; NaN breaks the comparison used by std::min_element", "anchors": ["src/population.cpp:best_idx,worst_idx"]}
{"id": "C18", "title": "Champion dominates current individuals in an archipelago", "statement": "In a single-objective island no individual currently in island::get_population() is better than that population's champion, also after migrants have been accepted.", "quantifier": "all histories of evolve calls with migration", "why_tests_cant": "needs an arbitrary history of migrations", "anchors": ["src/island.cpp:set_individuals", "src/population.cpp:update_champion"]}
{"id": "C19", "title": "A problem is constructed only from sane bounds and dimensions", "statement": "Constructing a pagmo::problem succeeds only if the bounds are non-empty, of equal length, NaN-free, with lower <= upper everywhere, integral (when finite) on the integer part, the integer part not larger than the dimension, at least one objective; conversely bounds with these properties pass the bounds check.", "quantifier": "all bounds vectors and dimension counts", "why_tests_cant": "exact characterisation over all vectors incl. NaN/inf", "anchors": ["src/problem.cpp:check_problem_bounds,problem::generic_ctor_impl"]}
{"id": "C20", "title": "Evaluation counters count successful evaluations", "statement": "problem::get_fevals() equals the number of decision vectors evaluated by successful fitness() and batch_fitness() calls (and bfe calls) on that object; calls that throw do not change it, and a copy starts with the value of the original and evolves independently. The same for gradient/hessians.", "quantifier": "all histories and interleavings of successful and failing calls from several threads", "why_tests_cant": "all interleavings/histories; failing output checks after the counter update", "anchors": ["src/problem.cpp:problem::fitness,batch_fitness,gradient,hessians,prob_invoke_mem_batch_fitness", "src/bfe.cpp:bfe::operator()"]}
{"id": "C21", "title": "Batch evaluation equals one-by-one evaluation for every schedule", "statement": "bfe()(p, dvs) with the thread-based evaluator returns, for a pure fitness function, the concatenation of the fitness vectors of the decision vectors in order, whatever the partition and interleaving of the parallel loop, never reads or writes out of range, and throws if the input length is not a multiple of the dimension or any evaluation throws.", "quantifier": "all batches, all partitions of the index range into tasks and all interleavings of the tasks", "why_tests_cant": "schedules are not controllable from tests", "anchors": ["src/batch_evaluators/thread_bfe.cpp:thread_bfe::operator()", "src/bfe.cpp:bfe::operator()", "src/detail/bfe_impl.cpp"]}
{"id": "C22", "title": "Accepted sparsity patterns are usable", "statement": "Every gradient (hessian) sparsity pattern accepted by problem is strictly increasing lexicographically, hence duplicate-free, with indices inside (nf, nx) (lower triangle inside nx); the dense patterns generated when the user gives none satisfy the same rules, contain every admissible pair and have exactly nf*nx (nx*(nx+1)/2) entries, the size cached for later checks.", "quantifier": "all patterns and all dimensions", "why_tests_cant": "unbounded dimension; size formula and completeness", "anchors": ["src/problem.cpp:check_gradient_sparsity,check_hessian_sparsity,dense_gradient,dense_hessian,generic_ctor_impl"]}
{"id": "C23", "title": "translate shifts the problem and nothing else", "statement": "For a translate meta-problem with shift t: fitness(x) is the inner fitness at x - t, batch_fitness(xs) is the concatenation of the fitnesses, x is inside the translated bounds exactly when x - t is inside the inner bounds, and dimensions are unchanged; shifting by t then by s equals shifting by t + s; a shift of wrong length throws.", "quantifier": "all shifts, points, inner problems (exact arithmetic)", "why_tests_cant": "equality of functions over all points", "anchors": ["src/problems/translate.cpp"]}
{"id": "C24", "title": "unconstrain keeps feasible points untouched and penalises infeasible ones", "statement": "For the unconstrain meta-problem: with 'death penalty', 'kuri' and 'weighted' a feasible point keeps its objectives; with 'death penalty' and 'kuri' an infeasible point gets every objective replaced by a penalty that does not decrease when fewer constraints are met; with 'ignore_c' objectives are returned; with 'ignore_o' the single value returned is zero exactly for feasible points. The number of values returned equals get_nobj().", "quantifier": "all fitness vectors, tolerances, weights", "why_tests_cant": "all real fitness vectors and constraint counts", "anchors": ["src/problems/unconstrain.cpp:penalize,get_nobj"]}
{"id": "C25", "title": "unconstrain batch evaluation agrees with single evaluation", "statement": "unconstrain::batch_fitness(xs) is the concatenation of unconstrain::fitness(x) over the decision vectors of xs, for every method, and touches only memory it owns.", "quantifier": "all batches, methods and numbers of objectives", "why_tests_cant": "out-of-range reads are not observable from a passing unit test", "anchors": ["src/problems/unconstrain.cpp:batch_fitness,penalize"]}
{"id": "C26", "title": "decompose adapts its reference point to the running minimum", "statement": "With ideal point adaptation on, after any sequence of fitness() calls get_z() is the component-wise minimum of the initial reference point and all objective vectors computed so far (NaN objectives ignored); with adaptation off it never changes.", "quantifier": "all call sequences", "why_tests_cant": "unbounded histories", "anchors": ["src/problems/decompose.cpp:decompose::fitness"]}
{"id": "C27", "title": "A problem advertised as thread-safe for concurrent evaluation has no shared mutation", "statement": "If a decompose meta-problem reports thread_safety::constant, concurrent fitness() calls on one object (as thread_bfe performs them) do not modify shared state, so every interleaving yields results of some sequential order.", "quantifier": "all interleavings of concurrent fitness calls", "why_tests_cant": "data races are schedule dependent", "anchors": ["src/problems/decompose.cpp:decompose::fitness,get_thread_safety", "src/batch_evaluators/thread_bfe.cpp"]}
{"id": "C28", "title": "Golomb ruler fitness characterises Golomb rulers", "statement": "golomb_ruler::fitness(x) returns the ruler length (sum of x) and, as constraint, the number of surplus equal pairwise tick distances, so the constraint is zero exactly when all pairwise distances are distinct.", "quantifier": "all decision vectors (exact arithmetic)", "why_tests_cant": "combinatorial statement for every order", "anchors": ["src/problems/golomb_ruler.cpp:golomb_ruler::fitness"]}
{"id": "C29", "title": "fair_replace never trades a better individual for a worse one", "statement": "fair_replace::replace returns a group of the same size as the input population whose members come from the population or from the migrants; at most the configured number of migrants enters; in the single-objective case no discarded individual of the population is better than an accepted migrant, and no rejected candidate migrant is better than one kept.", "quantifier": "all populations, migrant groups, rates and sort behaviours", "why_tests_cant": "unbounded groups and unspecified sort order", "anchors": ["src/r_policies/fair_replace.cpp:fair_replace::replace"]}
{"id": "C30", "title": "select_best returns the best individuals", "statement": "select_best::select returns exactly the configured number (absolute, or fraction of the population) of distinct members of the population, and no member left out is better than one selected.", "quantifier": "all populations, rates, sort behaviours", "why_tests_cant": "unbounded groups and unspecified sort order", "anchors": ["src/s_policies/select_best.cpp:select_best::select"]}
{"id": "C31", "title": "Migration rates are validated once and for all", "statement": "A fair_replace/select_best policy can be constructed with a fractional rate exactly when it is a finite number in [0,1]; for such a rate the number of migrants computed never exceeds the population size; an absolute rate larger than the population makes the policy throw instead of over-selecting.", "quantifier": "all double and integer rates, all population sizes", "why_tests_cant": "boundary behaviour over all doubles", "anchors": ["src/detail/base_sr_policy.cpp:base_sr_policy::verify_fp_ctor", "src/r_policies/fair_replace.cpp", "src/s_policies/select_best.cpp"]}
{"id": "C32", "title": "The ring topology is a ring", "statement": "After n push_back() calls on a ring topology, get_connections(i) returns exactly the two cyclic neighbours of i (one neighbour when n = 2, none when n = 1), each with the configured weight, for every i < n.", "quantifier": "all n", "why_tests_cant": "needs induction over the number of insertions", "anchors": ["src/topologies/ring.cpp:ring::push_back", "src/topologies/base_bgl_topology.cpp"]}
{"id": "C33", "title": "The fully connected topology connects everything", "statement": "After n push_back() calls on a fully_connected topology get_connections(i) returns every other vertex exactly once and never i itself, all with the configured weight; an out-of-range i throws.", "quantifier": "all n and i", "why_tests_cant": "induction over n / arbitrary i", "anchors": ["src/topologies/fully_connected.cpp"]}
{"id": "C34", "title": "Graph topologies stay simple, directed and correctly weighted", "statement": "Under any history of add_vertex, add_edge, remove_edge, set_weight, set_all_weights, push_back on a graph topology that starts empty (or from a free_form built on a graph without parallel edges): every edge joins existing vertices, there is at most one edge per ordered pair, every weight is a finite number in [0,1]; get_connections(i) lists exactly the sources of edges into i with their weights; a call that throws changes nothing.", "quantifier": "all histories of calls with arbitrary arguments", "why_tests_cant": "all histories", "anchors": ["src/topologies/base_bgl_topology.cpp", "src/topologies/free_form.cpp", "src/topology.cpp:topology_check_edge_weight"]}
{"id": "C35", "title": "topology::get_connections only lets valid answers through", "statement": "topology::get_connections(n) returns an answer only if both vectors have the same size and every weight is a finite number in [0,1]; anything else a user-defined topology returns makes it throw.", "quantifier": "all answers of user-defined topologies", "why_tests_cant": "all possible user implementations", "anchors": ["src/topology.cpp:topology::get_connections"]}
{"id": "C36", "title": "Policy wrappers reject malformed groups", "statement": "r_policy::replace and s_policy::select return a group only when the user policy received and returned groups whose ID, decision and fitness lists have equal lengths and whose vectors have the dimensions announced; otherwise they throw.", "quantifier": "all groups and all user-defined policies", "why_tests_cant": "all possible user implementations and inputs", "anchors": ["src/r_policy.cpp:verify_replace_input,verify_replace_output,replace", "src/s_policy.cpp"]}
{"id": "C37", "title": "Tasks of an island run once, in order, one at a time", "statement": "Evolution tasks enqueued on an island's task queue are executed exactly once, in the order they were enqueued, never two at the same time, for every interleaving of the enqueuing threads and the worker.", "quantifier": "all interleavings and numbers of tasks", "why_tests_cant": "schedules are not enumerable by tests", "anchors": ["src/detail/task_queue.cpp"]}
{"id": "C38", "title": "Waiting for a task queue is sound", "statement": "task_queue::wait_all() returns only when every task enqueued before its return has finished running; the destructor returns only after every task enqueued before it set the stop flag has finished running.", "quantifier": "all interleavings", "why_tests_cant": "schedules", "anchors": ["src/detail/task_queue.cpp:wait_all,~task_queue"]}
{"id": "C39", "title": "Waiting for a task queue terminates", "statement": "If all tasks terminate, a call to task_queue::wait_all() returns (in particular destroying an island whose evolutions are finished does not hang).", "quantifier": "all fair interleavings", "why_tests_cant": "a lost wake-up needs one precise interleaving", "anchors": ["src/detail/task_queue.cpp:wait_all,task_queue_worker"]}
{"id": "C40", "title": "Island status reflects outstanding work and stored errors", "statement": "island::status() is busy or busy_error while some enqueued evolution is unfinished, idle or idle_error otherwise; the _error variants appear exactly when some finished, not yet waited-for evolution threw. wait() leaves no outstanding work and keeps the error; wait_check() rethrows the first stored error and afterwards the island is idle.", "quantifier": "all histories of evolve/complete/wait/wait_check/status events", "why_tests_cant": "histories and completion times are not controllable", "anchors": ["src/island.cpp:evolve,wait,wait_check,status"]}
{"id": "C41", "title": "Migrants are neither invented nor duplicated", "statement": "Under any interleaving of island evolutions in an archipelago every migrant delivered to an island was previously placed in the migrants database by the selection policy of a connected island; with migrant handling 'evict' a database entry is delivered at most once; with 'preserve' it stays until overwritten.", "quantifier": "all interleavings of put/get/extract by all islands", "why_tests_cant": "schedules", "anchors": ["src/archipelago.cpp:extract_migrants,get_migrants,set_migrants", "src/island.cpp:evolve"]}
{"id": "C42", "title": "Archipelago bookkeeping stays consistent", "statement": "After any sequence of construction, push_back, copy, move, assignment, set_topology, set_migrants_db, load and destruction every archipelago holds the islands in insertion order as a list semantics prescribes (copies are deep, moves leave the source empty), operator[] accepts exactly the indices below size() and throws out_of_range otherwise, the index and archipelago pointer associated with the i-th island are i and its archipelago, no island leaks or is owned twice; and unless the user replaces them (set_topology, set_migrants_db, load) there are as many migrant database entries and topology vertices as islands.", "quantifier": "all sequences of operations", "why_tests_cant": "all histories", "anchors": ["src/archipelago.cpp:push_back_impl,copy ctor,move ctor,assignment,get_island_idx,operator[]", "include/pagmo/archipelago.hpp:load"]}
{"id": "C43", "title": "The global random seed generator is race free and reproducible", "statement": "For every interleaving of threads calling random_device::next() after set_seed(s), the multiset of values handed out by k calls is exactly the first k outputs of the generator seeded with s, each given to exactly one caller.", "quantifier": "all interleavings, all numbers of threads and calls", "why_tests_cant": "schedules", "anchors": ["src/rng.cpp:random_device::next,set_seed"]}
{"id": "C44", "title": "Island snapshots are atomic", "statement": "island::get_population()/get_algorithm() always return a value that some set_population()/set_algorithm()/constructor call stored in full, for every interleaving with running evolutions; each object returned is independent of later changes.", "quantifier": "all interleavings", "why_tests_cant": "schedules", "anchors": ["src/island.cpp:get_population,set_population,get_algorithm,set_algorithm"]}
{"id": "C45", "title": "Fork island transports results unchanged", "statement": "The bytes the parent of a fork_island deserialises are exactly the bytes the child serialised, for every message length and every way the pipe splits reads; on child failure the parent raises an error and leaves the island's population and algorithm unchanged.", "quantifier": "all message lengths, all partial reads, failure/success of the child", "why_tests_cant": "pipe chunking is OS dependent", "anchors": ["src/islands/fork_island.cpp:run_evolve"]}
{"id": "C46", "title": "Random decision vectors respect bounds and integrality", "statement": "random_decision_vector(prob, rng) either throws or returns a vector of the problem dimension, inside the bounds, integral on the integer part, for every random stream; it throws whenever a bound is infinite or the range overflows.", "quantifier": "all problems and random streams", "why_tests_cant": "all streams/bounds", "anchors": ["include/pagmo/utils/generic.hpp:random_decision_vector,uniform_real_from_range,uniform_integral_from_range"]}
{"id": "C47", "title": "Batches of random decision vectors have the right layout", "statement": "batch_random_decision_vector(prob, n, rng) either throws or returns n*nx values in which every consecutive block of nx values is inside the bounds and integral on the integer part; the size computation cannot overflow silently.", "quantifier": "all problems, n, random streams", "why_tests_cant": "all sizes incl. overflow boundary", "anchors": ["include/pagmo/utils/generic.hpp:batch_random_decision_vector"]}
{"id": "C48", "title": "Bound repair returns points inside the bounds", "statement": "force_bounds_random, force_bounds_stick and force_bounds_reflection turn any finite vector into one inside the box [lb, ub] (for lb <= ub), leave components already inside unchanged and terminate.", "quantifier": "all vectors and boxes", "why_tests_cant": "all real inputs; termination of the reflection loop", "anchors": ["src/utils/generic.cpp:force_bounds_reflection,force_bounds_stick", "include/pagmo/utils/generic.hpp:force_bounds_random"]}
{"id": "C49", "title": "Crossover and mutation keep offspring in the box", "statement": "sbx_crossover and polynomial_mutation return vectors of the same dimension that lie in the box bounds and keep the integer part integral, whenever the parents do and the distribution index is not below -1, for every random stream.", "quantifier": "all parents, bounds, probabilities and random streams", "why_tests_cant": "all streams", "anchors": ["src/utils/genetic_operators.cpp:sbx_crossover_impl,polynomial_mutation_impl"]}
{"id": "C50", "title": "Genetic operators reject bad arguments", "statement": "sbx_crossover throws std::invalid_argument exactly when bounds or parents have inconsistent sizes, the bounds are infinite, NaN or reversed, the integer part exceeds the dimension or has non-integral bounds, or the probability or distribution index is not finite. polynomial_mutation throws in the same cases; for valid arguments it can throw only if the bounds of an integer component do not fit in long long.", "quantifier": "all arguments", "why_tests_cant": "exact characterisation over all doubles", "anchors": ["src/utils/genetic_operators.cpp:sbx_crossover,polynomial_mutation"]}
{"id": "C51", "title": "k nearest neighbours are nearest", "statement": "kNN(points, k) returns for each point min(k, N-1) distinct indices, never the point itself, sorted by distance, and no omitted point is closer than a listed one.", "quantifier": "all point sets, k, sort behaviours", "why_tests_cant": "unbounded sets, ties", "anchors": ["src/utils/generic.cpp:kNN"]}
{"id": "C52", "title": "Van der Corput and Halton sequences are the radical inverses", "statement": "The n-th value returned by van_der_corput(b, start) is the base-b radical inverse of start + n (until the 32-bit counter wraps): it lies in [0,1), equals the digit-reversed fraction, and different indices give different values; bases below 2 are rejected; halton(d, start) returns the vectors of radical inverses in the first d primes, for every d up to 1600, and is rejected for larger d.", "quantifier": "all bases b >= 2, all indices start + n < 2^32, all dimensions", "why_tests_cant": "unbounded sequence", "anchors": ["src/utils/discrepancy.cpp:van_der_corput,halton"]}
{"id": "C53", "title": "The prime table is the list of primes", "statement": "prime(n) returns the n-th prime for 1 <= n <= 1600 (1 for n = 0) and throws above.", "quantifier": "all n", "why_tests_cant": "checking every table entry for primality and that none is skipped", "anchors": ["src/detail/prime_numbers.cpp:prime"]}
{"id": "C54", "title": "sample_from_simplex returns a point of the simplex", "statement": "sample_from_simplex(v) for a non-empty vector of n numbers in [0,1] returns n+1 non-negative numbers summing to one, and throws exactly when v is empty or some entry is outside [0,1].", "quantifier": "all vectors", "why_tests_cant": "all real inputs incl. NaN", "anchors": ["src/utils/discrepancy.cpp:sample_from_simplex"]}
{"id": "C55", "title": "Numerical gradients are exact on low-degree polynomials", "statement": "estimate_gradient returns the exact gradient (dense, lexicographic layout) of any function whose components are polynomials of degree at most 2 in each variable, estimate_gradient_h for degree at most 6, in exact arithmetic for any non-zero step.", "quantifier": "all such functions, points and steps", "why_tests_cant": "all polynomials", "anchors": ["include/pagmo/utils/gradients_and_hessians.hpp:estimate_gradient,estimate_gradient_h"]}
{"id": "C56", "title": "Estimated sparsity is an accepted sparsity pattern", "statement": "estimate_sparsity(f, x) returns a strictly sorted, in-range pattern containing (i,j) exactly when perturbing x_j changed f_i, hence one that problem accepts as gradient sparsity.", "quantifier": "all functions and points", "why_tests_cant": "all functions", "anchors": ["include/pagmo/utils/gradients_and_hessians.hpp:estimate_sparsity", "src/problem.cpp:check_gradient_sparsity"]}
{"id": "C57", "title": "Two-dimensional hypervolume is the area of the union", "statement": "hv2d().compute(points, r) equals the area of the union of the boxes [p, r] for any list of points weakly below r, including duplicates and dominated points.", "quantifier": "all point lists (exact arithmetic)", "why_tests_cant": "geometric identity over all inputs", "anchors": ["src/utils/hv_algos/hv_hv2d.cpp:hv2d::compute"]}
{"id": "C58", "title": "Three-dimensional hypervolume is the volume of the union", "statement": "hv3d().compute(points, r) equals the volume of the union of the boxes [p, r] for any non-empty list of three-dimensional points strictly below r.", "quantifier": "all point lists (exact arithmetic)", "why_tests_cant": "geometric identity; sweep with ordered front", "anchors": ["src/utils/hv_algos/hv_hv3d.cpp:hv3d::compute"]}
{"id": "C59", "title": "WFG hypervolume is the volume of the union in every dimension", "statement": "hvwfg().compute(points, r) equals the volume of the union of the boxes [p, r] for any dimension at least 2.", "quantifier": "all dimensions and point lists (exact arithmetic)", "why_tests_cant": "recursive algorithm over unbounded inputs", "anchors": ["src/utils/hv_algos/hv_hvwfg.cpp:compute_hv,limitset,exclusive_hv"]}
{"id": "C60", "title": "Exclusive contributions are differences of hypervolumes", "statement": "hypervolume::exclusive(i, r) and hypervolume::contributions(r)[i] equal the hypervolume of all points minus the hypervolume without point i, never negative; out-of-range i throws.", "quantifier": "all point lists, indices", "why_tests_cant": "identity over all inputs", "anchors": ["src/utils/hypervolume.cpp:exclusive,contributions", "src/utils/hv_algos/hv_algorithm.cpp:exclusive,contributions"]}
{"id": "C61", "title": "Least and greatest contributors are extremal", "statement": "hypervolume::least_contributor(r) / greatest_contributor(r) return the index of a point whose contribution is minimal / maximal among all points.", "quantifier": "all point lists", "why_tests_cant": "unbounded", "anchors": ["src/utils/hv_algos/hv_algorithm.cpp:extreme_contributor", "src/utils/hypervolume.cpp"]}
{"id": "C62", "title": "Hypervolume inputs are validated before use", "statement": "A hypervolume object can be built (with verification) exactly when the points are non-empty, all of one dimension at least 2 and NaN free; compute() throws exactly when the reference point has the wrong size, is NaN, or some point is not weakly better than it in every objective or does not strictly improve it somewhere.", "quantifier": "all inputs", "why_tests_cant": "exact characterisation", "anchors": ["src/utils/hypervolume.cpp:verify_after_construct,verify_before_compute", "src/utils/hv_algos/hv_algorithm.cpp:assert_minimisation"]}
{"id": "C63", "title": "Hypervolume does not depend on the order of points and is monotone", "statement": "The computed hypervolume is unchanged by reordering or duplicating points or adding dominated points, and never decreases when a point is added.", "quantifier": "all inputs", "why_tests_cant": "metamorphic relation over all inputs", "anchors": ["src/utils/hypervolume.cpp:compute"]}
{"id": "C64", "title": "Differential evolution never worsens an individual", "statement": "de::evolve with F in [0,1] and fewer than 2^32-1 generations ends and returns a population of the same size and IDs in which every individual's fitness is no worse than before and every decision vector is in the (finite) bounds if they were initially, for every random stream and variant; only points in the bounds are evaluated; each stored fitness is the fitness of the stored decision vector.", "quantifier": "all random streams, populations, problems", "why_tests_cant": "all streams", "anchors": ["src/algorithms/de.cpp:de::evolve"]}
{"id": "C65", "title": "Compass search only accepts improvements and terminates", "statement": "compass_search::evolve terminates, every point it evaluates lies in the bounds, the number of evaluations is at most max_fevals + 2*nx, and the replaced individual receives a point not worse than the starting one.", "quantifier": "all problems", "why_tests_cant": "all objective functions", "anchors": ["src/algorithms/compass_search.cpp:compass_search::evolve"]}
{"id": "C66", "title": "Simple evolutionary algorithms are elitist", "statement": "After sea::evolve or sga::evolve on a deterministic problem the best objective value in the population is not worse than before, and population size and IDs are unchanged.", "quantifier": "all random streams and problems (no NaN fitness)", "why_tests_cant": "all streams", "anchors": ["src/algorithms/sea.cpp:sea::evolve", "src/algorithms/sga.cpp:sga::evolve"]}
{"id": "C67", "title": "Simulated annealing returns the best point it evaluated", "statement": "simulated_annealing::evolve evaluates only points inside the bounds and the individual it writes back has objective not larger than the selected starting individual and than every accepted point.", "quantifier": "all random streams and problems", "why_tests_cant": "all streams", "anchors": ["src/algorithms/simulated_annealing.cpp"]}
{"id": "C68", "title": "Monotonic basin hopping never returns a worse population", "statement": "mbh::evolve returns a population whose best individual is not worse (by compare_fc) than the best of the input population, whatever the inner algorithm does, provided it keeps the population size.", "quantifier": "all inner algorithms and random streams", "why_tests_cant": "all inner algorithms", "anchors": ["src/algorithms/mbh.cpp:mbh::evolve"]}
{"id": "C69", "title": "Multi-objective harmony search keeps the selected individuals", "statement": "In a multi-objective generation of ihs the new population consists of exactly the individuals chosen by select_best_N_mo from the old population plus the new one.", "quantifier": "all populations", "why_tests_cant": "in-place overwriting shows only for some index orders", "anchors": ["src/algorithms/ihs.cpp:ihs::evolve"]}
{"id": "C70", "title": "NSGA-II keeps the best of parents and offspring", "statement": "After each generation of nsga2 the population consists of the NP individuals chosen by select_best_N_mo from parents and offspring; in particular if the non-dominated individuals of the union number at most NP they all survive.", "quantifier": "all populations, random streams", "why_tests_cant": "all streams", "anchors": ["src/algorithms/nsga2.cpp:nsga2::evolve"]}
{"id": "C71", "title": "Grey wolf leaders are the best wolves", "statement": "In gwo::evolve the alpha, beta and delta scores written to the log are in non-decreasing order and alpha is not worse than any fitness of the input population or met during evolution.", "quantifier": "all populations, problems, random streams", "why_tests_cant": "all streams", "anchors": ["src/algorithms/gwo.cpp:gwo::evolve"]}
{"id": "C72", "title": "MOEA/D reference point and neighbourhood updates", "statement": "In moead::evolve the ideal point used for decomposition is, at every step, the component-wise minimum of the initial ideal point and all objectives evaluated so far; an individual is replaced only by one with smaller decomposed objective for its own weight; with diversity preservation at most max(limit,1) individuals are replaced by one candidate.", "quantifier": "all streams, problems", "why_tests_cant": "all streams", "anchors": ["src/algorithms/moead.cpp:moead::evolve"]}
{"id": "C73", "title": "Single-individual algorithms select and replace what they announce", "statement": "not_population_based selection/replacement returns/overwrites exactly the best, worst, random (in range) or indexed individual; an index not below the population size throws; every other individual is left unchanged.", "quantifier": "all populations, policies, random streams", "why_tests_cant": "all populations", "anchors": ["src/algorithms/not_population_based.cpp:select_individual,replace_individual"]}
{"id": "C74", "title": "Among equally infeasible solutions the smaller violation wins", "statement": "compare_fc on two fitness vectors that satisfy the same number of constraints but not all returns true exactly when the L2 norm of the constraint violations of the first is smaller than that of the second, as documented.", "quantifier": "all finite fitness vectors, tolerances, splits in equality/inequality constraints", "why_tests_cant": "The comparison mixes two norms; only particular combinations of equality and inequality violations expose it.", "anchors": ["src/utils/constrained.cpp:compare_fc"]}
{"id": "C75", "title": "sort_population_mo also sorts single-objective populations", "statement": "As documented, sort_population_mo applied to individuals with one objective returns a permutation of the indices sorted by that objective.", "quantifier": "all single-objective populations", "why_tests_cant": "The failure needs ties inside a front; quantifies over all populations.", "anchors": ["src/utils/multi_objective.cpp:sort_population_mo"]}
{"id": "C76", "title": "Weights start with the canonical ones", "statement": "Documented guarantee of decomposition_weights: every generation method delivers the canonical weights [1,0,0,...], [0,1,0,...], ... first.", "quantifier": "all n_f, n_w, methods, random streams", "why_tests_cant": "every size and stream", "anchors": ["include/pagmo/utils/multi_objective.hpp:decomposition_weights"]}
{"id": "C77", "title": "The default reference point dominates nothing and is valid", "statement": "hypervolume::refpoint(offset) returns, coordinate by coordinate, the greatest value over the points plus the offset; with a positive offset compute() accepts it and returns a positive value.", "quantifier": "all point lists and offsets", "why_tests_cant": "all inputs", "anchors": ["src/utils/hypervolume.cpp:refpoint"]}
{"id": "C78", "title": "decompose accepts exactly well-formed decompositions", "statement": "The constructor of decompose succeeds exactly when the inner problem has two or more objectives and no constraints, the method is one of weighted, tchebycheff and bi, weight and reference point have one finite entry per objective, the weights are non-negative and their sum differs from one by at most 1e-8; otherwise it throws std::invalid_argument.", "quantifier": "all inner problems, weights, reference points and method names (sum computed exactly)", "why_tests_cant": "the accepted set is a semialgebraic set with infinitely many boundary cases", "anchors": ["src/problems/decompose.cpp:decompose::generic_ctor_impl"]}
{"id": "C79", "title": "Archipelago status and wait_check aggregate the islands", "statement": "archipelago::status() is idle iff all islands are idle, busy iff some island is busy and none has an error, idle_error iff some island is idle_error and none is busy, busy_error iff some island is busy and some has an error; wait_check() calls wait_check() of every island in insertion order, even after one throws, and rethrows the first exception.", "quantifier": "all lists of island states", "why_tests_cant": "combinations of island states over any number of islands", "anchors": ["src/archipelago.cpp:status,wait_check"]}
{"id": "C80", "title": "Analytic gradients and Hessians of the test problems are the derivatives of the fitness", "statement": "For rosenbrock, rastrigin, minlp_rastrigin, luksan_vlcek1 and hock_schittkowski_71, every number gradient() returns is the partial derivative of fitness() named by the entry of the gradient sparsity pattern at the same position, there are as many numbers as entries, and the derivatives not listed in the pattern are zero everywhere; likewise hessians() and hessians_sparsity() of rastrigin, minlp_rastrigin and hock_schittkowski_71 for the second derivatives. The patterns are ones problem accepts.", "quantifier": "all problem dimensions the constructors accept and all decision vectors of that dimension (real arithmetic)", "why_tests_cant": "a numerical check compares a few points up to a tolerance, and a wrong entry may vanish at those points", "anchors": ["src/problems/rosenbrock.cpp:gradient", "src/problems/rastrigin.cpp:gradient,hessians", "src/problems/minlp_rastrigin.cpp:gradient,hessians", "src/problems/luksan_vlcek1.cpp:gradient,gradient_sparsity", "src/problems/hock_schittkowski_71.cpp:gradient,hessians"]}
{"id": "C81", "title": "best_known() of the test problems is the global minimiser", "statement": "For rosenbrock, rastrigin, ackley and griewank the vector best_known() returns lies in the bounds, has fitness 0, and every other decision vector of that dimension has a larger fitness. The point hock_schittkowski_71 returns satisfies the constraints up to 1e-6 only: with the default tolerances it is infeasible.", "quantifier": "all dimensions the constructors accept and all decision vectors (real arithmetic)", "why_tests_cant": "global optimality over a continuum cannot be sampled", "anchors": ["src/problems/rosenbrock.cpp:best_known,fitness", "src/problems/rastrigin.cpp:best_known,fitness", "src/problems/ackley.cpp:best_known,fitness", "src/problems/griewank.cpp:best_known,fitness", "src/problems/hock_schittkowski_71.cpp:best_known"]}
{"id": "C82", "title": "dtlz::p_distance is zero exactly on the optimal front", "statement": "For a decision vector in the bounds, p_distance of a DTLZ problem is non-negative and it is 0 exactly if no decision vector in the bounds dominates it; the fitness lies on the documented front scaled by one plus the distance (components of DTLZ1 add up to (1+d)/2, squares of DTLZ2-6 to (1+d)^2). A decision vector of another size makes p_distance throw. The distance of a population is 0 exactly if that of every individual is. (False of the code for DTLZ7, where 0 does not imply optimal, and for DTLZ5/6 with four or more objectives, where an optimal vector may have a positive distance.)", "quantifier": "all problem ids, dimensions, numbers of objectives, exponents alpha and decision vectors in the box (real arithmetic)", "why_tests_cant": "Pareto optimality quantifies over a continuum of competitors", "anchors": ["src/problems/dtlz.cpp:fitness,p_distance,convergence_metric", "include/pagmo/problems/dtlz.hpp"]}
{"id": "C83", "title": "zdt::p_distance is zero exactly on the optimal front", "statement": "For a decision vector in the bounds, p_distance of a ZDT problem is non-negative and it is 0 exactly if no decision vector in the bounds dominates it; the two objectives are related by the documented front scaled by one plus the distance. The constructor accepts exactly the ids 1 to 6 and parameters from 2. (False of the code for ZDT3, where 0 does not imply optimal; for ZDT5 at non-integer vectors, where the fitness rounds but p_distance takes the floor, so that two vectors with the same fitness have different distances; and for ZDT5 with huge parameters, where the number of variables wraps around.)", "quantifier": "all problem ids, parameters and decision vectors in the box (real arithmetic)", "why_tests_cant": "Pareto optimality quantifies over a continuum of competitors", "anchors": ["src/problems/zdt.cpp:zdt,fitness,p_distance,get_bounds,get_nix", "include/pagmo/problems/zdt.hpp"]}
{"id": "C84", "title": "bee_colony evaluates two neighbours per individual and generation, keeps the better ones, and ends", "statement": "bee_colony(gen, limit).evolve(pop): the constructor refuses the limit 0; evolve throws std::invalid_argument for constrained, multi-objective or stochastic problems and fewer than two individuals, leaving pop as it was; gen = 0 returns pop. Otherwise every generation makes exactly 2 * pop.size() calls of fitness(), all inside the bounds; a candidate differs from its individual in one component, moved towards or away from another individual; it replaces the individual only if its objective is smaller than that individual's; after limit failures an individual is abandoned for a random point; IDs stay; and the call returns.", "quantifier": "all problems with finite bounds, objective functions, populations inside the bounds, seeds, limits and numbers of generations", "why_tests_cant": "The behaviour depends on the whole stream of random numbers; a stale fitness shows only after a scout, and the endless loop only for objectives that are NaN or minus infinity.", "anchors": ["src/algorithms/bee_colony.cpp:48-54", "src/algorithms/bee_colony.cpp:65-237"]}
{"id": "C85", "title": "cstrs_self_adaptive leaves the objective of feasible points alone and recognises the infeasible individuals", "statement": "In the penalized problem that cstrs_self_adaptive hands to its inner algorithm, a point that meets all constraints within the tolerances has its original objective, whatever the reference population is. The individuals counted as feasible are those that meet all constraints within the tolerances, and the infeasibility of an individual is positive exactly if it violates a constraint.", "quantifier": "all numbers of constraints, tolerances, reference populations and points", "why_tests_cant": "The penalties depend on the whole population; tests run the algorithm on a few problems and look at the final result only.", "anchors": ["src/algorithms/cstrs_self_adaptive.cpp:90-125", "src/algorithms/cstrs_self_adaptive.cpp:132-175", "src/algorithms/cstrs_self_adaptive.cpp:329-380"]}
{"id": "C86", "title": "cstrs_self_adaptive picks the documented reference individuals", "statement": "The penalties are defined by three individuals: the best one is the feasible individual with the lowest objective, or if there is none the one with the smallest infeasibility (ties: lowest objective); the worst one is, if some infeasible individual has an objective below the best, among those the most infeasible one (ties: lowest objective), otherwise the most infeasible one (ties: highest objective); the third has the highest objective of all. The first penalty is switched off exactly if there is a feasible individual and no infeasible one has a lower objective. If everybody is feasible there is no penalty.", "quantifier": "all populations with finite fitness values, all numbers of constraints and tolerances", "why_tests_cant": "Five nested case distinctions with ties; a test would need to construct a population for each of them and can look only at the final population.", "anchors": ["src/algorithms/cstrs_self_adaptive.cpp:132-300"]}
{"id": "C87", "title": "cstrs_self_adaptive penalizes infeasible points", "statement": "The penalties never make an infeasible point better: its penalized objective is at least its objective, it grows with the objective and the infeasibility, and the worst infeasible individual of the reference population gets the highest objective of the population.", "quantifier": "all populations with finite fitness values, all numbers of constraints, tolerances and points", "why_tests_cant": "Needs populations with particular signs of the objectives; the existing tests use problems with positive objectives or look only at whether the algorithm runs.", "anchors": ["src/algorithms/cstrs_self_adaptive.cpp:90-125", "src/algorithms/cstrs_self_adaptive.cpp:286-299"]}
{"id": "C88", "title": "cstrs_self_adaptive never makes a population worse and evaluates only what the inner algorithm asks for", "statement": "cstrs_self_adaptive(iters, algo).evolve(pop) throws std::invalid_argument, leaving everything as it was, for several objectives, stochastic problems, problems without constraints and fewer than 4 individuals. Otherwise, whatever the inner algorithm does with the penalized problem, the result has the same IDs and tolerances, contains an individual to which no input individual is preferred by compare_fc, every fitness vector belongs to its decision vector (it was in the input or was returned by the fitness function), and if the inner algorithm makes at most m evaluations per call then fitness() is called at most iters * m times.", "quantifier": "all problems, populations, inner algorithms, numbers of iterations", "why_tests_cant": "The inner algorithm is arbitrary; tests use one of pagmo's algorithms and check that some log lines appear.", "anchors": ["src/algorithms/cstrs_self_adaptive.cpp:403-508", "src/algorithms/cstrs_self_adaptive.cpp:90-105"]}
{"id": "C89", "title": "cstrs_self_adaptive keeps the improvements found by the inner algorithm", "statement": "After each iteration the individuals of the population are those the inner algorithm returned, except that the best individual of the previous population is reinserted in the place of the worst; an individual that is better than all others is not lost.", "quantifier": "all problems, populations and inner algorithms", "why_tests_cant": "An improvement is lost only if the inner algorithm stores it at the index of the old worst individual; a test sees a slightly worse population, not an error.", "anchors": ["src/algorithms/cstrs_self_adaptive.cpp:450-506"]}
{"id": "C90", "title": "pso: the neighbours of a particle are those of the documented topology", "statement": "In pso, lbest gives every particle its neighb_param/2 successors and as many predecessors on a ring; von Neumann gives the four neighbours in a wrapping rectangle as close to a square as possible; adaptive random gives every particle neighb_param places in the lists of neighbours, one of them its own. Neighbours are always particles of the swarm.", "quantifier": "every swarm size, every neighb_param, every seed", "why_tests_cant": "Tests run pso on a few swarm sizes and check that it does not throw; index arithmetic at the ends of the ring and for sizes that are primes or products is not observable from the result.", "anchors": ["src/algorithms/pso.cpp:547-697"]}
{"id": "C91", "title": "pso: what a run does", "statement": "pso::evolve throws std::invalid_argument (leaving the population as it was) for constrained, multi-objective and stochastic problems and for an empty population. Otherwise it makes gen generations; in each, every particle in turn changes its velocity by the formula of the variant with random weights in [0,1] towards its own best and the best of its neighbours, is limited to max_vel times the width of the box, stops at the bounds, and is evaluated there. Exactly gen times pop size points are evaluated, all within the bounds, and the population returned holds the own best of each particle. Random neighbourhoods are rewired after exactly the generations without improvement.", "quantifier": "every problem with finite bounds, every population, all variants and topologies, every seed, with and without memory", "why_tests_cant": "The trajectory is random and differs between implementations of the distributions; tests check only that evolve does not throw and is deterministic for a seed.", "anchors": ["src/algorithms/pso.cpp:116-443", "include/pagmo/algorithms/pso.hpp:45-146"]}
{"id": "C92", "title": "pso never returns a worse individual", "statement": "Every individual of the population pso::evolve returns is at least as good as the individual given at its place and as all points evaluated for its particle, and it is one of these.", "quantifier": "every problem, every population, all variants and topologies, every seed", "why_tests_cant": "A loss needs a particular sequence of fitness values (for example NaN) at a particular particle.", "anchors": ["src/algorithms/pso.cpp:360-372", "src/algorithms/pso.cpp:436-442"]}
{"id": "C93", "title": "An object loaded from an archive is the object that was saved", "statement": "For every serializable class of pagmo (problem, algorithm, population, island, archipelago, topology, policies, bfe, and the algorithms, problems, topologies, islands and batch evaluators shipped with it), saving an object with Boost.Serialization and loading it, into a default-constructed or any other object of the class, gives an object with the same data members; the islands of a loaded archipelago are in the same order, point to it and are found in its index map.", "quantifier": "every object, every content of the archive after it, every object loaded into; any depth of nested local optimizers, any number of islands; any serializable user-defined classes", "why_tests_cant": "A test compares the printed form of a few objects, which leaves out many members; a member missing from serialize() shows only in later calls of evolve.", "anchors": ["src/algorithms/pso.cpp:482-486", "src/algorithms/pso_gen.cpp:578-582", "src/algorithms/nspso.cpp:442-446", "src/algorithms/de1220.cpp:636-640", "src/algorithms/maco.cpp:570-574", "src/algorithms/nlopt.cpp:1008-1035", "include/pagmo/problem.hpp:1604-1630", "include/pagmo/archipelago.hpp:666-717", "include/pagmo/algorithms/not_population_based.hpp:94-141"]}
{"id": "C94", "title": "A failed load leaves a usable object", "statement": "If loading a problem, algorithm, topology, policy, bfe, population, island or archipelago throws, the object is left default-constructed and the exception is passed on. An archive of a problem, algorithm, population, island or archipelago that was cut short is never accepted.", "quantifier": "every archive, every object loaded into, every place at which the archive ends", "why_tests_cant": "The exception may come at any point of the archive; tests try at most one.", "anchors": ["include/pagmo/problem.hpp:1613-1630", "include/pagmo/algorithm.hpp:732-740", "include/pagmo/population.hpp:319-329", "include/pagmo/island.hpp:1203-1214", "include/pagmo/archipelago.hpp:675-717"]}
{"id": "C95", "title": "A generation of pso_gen moves all particles by the formulas of the variant, within the bounds", "statement": "In each generation of pso_gen::evolve the new velocities of all particles are computed from the swarm as it was before the generation (own best and best neighbour, resp. all neighbours), by the formula of the variant, and cut at the speed limit; then all particles move, are put back on the bounds, and are evaluated, by the batch evaluator if one is set. On a stochastic problem the own bests are evaluated again under the new seed. Only points within the bounds are evaluated; neighbours are chosen anew (topology 4) exactly when there was no progress; the leader (topology 1) is the best position known. evolve throws for constraints, several objectives and an empty population.", "quantifier": "every problem, population, number of generations, variant, topology, seed; with and without a batch evaluator; stochastic problems", "why_tests_cant": "The result of a run cannot be computed independently in a test; a wrong order of updates still converges.", "anchors": ["src/algorithms/pso_gen.cpp:120-530", "src/algorithms/pso_gen.cpp:593-624"]}
{"id": "C96", "title": "pso_gen returns the best point of each particle", "statement": "Every individual of the population pso_gen::evolve returns is the individual given at its place or a point evaluated for its particle, and none of these is better (NaN being worse than everything). On a stochastic problem everything returned was evaluated under the last seed, and is the better one of the last position of the particle and its best so far.", "quantifier": "every problem, every population, all variants and topologies, every seed", "why_tests_cant": "A loss needs a particular sequence of fitness values (for example NaN) at a particular particle; values under different seeds look alike.", "anchors": ["src/algorithms/pso_gen.cpp:365-459", "src/algorithms/pso_gen.cpp:521-527"]}
{"id": "C97", "title": "sade: what a run does", "statement": "sade::evolve on a population of at least seven individuals inside the finite bounds of a deterministic single-objective unconstrained problem returns the population with the same IDs after the given number of generations, or after the first one that meets an exit condition (distance of best and worst in x or f below the tolerance). In every generation each individual in turn gets a trial: mutation by the documented formula of the variant from the population at the begin of the generation with seven different individuals, exponential or binomial crossover, components outside the bounds drawn again. The trial is evaluated and replaces the individual exactly if its fitness is not larger; its F and CR are then kept. The best individual so far is the one used as 'best'. With memory, F and CR of the previous call are used if the size is the same, otherwise they are drawn anew. Other problems and smaller populations throw std::invalid_argument with nothing changed.", "quantifier": "for all problems with finite bounds, fitness functions (NaN, exceptions), engines, distributions, variants 1-18, both adaptation schemes, tolerances, populations, numbers of generations, memory on or off", "why_tests_cant": "The result depends on hundreds of random draws and on 18 formulas in two crossovers; a wrong index in one formula or a parameter kept with the wrong individual only makes the optimisation a bit worse, which no test on a few seeds sees.", "anchors": ["src/algorithms/sade.cpp:52-65,78-587", "include/pagmo/algorithms/sade.hpp:50-140"]}
{"id": "C98", "title": "sade, de1220: adaptation of F and CR", "statement": "jDE: F and CR of a trial are those of the individual unless a number drawn is at least 0.9, then F is 0.1 + 0.9 u and CR is u with u drawn from [0,1]; so after any number of calls every F is in [0.1, 1] and every CR in [0, 1]. iDE: F and CR of a trial are a base value plus differences of the values of other individuals, each with a normally distributed weight of standard deviation 0.5, by the operator of the variant.", "quantifier": "for all variants, individuals, draws, runs and sequences of runs with memory; ranges in exact arithmetic and for every monotone rounding", "why_tests_cant": "F and CR are never returned by the API apart from those of the best in the log; a range violation or swapped lists cannot be observed from outside.", "anchors": ["src/algorithms/sade.cpp:143-156,181-183,188-493", "src/algorithms/de1220.cpp:147-165,193-195"]}
{"id": "C99", "title": "de1220: what a run does", "statement": "de1220::evolve does what sade::evolve does, where each individual has a mutation variant of its own: the variant of a trial is that of the individual if a number drawn is below 0.9 and else one drawn from the allowed variants, and it is kept with the trial that replaces the individual. Only allowed variants are used, also across calls with memory. The constructor throws for variants outside 1-18 and adaptation schemes other than 1 and 2; the documentation says that unbounded problems produce an error.", "quantifier": "for all problems with finite bounds, fitness functions, engines, non-empty lists of allowed variants, adaptation schemes, populations, memory on or off", "why_tests_cant": "Which variant made a trial is not observable; the empty list passes the constructor and the failure comes later as an out-of-range read that may go unnoticed.", "anchors": ["src/algorithms/de1220.cpp:51-68,80-602", "include/pagmo/algorithms/de1220.hpp:55-150"]}
