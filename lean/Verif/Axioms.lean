import Verif.Props.Analytic
import Verif.Props.Annealing
import Verif.Props.Archipelago
import Verif.Props.Bee
import Verif.Props.BestKnown
import Verif.Props.Bfe
import Verif.Props.Bounds
import Verif.Props.Cec2006
import Verif.Props.Cec2006Feas
import Verif.Props.Cec2006G16
import Verif.Props.Cec2006Numbers
import Verif.Props.Cec2009
import Verif.Props.Cec2009Con
import Verif.Props.Cec2009ConFront
import Verif.Props.Cec2009Front
import Verif.Props.Cec2009Pareto
import Verif.Props.Cec2013
import Verif.Props.Cec2013At
import Verif.Props.Cec2014
import Verif.Props.Cmaes
import Verif.Props.Compass
import Verif.Props.CompassUnbounded
import Verif.Props.Constrained
import Verif.Props.Counters
import Verif.Props.Crowding
import Verif.Props.Cstrs
import Verif.Props.CstrsEvolve
import Verif.Props.De
import Verif.Props.Decompose
import Verif.Props.DecomposeProblem
import Verif.Props.Discrepancy
import Verif.Props.Dtlz
import Verif.Props.EigenS11n
import Verif.Props.Feasibility
import Verif.Props.ForkIsland
import Verif.Props.Gaco
import Verif.Props.GacoAnts
import Verif.Props.GacoArchive
import Verif.Props.Genetic
import Verif.Props.Golomb
import Verif.Props.Gradients
import Verif.Props.Gwo
import Verif.Props.HvApprox
import Verif.Props.HyCon3d
import Verif.Props.Hypervolume
import Verif.Props.Ihs
import Verif.Props.Inventory
import Verif.Props.Io
import Verif.Props.Ipopt
import Verif.Props.IslandControl
import Verif.Props.Knn
import Verif.Props.Lennard
import Verif.Props.Maco
import Verif.Props.MacoBatch
import Verif.Props.MacoMem
import Verif.Props.MacoRun
import Verif.Props.Mbh
import Verif.Props.Migration
import Verif.Props.MigrationRounds
import Verif.Props.Moead
import Verif.Props.MoeadGen
import Verif.Props.MultiObjective
import Verif.Props.Nlopt
import Verif.Props.Nsga2
import Verif.Props.Nsga2Batch
import Verif.Props.Nspso
import Verif.Props.Policy
import Verif.Props.Population
import Verif.Props.PopulationCtor
import Verif.Props.Problem
import Verif.Props.Pso
import Verif.Props.PsoGen
import Verif.Props.PsoGenBatch
import Verif.Props.PsoTopology
import Verif.Props.Random
import Verif.Props.RngDevice
import Verif.Props.S11n
import Verif.Props.Sade
import Verif.Props.Schwefel
import Verif.Props.Sea
import Verif.Props.SelectReplace
import Verif.Props.Sga
import Verif.Props.Snapshot
import Verif.Props.TaskQueue
import Verif.Props.Topology
import Verif.Props.Translate
import Verif.Props.Unconstrain
import Verif.Props.Weights
import Verif.Props.Wfg
import Verif.Props.Wrapper
import Verif.Props.Xnes
import Verif.Props.Zdt

/-! Axioms used by every claimed theorem (generated by tools/claim.py). -/

#print axioms Verif.Props.C01_pareto_dominance
#print axioms Verif.Props.C01_irreflexive
#print axioms Verif.Props.C01_asymmetric
#print axioms Verif.Props.C01_transitive
#print axioms Verif.Props.C02_fnds_throws
#print axioms Verif.Props.C02_fnds_layers
#print axioms Verif.Props.C03_domination_count
#print axioms Verif.Props.C04_front_2d
#print axioms Verif.Props.C04_front_2d_throws
#print axioms Verif.Props.C05_select_best
#print axioms Verif.Props.C06_sort_population
#print axioms Verif.Props.C07_ideal
#print axioms Verif.Props.C07_nadir_partial
#print axioms Verif.Props.C07_nadir_single_point_throws
#print axioms Verif.Props.C08_crowding_distance
#print axioms Verif.Props.C08_duplicate_points_nan
#print axioms Verif.Props.C09_throws_iff
#print axioms Verif.Props.C09_weighted_monotone
#print axioms Verif.Props.C09_weighted_value
#print axioms Verif.Props.C09_tchebycheff_monotone
#print axioms Verif.Props.C09_tchebycheff_value
#print axioms Verif.Props.C10_invalid_throws
#print axioms Verif.Props.C10_grid
#print axioms Verif.Props.C10_grid_complete
#print axioms Verif.Props.C10_grid_H_formula
#print axioms Verif.Props.C10_random
#print axioms Verif.Props.C10_low_discrepancy
#print axioms Verif.Props.C100_evolve
#print axioms Verif.Props.C100_ideal
#print axioms Verif.Props.C100_weighted
#print axioms Verif.Props.C100_throws
#print axioms Verif.Props.C100_no_generations
#print axioms Verif.Props.C100_ctor
#print axioms Verif.Props.C100_batch
#print axioms Verif.Props.C101_evolve_partial
#print axioms Verif.Props.C101_ctor
#print axioms Verif.Props.C101_throws
#print axioms Verif.Props.C101_no_generations
#print axioms Verif.Props.C101_memory
#print axioms Verif.Props.C101_nan
#print axioms Verif.Props.C102_leader_partial
#print axioms Verif.Props.C102_maxmin
#print axioms Verif.Props.C102_leader_false
#print axioms Verif.Props.C102_own_false
#print axioms Verif.Props.C103_batch
#print axioms Verif.Props.C104_kept_partial
#print axioms Verif.Props.C104_false
#print axioms Verif.Props.C105_ctor
#print axioms Verif.Props.C105_throws
#print axioms Verif.Props.C105_no_generations
#print axioms Verif.Props.C105_evolve_partial
#print axioms Verif.Props.C105_undefined
#print axioms Verif.Props.C105_nan
#print axioms Verif.Props.C106_evolve
#print axioms Verif.Props.C106_weights_sum
#print axioms Verif.Props.C106_weights_order
#print axioms Verif.Props.C107_forget
#print axioms Verif.Props.C107_first_partial
#print axioms Verif.Props.C107_false
#print axioms Verif.Props.C106_evolve
#print axioms Verif.Props.C108_ctor
#print axioms Verif.Props.C108_throws
#print axioms Verif.Props.C108_no_generations
#print axioms Verif.Props.C108_evolve_partial
#print axioms Verif.Props.C108_nan
#print axioms Verif.Props.C109_evolve
#print axioms Verif.Props.C109_weights
#print axioms Verif.Props.C109_mueff
#print axioms Verif.Props.C109_defaults
#print axioms Verif.Props.C109_rates
#print axioms Verif.Props.C11_strict_partial_order_partial
#print axioms Verif.Props.C11_one_kind_partial
#print axioms Verif.Props.C11_not_strict_weak_order
#print axioms Verif.Props.C110_symmetric
#print axioms Verif.Props.C110_positive_partial
#print axioms Verif.Props.C110_run_partial
#print axioms Verif.Props.C110_default_rates
#print axioms Verif.Props.C110_start
#print axioms Verif.Props.C110_axes
#print axioms Verif.Props.C110_rates_false
#print axioms Verif.Props.C110_false
#print axioms Verif.Props.C111_forget
#print axioms Verif.Props.C111_first
#print axioms Verif.Props.C111_resume
#print axioms Verif.Props.C112_batch
#print axioms Verif.Props.C113_ctor
#print axioms Verif.Props.C113_throws
#print axioms Verif.Props.C113_no_generations
#print axioms Verif.Props.C113_evolve_partial
#print axioms Verif.Props.C113_box
#print axioms Verif.Props.C114_penalty
#print axioms Verif.Props.C114_best_partial
#print axioms Verif.Props.C114_memory_partial
#print axioms Verif.Props.C114_last
#print axioms Verif.Props.C114_stopped
#print axioms Verif.Props.C114_memory_lost
#print axioms Verif.Props.C114_nan
#print axioms Verif.Props.C115_weights
#print axioms Verif.Props.C115_ants
#print axioms Verif.Props.C115_two_rows
#print axioms Verif.Props.C115_zero
#print axioms Verif.Props.C116_kept_partial
#print axioms Verif.Props.C116_second
#print axioms Verif.Props.C116_distance
#print axioms Verif.Props.C117_stopped
#print axioms Verif.Props.C117_never
#print axioms Verif.Props.C117_q
#print axioms Verif.Props.C117_again
#print axioms Verif.Props.C117_empty
#print axioms Verif.Props.C118_batch
#print axioms Verif.Props.C119_ctor
#print axioms Verif.Props.C119_throws
#print axioms Verif.Props.C119_no_generations
#print axioms Verif.Props.C12_throws_iff
#print axioms Verif.Props.C12_more_constraints
#print axioms Verif.Props.C12_feasible_objective
#print axioms Verif.Props.C120_evolve_partial
#print axioms Verif.Props.C121_best
#print axioms Verif.Props.C121_front
#print axioms Verif.Props.C121_log
#print axioms Verif.Props.C121_run_partial
#print axioms Verif.Props.C121_best_partial
#print axioms Verif.Props.C121_hv_partial
#print axioms Verif.Props.C121_infinite
#print axioms Verif.Props.C121_first_log
#print axioms Verif.Props.C121_lost
#print axioms Verif.Props.C122_stop_partial
#print axioms Verif.Props.C122_undefined
#print axioms Verif.Props.C122_reload
#print axioms Verif.Props.C122_refused
#print axioms Verif.Props.C122_first_call_partial
#print axioms Verif.Props.C122_stopped
#print axioms Verif.Props.C122_stagnates
#print axioms Verif.Props.C122_memory_loses
#print axioms Verif.Props.C122_larger
#print axioms Verif.Props.C122_small_ker
#print axioms Verif.Props.C122_mark
#print axioms Verif.Props.C123_told
#print axioms Verif.Props.C123_configure
#print axioms Verif.Props.C124_evolve
#print axioms Verif.Props.C124_best
#print axioms Verif.Props.C124_replaces_better
#print axioms Verif.Props.C125_ctor
#print axioms Verif.Props.C125_criteria
#print axioms Verif.Props.C125_roundtrip_partial
#print axioms Verif.Props.C125_stale_local
#print axioms Verif.Props.C126_told
#print axioms Verif.Props.C126_lagrangian
#print axioms Verif.Props.C127_evolve
#print axioms Verif.Props.C127_best
#print axioms Verif.Props.C127_zero
#print axioms Verif.Props.C127_replaces_better
#print axioms Verif.Props.C128_set
#print axioms Verif.Props.C128_set_all
#print axioms Verif.Props.C128_options
#print axioms Verif.Props.C129_least
#print axioms Verif.Props.C129_greatest_partial
#print axioms Verif.Props.C129_construct
#print axioms Verif.Props.C129_greatest_dominated
#print axioms Verif.Props.C129_empty_box
#print axioms Verif.Props.C129_nan
#print axioms Verif.Props.C13_sort_partial
#print axioms Verif.Props.C13_sort_throws
#print axioms Verif.Props.C13_sort_undefined_behaviour
#print axioms Verif.Props.C130_least
#print axioms Verif.Props.C130_greatest_partial
#print axioms Verif.Props.C130_box
#print axioms Verif.Props.C131_estimates
#print axioms Verif.Props.C131_total
#print axioms Verif.Props.C132_compute_partial
#print axioms Verif.Props.C132_construct
#print axioms Verif.Props.C132_unsupported
#print axioms Verif.Props.C132_delta_one
#print axioms Verif.Props.C132_infinite
#print axioms Verif.Props.C133_ctor
#print axioms Verif.Props.C133_published_partial
#print axioms Verif.Props.C133_wfg6_false
#print axioms Verif.Props.C133_wfg8_false
#print axioms Verif.Props.C133_wfg9_false
#print axioms Verif.Props.C134_range_partial
#print axioms Verif.Props.C134_negative
#print axioms Verif.Props.C135_front_partial
#print axioms Verif.Props.C135_sphere_partial
#print axioms Verif.Props.C134_negative
#print axioms Verif.Props.C136_members
#print axioms Verif.Props.C136_value
#print axioms Verif.Props.C136_one_owner
#print axioms Verif.Props.C136_no_leak
#print axioms Verif.Props.C136_independent
#print axioms Verif.Props.C136_copy_assign
#print axioms Verif.Props.C137_ctor
#print axioms Verif.Props.C137_set
#print axioms Verif.Props.C137_cached
#print axioms Verif.Props.C137_stale
#print axioms Verif.Props.C138_ctor
#print axioms Verif.Props.C138_bounds
#print axioms Verif.Props.C138_fitness
#print axioms Verif.Props.C138_defined
#print axioms Verif.Props.C138_g21
#print axioms Verif.Props.C138_g02
#print axioms Verif.Props.C138_g08
#print axioms Verif.Props.C138_g14
#print axioms Verif.Props.C138_best
#print axioms Verif.Props.C138_best16
#print axioms Verif.Props.C138_g17
#print axioms Verif.Props.C138_g22
#print axioms Verif.Props.C138_g20
#print axioms Verif.Props.C139_published
#print axioms Verif.Props.C139_g01
#print axioms Verif.Props.C139_g03
#print axioms Verif.Props.C139_g06
#print axioms Verif.Props.C139_g11
#print axioms Verif.Props.C139_g12
#print axioms Verif.Props.C139_g12_balls
#print axioms Verif.Props.C139_g23
#print axioms Verif.Props.C139_lower
#print axioms Verif.Props.C139_infeasible
#print axioms Verif.Props.C139_infeasible03
#print axioms Verif.Props.C139_formulas
#print axioms Verif.Props.C14_throws
#print axioms Verif.Props.C14_feasible_iff_within
#print axioms Verif.Props.C14_feasible_iff_partial
#print axioms Verif.Props.C14_infinite_tolerance
#print axioms Verif.Props.C140_g20
#print axioms Verif.Props.C141_ctor
#print axioms Verif.Props.C141_fitness
#print axioms Verif.Props.C141_bound
#print axioms Verif.Props.C141_any
#print axioms Verif.Props.C141_bounds
#print axioms Verif.Props.C141_small
#print axioms Verif.Props.C142_value
#print axioms Verif.Props.C142_repeatable
#print axioms Verif.Props.C142_empty
#print axioms Verif.Props.C142_convex
#print axioms Verif.Props.C142_lower
#print axioms Verif.Props.C142_bounds
#print axioms Verif.Props.C143_ctor
#print axioms Verif.Props.C143_bounds
#print axioms Verif.Props.C143_fitness
#print axioms Verif.Props.C143_growth
#print axioms Verif.Props.C143_best
#print axioms Verif.Props.C143_optimal
#print axioms Verif.Props.C144_ctor
#print axioms Verif.Props.C144_shape
#print axioms Verif.Props.C144_boundsUF
#print axioms Verif.Props.C144_boundsCF
#print axioms Verif.Props.C144_bounds_ub
#print axioms Verif.Props.C145_uf
#print axioms Verif.Props.C145_small2
#print axioms Verif.Props.C145_small3
#print axioms Verif.Props.C146_uf123
#print axioms Verif.Props.C146_uf4
#print axioms Verif.Props.C146_uf5
#print axioms Verif.Props.C146_uf6
#print axioms Verif.Props.C146_uf7
#print axioms Verif.Props.C146_uf8_10
#print axioms Verif.Props.C146_uf9
#print axioms Verif.Props.C147_cf
#print axioms Verif.Props.C147_ub
#print axioms Verif.Props.C147_small2
#print axioms Verif.Props.C147_small3
#print axioms Verif.Props.C148_cf1
#print axioms Verif.Props.C148_cf2
#print axioms Verif.Props.C148_cf3
#print axioms Verif.Props.C148_cf45
#print axioms Verif.Props.C148_cf67
#print axioms Verif.Props.C149_g01
#print axioms Verif.Props.C149_g02
#print axioms Verif.Props.C149_g03
#print axioms Verif.Props.C149_g04
#print axioms Verif.Props.C149_g05
#print axioms Verif.Props.C149_g06
#print axioms Verif.Props.C149_g07
#print axioms Verif.Props.C149_g08
#print axioms Verif.Props.C149_g09
#print axioms Verif.Props.C149_g10
#print axioms Verif.Props.C149_g11
#print axioms Verif.Props.C149_g13
#print axioms Verif.Props.C149_g14
#print axioms Verif.Props.C149_g15
#print axioms Verif.Props.C149_g17
#print axioms Verif.Props.C149_g18
#print axioms Verif.Props.C149_g19
#print axioms Verif.Props.C149_g21
#print axioms Verif.Props.C149_g22
#print axioms Verif.Props.C149_g23
#print axioms Verif.Props.C149_g24
#print axioms Verif.Props.C149_g16
#print axioms Verif.Props.C15_wellformed
#print axioms Verif.Props.C15_call
#print axioms Verif.Props.C15_accepts
#print axioms Verif.Props.C150_construct
#print axioms Verif.Props.C150_bounds
#print axioms Verif.Props.C150_fitness
#print axioms Verif.Props.C151_minimum
#print axioms Verif.Props.C151_schwefel
#print axioms Verif.Props.C151_composition
#print axioms Verif.Props.C151_compositionAt
#print axioms Verif.Props.C152_basic
#print axioms Verif.Props.C152_composition
#print axioms Verif.Props.C152_all
#print axioms Verif.Props.C152_no_rotation
#print axioms Verif.Props.C152_report_differs
#print axioms Verif.Props.C153_construct
#print axioms Verif.Props.C153_bounds
#print axioms Verif.Props.C153_shifts
#print axioms Verif.Props.C153_fitness
#print axioms Verif.Props.C154_single
#print axioms Verif.Props.C154_composition
#print axioms Verif.Props.C154_all
#print axioms Verif.Props.C155_minimum
#print axioms Verif.Props.C155_schwefel
#print axioms Verif.Props.C155_composition
#print axioms Verif.Props.C155_compositionAt
#print axioms Verif.Props.C156_same
#print axioms Verif.Props.C156_threads
#print axioms Verif.Props.C156_members
#print axioms Verif.Props.C156_empty
#print axioms Verif.Props.C157_batch
#print axioms Verif.Props.C158_batch
#print axioms Verif.Props.C159_batch
#print axioms Verif.Props.C159_stochastic_order
#print axioms Verif.Props.C16_unconstrained
#print axioms Verif.Props.C16_constrained
#print axioms Verif.Props.C16_accessors_throw
#print axioms Verif.Props.C16_stale_after_set_c_tol
#print axioms Verif.Props.C160_wrong_size
#print axioms Verif.Props.C160_one_call
#print axioms Verif.Props.C160_set_c_tol
#print axioms Verif.Props.C160_monotone
#print axioms Verif.Props.C161_rows
#print axioms Verif.Props.C161_aligned
#print axioms Verif.Props.C162_vector
#print axioms Verif.Props.C162_map
#print axioms Verif.Props.C163_round_trip
#print axioms Verif.Props.C163_short
#print axioms Verif.Props.C17_unconstrained_partial
#print axioms Verif.Props.C17_constrained_partial
#print axioms Verif.Props.C17_throws
#print axioms Verif.Props.C17_nan
#print axioms Verif.Props.C18_unconstrained_partial
#print axioms Verif.Props.C18_constrained_partial
#print axioms Verif.Props.C18_migration_leaves_champion_stale
#print axioms Verif.Props.C19_bounds
#print axioms Verif.Props.C19_construct_sound
#print axioms Verif.Props.C19_construct_complete
#print axioms Verif.Props.C20_counts_partial
#print axioms Verif.Props.C20_failed_batch_counts
#print axioms Verif.Props.C21_threads
#print axioms Verif.Props.C21_rejects
#print axioms Verif.Props.C21_default
#print axioms Verif.Props.C22_checks
#print axioms Verif.Props.C22_dense_gradient
#print axioms Verif.Props.C22_dense_hessian
#print axioms Verif.Props.C22_cached_gradient
#print axioms Verif.Props.C22_gradient_sparsity_checked
#print axioms Verif.Props.C22_cached_hessians_partial
#print axioms Verif.Props.C22_cached_hessians_overflow
#print axioms Verif.Props.C23_ctor
#print axioms Verif.Props.C23_fitness
#print axioms Verif.Props.C23_batch
#print axioms Verif.Props.C23_bounds
#print axioms Verif.Props.C23_compose
#print axioms Verif.Props.C23_constructible
#print axioms Verif.Props.C24_ctor
#print axioms Verif.Props.C24_feasible
#print axioms Verif.Props.C24_death
#print axioms Verif.Props.C24_kuri
#print axioms Verif.Props.C24_weighted
#print axioms Verif.Props.C24_ignore_c
#print axioms Verif.Props.C24_ignore_o
#print axioms Verif.Props.C24_length
#print axioms Verif.Props.C25_batch_partial
#print axioms Verif.Props.C25_ignore_o_undefined
#print axioms Verif.Props.C26_value
#print axioms Verif.Props.C26_throws
#print axioms Verif.Props.C26_fixed
#print axioms Verif.Props.C26_calls
#print axioms Verif.Props.C27_concurrent_partial
#print axioms Verif.Props.C27_lost_update
#print axioms Verif.Props.C28_golomb
#print axioms Verif.Props.C28_golomb_ctor
#print axioms Verif.Props.C29_single
#print axioms Verif.Props.C29_multi
#print axioms Verif.Props.C29_constrained_partial
#print axioms Verif.Props.C29_rejects
#print axioms Verif.Props.C30_single
#print axioms Verif.Props.C30_multi
#print axioms Verif.Props.C30_constrained_partial
#print axioms Verif.Props.C29_rejects
#print axioms Verif.Props.C31_construct
#print axioms Verif.Props.C31_bound
#print axioms Verif.Props.C31_value
#print axioms Verif.Props.C32_ring
#print axioms Verif.Props.C32_bad_weight
#print axioms Verif.Props.C33_fully_connected
#print axioms Verif.Props.C33_to_bgl
#print axioms Verif.Props.C34_invariant
#print axioms Verif.Props.C34_strong_guarantee
#print axioms Verif.Props.C34_get_connections
#print axioms Verif.Props.C34_effects
#print axioms Verif.Props.C34_free_form
#print axioms Verif.Props.C34_parallel_edges
#print axioms Verif.Props.C35_get_connections
#print axioms Verif.Props.C36_replace
#print axioms Verif.Props.C36_select
#print axioms Verif.Props.C37_tasks
#print axioms Verif.Props.C38_wait_all
#print axioms Verif.Props.C38_destructor
#print axioms Verif.Props.C39_finite_partial
#print axioms Verif.Props.C39_terminates_partial
#print axioms Verif.Props.C39_lost_wakeup
#print axioms Verif.Props.C39_wrong_thread_woken
#print axioms Verif.Props.C39_second_waiter
#print axioms Verif.Props.C40_status
#print axioms Verif.Props.C40_wait
#print axioms Verif.Props.C40_wait_check
#print axioms Verif.Props.C40_wait_keeps
#print axioms Verif.Props.C40_progress
#print axioms Verif.Props.C41_delivery
#print axioms Verif.Props.C41_provenance
#print axioms Verif.Props.C41_evict_once
#print axioms Verif.Props.C41_preserve
#print axioms Verif.Props.C41_put_get
#print axioms Verif.Props.C41_refused
#print axioms Verif.Props.C41_progress
#print axioms Verif.Props.C41_log_repeats
#print axioms Verif.Props.C41_rounds
#print axioms Verif.Props.C42_refines
#print axioms Verif.Props.C42_foreign
#print axioms Verif.Props.C42_no_leak
#print axioms Verif.Props.C42_counts
#print axioms Verif.Props.C43_linear
#print axioms Verif.Props.C43_seeded
#print axioms Verif.Props.C43_each_once
#print axioms Verif.Props.C43_progress
#print axioms Verif.Props.C44_get
#print axioms Verif.Props.C44_set
#print axioms Verif.Props.C44_no_ub
#print axioms Verif.Props.C44_no_leak
#print axioms Verif.Props.C44_progress
#print axioms Verif.Props.C45_bytes
#print axioms Verif.Props.C45_success
#print axioms Verif.Props.C45_failure
#print axioms Verif.Props.C45_island
#print axioms Verif.Props.C45_reaped
#print axioms Verif.Props.C45_faithful
#print axioms Verif.Props.C45_progress
#print axioms Verif.Props.C45_terminates
#print axioms Verif.Props.C46_random_decision_vector
#print axioms Verif.Props.C47_batch
#print axioms Verif.Props.C48_stick
#print axioms Verif.Props.C48_stick_nearest
#print axioms Verif.Props.C48_random
#print axioms Verif.Props.C48_reflection_partial
#print axioms Verif.Props.C48_reflection_hangs
#print axioms Verif.Props.C48_nan
#print axioms Verif.Props.C49_sbx
#print axioms Verif.Props.C49_mutation
#print axioms Verif.Props.C49_mutation_nan
#print axioms Verif.Props.C50_sbx
#print axioms Verif.Props.C50_mutation
#print axioms Verif.Props.C51_knn_any_arithmetic
#print axioms Verif.Props.C51_knn_throws
#print axioms Verif.Props.C51_knn_euclidean
#print axioms Verif.Props.C52_vdc_base
#print axioms Verif.Props.C52_vdc_value
#print axioms Verif.Props.C52_radical_inverse_bounds
#print axioms Verif.Props.C52_radical_inverse_injective
#print axioms Verif.Props.C52_halton
#print axioms Verif.Props.C53_prime
#print axioms Verif.Props.C54_simplex_partial
#print axioms Verif.Props.C54_throws
#print axioms Verif.Props.C54_nan_accepted
#print axioms Verif.Props.C55_low_values
#print axioms Verif.Props.C55_high_values
#print axioms Verif.Props.C55_low_exact
#print axioms Verif.Props.C55_high_exact
#print axioms Verif.Props.C56_throws
#print axioms Verif.Props.C56_sparsity
#print axioms Verif.Props.C56_throws
#print axioms Verif.Props.C57_area
#print axioms Verif.Props.C58_volume
#print axioms Verif.Props.C59_wfg
#print axioms Verif.Props.C59_wfg_stop
#print axioms Verif.Props.C59_stop_rejected
#print axioms Verif.Props.C59_default
#print axioms Verif.Props.C59_api
#print axioms Verif.Props.C60_exclusive
#print axioms Verif.Props.C60_wfg
#print axioms Verif.Props.C60_contributions_partial
#print axioms Verif.Props.C60_base
#print axioms Verif.Props.exclVol_eq
#print axioms Verif.Props.exclVol_nonneg
#print axioms Verif.Props.C60_wrong_contribution
#print axioms Verif.Props.C60_wrong_contribution_2d
#print axioms Verif.Props.C60_undefined
#print axioms Verif.Props.C60_stop_undefined
#print axioms Verif.Props.C60_hycon3d
#print axioms Verif.Props.C60_hv2d
#print axioms Verif.Props.C60_contributions_apart_partial
#print axioms Verif.Props.C61_extreme_partial
#print axioms Verif.Props.C61_api
#print axioms Verif.Props.C61_wrong_greatest
#print axioms Verif.Props.C61_apart_partial
#print axioms Verif.Props.C62_construct
#print axioms Verif.Props.C62_compute_partial
#print axioms Verif.Props.C62_nan_accepted
#print axioms Verif.Props.C63_order
#print axioms Verif.Props.C63_dominated
#print axioms Verif.Props.C63_monotone
#print axioms Verif.Props.C63_single
#print axioms Verif.Props.C64_evolve
#print axioms Verif.Props.C64_fitness
#print axioms Verif.Props.C64_throws
#print axioms Verif.Props.C64_ctor
#print axioms Verif.Props.C64_nan
#print axioms Verif.Props.noOverflow_exact
#print axioms Verif.Props.noOverflow_rounded
#print axioms Verif.Props.C64_crossover
#print axioms Verif.Props.C65_search_partial
#print axioms Verif.Props.C65_throws
#print axioms Verif.Props.C65_ctor
#print axioms Verif.Props.C65_never_ends
#print axioms Verif.Props.directed_exact
#print axioms Verif.Props.directed_rounded
#print axioms Verif.Props.C65_unbounded
#print axioms Verif.Props.C66_sea
#print axioms Verif.Props.C66_sea_ends
#print axioms Verif.Props.C66_best
#print axioms Verif.Props.C66_sea_throws
#print axioms Verif.Props.C66_sga
#print axioms Verif.Props.C66_sga_best
#print axioms Verif.Props.C66_sga_throws
#print axioms Verif.Props.C66_sga_ctor
#print axioms Verif.Props.C66_sga_nan
#print axioms Verif.Props.C66_sga_int
#print axioms Verif.Props.C66_truncated
#print axioms Verif.Props.C66_tournament
#print axioms Verif.Props.C67_anneal
#print axioms Verif.Props.C67_throws
#print axioms Verif.Props.C67_ctor
#print axioms Verif.Props.C68_mbh_partial
#print axioms Verif.Props.C68_ends_partial
#print axioms Verif.Props.C68_throws
#print axioms Verif.Props.C68_ctor
#print axioms Verif.Props.C68_nan
#print axioms Verif.Props.C69_multi_partial
#print axioms Verif.Props.C69_members
#print axioms Verif.Props.C69_elitist
#print axioms Verif.Props.C69_chosen
#print axioms Verif.Props.C69_false
#print axioms Verif.Props.C69_single
#print axioms Verif.Props.C69_constrained_partial
#print axioms Verif.Props.C69_throws
#print axioms Verif.Props.C69_ctor
#print axioms Verif.Props.C70_evolve
#print axioms Verif.Props.C70_elitist
#print axioms Verif.Props.C70_survivors
#print axioms Verif.Props.C70_throws
#print axioms Verif.Props.C70_ctor
#print axioms Verif.Props.C70_tournament
#print axioms Verif.Props.C70_crowd
#print axioms Verif.Props.C71_evolve
#print axioms Verif.Props.C71_alpha_partial
#print axioms Verif.Props.C71_order_partial
#print axioms Verif.Props.C71_log_partial
#print axioms Verif.Props.C71_nan_false
#print axioms Verif.Props.C71_false
#print axioms Verif.Props.C71_throws
#print axioms Verif.Props.C71_nothing
#print axioms Verif.Props.C71_rate
#print axioms Verif.Props.C71_pull
#print axioms Verif.Props.C71_last
#print axioms Verif.Props.C72_evolve
#print axioms Verif.Props.C72_ideal
#print axioms Verif.Props.C72_ideal_nan_false
#print axioms Verif.Props.C72_limit_false
#print axioms Verif.Props.C72_weighted
#print axioms Verif.Props.C72_throws
#print axioms Verif.Props.C72_no_generations
#print axioms Verif.Props.C72_ctor
#print axioms Verif.Props.moeadNum_exact
#print axioms Verif.Props.C73_select
#print axioms Verif.Props.C73_replace
#print axioms Verif.Props.C73_strings
#print axioms Verif.Props.ranked_unconstrained
#print axioms Verif.Props.ranked_constrained
#print axioms Verif.Props.C74_violation_order_partial
#print axioms Verif.Props.C74_smaller_violation_not_preferred
#print axioms Verif.Props.C75_single_objective_partial
#print axioms Verif.Props.C75_ties_throw
#print axioms Verif.Props.C76_canonical_first_partial
#print axioms Verif.Props.C76_grid_not_canonical_first
#print axioms Verif.Props.C77_refpoint
#print axioms Verif.Props.C77_accepted
#print axioms Verif.Props.C78_decompose_ctor
#print axioms Verif.Props.C79_status
#print axioms Verif.Props.C79_wait_check
#print axioms Verif.Props.C80_rosenbrock
#print axioms Verif.Props.C80_rastrigin_gradient
#print axioms Verif.Props.C80_rastrigin_hessian
#print axioms Verif.Props.C80_luksan_vlcek1
#print axioms Verif.Props.C80_hs71_gradient
#print axioms Verif.Props.C80_hs71_hessians
#print axioms Verif.Props.C81_rosenbrock
#print axioms Verif.Props.C81_rastrigin
#print axioms Verif.Props.C81_ackley
#print axioms Verif.Props.C81_griewank
#print axioms Verif.Props.C81_hs71
#print axioms Verif.Props.C82_ctor
#print axioms Verif.Props.C82_front
#print axioms Verif.Props.C82_size
#print axioms Verif.Props.C82_zero_optimal
#print axioms Verif.Props.C82_optimal_zero
#print axioms Verif.Props.C82_dtlz7_false
#print axioms Verif.Props.C82_dtlz5_false
#print axioms Verif.Props.C82_population
#print axioms Verif.Props.C83_ctor
#print axioms Verif.Props.C83_front
#print axioms Verif.Props.C83_zero_optimal
#print axioms Verif.Props.C83_optimal_zero
#print axioms Verif.Props.C83_total
#print axioms Verif.Props.C83_zdt5_zero_optimal
#print axioms Verif.Props.C83_zdt5_front
#print axioms Verif.Props.C83_zdt5_optimal_zero
#print axioms Verif.Props.C83_zdt3_false
#print axioms Verif.Props.C83_zdt5_false
#print axioms Verif.Props.C83_zdt5_wraps
#print axioms Verif.Props.C83_population
#print axioms Verif.Props.C84_ctor
#print axioms Verif.Props.C84_throws
#print axioms Verif.Props.C84_nothing
#print axioms Verif.Props.C84_evolve
#print axioms Verif.Props.C84_shares
#print axioms Verif.Props.C84_false
#print axioms Verif.Props.C84_hang
#print axioms Verif.Props.C85_feasible
#print axioms Verif.Props.C85_count
#print axioms Verif.Props.C85_nan
#print axioms Verif.Props.C86_reference
#print axioms Verif.Props.C87_worst_partial
#print axioms Verif.Props.C87_no_reward_partial
#print axioms Verif.Props.C87_rewarded
#print axioms Verif.Props.C87_all_infeasible
#print axioms Verif.Props.C88_evolve_partial
#print axioms Verif.Props.C88_errors
#print axioms Verif.Props.C88_undefined
#print axioms Verif.Props.C89_kept_partial
#print axioms Verif.Props.C89_slot
#print axioms Verif.Props.C89_lost
#print axioms Verif.Props.C90_ring_partial
#print axioms Verif.Props.C90_ring_alone
#print axioms Verif.Props.C90_ring_outside
#print axioms Verif.Props.C90_lattice
#print axioms Verif.Props.C90_random
#print axioms Verif.Props.C91_ctor
#print axioms Verif.Props.C91_throws
#print axioms Verif.Props.C91_evolve_partial
#print axioms Verif.Props.C91_undefined
#print axioms Verif.Props.C91_nan
#print axioms Verif.Props.C91_memory
#print axioms Verif.Props.C92_best_partial
#print axioms Verif.Props.C92_nan
#print axioms Verif.Props.C93_problem
#print axioms Verif.Props.C93_algorithm
#print axioms Verif.Props.C93_topology_policies
#print axioms Verif.Props.C93_bfe
#print axioms Verif.Props.C93_population
#print axioms Verif.Props.C93_island
#print axioms Verif.Props.C93_archipelago
#print axioms Verif.Props.C93_not_population_based
#print axioms Verif.Props.C93_thread_island
#print axioms Verif.Props.C93_thread_island_old
#print axioms Verif.Props.C93_nlopt_partial
#print axioms Verif.Props.C93_nlopt_kept
#print axioms Verif.Props.C93_classes_partial
#print axioms Verif.Props.C93_lost
#print axioms Verif.Props.C93_pso_memory
#print axioms Verif.Props.C94_failed
#print axioms Verif.Props.C94_truncated
#print axioms Verif.Props.C95_evolve_partial
#print axioms Verif.Props.C95_throws
#print axioms Verif.Props.C95_undefined
#print axioms Verif.Props.C95_nan
#print axioms Verif.Props.C95_memory
#print axioms Verif.Props.C95_leader
#print axioms Verif.Props.C96_best
#print axioms Verif.Props.C96_stochastic
#print axioms Verif.Props.C97_evolve
#print axioms Verif.Props.C97_throws
#print axioms Verif.Props.C97_ctor
#print axioms Verif.Props.C97_formula
#print axioms Verif.Props.C98_jde
#print axioms Verif.Props.C98_range_exact
#print axioms Verif.Props.C98_range_rounded
#print axioms Verif.Props.C98_jde_draws
#print axioms Verif.Props.C98_ide_F
#print axioms Verif.Props.C98_ide_CR
#print axioms Verif.Props.C99_evolve_partial
#print axioms Verif.Props.C99_throws
#print axioms Verif.Props.C99_ctor
#print axioms Verif.Props.C99_variant
#print axioms Verif.Props.C99_undefined
#print axioms Verif.Props.C99_unbounded
