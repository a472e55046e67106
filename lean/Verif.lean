import Verif.Base.Fl
import Verif.Base.Outcome
import Verif.Base.Sort
import Verif.Model.MultiObjective
import Verif.Spec.MultiObjective
import Verif.Proof.Dominance
import Verif.Proof.Fnds
import Verif.Proof.Front2d
import Verif.Props.MultiObjective
import Verif.Axioms
import Verif.Base.FlArith
import Verif.Model.Constrained
import Verif.Spec.Constrained
import Verif.Proof.Constrained
import Verif.Props.Constrained
import Verif.Model.Crowding
import Verif.Proof.Crowding
import Verif.Props.Crowding
import Verif.Model.Primes
import Verif.Model.Discrepancy
import Verif.Proof.Primes
import Verif.Props.Discrepancy
import Verif.Model.Knn
import Verif.Props.Knn
import Verif.Model.Decompose
import Verif.Props.Decompose
import Verif.Proof.Weights
import Verif.Props.Weights
import Verif.Base.Run
import Verif.Model.Population
import Verif.Proof.Population
import Verif.Props.Population
import Verif.Base.Check
import Verif.Model.Problem
import Verif.Props.Problem
import Verif.Props.Counters
import Verif.Model.Bfe
import Verif.Props.Bfe
import Verif.Model.Topology
import Verif.Props.Topology
import Verif.Model.Policy
import Verif.Props.Policy
import Verif.Model.TaskQueue
import Verif.Props.TaskQueue
import Verif.Base.Rng
import Verif.Model.Random
import Verif.Props.Random
import Verif.Props.Bounds
import Verif.Model.Genetic
import Verif.Props.Genetic
import Verif.Model.Hypervolume
import Verif.Model.HyCon3d
import Verif.Spec.Hypervolume
import Verif.Proof.HvMeasure
import Verif.Proof.Hv2d
import Verif.Proof.Hv3d
import Verif.Proof.Wfg
import Verif.Props.Hypervolume
import Verif.Model.MetaProblem
import Verif.Props.Translate
import Verif.Props.Unconstrain
import Verif.Props.DecomposeProblem
import Verif.Props.Golomb
import Verif.Model.Gradients
import Verif.Props.Gradients
import Verif.Model.IslandControl
import Verif.Props.IslandControl
import Verif.Model.RngDevice
import Verif.Props.RngDevice
import Verif.Model.Snapshot
import Verif.Props.Snapshot
import Verif.Model.Archipelago
import Verif.Props.Archipelago
import Verif.Model.Migration
import Verif.Props.Migration
import Verif.Model.ForkIsland
import Verif.Props.ForkIsland
import Verif.Model.Algo
import Verif.Model.Compass
import Verif.Proof.Algo
import Verif.Proof.Compass
import Verif.Props.SelectReplace
import Verif.Props.Compass
import Verif.Model.De
import Verif.Proof.Evolve
import Verif.Proof.De
import Verif.Props.De
import Verif.Base.Wlp
import Verif.Model.Sea
import Verif.Proof.Sea
import Verif.Props.Sea
import Verif.Props.MigrationRounds
import Verif.Model.Sga
import Verif.Proof.Sga
import Verif.Props.Sga
import Verif.Model.Annealing
import Verif.Proof.Annealing
import Verif.Props.Annealing
import Verif.Model.Mbh
import Verif.Proof.Mbh
import Verif.Props.Mbh
import Verif.Model.Nsga2
import Verif.Proof.Nsga2
import Verif.Props.Nsga2
import Verif.Model.Ihs
import Verif.Props.Ihs
import Verif.Model.Moead
import Verif.Props.Moead
import Verif.Model.Gwo
import Verif.Props.Gwo
import Verif.Model.Analytic
import Verif.Proof.Analytic
import Verif.Props.Analytic
import Verif.Props.BestKnown
import Verif.Model.Dtlz
import Verif.Proof.Dtlz
import Verif.Props.Dtlz
import Verif.Model.Zdt
import Verif.Proof.Zdt
import Verif.Props.Zdt
import Verif.Model.Bee
import Verif.Proof.Bee
import Verif.Props.Bee
import Verif.Proof.HyBoxes
import Verif.Proof.HyStep
import Verif.Proof.HyVol
import Verif.Proof.HyCon3d
import Verif.Props.HyCon3d
import Verif.Model.Cstrs
import Verif.Proof.Cstrs
import Verif.Props.Cstrs
import Verif.Proof.CstrsEvolve
import Verif.Props.CstrsEvolve
import Verif.Model.Pso
import Verif.Props.PsoTopology
import Verif.Proof.Pso
import Verif.Props.Pso
import Verif.Model.S11n
import Verif.Proof.S11n
import Verif.Props.S11n
import Verif.Model.PsoGen
import Verif.Spec.PsoGen
import Verif.Proof.PsoGen
import Verif.Props.PsoGen
import Verif.Model.Sade
import Verif.Spec.Sade
import Verif.Proof.Sade
import Verif.Props.Sade
import Verif.Model.MoeadGen
import Verif.Proof.MoeadGen
import Verif.Props.MoeadGen
import Verif.Model.Nspso
import Verif.Spec.Nspso
import Verif.Proof.Nspso
import Verif.Props.Nspso
import Verif.Model.LinAlg
import Verif.Model.Xnes
import Verif.Spec.Xnes
import Verif.Proof.Xnes
import Verif.Props.Xnes
import Verif.Model.Cmaes
import Verif.Spec.Cmaes
import Verif.Proof.Cmaes
import Verif.Props.Cmaes
import Verif.Model.Gaco
import Verif.Proof.Gaco
import Verif.Props.Gaco
import Verif.Props.GacoAnts
import Verif.Props.GacoArchive
import Verif.Model.Maco
import Verif.Proof.Maco
import Verif.Props.Maco
import Verif.Props.MacoRun
import Verif.Props.MacoMem
import Verif.Model.Nlopt
import Verif.Model.Ipopt
import Verif.Proof.Nlopt
import Verif.Props.Nlopt
import Verif.Proof.Ipopt
import Verif.Props.Ipopt
import Verif.Model.HvApprox
import Verif.Proof.HvApprox
import Verif.Proof.HvRace
import Verif.Proof.HvRaceEnd
import Verif.Proof.HvFpras
import Verif.Props.HvApprox
import Verif.Model.Wfg
import Verif.Spec.Wfg
import Verif.Proof.WfgFun
import Verif.Proof.WfgSum
import Verif.Proof.WfgVal
import Verif.Proof.WfgFit
import Verif.Proof.WfgFront
import Verif.Props.Wfg
import Verif.Model.Wrapper
import Verif.Spec.Wrapper
import Verif.Proof.Wrapper
import Verif.Props.Wrapper
import Verif.Model.Cec2006
import Verif.Spec.Cec2006
import Verif.Proof.Cec2006
import Verif.Proof.Cec2006Min
import Verif.Proof.Cec2006G20
import Verif.Props.Cec2006
import Verif.Model.Lennard
import Verif.Spec.Lennard
import Verif.Props.Lennard
import Verif.Model.Inventory
import Verif.Spec.Inventory
import Verif.Props.Inventory
import Verif.Model.Schwefel
import Verif.Props.Schwefel
import Verif.Model.Cec2009
import Verif.Spec.Cec2009
import Verif.Proof.Cec2009
import Verif.Props.Cec2009
import Verif.Props.Cec2009Front
import Verif.Props.Cec2009Pareto
import Verif.Spec.Cec2009C
import Verif.Props.Cec2009Con
import Verif.Props.Cec2009ConFront
import Verif.Props.Cec2006Feas
import Verif.Model.Cec2013
import Verif.Spec.Cec2013
import Verif.Proof.Cec2013
import Verif.Proof.Cec2013Spec
import Verif.Props.Cec2013
import Verif.Model.Cec2014
import Verif.Spec.Cec2014
import Verif.Proof.Cec2014
import Verif.Proof.Cec2014Spec
import Verif.Props.Cec2014
import Verif.Props.Cec2013At
import Verif.Model.PopulationCtor
import Verif.Props.PopulationCtor
import Verif.Props.Nsga2Batch
import Verif.Props.MacoBatch
import Verif.Props.PsoGenBatch
import Verif.Model.Feasibility
import Verif.Props.Feasibility
import Verif.Props.Cec2006G16
import Verif.Props.Cec2006Numbers
import Verif.Model.Io
import Verif.Props.Io
import Verif.Model.EigenS11n
import Verif.Props.EigenS11n
import Verif.Props.CompassUnbounded
