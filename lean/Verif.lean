import Verif.Model.Scalar
import Verif.Model.Particle
import Verif.Model.Grid
import Verif.Model.Par
import Verif.Model.Matrix
import Verif.Model.Cg
import Verif.Model.Computer
import Verif.Lemmas.Par
import Verif.Lemmas.Phases
import Verif.Lemmas.Grid
import Verif.Lemmas.Store
import Verif.Lemmas.Search
import Verif.Lemmas.Step
import Verif.Spec.Grid
import Verif.Spec.Search
import Verif.Model.Instances
import Verif.Lemmas.GridEquiv
import Verif.Props.Grid
import Verif.Lemmas.Frame
import Verif.Lemmas.Sim
import Verif.Spec.History
import Verif.Props.Step
import Verif.Spec.Toy
import Verif.Lemmas.Real
import Verif.Props.GridReal
import Verif.Lemmas.Sums
import Verif.Props.Momentum
import Verif.Props.TimeStep
import Verif.Props.Density
import Verif.Lemmas.Cg
import Verif.Props.Solver
import Verif.Lemmas.Ppe
import Verif.Spec.Linear
import Verif.Spec.Step
import Verif.Lemmas.Before
import Verif.Props.Lattice
import Verif.Props.Ppe
import Verif.Props.Examples
import Verif.Model.Csv
import Verif.Props.Csv
import Verif.Model.Main
import Verif.Props.Main
import Verif.Props.MainExamples
import Verif.Spec.Shift
import Verif.Lemmas.Shift
import Verif.Props.Translation
import Verif.Spec.Perm
import Verif.Lemmas.Perm
import Verif.Props.Perm
import Verif.Spec.Reference
import Verif.Lemmas.Reference
import Verif.Props.Reference
import Verif.Model.Fine
import Verif.Lemmas.Fine
import Verif.Lemmas.FineBodies
import Verif.Lemmas.FineWithin
import Verif.Spec.Race
import Verif.Props.Fine
import Verif.Props.MainWalls
import Verif.Props.FreeFall
import Verif.Props.Finite
import Verif.Props.ReferenceStep
import Verif.Props.Motion
import Verif.Props.Xml
import Verif.Props.Viscosity
import Verif.Props.Torque
import Verif.Props.Rounding
import Verif.Props.RoundingExamples
import Verif.Props.Units
import Verif.Props.Machine
import Verif.Props.ConcurrentStore
import Verif.Props.Locks
import Verif.Props.Restart
import Verif.Props.RestartExamples
import Verif.Props.Text
import Verif.Props.TextExamples
import Verif.Props.Rigid
import Verif.Props.SerialBuild
import Verif.Props.Accuracy
import Verif.Props.Consistency
import Verif.Props.ConsistencyExamples
import Verif.Props.Derivative
import Verif.Props.DerivativeExamples
import Verif.Props.Body
import Verif.Props.BodyExamples
import Verif.Props.Local
import Verif.Props.LocalExamples
import Verif.Props.CentreOfMass
import Verif.Props.CentreOfMassExamples
import Verif.Props.RoundingDensity
import Verif.Props.RoundingDensityExamples
import Verif.Props.Dynamics
import Verif.Props.DynamicsExamples
import Verif.Props.RoundingRun
import Verif.Props.RoundingRunExamples
import Verif.Props.Options
import Verif.Props.OptionsExamples
import Verif.Model.Benchmark
import Verif.Spec.Benchmark
import Verif.Lemmas.Benchmark
import Verif.Props.Benchmark
import Verif.Props.BenchmarkScenes
import Verif.Props.BenchmarkGood
import Verif.Props.BenchmarkDensity
import Verif.Props.BenchmarkSymmetry
import Verif.Props.BenchmarkExamples
import Verif.Props.Solvable
import Verif.Lemmas.BenchmarkStep
import Verif.Lemmas.BenchmarkAnchor
import Verif.Props.BenchmarkStep
import Verif.Props.BenchmarkStepExamples
import Verif.Spec.RoundingSolver
import Verif.Lemmas.RoundingSolver
import Verif.Lemmas.RoundingSolverRun
import Verif.Props.RoundingSolver
import Verif.Props.RoundingSolverExamples
import Verif.Model.Evaluate
import Verif.Spec.Evaluate
import Verif.Lemmas.Evaluate
import Verif.Props.Evaluate
import Verif.Props.EvaluateRun
import Verif.Props.EvaluateExamples
import Verif.Props.XmlText
import Verif.Props.XmlTextExamples
import Verif.Spec.RoundingForces
import Verif.Lemmas.RoundingMag
import Verif.Lemmas.RoundingForces
import Verif.Lemmas.RoundingTerms
import Verif.Props.RoundingForces
import Verif.Props.RoundingForcesRun
import Verif.Props.RoundingForcesExamples
import Verif.Model.Double
import Verif.Spec.Double
import Verif.Lemmas.Double
import Verif.Lemmas.DoubleRounding
import Verif.Lemmas.DoubleBits
import Verif.Props.Double
import Verif.Props.DoubleRun
import Verif.Props.DoubleExamples
import Verif.Model.DoubleText
import Verif.Spec.DoubleText
import Verif.Lemmas.DoubleText
import Verif.Props.DoubleText
import Verif.Props.DoubleTextExamples
import Verif.Spec.RoundingPpe
import Verif.Lemmas.RoundingPpe
import Verif.Props.RoundingPpe
import Verif.Props.RoundingPpeRun
import Verif.Props.RoundingPpeExamples
import Verif.Props.DoublePpe
import Verif.Props.DoublePpeExamples
import Verif.Props.RoundingStep
import Verif.Props.DoubleStep
import Verif.Props.DoubleStepExamples
import Verif.Spec.RoundingVirtual
import Verif.Lemmas.RoundingVirtual
import Verif.Props.RoundingVirtual
import Verif.Props.RoundingVirtualRun
import Verif.Props.RoundingVirtualExamples
import Verif.Props.DoubleVirtual
import Verif.Spec.RoundingPpeVirtual
import Verif.Lemmas.RoundingPpeVirtual
import Verif.Props.RoundingPpeVirtual
import Verif.Props.DoublePpeVirtual
import Verif.Props.DoublePpeVirtualExamples
import Verif.Model.Contract
import Verif.Spec.Contract
import Verif.Lemmas.Contract
import Verif.Props.Contract
import Verif.Props.ContractDistance
import Verif.Props.ContractSearch
import Verif.Props.ContractSpecial
import Verif.Props.ContractExamples
