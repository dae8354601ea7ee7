import Verif.Lemmas.Bn
import Verif.Lemmas.Body
import Verif.Lemmas.BodyFile
import Verif.Lemmas.BodyProcesses
import Verif.Lemmas.BodyProcessesRun
import Verif.Lemmas.Boundary
import Verif.Lemmas.BoundaryRun
import Verif.Lemmas.Column
import Verif.Lemmas.Convection
import Verif.Lemmas.ConvectionRun
import Verif.Lemmas.CoupledProcesses
import Verif.Lemmas.DeltaAxis
import Verif.Lemmas.DeltaRow
import Verif.Lemmas.DeltaRun
import Verif.Lemmas.Diag
import Verif.Lemmas.Divergence
import Verif.Lemmas.DivergenceRow
import Verif.Lemmas.DivergenceValue
import Verif.Lemmas.Energy
import Verif.Lemmas.EnergyRun
import Verif.Lemmas.Extended
import Verif.Lemmas.ExtendedRow
import Verif.Lemmas.Extrema
import Verif.Lemmas.Files
import Verif.Lemmas.GhostSum
import Verif.Lemmas.Gradient
import Verif.Lemmas.Ibpm
import Verif.Lemmas.IbpmFiles
import Verif.Lemmas.IbpmRestart
import Verif.Lemmas.IbpmRun
import Verif.Lemmas.IbpmVolume
import Verif.Lemmas.Index
import Verif.Lemmas.Info
import Verif.Lemmas.InsertLast
import Verif.Lemmas.Kernel
import Verif.Lemmas.Krylov
import Verif.Lemmas.Laplacian
import Verif.Lemmas.LaplacianEntries
import Verif.Lemmas.LaplacianSymm
import Verif.Lemmas.Lifetime
import Verif.Lemmas.LinSolver
import Verif.Lemmas.ListSum
import Verif.Lemmas.Local
import Verif.Lemmas.Matrix
import Verif.Lemmas.Mesh
import Verif.Lemmas.MeshAxis
import Verif.Lemmas.MeshInit
import Verif.Lemmas.Momentum
import Verif.Lemmas.MomentumRun
import Verif.Lemmas.NavierStokes
import Verif.Lemmas.NavierStokesRun
import Verif.Lemmas.Operators
import Verif.Lemmas.Origin
import Verif.Lemmas.OriginBodies
import Verif.Lemmas.Packed
import Verif.Lemmas.Parser
import Verif.Lemmas.ParserBC
import Verif.Lemmas.Partition
import Verif.Lemmas.Pinned
import Verif.Lemmas.Poisson
import Verif.Lemmas.PoissonOrder
import Verif.Lemmas.PoissonSum
import Verif.Lemmas.Probe
import Verif.Lemmas.ProbeConfig
import Verif.Lemmas.ProbePoint
import Verif.Lemmas.ProbeVolume
import Verif.Lemmas.Processes
import Verif.Lemmas.ProcessesRun
import Verif.Lemmas.Projection
import Verif.Lemmas.Restart
import Verif.Lemmas.RunFiles
import Verif.Lemmas.Setup
import Verif.Lemmas.Slab
import Verif.Lemmas.SlabRun
import Verif.Lemmas.Solution
import Verif.Lemmas.Solvable
import Verif.Lemmas.Start
import Verif.Lemmas.StdMap
import Verif.Lemmas.Steady
import Verif.Lemmas.Superposition
import Verif.Lemmas.Turn
import Verif.Lemmas.TurnOps
import Verif.Lemmas.TurnRun
import Verif.Lemmas.TurnSpec
import Verif.Lemmas.Units
import Verif.Lemmas.UnitsBodies
import Verif.Lemmas.UnitsCoupled
import Verif.Lemmas.UnitsRun
import Verif.Lemmas.Vorticity
import Verif.Lemmas.VorticityRun
import Verif.Lemmas.Weighted
import Verif.Lemmas.Widths
import Verif.Model.Bn
import Verif.Model.Body
import Verif.Model.BodyFile
import Verif.Model.Boundary
import Verif.Model.Cavity
import Verif.Model.Config
import Verif.Model.Convection
import Verif.Model.Delta
import Verif.Model.Diag
import Verif.Model.Ibpm
import Verif.Model.IbpmRun
import Verif.Model.Index
import Verif.Model.Info
import Verif.Model.Kernel
import Verif.Model.Lifetime
import Verif.Model.LinSolver
import Verif.Model.LinSolverBodies
import Verif.Model.Local
import Verif.Model.Matrix
import Verif.Model.Mesh
import Verif.Model.MeshInit
import Verif.Model.Motion
import Verif.Model.Names
import Verif.Model.NavierStokes
import Verif.Model.Operators
import Verif.Model.Parser
import Verif.Model.PostProcess
import Verif.Model.Probe
import Verif.Model.ProbeConfig
import Verif.Model.ProbeRun
import Verif.Model.Settings
import Verif.Model.Solution
import Verif.Model.StdMap
import Verif.Model.TimeIntegration
import Verif.Model.Vorticity
import Verif.Model.VorticityRun
import Verif.Model.WriteMesh
import Verif.Model.Xdmf
import Verif.Props.Bn
import Verif.Props.Body
import Verif.Props.BodyFile
import Verif.Props.BodyPack
import Verif.Props.BodyProcesses
import Verif.Props.BodyRuns
import Verif.Props.BodyStart
import Verif.Props.Boundary
import Verif.Props.Branches
import Verif.Props.Cavity
import Verif.Props.Config
import Verif.Props.Convection
import Verif.Props.Converged
import Verif.Props.ConvergedCases
import Verif.Props.Couette
import Verif.Props.CoupledProcesses
import Verif.Props.Delta
import Verif.Props.Diag
import Verif.Props.Divergence
import Verif.Props.Energy
import Verif.Props.EnergyBodies
import Verif.Props.Extrema
import Verif.Props.Gradient
import Verif.Props.Ibpm
import Verif.Props.IbpmRestart
import Verif.Props.IbpmRun
import Verif.Props.Index
import Verif.Props.Info
import Verif.Props.Kernel
import Verif.Props.Krylov
import Verif.Props.Laplacian
import Verif.Props.Lifetime
import Verif.Props.LinSolver
import Verif.Props.LinSolverBodies
import Verif.Props.Mesh
import Verif.Props.MeshInit
import Verif.Props.MomentumBodies
import Verif.Props.MomentumRun
import Verif.Props.Motion
import Verif.Props.MovingRuns
import Verif.Props.Names
import Verif.Props.NavierStokes
import Verif.Props.Origin
import Verif.Props.Params
import Verif.Props.Parser
import Verif.Props.PeriodicWindow
import Verif.Props.Pinned
import Verif.Props.PinnedCases
import Verif.Props.Poisson
import Verif.Props.Probe
import Verif.Props.ProbeConfig
import Verif.Props.ProbeRun
import Verif.Props.ProbeVolume
import Verif.Props.Processes
import Verif.Props.Restart
import Verif.Props.RestartProcesses
import Verif.Props.RigidRun
import Verif.Props.Run
import Verif.Props.Settings
import Verif.Props.SingleCell
import Verif.Props.Slab
import Verif.Props.SlabPinned
import Verif.Props.Solution
import Verif.Props.Solvers
import Verif.Props.SolversBodies
import Verif.Props.SolversCoupled
import Verif.Props.Start
import Verif.Props.Steady
import Verif.Props.Superposition
import Verif.Props.SuperpositionBodies
import Verif.Props.SuperpositionCoupled
import Verif.Props.TimeIntegration
import Verif.Props.Turn
import Verif.Props.Units
import Verif.Props.UnitsBodies
import Verif.Props.Vorticity
import Verif.Props.VorticityPlace
import Verif.Props.VorticityRun
import Verif.Props.WriteMesh
import Verif.Props.Xdmf
import Verif.Spec.Body
import Verif.Spec.BodyFile
import Verif.Spec.BodyPack
import Verif.Spec.BodyProcesses
import Verif.Spec.Boundary
import Verif.Spec.Config
import Verif.Spec.Convection
import Verif.Spec.Couette
import Verif.Spec.Course
import Verif.Spec.Delta
import Verif.Spec.Energy
import Verif.Spec.EnergyBodies
import Verif.Spec.Extrema
import Verif.Spec.Field
import Verif.Spec.Files
import Verif.Spec.Ibpm
import Verif.Spec.IbpmRun
import Verif.Spec.Index
import Verif.Spec.Info
import Verif.Spec.Kernel
import Verif.Spec.Krylov
import Verif.Spec.Lifetime
import Verif.Spec.LinSolver
import Verif.Spec.LinSolverBodies
import Verif.Spec.Matrix
import Verif.Spec.Mesh
import Verif.Spec.Momentum
import Verif.Spec.MomentumRun
import Verif.Spec.Motion
import Verif.Spec.NavierStokes
import Verif.Spec.Operators
import Verif.Spec.Origin
import Verif.Spec.Params
import Verif.Spec.Parser
import Verif.Spec.Partition
import Verif.Spec.Poisson
import Verif.Spec.Probe
import Verif.Spec.ProbeConfig
import Verif.Spec.Processes
import Verif.Spec.Restart
import Verif.Spec.RigidRun
import Verif.Spec.Run
import Verif.Spec.Settings
import Verif.Spec.Setup
import Verif.Spec.Slab
import Verif.Spec.Solvers
import Verif.Spec.Steady
import Verif.Spec.Superposition
import Verif.Spec.Turn
import Verif.Spec.Units
import Verif.Spec.Vorticity
import Verif.Spec.VorticityRun
import Verif.Spec.WriteMesh
import Verif.Spec.Xdmf
