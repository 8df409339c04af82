import Verif.Props.Range
import Verif.Props.Indexer
import Verif.Props.Container
import Verif.Props.Chunk
import Verif.Props.BC
import Verif.Props.RangeSet
import Verif.Props.Variable
import Verif.Props.Grid
import Verif.Props.Vtk
import Verif.Props.Kernels
import Verif.Props.Integrators
import Verif.Props.Step
import Verif.Props.Sources
import Verif.Props.Advection
import Verif.Props.Initial
import Verif.Props.InitialMany
import Verif.Props.Int32
import Verif.Props.Exception
import Verif.Props.SelfAssign
import Verif.Props.Limiter
import Verif.Model.Program
import Verif.Spec.Program
import Verif.Proofs.Program
import Verif.Proofs.ProgramStage
import Verif.Proofs.ProgramRun
import Verif.Props.Program
import Verif.Proofs.WallReal
import Verif.Props.Walls
import Verif.Model.Examples
import Verif.Proofs.Loop
import Verif.Proofs.Solo
import Verif.Proofs.ExampleRuns
import Verif.Props.Examples
import Verif.Spec.Sheet
import Verif.Props.Start
import Verif.Props.Periodicity
import Verif.Proofs.Stencil
import Verif.Proofs.StepExists
import Verif.Spec.Symmetry
import Verif.Props.Symmetry
import Verif.Proofs.Constant
import Verif.Props.OneDim
import Verif.Props.Mirror
import Verif.Spec.Distance
import Verif.Proofs.Distance
import Verif.Proofs.Rest
import Verif.Props.Dependence
import Verif.Props.AdvectProgram
import Verif.Props.AdvectBounds
import Verif.Props.Coupling
import Verif.Props.Divergence
import Verif.Props.Oscillation
import Verif.Props.Print
import Verif.Props.Unused
import Verif.Props.Density
import Verif.Props.UnusedAdvect
import Verif.Props.Numbers
import Verif.Props.Tests
import Verif.Props.Special
import Verif.Props.TestsDetect
import Verif.Props.Rounding
import Verif.Props.Boundary
import Verif.Props.Overflow
import Verif.Props.PulseProgram
import Verif.Props.Pressure
import Verif.Props.Order
import Verif.Props.Operators
import Verif.Props.Format
import Verif.Props.Truncation
import Verif.Props.TruncationPlasma
import Verif.Props.TruncationSecond
import Verif.Props.TruncationGas
import Verif.Props.Console
import Verif.Props.ConsoleText
import Verif.Props.Energy
import Verif.Props.EnergyGrowth
import Verif.Props.EnergyWalls
import Verif.Props.Client
import Verif.Props.ClientInitial
import Verif.Props.Lifetime
import Verif.Props.Axes
import Verif.Props.Threads
import Verif.Props.Twin
import Verif.Props.Memory
import Verif.Props.Exactly
import Verif.Props.SwapShape
import Verif.Props.Species
import Verif.Props.Units
import Verif.Props.Output
import Verif.Props.Disk
import Verif.Props.Remaining
import Verif.Props.Alias
import Verif.Props.Time
import Verif.Props.Contact
import Verif.Props.Force
import Verif.Props.Disturbance
import Verif.Props.FloatPieces
import Verif.Spec.Single
import Verif.Props.SingleFiles
import Verif.Props.PlasmaDisturbance
import Verif.Props.Configured
