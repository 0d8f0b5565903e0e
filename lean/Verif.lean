import Verif.Props.Advect
import Verif.Props.AdvectCourant
import Verif.Props.AnisoGrid
import Verif.Props.AnisoLaw
import Verif.Props.Anisotropy
import Verif.Props.ApplyBC
import Verif.Props.Assembly
import Verif.Props.Balance
import Verif.Props.BodyForce
import Verif.Props.BoxArea
import Verif.Props.Breakpoint
import Verif.Props.BreakpointLonger
import Verif.Props.Buffers
import Verif.Props.CellSteps
import Verif.Props.Config
import Verif.Props.Conformal
import Verif.Props.ConstantMixture
import Verif.Props.Coupled
import Verif.Props.CreepBody
import Verif.Props.Datasets
import Verif.Props.Decomposition
import Verif.Props.DefMaps
import Verif.Props.Density
import Verif.Props.Director
import Verif.Props.Dissipation
import Verif.Props.DissipationSolver
import Verif.Props.Extract
import Verif.Props.FiniteDiff
import Verif.Props.FiniteStrain
import Verif.Props.Flagging
import Verif.Props.FlowLaws
import Verif.Props.GrainIter
import Verif.Props.GridCoords
import Verif.Props.GridFields
import Verif.Props.Heap
import Verif.Props.HeapFaults
import Verif.Props.HeatCycle
import Verif.Props.HeatMaxwell
import Verif.Props.History
import Verif.Props.HistoryTensor
import Verif.Props.HistoryUpdate
import Verif.Props.HotCreep
import Verif.Props.Hydrostatic
import Verif.Props.Inflow
import Verif.Props.Input
import Verif.Props.InputUnits
import Verif.Props.Interp
import Verif.Props.InterpCentres
import Verif.Props.InterpNodes
import Verif.Props.JacEdges
import Verif.Props.JacInner
import Verif.Props.JacInnerRow
import Verif.Props.JacRows
import Verif.Props.JacStates
import Verif.Props.Kinematics
import Verif.Props.Krylov
import Verif.Props.KrylovOptimal
import Verif.Props.LawTables
import Verif.Props.Layout
import Verif.Props.LineSearch
import Verif.Props.LocalConv
import Verif.Props.LocalIter
import Verif.Props.LocalWork
import Verif.Props.Maxwell
import Verif.Props.MaxwellShear
import Verif.Props.Melting
import Verif.Props.MovingBox
import Verif.Props.MovingBoxWide
import Verif.Props.NewtonRow
import Verif.Props.NewtonRowFaults
import Verif.Props.NonlinearLoop
import Verif.Props.Numbering
import Verif.Props.P2MPeriodic
import Verif.Props.P2Mastah
import Verif.Props.PatchTest
import Verif.Props.PhaseMap
import Verif.Props.PointConv
import Verif.Props.PointLaw
import Verif.Props.PointLawFaults
import Verif.Props.Powell
import Verif.Props.PowellAccept
import Verif.Props.PowellDirect
import Verif.Props.Reduction
import Verif.Props.Reseed
import Verif.Props.Residual
import Verif.Props.ResidualNorm
import Verif.Props.Restart
import Verif.Props.Rheology
import Verif.Props.Rigid
import Verif.Props.Scaling
import Verif.Props.Setup
import Verif.Props.SparseTools
import Verif.Props.Stencil
import Verif.Props.StencilExamples
import Verif.Props.StencilNodes
import Verif.Props.StepAccept
import Verif.Props.StepAccurate
import Verif.Props.StepClosed
import Verif.Props.StepEnergy
import Verif.Props.StepFinal
import Verif.Props.StepGoesOn
import Verif.Props.StepHeat
import Verif.Props.StepLinear
import Verif.Props.StepLinearBox
import Verif.Props.StepPureShear
import Verif.Props.StepRecord
import Verif.Props.StepSearch
import Verif.Props.StepSimpleShear
import Verif.Props.StepUnique
import Verif.Props.StepUpdate
import Verif.Props.StokesClosed
import Verif.Props.StokesSurface
import Verif.Props.StokesUnique
import Verif.Props.StrainPath
import Verif.Props.StressBC
import Verif.Props.StressCycle
import Verif.Props.SubStepBox
import Verif.Props.SubStepStrain
import Verif.Props.Surface
import Verif.Props.SurfaceChain
import Verif.Props.SurfaceFlow
import Verif.Props.SurfaceMotion
import Verif.Props.SurfaceProcesses
import Verif.Props.Symmetry
import Verif.Props.Tables
import Verif.Props.Tangent
import Verif.Props.Terrain
import Verif.Props.TerrainFlags
import Verif.Props.Thermal
import Verif.Props.ThermalSides
import Verif.Props.ThermalStart
import Verif.Props.ThermalTags
import Verif.Props.TimeSeries
import Verif.Props.Timestep
import Verif.Props.ViscGrid
import Verif.Props.ViscGridStress
import Verif.Props.VonMises
import Verif.Audit
