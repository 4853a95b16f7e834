import Verif.CartProps
import Verif.Ghost2DProps
import Verif.Ghost3DProps
import Verif.FieldCommProps
import Verif.LagrangianProps
import Verif.VbfProps
import Verif.BlockingProps
import Verif.GhostSumProps
import Verif.InterpProps
import Verif.WeightsProps
import Verif.Stencil2DProps
import Verif.Stencil3DProps
import Verif.PenaliseProps
import Verif.FilterProps
import Verif.DoublingProps
import Verif.Doubling3DProps
import Verif.PoissonProps
import Verif.Poisson3DProps
import Verif.IOProps
import Verif.IOLagProps
import Verif.LoggerProps
import Verif.Sim2DRun
import Verif.Sim3DProps
import Verif.Sim3DRun
import Verif.Sim3DOdd
import Verif.Interactor2DRun
import Verif.Interactor3D
import Verif.Interactor3DProps
import Verif.Interactor3DRun
import Verif.Rest
import Verif.Choreo
import Verif.ChoreoProps
import Verif.CommProgs
import Verif.CommProgsProps
import Verif.VbfSchedule
import Verif.InterpDelta
import Verif.Restart2D
import Verif.Restart3D
import Verif.Balance2D
import Verif.Balance3D
import Verif.StableDt
import Verif.VbfLocal
import Verif.VbfLocalProps
import Verif.Pointwise
import Verif.Dims
import Verif.Xdmf
import Verif.XdmfProps
import Verif.Async
import Verif.AsyncProps
import Verif.AsyncExch
import Verif.AsyncLayers
import Verif.AsyncColl
import Verif.AsyncSim2D
import Verif.AsyncSim2DProps
import Verif.AsyncSim3D
import Verif.AsyncSim3DProps
import Verif.VbfRestart
import Verif.CRestart3D
import Verif.CRestart2D
import Verif.AsyncDyn
import Verif.AsyncItems
import Verif.AsyncLift
import Verif.AsyncVbf
import Verif.AsyncGS
import Verif.AsyncIb2D
import Verif.AsyncIb2DProps
import Verif.AsyncIb3D
import Verif.AsyncIb3DProps
import Verif.LocalDeviation
import Verif.Plotter
import Verif.Conserve2D
import Verif.Conserve3D
import Verif.Conserve3DProps
import Verif.PeriodicSpread
import Verif.Complements
import Verif.Symmetry2D
import Verif.Symmetry3D
import Verif.Symmetry3DProps
import Verif.TimeLoop
import Verif.TimeLoop3
import Verif.Snapshots
import Verif.FileNames
import Verif.Checkpoint
import Verif.SubSteps
import Verif.SubSteps3
import Verif.Origin
import Verif.Norms
import Verif.Analytic
import Verif.FixedBody
import Verif.FixedBody3
import Verif.Moments
import Verif.Moments3
import Verif.Placement2D
import Verif.Placement3D
import Verif.Validate2D
import Verif.Validate3D
import Verif.RodDriver
import Verif.RodDriver3
import Verif.Dissipate2D
import Verif.Dissipate3D
import Verif.BodyBudget2D
import Verif.BodyBudget3D
import Verif.BodyPlace2D
import Verif.BodyPlace3D
import Verif.BodyCopies2D
import Verif.BodyCopies3D
import Verif.Coupling
import Verif.Units2D
import Verif.Units3D
import Verif.Cylinder2D
import Verif.Sphere3D
import Verif.Machine2D
import Verif.Machine3D
import Verif.LogFile
import Verif.FlowRod2D
import Verif.FlowRod3D
import Verif.FlowSpin3D
import Verif.RestartStill3D
