import Verif.Dbl
import Verif.Out
import Verif.Model.Vec
import Verif.Model.TrackParameters
import Verif.Model.TPStore
import Verif.Props.Containers
import Verif.Props.Vector3D
import Verif.Model.Helix
import Verif.Props.HelixGeometry
import Verif.Props.MoveHelix
import Verif.Lemmas.MoveDeriv
import Verif.Props.MoveCov
import Verif.Model.Utilities
import Verif.Lemmas.StartHelix
import Verif.Props.StartHelix
import Verif.Props.Momentum
import Verif.Props.LocalFrames
import Verif.Model.Intersections
import Verif.Props.Intersections
import Verif.Model.Surface
import Verif.Model.SurfaceIntersection
import Verif.Props.SurfaceDispatch
import Verif.Lemmas.SurfaceHits
import Verif.Props.SurfaceHits
import Verif.Spec.Perigee
import Verif.Props.Conversions
import Verif.Props.Curvilinear
import Verif.Model.Propagation
import Verif.Spec.Motion
import Verif.Lemmas.Motion
import Verif.Lemmas.Propagation
import Verif.Props.Propagation
import Verif.Model.Material
import Verif.Props.Material
import Verif.Spec.PropertySet
import Verif.Props.SurfaceType
import Verif.Model.Lcio
import Verif.Spec.Lcio
import Verif.Props.Lcio
import Verif.Model.Sort
import Verif.Model.Geometry
import Verif.Lemmas.Sort
import Verif.Props.Geometry
import Verif.Model.Trajectory
import Verif.Lemmas.Trajectory
import Verif.Props.Trajectory
import Verif.Props.TrajectoryExample
import Verif.Props.Crossings
import Verif.Props.Prepare
import Verif.Model.Gbl
import Verif.Props.GblPoints
import Verif.Props.GblExample
import Verif.Props.FitResults
import Verif.Props.EmptyTrajectory
import Verif.Spec.Matter
import Verif.Props.Matter
import Verif.Props.EnergyLoss
import Verif.Model.Memory
import Verif.Lemmas.Memory
import Verif.Props.Memory
import Verif.Model.ElementAccess
import Verif.Props.ElementAccess
import Verif.Props.VectorAlgebra
import Verif.Props.TrackMaterial
import Verif.Props.Vacuum
import Verif.Props.Undefined
import Verif.Props.FitGeometry
import Verif.Props.LossJacobian
import Verif.Props.Symmetry
import Verif.Props.Acceptance
import Verif.Props.Residuals
import Verif.Props.TrackInvariants
import Verif.Model.Rounding
import Verif.Props.Rounding
import Verif.Model.Refit
import Verif.Props.Refit
import Verif.Props.RefitExample
import Verif.Props.RefitState
import Verif.Props.RefitHits
import Verif.Props.SeedCovariance
import Verif.Props.Prefit
import Verif.Model.MaterialEffects
import Verif.Props.MaterialEffects
import Verif.Props.SimplifiedSteps
import Verif.Props.NewtonSteps
import Verif.Model.MaterialScan
import Verif.Props.MaterialScan
import Verif.Props.MaterialScanTrack
import Verif.Model.DebugTracks
import Verif.Props.DebugTracks
import Verif.Model.RoundedArith
import Verif.Lemmas.RoundedArith
import Verif.Props.RoundedLcio
import Verif.Props.RoundedVec
import Verif.Props.RoundedLcioNear
import Verif.Model.UnitTests
import Verif.Props.UnitTests
import Verif.Props.UnitTestsCompare
import Verif.Props.SymmetryCov
import Verif.Props.LeastSquares
import Verif.Props.LeastSquaresExample
import Verif.Props.LeastSquaresRefit
import Verif.Props.LeastSquaresRefitExample
import Verif.Model.SmallPrograms
import Verif.Props.SmallPrograms
import Verif.Model.RoundedHelix
import Verif.Lemmas.RoundedHelix
import Verif.Props.RoundedHelix
import Verif.Model.UnitTestPrograms
import Verif.Lemmas.FloatCells
import Verif.Lemmas.UnitTestChecks
import Verif.Lemmas.UnitTestTracks
import Verif.Props.UnitTestPrograms
import Verif.Model.RoundedPath
import Verif.Lemmas.RoundedPath
import Verif.Props.RoundedPath
import Verif.Model.RoundedMove
import Verif.Lemmas.RoundedMove
import Verif.Props.RoundedMove
import Verif.Lemmas.StartTrack
import Verif.Props.StartTrack
import Verif.Model.RoundedCross
import Verif.Lemmas.RoundedCross
import Verif.Props.RoundedCross
import Verif.Lemmas.RoundedCircles
import Verif.Props.RoundedCircles
import Verif.Model.RoundedCylinder
import Verif.Lemmas.RoundedCylinder
import Verif.Lemmas.TrackSide
import Verif.Props.RoundedCylinder
import Verif.Model.RoundedPropagation
import Verif.Lemmas.ErrorCalculus
import Verif.Lemmas.RoundedPropagation
import Verif.Props.RoundedPropagation
import Verif.Model.RoundedPlane
import Verif.Lemmas.RoundedPlane
import Verif.Lemmas.PlaneCrossing
import Verif.Props.RoundedPlane
import Verif.Model.RoundedNewton
import Verif.Lemmas.RoundedNewton
import Verif.Props.RoundedNewton
import Verif.Model.RoundedMaterial
import Verif.Lemmas.RoundedMaterial
import Verif.Lemmas.RoundedLoss
import Verif.Props.RoundedMaterial
import Verif.Model.RoundedMomentum
import Verif.Lemmas.RoundedMomentum
import Verif.Props.RoundedMomentum
import Verif.Model.RoundedTrajectory
import Verif.Model.RoundedEffects
import Verif.Model.RoundedDebug
import Verif.Model.RoundedCoordinates
import Verif.Model.RoundedUnitTests
import Verif.Model.RoundedSmall
import Verif.Model.RoundedPrefit
import Verif.Lemmas.RoundedTrajectory
import Verif.Props.RoundedTrajectory
import Verif.Model.RoundedUtilities
import Verif.Lemmas.RoundedUtilities
import Verif.Props.RoundedUtilities
import Verif.Lemmas.RoundedConversion
import Verif.Props.RoundedConversion
import Verif.Props.RoundedCharge
import Verif.Model.RoundedStart
import Verif.Lemmas.RoundedStart
import Verif.Props.RoundedTrackMomentum
import Verif.Props.RoundedStart
import Verif.Model.RoundedMoveCov
import Verif.Lemmas.RoundedProduct
import Verif.Lemmas.RoundedMoveCov
import Verif.Props.RoundedMoveCov
import Verif.Model.RoundedFit
import Verif.Props.RoundedFit
import Verif.Model.RoundedPrepare
import Verif.Lemmas.RoundedPropagationWide
import Verif.Lemmas.RoundedPrepare
import Verif.Props.RoundedPrepare
import Verif.Model.RoundedAdd
import Verif.Lemmas.RoundedAdd
import Verif.Props.RoundedAdd
import Verif.Props.RoundedAddExample
import Verif.Props.RoundedSimplified
import Verif.Model.RoundedSeed
import Verif.Props.RoundedSeed
import Verif.Props.RoundedLines
import Verif.Model.RoundedMaterialScan
import Verif.Lemmas.RoundedMaterialScan
import Verif.Lemmas.RoundedCoordinates
import Verif.Lemmas.RoundedUnitTests
import Verif.Lemmas.RoundedUnitMatrix
import Verif.Lemmas.RoundedUnitTracks
import Verif.Lemmas.RoundedUnitStates
import Verif.Lemmas.RoundedUnitHelix
import Verif.Props.RoundedMaterialScan
import Verif.Props.RoundedMaterialList
import Verif.Model.RoundedRefit
import Verif.Props.RoundedHits
import Verif.Lemmas.RoundedRefit
import Verif.Props.RoundedPositions
import Verif.Props.RoundedRefit
import Verif.Props.RoundedRefitFalse
import Verif.Props.RoundedRefitExample
import Verif.Props.RoundedEffects
import Verif.Props.RoundedEffectsExample
import Verif.Props.RoundedDebug
import Verif.Props.RoundedCoordinates
import Verif.Props.RoundedUnitTests
import Verif.Props.RoundedSmall
import Verif.Props.RoundedBarrel
import Verif.Props.RoundedDetector
import Verif.Props.RoundedPrefit
import Verif.Props.RoundedLine
