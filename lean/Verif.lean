import Verif.Base.Flt
import Verif.Base.Overflow
import Verif.Base.Res
import Verif.Base.Rounded
import Verif.Base.Vec
import Verif.Model.Association
import Verif.Model.Basis
import Verif.Model.Buffer
import Verif.Model.Collision
import Verif.Model.Concurrent
import Verif.Model.Config
import Verif.Model.DynamicWindow
import Verif.Model.ErgodicControl
import Verif.Model.Exploration
import Verif.Model.Grid
import Verif.Model.Integrator
import Verif.Model.Interleaving
import Verif.Model.Launch
import Verif.Model.Mapping
import Verif.Model.Metered
import Verif.Model.Models
import Verif.Model.Node
import Verif.Model.Numerics
import Verif.Model.Queue
import Verif.Model.Resample
import Verif.Model.ScanSingle
import Verif.Model.Summation
import Verif.Model.Target
import Verif.Model.Torn
import Verif.Spec.Association
import Verif.Spec.Basis
import Verif.Spec.Caution
import Verif.Spec.ChangingMaps
import Verif.Spec.Clock
import Verif.Spec.ClosedLoop
import Verif.Spec.Collision
import Verif.Spec.Concurrent
import Verif.Spec.DynamicWindow
import Verif.Spec.Dynamics
import Verif.Spec.ErgodicControl
import Verif.Spec.Exchange
import Verif.Spec.Exploration
import Verif.Spec.Failure
import Verif.Spec.Finer
import Verif.Spec.Grid
import Verif.Spec.History
import Verif.Spec.Images
import Verif.Spec.Local
import Verif.Spec.MapFailure
import Verif.Spec.MapUpdate
import Verif.Spec.Mapping
import Verif.Spec.Mirror
import Verif.Spec.MirrorWindow
import Verif.Spec.Motion
import Verif.Spec.Objective
import Verif.Spec.Quarter
import Verif.Spec.Quiet
import Verif.Spec.Rest
import Verif.Spec.Returns
import Verif.Spec.Rounded
import Verif.Spec.RoundedControl
import Verif.Spec.RoundedLoop
import Verif.Spec.RoundedRunning
import Verif.Spec.RoundedSums
import Verif.Spec.Running
import Verif.Spec.ScanSingle
import Verif.Spec.Seen
import Verif.Spec.SeenRounded
import Verif.Spec.Session
import Verif.Spec.Shipped
import Verif.Spec.Slip
import Verif.Spec.Special
import Verif.Spec.Stays
import Verif.Spec.StepControl
import Verif.Spec.Stuck
import Verif.Spec.Targets
import Verif.Spec.Threads
import Verif.Spec.Torn
import Verif.Spec.Translation
import Verif.Spec.Uninitialised
import Verif.Spec.Units
import Verif.Spec.Validate
import Verif.Spec.Work
import Verif.Lemmas.Basis
import Verif.Lemmas.Buffer
import Verif.Lemmas.Circle
import Verif.Lemmas.Collision
import Verif.Lemmas.Dbl
import Verif.Lemmas.DynamicWindow
import Verif.Lemmas.ErgodicControl
import Verif.Lemmas.Exploration
import Verif.Lemmas.Grid
import Verif.Lemmas.Ieee
import Verif.Lemmas.Interleaving
import Verif.Lemmas.Mapping
import Verif.Lemmas.Metered
import Verif.Lemmas.Numerics
import Verif.Lemmas.Overflow
import Verif.Lemmas.Ray
import Verif.Lemmas.Real
import Verif.Lemmas.Rk4
import Verif.Lemmas.Rounded
import Verif.Lemmas.Session
import Verif.Lemmas.Slip
import Verif.Lemmas.Validate
import Verif.Props.Association
import Verif.Props.Basis
import Verif.Props.Buffer
import Verif.Props.Caution
import Verif.Props.CautionMap
import Verif.Props.ChangingMaps
import Verif.Props.ChangingRounded
import Verif.Props.CleanStart
import Verif.Props.Clock
import Verif.Props.ClockCases
import Verif.Props.ClockRun
import Verif.Props.ClosedLoop
import Verif.Props.CoState
import Verif.Props.Collision
import Verif.Props.Concurrent
import Verif.Props.Descent
import Verif.Props.DynamicWindow
import Verif.Props.ErgodicControl
import Verif.Props.ErgodicTarget
import Verif.Props.ErgodicUpdate
import Verif.Props.Exchange
import Verif.Props.ExchangeCases
import Verif.Props.ExchangeRun
import Verif.Props.ExchangeScan
import Verif.Props.ExchangeWorld
import Verif.Props.Exploration
import Verif.Props.ExplorationLimits
import Verif.Props.ExplorationRefuted
import Verif.Props.Failure
import Verif.Props.Finer
import Verif.Props.Grid
import Verif.Props.History
import Verif.Props.Images
import Verif.Props.Integrator
import Verif.Props.Interleaving
import Verif.Props.Launch
import Verif.Props.Local
import Verif.Props.LostPose
import Verif.Props.MapFailure
import Verif.Props.MapUpdate
import Verif.Props.Mapping
import Verif.Props.Mirror
import Verif.Props.MirrorCases
import Verif.Props.MirrorRay
import Verif.Props.MirrorTakeover
import Verif.Props.MirrorTakeoverCases
import Verif.Props.MirrorWindow
import Verif.Props.MirrorWorld
import Verif.Props.Models
import Verif.Props.NodeControl
import Verif.Props.NotFinite
import Verif.Props.Numerics
import Verif.Props.Occupied
import Verif.Props.Overflow
import Verif.Props.PlanAccuracy
import Verif.Props.Quarter
import Verif.Props.QuarterWorld
import Verif.Props.Quiet
import Verif.Props.QuietCases
import Verif.Props.Resample
import Verif.Props.Rest
import Verif.Props.Returns
import Verif.Props.ReturnsCart
import Verif.Props.Rk45
import Verif.Props.Rk45Back
import Verif.Props.Rk45Order
import Verif.Props.Rk45Storage
import Verif.Props.RoundedAngle
import Verif.Props.RoundedBayes
import Verif.Props.RoundedCollision
import Verif.Props.RoundedControl
import Verif.Props.RoundedCounts
import Verif.Props.RoundedGradient
import Verif.Props.RoundedGrid
import Verif.Props.RoundedLoop
import Verif.Props.RoundedMap
import Verif.Props.RoundedMotion
import Verif.Props.RoundedReference
import Verif.Props.RoundedRunning
import Verif.Props.RoundedSums
import Verif.Props.RoundedWindow
import Verif.Props.Running
import Verif.Props.ScanRange
import Verif.Props.ScanSingle
import Verif.Props.Seen
import Verif.Props.SeenRounded
import Verif.Props.Sharp
import Verif.Props.Shipped
import Verif.Props.ShippedLoop
import Verif.Props.SinglePrecision
import Verif.Props.Slip
import Verif.Props.SlipRounded
import Verif.Props.Speed
import Verif.Props.Startup
import Verif.Props.Stays
import Verif.Props.StaysRounded
import Verif.Props.StepControl
import Verif.Props.Stuck
import Verif.Props.Target
import Verif.Props.Targets
import Verif.Props.TargetsConverse
import Verif.Props.Threads
import Verif.Props.Torn
import Verif.Props.Translation
import Verif.Props.Uninitialised
import Verif.Props.Units
import Verif.Props.UnitsCases
import Verif.Props.Validate
import Verif.Props.WindowSharp
import Verif.Props.Work
import Verif.Props.WorkLeast
import Verif.Props.WorkScan
import Verif.Props.Yaw
import Verif.Conformance
import Verif.Axioms
