import Lean.Util.CollectAxioms
import Lean.Elab.Command
import Verif.Props.Association
import Verif.Props.Basis
import Verif.Props.Buffer
import Verif.Props.Caution
import Verif.Props.CautionMap
import Verif.Props.ChangingMaps
import Verif.Props.ChangingRounded
import Verif.Props.CleanStart
import Verif.Props.Clock
import Verif.Props.ClockCases
import Verif.Props.ClockRun
import Verif.Props.ClosedLoop
import Verif.Props.CoState
import Verif.Props.Collision
import Verif.Props.Concurrent
import Verif.Props.Descent
import Verif.Props.DynamicWindow
import Verif.Props.ErgodicControl
import Verif.Props.ErgodicTarget
import Verif.Props.ErgodicUpdate
import Verif.Props.Exchange
import Verif.Props.ExchangeCases
import Verif.Props.ExchangeRun
import Verif.Props.ExchangeScan
import Verif.Props.ExchangeWorld
import Verif.Props.Exploration
import Verif.Props.ExplorationLimits
import Verif.Props.ExplorationRefuted
import Verif.Props.Failure
import Verif.Props.Finer
import Verif.Props.Grid
import Verif.Props.History
import Verif.Props.Images
import Verif.Props.Integrator
import Verif.Props.Interleaving
import Verif.Props.Launch
import Verif.Props.Local
import Verif.Props.LostPose
import Verif.Props.MapFailure
import Verif.Props.MapUpdate
import Verif.Props.Mapping
import Verif.Props.Mirror
import Verif.Props.MirrorCases
import Verif.Props.MirrorRay
import Verif.Props.MirrorTakeover
import Verif.Props.MirrorTakeoverCases
import Verif.Props.MirrorWindow
import Verif.Props.MirrorWorld
import Verif.Props.Models
import Verif.Props.NodeControl
import Verif.Props.NotFinite
import Verif.Props.Numerics
import Verif.Props.Occupied
import Verif.Props.Overflow
import Verif.Props.PlanAccuracy
import Verif.Props.Quarter
import Verif.Props.QuarterWorld
import Verif.Props.Quiet
import Verif.Props.QuietCases
import Verif.Props.Resample
import Verif.Props.Rest
import Verif.Props.Returns
import Verif.Props.ReturnsCart
import Verif.Props.Rk45
import Verif.Props.Rk45Back
import Verif.Props.Rk45Order
import Verif.Props.Rk45Storage
import Verif.Props.RoundedAngle
import Verif.Props.RoundedBayes
import Verif.Props.RoundedCollision
import Verif.Props.RoundedControl
import Verif.Props.RoundedCounts
import Verif.Props.RoundedGradient
import Verif.Props.RoundedGrid
import Verif.Props.RoundedLoop
import Verif.Props.RoundedMap
import Verif.Props.RoundedMotion
import Verif.Props.RoundedReference
import Verif.Props.RoundedRunning
import Verif.Props.RoundedSums
import Verif.Props.RoundedWindow
import Verif.Props.Running
import Verif.Props.ScanRange
import Verif.Props.ScanSingle
import Verif.Props.Seen
import Verif.Props.SeenRounded
import Verif.Props.Sharp
import Verif.Props.Shipped
import Verif.Props.ShippedLoop
import Verif.Props.SinglePrecision
import Verif.Props.Slip
import Verif.Props.SlipRounded
import Verif.Props.Speed
import Verif.Props.Startup
import Verif.Props.Stays
import Verif.Props.StaysRounded
import Verif.Props.StepControl
import Verif.Props.Stuck
import Verif.Props.Target
import Verif.Props.Targets
import Verif.Props.TargetsConverse
import Verif.Props.Threads
import Verif.Props.Torn
import Verif.Props.Translation
import Verif.Props.Uninitialised
import Verif.Props.Units
import Verif.Props.UnitsCases
import Verif.Props.Validate
import Verif.Props.WindowSharp
import Verif.Props.Work
import Verif.Props.WorkLeast
import Verif.Props.WorkScan
import Verif.Props.Yaw

/-!
# The axioms used

The build fails here if any declaration of the project depends on an axiom other than the three
of Lean's standard library.
-/

open Lean Elab Command

run_cmd do
  let env ← getEnv
  let ours := env.constants.map₁.toList.filter fun (n, _) =>
    match env.getModuleIdxFor? n with
    | some i => (`Verif).isPrefixOf env.header.moduleNames[i.toNat]!
    | none => false
  for (n, _) in ours do
    for a in ← collectAxioms n do
      unless a ∈ [``propext, ``Classical.choice, ``Quot.sound] do
        throwError "{n} depends on the axiom {a}"
  unless 1000 < ours.length do
    throwError "only {ours.length} declarations found"
