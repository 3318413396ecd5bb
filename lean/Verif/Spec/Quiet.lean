import Verif.Model.Node
import Verif.Spec.Mirror
import Verif.Spec.Validate
import Verif.Spec.Caution

/-!
# Runs in which nothing is in the way

Vocabulary of C137.
-/

namespace Ergodic
variable {F : Type} [Flt F]

/-- Something holds at every iteration of a run. -/
def AtTicks (P : Expl F → Option (TransformMsg F) → List Nat → Prop) : Expl F → List (Event F) → Prop
  | _, [] => True
  | s, e :: es => (∀ tf draws, e = .tick tf draws → P s tf draws) ∧ ∀ t o, s.step e = .ok (t, o) → AtTicks P t es

/-- If an iteration plans a twist, the twist is found free of collisions. -/
def Passed (s : Expl F) (tf : Option (TransformMsg F)) (draws : List Nat) : Prop :=
  ∀ ec u, (s.localize tf).map_received = true → (s.localize tf).pose_known = true →
    (s.localize tf).ec.control (s.localize tf).grid (s.localize tf).pose draws = .ok (ec, u) →
    validateControl (s.localize tf).collision (s.localize tf).grid (s.localize tf).pose u (s.localize tf).val_dt
      (s.localize tf).val_horizon = .ok true

/-- Two nodes have the same planner, up to its copy of the detector, the same pose and extent of the map, and follow no
twist of the dynamic window.  They may differ in the detector, the cells of the map, the dynamic window, the validation and the measured velocity. -/
structure SamePlan (s s' : Expl F) : Prop where
  ec : s'.ec = { s.ec with collision := s'.ec.collision }
  map : s'.map_received = s.map_received
  frame : s'.map_frame_id = s.map_frame_id
  pose : s'.pose = s.pose
  known : s'.pose_known = s.pose_known
  extent : s'.grid.xmin = s.grid.xmin ∧ s'.grid.ymin = s.grid.ymin ∧ s'.grid.xmax = s.grid.xmax ∧
    s'.grid.ymax = s.grid.ymax
  plans : s.follow_dwa = false
  plans' : s'.follow_dwa = false

/-- Two events are the same up to the cells of a map of the same extent, and the measured velocity. -/
inductive SameExtent : Event F → Event F → Prop
  | map (m m' : OccupancyGrid F) (h : (mapOf m').xmin = (mapOf m).xmin ∧ (mapOf m').ymin = (mapOf m).ymin ∧
      (mapOf m').xmax = (mapOf m).xmax ∧ (mapOf m').ymax = (mapOf m).ymax) : SameExtent (.map m) (.map m')
  | odom (v v' : V3 F) : SameExtent (.odom v) (.odom v')
  | tick (tf : Option (TransformMsg F)) (draws : List Nat) : SameExtent (.tick tf draws) (.tick tf draws)

/-- The second list of cells holds everywhere at least the values of the first. -/
def Raised (a b : List Int8) : Prop := List.Forall₂ (fun x y : Int8 => x.toInt ≤ y.toInt) a b

/-- The second node is at least as cautious as the first, looks at least as many steps ahead in its validation, and
has a map with at least its obstacles. -/
structure Eased (s s' : Expl ℝ) : Prop where
  plan : SamePlan s s'
  warier : Warier s.collision s'.collision
  obs : 0 ≤ s.collision.obstacle_threshold
  order : s.collision.boundary_radius ≤ s.collision.search_radius
  dt : s'.val_dt = s.val_dt
  steps : ∃ k n, numSteps s.val_horizon s.val_dt = .ok k ∧ numSteps s'.val_horizon s'.val_dt = .ok n ∧
    k.toNat ≤ n.toNat
  geometry : s'.grid = { s.grid with data := s'.grid.data }
  cells : Raised s.grid.data s'.grid.data

/-- Two events are the same up to obstacles added to a map, and the measured velocity. -/
inductive Fuller : Event ℝ → Event ℝ → Prop
  | map (m : OccupancyGrid ℝ) (data : List Int8) (h : Raised m.data data) : Fuller (.map m) (.map { m with data })
  | odom (v v' : V3 ℝ) : Fuller (.odom v) (.odom v')
  | tick (tf : Option (TransformMsg ℝ)) (draws : List Nat) : Fuller (.tick tf draws) (.tick tf draws)

/-- If an iteration plans a twist, the map is sensible and following the twist for the horizon of the validation does
not lead out of it. -/
def Spacious (s : Expl ℝ) (tf : Option (TransformMsg ℝ)) (draws : List Nat) : Prop :=
  ∀ ec u, (s.localize tf).map_received = true → (s.localize tf).pose_known = true →
    (s.localize tf).ec.control (s.localize tf).grid (s.localize tf).pose draws = .ok (ec, u) →
    Sensible (s.localize tf).collision (s.localize tf).grid ∧
    ∀ n, numSteps (s.localize tf).val_horizon (s.localize tf).val_dt = .ok n → ∀ k < n.toNat,
      InRect (s.localize tf).grid (poseAfter u (s.localize tf).val_dt (s.localize tf).pose (k + 1)).c0
        (poseAfter u (s.localize tf).val_dt (s.localize tf).pose (k + 1)).c1

/-- Two sets of parameters differ only in what the detector, the dynamic window and the validation are made of. -/
def SamePlanner (p p' : Params F) : Prop :=
  p' = { p with
    boundary_radius := p'.boundary_radius, search_radius := p'.search_radius
    obstacle_threshold := p'.obstacle_threshold, occupied_threshold := p'.occupied_threshold
    val_dt := p'.val_dt, val_horizon := p'.val_horizon, dwa_dt := p'.dwa_dt, dwa_horizon := p'.dwa_horizon
    acc_dt := p'.acc_dt, acc_lim_x := p'.acc_lim_x, acc_lim_y := p'.acc_lim_y, acc_lim_th := p'.acc_lim_th
    vx_samples := p'.vx_samples, vy_samples := p'.vy_samples, vth_samples := p'.vth_samples }

end Ergodic
