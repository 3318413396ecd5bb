import Verif.Model.Collision

/-!
# Model of `numerics.hpp`
-/

namespace Ergodic
variable {F : Type} [Flt F]

/-- `almost_equal(d1, d2, epsilon = 1.0e-12)` (numerics.hpp:67-70). -/
def almostEqual (d1 d2 : F) (epsilon : F := lit 1 12) : Bool := Flt.lt (fabs (d1 -. d2)) epsilon

/-- `normalize_angle_PI` (numerics.hpp:77-89). -/
def normalizeAnglePI (rad : F) : F :=
  let q := Flt.floor ((rad +. Flt.pi) /. (lit 2 0 *. Flt.pi))
  let rad := (rad +. Flt.pi) -. q *. lit 2 0 *. Flt.pi
  let rad := if Flt.lt rad (lit 0 0) then rad +. lit 2 0 *. Flt.pi else rad
  rad -. Flt.pi

/-- `normalize_angle_2PI` (numerics.hpp:96-108). -/
def normalizeAngle2PI (rad : F) : F :=
  let q := Flt.floor (rad /. (lit 2 0 *. Flt.pi))
  let rad := rad -. q *. lit 2 0 *. Flt.pi
  if Flt.lt rad (lit 0 0) then rad +. lit 2 0 *. Flt.pi else rad

/-- `getYaw` (numerics.hpp:118-142). -/
def getYaw (qx qy qz qw : F) : F :=
  let sqx := qx *. qx
  let sqy := qy *. qy
  let sqz := qz *. qz
  let sqw := qw *. qw
  let sarg := lit (-2) 0 *. (qx *. qz -. qw *. qy) /. (sqx +. sqy +. sqz +. sqw)
  if Flt.lt sarg (lit (-99999) 5) || almostEqual sarg (lit (-99999) 5) then
    lit (-2) 0 *. Flt.atan2 qy qx
  else if Flt.lt (lit 99999 5) sarg || almostEqual sarg (lit 99999 5) then
    lit 2 0 *. Flt.atan2 qy qx
  else
    Flt.atan2 (lit 2 0 *. (qx *. qy +. qw *. qz)) (sqw +. sqx -. sqy -. sqz)

/-- `distance` (numerics.hpp:152-157). -/
def distance (x0 y0 x1 y1 : F) : F :=
  let dx := x1 -. x0
  let dy := y1 -. y0
  Flt.sqrt (dx *. dx +. dy *. dy)

/-- `entropy` (numerics.hpp:164-179). -/
def entropy (p : F) : F :=
  if almostEqual (lit 0 0) p || almostEqual (lit 1 0) p then lit 1 3
  else if Flt.lt p (lit 0 0) then lit 7 1
  else ~-. p *. Flt.log p -. (lit 1 0 -. p) *. Flt.log (lit 1 0 -. p)

/-- `polar2Cartesian` (numerics.hpp:186-191). -/
def polar2Cartesian (angle range : F) : V2 F := ⟨range *. Flt.cos angle, range *. Flt.sin angle⟩

/-- `polar2CartesianHomo` (numerics.hpp:198-203). -/
def polar2CartesianHomo (angle range : F) : V3 F :=
  ⟨range *. Flt.cos angle, range *. Flt.sin angle, lit 1 0⟩

/-- `transform2d(x, y, angle)` (numerics.hpp:212-219). -/
def transform2d (x y angle : F) : M3 F :=
  ⟨⟨Flt.cos angle, ~-. (Flt.sin angle), x⟩,
   ⟨Flt.sin angle, Flt.cos angle, y⟩,
   ⟨lit 0 0, lit 0 0, lit 1 0⟩⟩

/-- `transform2d(x, y)` (numerics.hpp:227-232). -/
def transform2dXY (x y : F) : M3 F :=
  ⟨⟨lit 1 0, lit 0 0, x⟩, ⟨lit 0 0, lit 1 0, y⟩, ⟨lit 0 0, lit 0 0, lit 1 0⟩⟩

/-- `transform2d(angle)` (numerics.hpp:239-245). -/
def transform2dAngle (angle : F) : M3 F :=
  ⟨⟨Flt.cos angle, ~-. (Flt.sin angle), lit 0 0⟩,
   ⟨Flt.sin angle, Flt.cos angle, lit 0 0⟩,
   ⟨lit 0 0, lit 0 0, lit 1 0⟩⟩

/-- `transform2dInv` (numerics.hpp:252-264).  The last line of the code calls
`transform2d(theta, x, y)` although the parameters of `transform2d` are `(x, y, angle)`;
the model does the same. -/
def transform2dInv (t : M3 F) : M3 F :=
  let stheta := ~-. t.r1.c0
  let ctheta := t.r0.c0
  let theta := Flt.atan2 stheta ctheta
  let x := ~-. (ctheta *. t.r0.c2 -. stheta *. t.r1.c2)
  let y := ~-. (stheta *. t.r0.c2 +. ctheta *. t.r1.c2)
  transform2d theta x y

/-- `integrate_twist` (numerics.hpp:273-298). -/
def integrateTwist (x u : V3 F) (dt : F) : V3 F :=
  let dqb : V3 F :=
    if almostEqual u.c2 (lit 0 0) then
      ⟨u.c0 *. dt, u.c1 *. dt, lit 0 0⟩
    else
      let vb : V3 F := ⟨u.c0 *. dt, u.c1 *. dt, u.c2 *. dt⟩
      ⟨(vb.c0 *. Flt.sin vb.c2 +. vb.c1 *. (Flt.cos vb.c2 -. lit 1 0)) /. vb.c2,
       (vb.c1 *. Flt.sin vb.c2 +. vb.c0 *. (lit 1 0 -. Flt.cos vb.c2)) /. vb.c2,
       vb.c2⟩
  x.add ((transform2dAngle x.c2).mulVec dqb)

/-- `static_cast<unsigned int>(std::abs(horizon / dt))`, the step count used in
numerics.hpp:316 and 346, integrator.hpp:141 and 161, dynamic_window.cpp:68 and
ergodic_control.hpp:199. -/
def numSteps (horizon dt : F) : Res UInt32 := castU32 (fabs (horizon /. dt))

/-- The loop of `validate_control` (numerics.hpp:318-329), `n` iterations left. -/
def validateLoop (c : Collision F) (g : GridMap F) (u : V3 F) (dt : F) : Nat → V3 F → Res Bool
  | 0, _ => .ok true
  | n + 1, x => do
    let x1 := integrateTwist x u dt
    let x2 : V3 F := { x1 with c2 := normalizeAnglePI x1.c2 }
    let hit ← c.collisionCheck g x2
    if hit then .ok false else validateLoop c g u dt n x2

/-- `validate_control` (numerics.hpp:312-330). -/
def validateControl (c : Collision F) (g : GridMap F) (x0 u : V3 F) (dt horizon : F) :
    Res Bool := do
  let steps ← numSteps horizon dt
  validateLoop c g u dt steps.toNat x0

/-- `geometry_msgs/PoseStamped` fields written by the code: position `x, y` and the
orientation quaternion. -/
@[ext] structure PoseMsg (F : Type) where
  px : F
  py : F
  qx : F
  qy : F
  qz : F
  qw : F

/-- `nav_msgs/Path` fields written by the code. -/
structure PathMsg (F : Type) where
  frame_id : String
  poses : List (PoseMsg F)

/-- A pose message from a position and a yaw.  External contract: tf2's
`Quaternion::setRPY(0, 0, yaw)` is `(0, 0, sin(yaw/2), cos(yaw/2))`. -/
def poseMsg (px py yaw : F) : PoseMsg F :=
  { px, py, qx := lit 0 0, qy := lit 0 0,
    qz := Flt.sin (yaw /. lit 2 0), qw := Flt.cos (yaw /. lit 2 0) }

/-- The loop of `constTwistPath` (numerics.hpp:350-364), `n` iterations left. -/
def constTwistLoop (u : V3 F) (dt : F) : Nat → V3 F → List (PoseMsg F)
  | 0, _ => []
  | n + 1, x =>
    let x1 := integrateTwist x u dt
    poseMsg x1.c0 x1.c1 (normalizeAnglePI x1.c2) :: constTwistLoop u dt n x1

/-- `constTwistPath` (numerics.hpp:340-367). -/
def constTwistPath (map_frame_id : String) (x0 u : V3 F) (dt horizon : F) :
    Res (PathMsg F) := do
  let steps ← numSteps horizon dt
  .ok { frame_id := map_frame_id, poses := constTwistLoop u dt steps.toNat x0 }

end Ergodic
