import Verif.Model.Numerics

/-!
# Model of `models/cart.hpp` and `models/omni.hpp`
-/

namespace Ergodic
variable {F : Type} [Flt F]

/-- `struct Cart` data members (cart.hpp:142-143). -/
structure Cart (F : Type) where
  wheel_radius : F
  wheel_base : F

namespace Cart

/-- `Cart::wheels2Twist` (cart.hpp:78-84). -/
def wheels2Twist (m : Cart F) (u : V2 F) : V3 F :=
  let vx := m.wheel_radius /. lit 2 0 *. (u.c0 +. u.c1)
  let w := m.wheel_radius /. (lit 2 0 *. m.wheel_base) *. (u.c1 -. u.c0)
  ⟨vx, lit 0 0, w⟩

/-- `Cart::operator()` (cart.hpp:92-100). -/
def f (m : Cart F) (x : V3 F) (u : V2 F) : V3 F :=
  V3.smul (m.wheel_radius /. lit 2 0)
    ⟨(u.c0 +. u.c1) *. Flt.cos x.c2, (u.c0 +. u.c1) *. Flt.sin x.c2,
     (u.c1 -. u.c0) /. m.wheel_base⟩

/-- `Cart::fdx` (cart.hpp:108-119). -/
def fdx (m : Cart F) (x : V3 F) (u : V2 F) : M3 F :=
  let df0dth := ~-. (m.wheel_radius /. lit 2 0) *. (u.c0 +. u.c1) *. Flt.sin x.c2
  let df1dth := (m.wheel_radius /. lit 2 0) *. (u.c0 +. u.c1) *. Flt.cos x.c2
  ⟨⟨lit 0 0, lit 0 0, df0dth⟩, ⟨lit 0 0, lit 0 0, df1dth⟩, ⟨lit 0 0, lit 0 0, lit 0 0⟩⟩

/-- `Cart::fdu` (cart.hpp:126-140). -/
def fdu (m : Cart F) (x : V3 F) : M32 F :=
  let k := m.wheel_radius /. lit 2 0
  ⟨⟨k *. Flt.cos x.c2, k *. Flt.cos x.c2⟩,
   ⟨k *. Flt.sin x.c2, k *. Flt.sin x.c2⟩,
   ⟨k *. (lit (-1) 0 /. m.wheel_base), k *. (lit 1 0 /. m.wheel_base)⟩⟩

end Cart

namespace SimpleCart

/-- `SimpleCart::operator()` (cart.hpp:165-173): throws on a lateral velocity. -/
def f (x u : V3 F) : Res (V3 F) :=
  if ¬ almostEqual u.c1 (lit 0 0) then .throw .invalidArgument
  else .ok ⟨u.c0 *. Flt.cos x.c2, u.c0 *. Flt.sin x.c2, u.c2⟩

/-- `SimpleCart::fdx` (cart.hpp:181-187). -/
def fdx (x u : V3 F) : M3 F :=
  ⟨⟨lit 0 0, lit 0 0, ~-. u.c0 *. Flt.sin x.c2⟩, ⟨lit 0 0, lit 0 0, u.c0 *. Flt.cos x.c2⟩,
   ⟨lit 0 0, lit 0 0, lit 0 0⟩⟩

/-- `SimpleCart::fdu` (cart.hpp:194-203). -/
def fdu (x : V3 F) : M3 F :=
  ⟨⟨Flt.cos x.c2, lit 0 0, lit 0 0⟩, ⟨Flt.sin x.c2, lit 0 0, lit 0 0⟩,
   ⟨lit 0 0, lit 0 0, lit 1 0⟩⟩

end SimpleCart

/-- `struct Mecanum` data members (omni.hpp:153-155). -/
structure Mecanum (F : Type) where
  wheel_radius : F
  wheel_base_x : F
  wheel_base_y : F

namespace Mecanum

/-- `Mecanum::wheels2Twist` (omni.hpp:80-90). -/
def wheels2Twist (m : Mecanum F) (u : V4 F) : V3 F :=
  let l := lit 1 0 /. (m.wheel_base_x +. m.wheel_base_y)
  let k := m.wheel_radius /. lit 4 0
  let Hp : M34 F :=
    ⟨⟨k *. lit 1 0, k *. lit 1 0, k *. lit 1 0, k *. lit 1 0⟩,
     ⟨k *. lit (-1) 0, k *. lit 1 0, k *. lit (-1) 0, k *. lit 1 0⟩,
     ⟨k *. ~-. l, k *. l, k *. l, k *. ~-. l⟩⟩
  Hp.mulVec u

/-- `Mecanum::operator()` (omni.hpp:98-110). -/
def f (m : Mecanum F) (x : V3 F) (u : V4 F) : V3 F :=
  let s := (m.wheel_radius /. lit 4 0) *. Flt.sin x.c2
  let c := (m.wheel_radius /. lit 4 0) *. Flt.cos x.c2
  let l := m.wheel_radius /. (lit 4 0 *. (m.wheel_base_x +. m.wheel_base_y))
  ⟨u.c0 *. (s +. c) +. u.c1 *. (~-. s +. c) +. u.c2 *. (s +. c) +. u.c3 *. (~-. s +. c),
   u.c0 *. (s -. c) +. u.c1 *. (s +. c) +. u.c2 *. (s -. c) +. u.c3 *. (s +. c),
   ~-. u.c0 *. l +. u.c1 *. l +. u.c2 *. l -. u.c3 *. l⟩

/-- `Mecanum::fdx` (omni.hpp:118-134). -/
def fdx (m : Mecanum F) (x : V3 F) (u : V4 F) : M3 F :=
  let s := (m.wheel_radius /. lit 4 0) *. Flt.sin x.c2
  let c := (m.wheel_radius /. lit 4 0) *. Flt.cos x.c2
  let df0dth := u.c0 *. (~-. s +. c) +. u.c1 *. (~-. s -. c) +. u.c2 *. (~-. s +. c)
    +. u.c3 *. (~-. s -. c)
  let df1dth := u.c0 *. (s +. c) +. u.c1 *. (~-. s +. c) +. u.c2 *. (s +. c)
    +. u.c3 *. (~-. s +. c)
  ⟨⟨lit 0 0, lit 0 0, df0dth⟩, ⟨lit 0 0, lit 0 0, df1dth⟩, ⟨lit 0 0, lit 0 0, lit 0 0⟩⟩

/-- `Mecanum::fdu` (omni.hpp:141-151). -/
def fdu (m : Mecanum F) (x : V3 F) : M34 F :=
  let s := (m.wheel_radius /. lit 4 0) *. Flt.sin x.c2
  let c := (m.wheel_radius /. lit 4 0) *. Flt.cos x.c2
  let l := m.wheel_radius /. (lit 4 0 *. (m.wheel_base_x +. m.wheel_base_y))
  ⟨⟨s +. c, ~-. s +. c, s +. c, ~-. s +. c⟩,
   ⟨s -. c, s +. c, s -. c, s +. c⟩,
   ⟨~-. l, l, l, ~-. l⟩⟩

end Mecanum

namespace Omni

/-- `Omni::operator()` (omni.hpp:177-184). -/
def f (x u : V3 F) : V3 F :=
  ⟨u.c0 *. Flt.cos x.c2 -. u.c1 *. Flt.sin x.c2,
   u.c0 *. Flt.sin x.c2 +. u.c1 *. Flt.cos x.c2,
   u.c2⟩

/-- `Omni::fdx` (omni.hpp:192-198). -/
def fdx (x u : V3 F) : M3 F :=
  ⟨⟨lit 0 0, lit 0 0, ~-. u.c0 *. Flt.sin x.c2 -. u.c1 *. Flt.cos x.c2⟩,
   ⟨lit 0 0, lit 0 0, u.c0 *. Flt.cos x.c2 -. u.c1 *. Flt.sin x.c2⟩,
   ⟨lit 0 0, lit 0 0, lit 0 0⟩⟩

/-- `Omni::fdu` (omni.hpp:205-212). -/
def fdu (x : V3 F) : M3 F :=
  ⟨⟨Flt.cos x.c2, ~-. (Flt.sin x.c2), lit 0 0⟩,
   ⟨Flt.sin x.c2, Flt.cos x.c2, lit 0 0⟩,
   ⟨lit 0 0, lit 0 0, lit 1 0⟩⟩

end Omni

/-- The interface `ErgodicControl<ModelT>` needs of its model: dynamics, and the two
Jacobians, with a body twist as control (ergodic_control.hpp:72-73, 165). -/
structure TwistModel (F : Type) where
  f : V3 F → V3 F → Res (V3 F)
  fdx : V3 F → V3 F → M3 F
  fdu : V3 F → M3 F

/-- `models::Omni` as the controller's model (exploration_omni_node.cpp:115). -/
def omniModel : TwistModel F := ⟨fun x u => .ok (Omni.f x u), Omni.fdx, Omni.fdu⟩

/-- `models::SimpleCart` as the controller's model (exploration_cart_node.cpp:113). -/
def cartModel : TwistModel F := ⟨SimpleCart.f, SimpleCart.fdx, SimpleCart.fdu⟩

end Ergodic
