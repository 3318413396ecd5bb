import Verif.Model.Node

/-!
# Model of parameter reading

The conversions between the parameter server and the values `Verif.Model.Node` starts from,
and the constructor of `Basis` with its `unsigned int` and `int` counters.  Memory exhaustion is
not modelled, and when several steps of a start-up would fail, the model may report another of
these failures than the program.
-/

namespace Ergodic
variable {F : Type} [Flt F]

/-- `XmlRpc::XmlRpcValue` as far as the executables read it: nothing, a whole number, a decimal
number or a list.  Strings, truth values and the other kinds are left out; reading a number from
them throws as it does for a whole number. -/
inductive Xml (F : Type) where
  | invalid
  | int (v : Int)
  | dbl (v : F)
  | arr (l : List (Xml F))

namespace Xml

/-- `XmlRpcValue::size()`: throws `XmlRpcException` unless the value is a list (the exception type
is not tracked). -/
def size : Xml F → Res Nat
  | .arr l => .ok l.length
  | _ => .throw .runtimeError

/-- `XmlRpcValue::operator[](int)`: a missing value becomes a list, a list that is too short grows
by missing values, anything else throws.  The growth is not recorded: it makes no later read
differ. -/
def item : Xml F → Nat → Res (Xml F)
  | .invalid, _ => .ok .invalid
  | .arr l, i => .ok (l.getD i .invalid)
  | _, _ => .throw .runtimeError

/-- `XmlRpcValue::operator double&()`: a missing value becomes zero, a whole number throws. -/
def num : Xml F → Res F
  | .invalid => .ok (lit 0 0)
  | .dbl v => .ok v
  | _ => .throw .runtimeError

/-- `{ x[i][0], x[i][1] }` (exploration_cart_node.cpp:185, exploration_omni_node.cpp:191). -/
def pair (x : Xml F) (i : Nat) : Res (V2 F) := do
  let a ← (← (← x.item i).item 0).num
  let b ← (← (← x.item i).item 1).num
  .ok ⟨a, b⟩

end Xml

/-- The loop over the targets (exploration_cart_node.cpp:180-186,
exploration_omni_node.cpp:186-192). -/
def readTargets (means sigmas : Xml F) : Res (List (V2 F × V2 F)) := do
  let n ← means.size
  (List.range n).mapM fun i => do
    let m ← means.pair i
    let s ← sigmas.pair i
    .ok (m, s)

namespace Basis

/-- The writes `k_(0, col) = j; k_(1, col) = i; col++` (basis.cpp:63-65) for the pairs in the order
of the loops.  A column outside the matrix throws; incrementing the largest `int` is undefined. -/
def fill (total : UInt32) (col : Nat) : List (Int × Int) → Res (List (Int × Int))
  | [] => .ok []
  | c :: cs =>
    if total.toNat ≤ col then .throw .logicError
    else if col = 2147483647 then .ub
    else do
      let rest ← fill total (col + 1) cs
      .ok (c :: rest)

/-- `Basis::Basis` (basis.cpp:48-77) with the machine's counters: `num_basis * num_basis` wraps. -/
def create (lx ly : F) (num_basis : UInt32) : Res (Basis F) := do
  let k ← fill (num_basis * num_basis) 0 (numbers num_basis.toNat)
  .ok { lx, ly, lamdak := k.map weight, k }

end Basis

/-- The parameter server.  The counts are C++ `int`s and `buffer_size` a `double`
(exploration_cart_node.cpp:148-150, 165-166, exploration_omni_node.cpp:153-155, 170-172); the other
parameters are those of `base`, whose entries of the same names are not used. -/
structure Launch (F : Type) where
  base : Params F
  num_basis : Int
  buffer_size : F
  batch_size : Int
  vx_samples : Int
  vy_samples : Int
  vth_samples : Int
  means : Xml F
  sigmas : Xml F

namespace Launch

/-- The initialisations of the `unsigned int` constants, and the targets. -/
def params (l : Launch F) : Res (Params F) := do
  let buffer ← castU32 l.buffer_size
  let targets ← readTargets l.means l.sigmas
  .ok { l.base with
    num_basis := (i2u l.num_basis).toNat
    buffer_size := buffer.toNat
    batch_size := (i2u l.batch_size).toNat
    vx_samples := i2u l.vx_samples
    vy_samples := i2u l.vy_samples
    vth_samples := i2u l.vth_samples
    targets }

/-- `main` of the cart up to the control loop (exploration_cart_node.cpp:99-206), from the
parameter server on; the basis is the one built by `ErgodicControl` (ergodic_control.hpp:208). -/
def cart (l : Launch F) : Res (Node F × List (Out F)) := do
  let p ← l.params
  let _ ← Basis.create (lit 0 0 : F) (lit 0 0) (i2u l.num_basis)
  Node.cart p

/-- `main` of the omni robot up to the control loop (exploration_omni_node.cpp:101-211). -/
def omni (l : Launch F) : Res (Node F × List (Out F)) := do
  let p ← l.params
  let _ ← Basis.create (lit 0 0 : F) (lit 0 0) (i2u l.num_basis)
  Node.omni p

end Launch
end Ergodic
