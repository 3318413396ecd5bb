import Verif.Model.ErgodicControl

/-!
# Specification vocabulary: what a user of the ergodic controller can seenBy
-/

namespace Ergodic
variable {F : Type} [Flt F]

/-- A call of a public member function of the controller, with its random draws. -/
inductive EcCall (F : Type) where
  | control (g : GridMap F) (x : V3 F) (draws : List Nat)
  | optTraj
  | path (frame : String)
  | addStateMemory (x : V3 F)
  | timeStep
  | setTarget (t : Target F)

/-- What a call returns to its caller. -/
inductive EcSeen (F : Type) where
  | twist (u : V3 F)
  | traj (xs : List (V3 F))
  | path (p : PathMsg F)
  | number (t : F)
  | nothing

/-- One call: the object afterwards and what the caller sees. -/
def EcCall.run (e : ErgodicControl F) : EcCall F → Res (ErgodicControl F × EcSeen F)
  | .control g x draws => do
    let (e', u) ← e.control g x draws
    .ok (e', .twist u)
  | .optTraj => do
    let xs ← e.optTraj
    .ok (e, .traj xs)
  | .path frame => do
    let p ← e.path frame
    .ok (e, .path p)
  | .addStateMemory x => .ok (e.addStateMemory x, .nothing)
  | .timeStep => .ok (e, .number e.timeStep)
  | .setTarget t => .ok (e.setTarget t, .nothing)

/-- Everything the callers see, up to and including the first call that fails. -/
def seenBy (e : ErgodicControl F) : List (EcCall F) → List (Res (EcSeen F))
  | [] => []
  | c :: cs =>
    match c.run e with
    | .ok (e', s) => .ok s :: seenBy e' cs
    | .throw x => [.throw x]
    | .ub => [.ub]
    | .timeout => [.timeout]

end Ergodic
