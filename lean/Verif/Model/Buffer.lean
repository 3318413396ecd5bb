import Verif.Base.Vec

/-!
# Model of `buffer.hpp` / `buffer.cpp`

`std::unordered_map<unsigned int, vec>` is an association list; the trajectory matrix `xt`
is the list of its columns.  Sizes are natural numbers (the code's are `unsigned int` and
`size_t`; nothing is computed on them that could wrap, see `sampleMemory`).
-/

namespace Ergodic

/-- `class ReplayBuffer` data members (buffer.hpp:74-76). -/
structure ReplayBuffer (V : Type) where
  buffer_size : Nat
  batch_size : Nat
  memory : List (Nat × V) := []

namespace ReplayBuffer
variable {V : Type}

/-- `std::unordered_map::emplace`: inserts unless the key is already present. -/
def emplace (m : List (Nat × V)) (k : Nat) (x : V) : List (Nat × V) :=
  if m.any (fun e => e.1 == k) then m else m ++ [(k, x)]

/-- `std::unordered_map::at`: throws when the key is absent. -/
def at' (m : List (Nat × V)) (k : Nat) : Res V :=
  match m.find? (fun e => e.1 == k) with
  | some e => .ok e.2
  | none => .throw .outOfRange

/-- `ReplayBuffer::append` (buffer.cpp:54-62). -/
def append (b : ReplayBuffer V) (x : V) : ReplayBuffer V :=
  if b.memory.length < b.buffer_size then
    { b with memory := emplace b.memory b.memory.length x }
  else b

/-- `xt_total.cols(first, last) = xt` after `xt_total.resize(..)` with the columns `pre`
already written (buffer.cpp:88 and 107): Armadillo throws when `first > last`, which is
the case exactly when `xt` has no column. -/
def concatCols (pre xt : List V) : Res (List V) :=
  if xt.isEmpty then .throw .logicError else .ok (pre ++ xt)

/-- `memory_.at(rand_ints(i))` (buffer.cpp:102): an index past the end of `rand_ints` throws
(Armadillo). -/
def drawAt (m : List (Nat × V)) (rand_ints : List Nat) (i : Nat) : Res V :=
  match rand_ints[i]? with
  | some r => at' m r
  | none => .throw .logicError

/-- `ReplayBuffer::sampleMemory` (buffer.cpp:64-111).  `rand_ints` is the vector returned
by `randi<ivec>(batch_size_, distr_param(0, memory_.size() - 1))`; an index past its end
throws (Armadillo). -/
def sampleMemory (b : ReplayBuffer V) (rand_ints : List Nat) (xt : List V) : Res (List V) :=
  if b.memory.isEmpty then .ok xt
  else if b.memory.length ≤ b.batch_size then do
    let pre ← (List.range b.memory.length).mapM (fun i => at' b.memory i)
    concatCols pre xt
  else do
    let pre ← (List.range b.batch_size).mapM (fun i => drawAt b.memory rand_ints i)
    concatCols pre xt

end ReplayBuffer
end Ergodic
