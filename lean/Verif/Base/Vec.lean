import Verif.Base.Flt

/-!
# Small vectors and matrices

Stand-ins for the fixed-size `arma::vec` / `arma::mat` values of the code.  Matrix-vector
products add left to right, as the written-out expressions do.
-/

namespace Ergodic

/-- A 2-vector (`vec` of length 2). -/
@[ext] structure V2 (F : Type) where
  c0 : F
  c1 : F

/-- A 3-vector (`vec` of length 3): a pose `[x, y, θ]` or a body twist `[vx, vy, w]`. -/
@[ext] structure V3 (F : Type) where
  c0 : F
  c1 : F
  c2 : F

/-- A 4-vector (`vec` of length 4): mecanum wheel speeds. -/
@[ext] structure V4 (F : Type) where
  c0 : F
  c1 : F
  c2 : F
  c3 : F

/-- A 2×2 matrix given by its rows. -/
@[ext] structure M2 (F : Type) where
  r0 : V2 F
  r1 : V2 F

/-- A 3×3 matrix given by its rows. -/
@[ext] structure M3 (F : Type) where
  r0 : V3 F
  r1 : V3 F
  r2 : V3 F

/-- A 3×2 matrix given by its rows. -/
@[ext] structure M32 (F : Type) where
  r0 : V2 F
  r1 : V2 F
  r2 : V2 F

/-- A 3×4 matrix given by its rows. -/
@[ext] structure M34 (F : Type) where
  r0 : V4 F
  r1 : V4 F
  r2 : V4 F

section
variable {F : Type} [Flt F]

/-- dot product of 2-vectors -/
def V2.dot (a b : V2 F) : F := a.c0 *. b.c0 +. a.c1 *. b.c1
/-- difference of 2-vectors -/
def V2.sub (a b : V2 F) : V2 F := ⟨a.c0 -. b.c0, a.c1 -. b.c1⟩
/-- sum of 2-vectors -/
def V2.add (a b : V2 F) : V2 F := ⟨a.c0 +. b.c0, a.c1 +. b.c1⟩

/-- sum of 3-vectors -/
def V3.add (a b : V3 F) : V3 F := ⟨a.c0 +. b.c0, a.c1 +. b.c1, a.c2 +. b.c2⟩
/-- difference of 3-vectors -/
def V3.sub (a b : V3 F) : V3 F := ⟨a.c0 -. b.c0, a.c1 -. b.c1, a.c2 -. b.c2⟩
/-- scalar times 3-vector -/
def V3.smul (s : F) (a : V3 F) : V3 F := ⟨s *. a.c0, s *. a.c1, s *. a.c2⟩
/-- negated 3-vector -/
def V3.neg (a : V3 F) : V3 F := ⟨~-. a.c0, ~-. a.c1, ~-. a.c2⟩
/-- dot product of 3-vectors -/
def V3.dot (a b : V3 F) : F := a.c0 *. b.c0 +. a.c1 *. b.c1 +. a.c2 *. b.c2
/-- `vec(3, arma::fill::zeros)` -/
def V3.zero : V3 F := ⟨lit 0 0, lit 0 0, lit 0 0⟩
/-- first two entries (`.rows(0, 1)`) -/
def V3.xy (a : V3 F) : V2 F := ⟨a.c0, a.c1⟩

/-- dot product of 4-vectors -/
def V4.dot (a b : V4 F) : F := a.c0 *. b.c0 +. a.c1 *. b.c1 +. a.c2 *. b.c2 +. a.c3 *. b.c3

/-- matrix-vector product -/
def M3.mulVec (m : M3 F) (v : V3 F) : V3 F := ⟨m.r0.dot v, m.r1.dot v, m.r2.dot v⟩
/-- transpose -/
def M3.t (m : M3 F) : M3 F :=
  ⟨⟨m.r0.c0, m.r1.c0, m.r2.c0⟩, ⟨m.r0.c1, m.r1.c1, m.r2.c1⟩, ⟨m.r0.c2, m.r1.c2, m.r2.c2⟩⟩
/-- matrix-matrix product -/
def M3.mul (a b : M3 F) : M3 F :=
  let bt := b.t
  ⟨⟨a.r0.dot bt.r0, a.r0.dot bt.r1, a.r0.dot bt.r2⟩,
   ⟨a.r1.dot bt.r0, a.r1.dot bt.r1, a.r1.dot bt.r2⟩,
   ⟨a.r2.dot bt.r0, a.r2.dot bt.r1, a.r2.dot bt.r2⟩⟩
/-- negated matrix -/
def M3.neg (m : M3 F) : M3 F := ⟨m.r0.neg, m.r1.neg, m.r2.neg⟩
/-- `mat(3, 3, arma::fill::zeros)` -/
def M3.zero : M3 F := ⟨V3.zero, V3.zero, V3.zero⟩

/-- matrix-vector product, 3×2 -/
def M32.mulVec (m : M32 F) (v : V2 F) : V3 F := ⟨m.r0.dot v, m.r1.dot v, m.r2.dot v⟩
/-- matrix-vector product, 3×4 -/
def M34.mulVec (m : M34 F) (v : V4 F) : V3 F := ⟨m.r0.dot v, m.r1.dot v, m.r2.dot v⟩

end
end Ergodic
