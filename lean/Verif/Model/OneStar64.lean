import Verif.Model.Coord64
import Verif.Model.Linalg

/-!
# A telescope aligned with one star, in IEEE arithmetic

The chain `addReferencePoint` (first star) — `getCalibratedOrientation` with every operation rounded.  Which matrix is used with one
star does not depend on arithmetic (`Model/Align.lean`): it is the one computed here.
-/

namespace Verif.OneStar64

open Verif.Coord64

/-- One row of `BasicLinearAlgebra.h:199-213` `operator*` for a 3x3 matrix and a column vector. -/
def row64 (m0 m1 m2 v0 v1 v2 : ℚ) : C ℚ := do
  let r ← fl b64 (m0 * v0)
  let t ← fl b64 (m1 * v1)
  let r ← fl b64 (r + t)
  let t ← fl b64 (m2 * v2)
  fl b64 (r + t)

/-- The two numbers of the matrix of one star that are not those of the identity. -/
structure Shift where
  dx : ℚ
  dy : ℚ

/-- `alignment.cpp:414-420` `updateTransformationMatrices` with one star (and no triangle): the elements (0,2) and (1,2). -/
def shift (actual reference : ℚ × ℚ) : C Shift := do
  let dx ← fl b64 (reference.1 - actual.1)
  let dy ← fl b64 (reference.2 - actual.2)
  return ⟨dx, dy⟩

/-- `alignment.cpp:516-524` `getCalibratedOrientation` with that matrix. -/
def calibrate (s : Shift) (actual : ℚ × ℚ) : C (ℚ × ℚ) := do
  let x ← row64 1 0 s.dx actual.1 actual.2 1
  let y ← row64 0 1 s.dy actual.1 actual.2 1
  let x ← Helper.fModIEEE x 360
  return (x, y)

/-- `telescope.cpp:29-36` `addReferencePoint` of a telescope without stars, pointing at `orientation`. -/
def addFirst (M : Libm) (orientation : ℚ × ℚ) (ra dec latitude lst : ℚ) : C Shift := do
  let r ← equatorialToHorizontal M ra dec latitude lst
  shift orientation r

/-- `telescope.cpp:38-48` `getCalibratedOrientation` of a telescope with one star. -/
def position (M : Libm) (s : Shift) (orientation : ℚ × ℚ) (latitude lst : ℚ) : C (ℚ × ℚ) := do
  let h ← calibrate s orientation
  horizontalToEquatorial M h.1 h.2 latitude lst

end Verif.OneStar64
