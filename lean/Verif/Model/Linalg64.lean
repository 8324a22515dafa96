import Verif.Model.Linalg
import Verif.Model.Triangulate
import Verif.Model.Helper

/-!
# Model of `lib/linalg` in IEEE double arithmetic, and of the matrices of the alignment computed with it

`Model/Linalg.lean` once more, statement by statement, but with `double` as IEEE binary64: every operation is rounded.  A variable of type
`double` is a `D`: a number, or the error that an overflow leaves behind (`C/Float.lean`; Infinities and NaN are not modelled any further:
the theorems say that none arises).  Contraction to fused operations is not modelled (the ESP32 has no double-precision unit).
-/

namespace Verif.Linalg64

open Verif Verif.Linalg Verif.Align

/-- The content of a `double`. -/
abbrev D := C ℚ

/-- `a + b`. -/
def add (a b : D) : D := do
  let x ← a
  let y ← b
  fl b64 (x + y)

/-- `a - b`. -/
def sub (a b : D) : D := do
  let x ← a
  let y ← b
  fl b64 (x - y)

/-- `a * b`. -/
def mulD (a b : D) : D := do
  let x ← a
  let y ← b
  fl b64 (x * y)

/-- `a / b` for `b ≠ 0`; a division by zero leaves the numbers. -/
def divD (a b : D) : D := do
  let x ← a
  let y ← b
  if y = 0 then .error .nonfinite else fl b64 (x / y)

/-- `0.0`. -/
def zero : D := .ok 0
/-- `1.0`. -/
def one : D := .ok 1

/-- `fabs(a)` (exact). -/
def fabs (a : D) : D := do
  let x ← a
  return |x|

/-- `fmax(a, b)` (exact). -/
def fmax (a b : D) : D := do
  let x ← a
  let y ← b
  return max x y

/-- `NotSoBasicLinearAlgebra.h:53-59`: `largest_elem` of row `i`; the bound `j <= dim` reads one element too many (`Linalg.pastEnd`). -/
def largest (A : Mat3 D) (stray : D) (i : Fin 3) : D :=
  fmax (fabs (pastEnd A stray i)) (fmax (fabs (A.get i 2)) (fmax (fabs (A.get i 1)) (fmax (fabs (A.get i 0)) zero)))

/-- `NotSoBasicLinearAlgebra.h:79-82,92-95`: the sum over `k`. -/
def sumBelow (A : Mat3 D) (i j : Fin 3) (ks : List (Fin 3)) : D := ks.foldl (fun s k => add s (mulD (A.get i k) (A.get k j))) zero

/-- `NotSoBasicLinearAlgebra.h:75-85`: the entries above the diagonal in column `j`. -/
def stepBeta (j : Fin 3) (A : Mat3 D) : Mat3 D :=
  (below j).foldl (fun A i => A.set i j (sub (A.get i j) (sumBelow A i j (below i)))) A

/-- `NotSoBasicLinearAlgebra.h:88-98`: the entries on and below the diagonal in column `j`. -/
def stepAlpha (j : Fin 3) (A : Mat3 D) : Mat3 D :=
  (fromIdx j).foldl (fun A i => A.set i j (sub (A.get i j) (sumBelow A i j (below j)))) A

/-- `NotSoBasicLinearAlgebra.h:101-113`: the pivot row. -/
def argmax (j : Fin 3) (s : LU D) : C (Fin 3) := do
  let r ← (fromIdx j).foldlM (fun (p : ℚ × Fin 3) i => do
    let thisElem ← mulD (s.scale.get i) (fabs (s.A.get i j))
    return if p.1 ≤ thisElem then (thisElem, i) else p) (0, j)
  return r.2

/-- `NotSoBasicLinearAlgebra.h:117-120`: exchange rows `j` and `p` of the matrix, element by element. -/
def swapMat (j p : Fin 3) (A : Mat3 D) : Mat3 D :=
  [0, 1, 2].foldl (fun A k => (A.set p k (A.get j k)).set j k (A.get p k)) A

/-- `NotSoBasicLinearAlgebra.h:115-126`: swap rows `j` and `p`. -/
def swapRows (j p : Fin 3) (s : LU D) : LU D :=
  if j = p then s
  else { A := swapMat j p s.A
         idx := (s.idx.set j (s.idx.get p)).set p (s.idx.get j)
         scale := s.scale.set p (s.scale.get j) }

/-- `NotSoBasicLinearAlgebra.h:128-131`: a zero pivot is replaced by `1.0e-20`. -/
def fixPivot (j : Fin 3) (A : Mat3 D) : C (Mat3 D) := do
  let x ← A.get j j
  return if x = 0 then A.set j j (fl b64 (1 / 10 ^ 20)) else A

/-- `NotSoBasicLinearAlgebra.h:133-142`: multiply the column below the pivot by the rounded reciprocal of the pivot. -/
def scaleColumn (j : Fin 3) (A : Mat3 D) : Mat3 D :=
  (above j).foldl (fun B i => B.set i j (mulD (B.get i j) (divD one (A.get j j)))) A

/-- `NotSoBasicLinearAlgebra.h:72-143`: one column of Crout's method. -/
def column (s : LU D) (j : Fin 3) : C (LU D) := do
  let s := { s with A := stepAlpha j (stepBeta j s.A) }
  let p ← argmax j s
  let s := swapRows j p s
  let A ← fixPivot j s.A
  return { s with A := scaleColumn j A }

/-- `NotSoBasicLinearAlgebra.h:36-147` `LUDecompose`; `none` is `singular = true`. -/
def luDecompose (A : Mat3 D) (stray : D) : C (Option (LU D)) := do
  let g0 ← largest A stray 0
  let g1 ← largest A stray 1
  let g2 ← largest A stray 2
  if g0 = 0 ∨ g1 = 0 ∨ g2 = 0 then return none
  else do
    let s ← [0, 1, 2].foldlM column
      { A := A, idx := ⟨0, 1, 2⟩, scale := ⟨divD one (.ok g0), divD one (.ok g1), divD one (.ok g2)⟩ }
    return some s

/-- `NotSoBasicLinearAlgebra.h:159-169`: forward substitution. -/
def forward (s : LU D) (b tmp : V3 D) : V3 D :=
  [0, 1, 2].foldl (fun tmp i =>
    tmp.set (s.idx.get i)
      (sub (b.get (s.idx.get i)) ((below i).foldl (fun sum j => add sum (mulD (s.A.get i j) (tmp.get (s.idx.get j)))) zero))) tmp

/-- `NotSoBasicLinearAlgebra.h:172-182`: backward substitution. -/
def backward (s : LU D) (tmp : V3 D) : V3 D :=
  [2, 1, 0].foldl (fun tmp i =>
    tmp.set (s.idx.get i)
      (divD (sub (tmp.get (s.idx.get i)) ((above i).foldl (fun sum j => add sum (mulD (s.A.get i j) (tmp.get (s.idx.get j)))) zero))
        (s.A.get i i))) tmp

/-- `NotSoBasicLinearAlgebra.h:149-191` `LUSolve`; `tmp` starts uninitialised (every element is written before it is read). -/
def luSolve (s : LU D) (b : V3 D) : V3 D :=
  let u : D := .error (.ub .uninit)
  let tmp := backward s (forward s b ⟨u, u, u⟩)
  ⟨tmp.get (s.idx.get 0), tmp.get (s.idx.get 1), tmp.get (s.idx.get 2)⟩

/-- `NotSoBasicLinearAlgebra.h:193-215` `Invert(A, out)`: `none` when the return value is `false`. -/
def invert (A : Mat3 D) (stray : D) : C (Option (Mat3 D)) := do
  let r ← luDecompose A stray
  return r.map fun s => ofColumns (luSolve s ⟨one, zero, zero⟩) (luSolve s ⟨zero, one, zero⟩) (luSolve s ⟨zero, zero, one⟩)

/-- One element of the matrix product (`BasicLinearAlgebra.h:204-210`). -/
def dot (A B : Mat3 D) (i j : Fin 3) : D :=
  add (add (mulD (A.get i 0) (B.get 0 j)) (mulD (A.get i 1) (B.get 1 j))) (mulD (A.get i 2) (B.get 2 j))

/-- `BasicLinearAlgebra.h:197-213` matrix product. -/
def mul (A B : Mat3 D) : Mat3 D :=
  ⟨dot A B 0 0, dot A B 0 1, dot A B 0 2, dot A B 1 0, dot A B 1 1, dot A B 1 2, dot A B 2 0, dot A B 2 1, dot A B 2 2⟩

/-- One element of matrix times column vector (`BasicLinearAlgebra.h:204-210` with `operandCols = 1`). -/
def dotVec (A : Mat3 D) (v : V3 D) (i : Fin 3) : D :=
  add (add (mulD (A.get i 0) v.v0) (mulD (A.get i 1) v.v1)) (mulD (A.get i 2) v.v2)

/-- `BLA::Identity<3, 3>()`. -/
def identity : Mat3 D := ⟨one, zero, zero, zero, one, zero, zero, zero, one⟩

/-- `alignment.cpp:433-440,456-463`: `ref * Inverse(actual)`, or the identity if the inversion reports a singular matrix. -/
def solveMatrix (stray : D) (ref actual : Mat3 D) : C (Mat3 D) := do
  match ← invert actual stray with
  | some inv => return mul ref inv
  | none => return identity

/-- `alignment.cpp:446-449,451-454`: three points as columns. -/
def triCorners (p q r : Pt ℚ) : Mat3 D := ⟨.ok p.x, .ok q.x, .ok r.x, .ok p.y, .ok q.y, .ok r.y, one, one, one⟩

/-- `alignment.cpp:423-426,428-431`: two points and the second one plus the vector between them turned by -90°. -/
def lineCorners (p q : Pt ℚ) : Mat3 D :=
  ⟨.ok p.x, .ok q.x, add (.ok q.x) (sub (.ok q.y) (.ok p.y)), .ok p.y, .ok q.y, sub (.ok q.y) (sub (.ok q.x) (.ok p.x)), one, one, one⟩

/-- `alignment.cpp:516-524` `getCalibratedOrientation` up to the reduction of the azimuth (`:520` `fMod`). -/
def apply (m : Mat3 D) (p : Pt ℚ) : C (Pt ℚ) := do
  let v : V3 D := ⟨.ok p.x, .ok p.y, one⟩
  let x ← dotVec m v 0
  let y ← dotVec m v 1
  return ⟨x, y⟩

/-- `alignment.cpp:516-524` `getCalibratedOrientation` with the matrix `m`. -/
def calibrate (m : Mat3 D) (p : Pt ℚ) : C (Pt ℚ) := do
  let o ← apply m p
  let x ← Helper.fModIEEE o.x 360
  return ⟨x, o.y⟩

end Verif.Linalg64
