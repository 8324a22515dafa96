import Mathlib.Algebra.Order.Field.Basic
import Mathlib.Tactic.DeriveFintype
import Mathlib.Data.Fin.VecNotation
import Verif.C.Basic

/-!
# Model of `lib/linalg`: 3×3 LU decomposition, linear solve, inverse, products

`NotSoBasicLinearAlgebra.h:36-211` and `BasicLinearAlgebra.h:197-213`, instantiated at `dim = 3` (the only instantiation the
firmware uses).  `double` is an exact ordered field `K`.  Loops are folds over the index ranges of the source.
-/

namespace Verif.Linalg

variable {K : Type} [Field K] [LinearOrder K] [IsStrictOrderedRing K]

/-- Three values indexed `0, 1, 2`: `Matrix<3, 1, Array<3, 1, double>>` and the work arrays of length `dim`. -/
@[ext] structure V3 (α : Type) where
  v0 : α
  v1 : α
  v2 : α
  deriving DecidableEq, Repr

/-- `v(i)`. -/
def V3.get {α : Type} (v : V3 α) : Fin 3 → α
  | 0 => v.v0
  | 1 => v.v1
  | 2 => v.v2

/-- `v(i) = x`. -/
def V3.set {α : Type} (v : V3 α) (i : Fin 3) (x : α) : V3 α :=
  match i with
  | 0 => ⟨x, v.v1, v.v2⟩
  | 1 => ⟨v.v0, x, v.v2⟩
  | 2 => ⟨v.v0, v.v1, x⟩

/-- `Matrix<3, 3, Array<3, 3, double>>`: the elements row by row (`ElementStorage.h:5-12`, `Array`, row major). -/
@[ext] structure Mat3 (K : Type) where
  a00 : K
  a01 : K
  a02 : K
  a10 : K
  a11 : K
  a12 : K
  a20 : K
  a21 : K
  a22 : K
  deriving DecidableEq, Repr

/-- `A(i, j)` (`ElementStorage.h:10-11`). -/
def Mat3.get (A : Mat3 K) (i j : Fin 3) : K :=
  match i, j with
  | 0, 0 => A.a00
  | 0, 1 => A.a01
  | 0, 2 => A.a02
  | 1, 0 => A.a10
  | 1, 1 => A.a11
  | 1, 2 => A.a12
  | 2, 0 => A.a20
  | 2, 1 => A.a21
  | 2, 2 => A.a22

/-- `A(i, j) = x`. -/
def Mat3.set (A : Mat3 K) (i j : Fin 3) (x : K) : Mat3 K :=
  match i, j with
  | 0, 0 => { A with a00 := x }
  | 0, 1 => { A with a01 := x }
  | 0, 2 => { A with a02 := x }
  | 1, 0 => { A with a10 := x }
  | 1, 1 => { A with a11 := x }
  | 1, 2 => { A with a12 := x }
  | 2, 0 => { A with a20 := x }
  | 2, 1 => { A with a21 := x }
  | 2, 2 => { A with a22 := x }

/-- `BLA::Identity<3, 3>()` (`linalg.h:124`, `ElementStorage.h:46-52`). -/
def identity : Mat3 K := ⟨1, 0, 0, 0, 1, 0, 0, 0, 1⟩

/-- One element of the matrix product (`BasicLinearAlgebra.h:204-210`). -/
def dot (A B : Mat3 K) (i j : Fin 3) : K :=
  A.get i 0 * B.get 0 j + A.get i 1 * B.get 1 j + A.get i 2 * B.get 2 j

/-- `BasicLinearAlgebra.h:197-213` matrix product `A * B`. -/
def mul (A B : Mat3 K) : Mat3 K :=
  ⟨dot A B 0 0, dot A B 0 1, dot A B 0 2, dot A B 1 0, dot A B 1 1, dot A B 1 2, dot A B 2 0, dot A B 2 1, dot A B 2 2⟩

/-- One element of matrix times column vector (`BasicLinearAlgebra.h:204-210` with `operandCols = 1`). -/
def dotVec (A : Mat3 K) (v : V3 K) (i : Fin 3) : K := A.get i 0 * v.v0 + A.get i 1 * v.v1 + A.get i 2 * v.v2

/-- `BasicLinearAlgebra.h:197-213` matrix times column vector. -/
def mulVec (A : Mat3 K) (v : V3 K) : V3 K := ⟨dotVec A v 0, dotVec A v 1, dotVec A v 2⟩

/-- The element `A(i, 3)` that the row-scaling loop reads because its bound is `j <= dim`
(`NotSoBasicLinearAlgebra.h:55`): in row-major storage this is the first element of the next row, and for the last row
the `double` behind the matrix object, `stray`. -/
def pastEnd (A : Mat3 K) (stray : K) : Fin 3 → K
  | 0 => A.a10
  | 1 => A.a20
  | 2 => stray

/-- `NotSoBasicLinearAlgebra.h:53-59`: `largest_elem` of row `i`. -/
def largest (A : Mat3 K) (stray : K) (i : Fin 3) : K :=
  max |pastEnd A stray i| (max |A.get i 2| (max |A.get i 1| (max |A.get i 0| 0)))

/-- Working state of `LUDecompose`. -/
structure LU (K : Type) where
  A : Mat3 K
  idx : V3 (Fin 3)
  scale : V3 K

/-- `NotSoBasicLinearAlgebra.h:79-82,92-95`: the sum over `k` below the given bound. -/
def sumBelow (A : Mat3 K) (i j : Fin 3) (ks : List (Fin 3)) : K := ks.foldl (fun s k => s + A.get i k * A.get k j) 0

/-- The indices below `i`. -/
def below (i : Fin 3) : List (Fin 3) := [0, 1, 2].filter (· < i)
/-- The indices from `j` on. -/
def fromIdx (j : Fin 3) : List (Fin 3) := [0, 1, 2].filter (j ≤ ·)
/-- The indices after `j`. -/
def above (j : Fin 3) : List (Fin 3) := [0, 1, 2].filter (j < ·)

/-- `NotSoBasicLinearAlgebra.h:75-85`: the entries above the diagonal in column `j`. -/
def stepBeta (j : Fin 3) (A : Mat3 K) : Mat3 K :=
  (below j).foldl (fun A i => A.set i j (A.get i j - sumBelow A i j (below i))) A

/-- `NotSoBasicLinearAlgebra.h:88-98`: the entries on and below the diagonal in column `j`. -/
def stepAlpha (j : Fin 3) (A : Mat3 K) : Mat3 K :=
  (fromIdx j).foldl (fun A i => A.set i j (A.get i j - sumBelow A i j (below j))) A

/-- `NotSoBasicLinearAlgebra.h:101-113`: the pivot row. -/
def argmax (j : Fin 3) (s : LU K) : Fin 3 :=
  ((fromIdx j).foldl (fun (p : K × Fin 3) i =>
    if p.1 ≤ s.scale.get i * |s.A.get i j| then (s.scale.get i * |s.A.get i j|, i) else p) (0, j)).2

/-- `NotSoBasicLinearAlgebra.h:117-120`: exchange rows `j` and `p` of the matrix, element by element. -/
def swapMat (j p : Fin 3) (A : Mat3 K) : Mat3 K :=
  [0, 1, 2].foldl (fun A k => (A.set p k (A.get j k)).set j k (A.get p k)) A

/-- `NotSoBasicLinearAlgebra.h:115-126`: swap rows `j` and `p`; `row_scale[argmax] = row_scale[j]` is not a swap.
`parity` is not modelled (`Invert` does not use it). -/
def swapRows (j p : Fin 3) (s : LU K) : LU K :=
  if j = p then s
  else { A := swapMat j p s.A
         idx := (s.idx.set j (s.idx.get p)).set p (s.idx.get j)
         scale := s.scale.set p (s.scale.get j) }

/-- `NotSoBasicLinearAlgebra.h:128-131`: a zero pivot is replaced by `1.0e-20`. -/
def fixPivot (j : Fin 3) (A : Mat3 K) : Mat3 K := if A.get j j = 0 then A.set j j (1 / 10 ^ 20) else A

/-- `NotSoBasicLinearAlgebra.h:133-142`: divide the column below the pivot. -/
def scaleColumn (j : Fin 3) (A : Mat3 K) : Mat3 K :=
  (above j).foldl (fun B i => B.set i j (B.get i j * (1 / A.get j j))) A

/-- `NotSoBasicLinearAlgebra.h:72-143`: one column of Crout's method. -/
def column (s : LU K) (j : Fin 3) : LU K :=
  let s := { s with A := stepAlpha j (stepBeta j s.A) }
  let s := swapRows j (argmax j s) s
  { s with A := scaleColumn j (fixPivot j s.A) }

/-- `NotSoBasicLinearAlgebra.h:36-147` `LUDecompose`; `none` is `singular = true`. -/
def luDecompose (A : Mat3 K) (stray : K) : Option (LU K) :=
  if largest A stray 0 = 0 ∨ largest A stray 1 = 0 ∨ largest A stray 2 = 0 then none
  else some ([0, 1, 2].foldl column
    { A := A, idx := ⟨0, 1, 2⟩
      scale := ⟨1 / largest A stray 0, 1 / largest A stray 1, 1 / largest A stray 2⟩ })

/-- `NotSoBasicLinearAlgebra.h:159-169`: forward substitution.  The elements of `tmp` are written before they are read,
so its initial content does not matter. -/
def forward (s : LU K) (b tmp : V3 K) : V3 K :=
  [0, 1, 2].foldl (fun tmp i =>
    tmp.set (s.idx.get i)
      (b.get (s.idx.get i) - (below i).foldl (fun sum j => sum + s.A.get i j * tmp.get (s.idx.get j)) 0)) tmp

/-- `NotSoBasicLinearAlgebra.h:172-182`: backward substitution. -/
def backward (s : LU K) (tmp : V3 K) : V3 K :=
  [2, 1, 0].foldl (fun tmp i =>
    tmp.set (s.idx.get i)
      ((tmp.get (s.idx.get i) - (above i).foldl (fun sum j => sum + s.A.get i j * tmp.get (s.idx.get j)) 0)
        / s.A.get i i)) tmp

/-- `NotSoBasicLinearAlgebra.h:149-191` `LUSolve`. -/
def luSolve (s : LU K) (b : V3 K) : V3 K :=
  let tmp := backward s (forward s b ⟨0, 0, 0⟩)
  ⟨tmp.get (s.idx.get 0), tmp.get (s.idx.get 1), tmp.get (s.idx.get 2)⟩

/-- `NotSoBasicLinearAlgebra.h:205-212`: the matrix whose columns are the three given ones. -/
def ofColumns (x y z : V3 K) : Mat3 K := ⟨x.v0, y.v0, z.v0, x.v1, y.v1, z.v1, x.v2, y.v2, z.v2⟩

/-- `NotSoBasicLinearAlgebra.h:193-215` `Invert(A, out)`: `none` when the return value is `false` (`out` unchanged).
`stray` is the value found behind the copied matrix object: strictly, reading it is undefined behaviour. -/
def invert (A : Mat3 K) (stray : K) : Option (Mat3 K) :=
  (luDecompose A stray).map fun s => ofColumns (luSolve s ⟨1, 0, 0⟩) (luSolve s ⟨0, 1, 0⟩) (luSolve s ⟨0, 0, 1⟩)

end Verif.Linalg
