import Mathlib.Data.Matrix.Basic
import Verif.Model.Linalg

/-!
# The Mathlib matrix denoted by a matrix object of the code
-/

namespace Verif.Linalg

/-- A `Matrix<3, 3, Array<3, 3, double>>` object read as a mathematical matrix. -/
def Mat3.toMatrix {K : Type} (A : Mat3 K) : Matrix (Fin 3) (Fin 3) K :=
  Matrix.of ![![A.a00, A.a01, A.a02], ![A.a10, A.a11, A.a12], ![A.a20, A.a21, A.a22]]

/-- A column vector object read as a mathematical vector. -/
def V3.toVec {K : Type} (v : V3 K) : Fin 3 → K := ![v.v0, v.v1, v.v2]

end Verif.Linalg
