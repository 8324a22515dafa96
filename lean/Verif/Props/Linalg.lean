import Verif.Lemmas.Linalg

/-!
# C38: the matrix inversion behind the alignment
-/

namespace Verif.Linalg

variable {K : Type} [Field K] [LinearOrder K] [IsStrictOrderedRing K]

/-- **C38** `BLA::Invert` on a matrix with non-zero determinant returns true and the two-sided inverse, whatever `stray`
value the out-of-bounds read of `LUDecompose` finds behind the matrix. -/
theorem C38_invert_exact (A : Mat3 K) (stray : K) (hd : A.toMatrix.det ≠ 0) :
    ∃ R, invert A stray = some R ∧ A.toMatrix * R.toMatrix = 1 ∧ R.toMatrix * A.toMatrix = 1 := by
  rw [toMatrix_det] at hd
  obtain ⟨R, h1, h2⟩ := invert_some A stray hd
  have h3 : A.toMatrix * R.toMatrix = 1 := by rw [← toMatrix_mul, h2, toMatrix_identity]
  exact ⟨R, h1, h3, mul_eq_one_comm.1 h3⟩

/-- **C38** It returns false exactly if some row is zero together with the element stored after it (the first element of
the next row, or the stray value behind the last row). -/
theorem C38_invert_false_iff (A : Mat3 K) (stray : K) :
    invert A stray = none ↔
      (A.a00 = 0 ∧ A.a01 = 0 ∧ A.a02 = 0 ∧ A.a10 = 0) ∨
      (A.a10 = 0 ∧ A.a11 = 0 ∧ A.a12 = 0 ∧ A.a20 = 0) ∨
      (A.a20 = 0 ∧ A.a21 = 0 ∧ A.a22 = 0 ∧ stray = 0) := by
  rw [invert, Option.map_eq_none_iff, luDecompose_none]
  constructor
  · rintro ⟨i, h⟩
    have hi : i = 0 ∨ i = 1 ∨ i = 2 := by clear h; revert i; decide
    rcases hi with rfl | rfl | rfl
    · exact Or.inl h
    · exact Or.inr (Or.inl h)
    · exact Or.inr (Or.inr h)
  · rintro (h | h | h)
    · exact ⟨0, h⟩
    · exact ⟨1, h⟩
    · exact ⟨2, h⟩

/-- **C38** Consequently the return value does not say whether the matrix is invertible: a singular matrix without zero
rows is accepted, and the matrix returned for it is no inverse (there is none). -/
theorem C38_singular_accepted (A : Mat3 K) (stray : K) (hd : A.toMatrix.det = 0)
    (h : A.a00 ≠ 0 ∧ A.a10 ≠ 0 ∧ A.a20 ≠ 0) :
    ∃ R, invert A stray = some R ∧ A.toMatrix * R.toMatrix ≠ 1 := by
  cases hi : invert A stray with
  | none =>
    rcases (C38_invert_false_iff A stray).1 hi with h' | h' | h'
    · exact absurd h'.1 h.1
    · exact absurd h'.1 h.2.1
    · exact absurd h'.1 h.2.2
  | some R =>
    refine ⟨R, rfl, fun h1 => ?_⟩
    have := congrArg Matrix.det h1
    rw [Matrix.det_mul, hd, zero_mul, Matrix.det_one] at this
    exact zero_ne_one this

/-- **C38** No division by zero: whenever the decomposition is accepted, all three pivots (the only divisors of the
decomposition and of the substitutions) are non-zero, also for singular matrices. -/
theorem C38_no_zero_divisor (A : Mat3 K) (stray : K) (s : LU K) (h : luDecompose A stray = some s) :
    s.A.a00 ≠ 0 ∧ s.A.a11 ≠ 0 ∧ s.A.a22 ≠ 0 :=
  diag_ne_zero A stray s h

/-- **C38** The product operators compute the matrix product and the matrix-vector product. -/
theorem C38_products (A B : Mat3 K) (v : V3 K) :
    (mul A B).toMatrix = A.toMatrix * B.toMatrix ∧ (mulVec A v).toVec = A.toMatrix.mulVec v.toVec ∧
      (identity : Mat3 K).toMatrix = 1 :=
  ⟨toMatrix_mul A B, toVec_mulVec A v, toMatrix_identity⟩

/-- The hypotheses of `C38_invert_exact` are met by a matrix that needs pivoting in both columns. -/
example : (⟨0, 1, 2, 3, 4, 5, 6, 7, 9⟩ : Mat3 ℚ).toMatrix.det ≠ 0 ∧
    invert (⟨0, 1, 2, 3, 4, 5, 6, 7, 9⟩ : Mat3 ℚ) 7 = some ⟨-1 / 3, -5 / 3, 1, -1, 4, -2, 1, -2, 1⟩ := by
  refine ⟨?_, by decide +kernel⟩
  rw [toMatrix_det]
  decide +kernel

/-- A singular matrix accepted by `Invert`. -/
example : (⟨1, 2, 3, 1, 2, 3, 1, 1, 1⟩ : Mat3 ℚ).toMatrix.det = 0 ∧
    (invert (⟨1, 2, 3, 1, 2, 3, 1, 1, 1⟩ : Mat3 ℚ) 0).isSome := by
  refine ⟨?_, by decide +kernel⟩
  rw [toMatrix_det]
  decide +kernel

end Verif.Linalg
