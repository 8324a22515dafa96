import Mathlib.LinearAlgebra.Matrix.Determinant.Basic
import Mathlib.LinearAlgebra.Matrix.NonsingularInverse
import Mathlib.Tactic.Linarith
import Mathlib.Tactic.FieldSimp
import Mathlib.Tactic.Positivity
import Verif.Spec.Linalg

/-!
# The LU inversion computes the inverse
-/

namespace Verif.Linalg

variable {K : Type} [Field K] [LinearOrder K] [IsStrictOrderedRing K]

set_option linter.unusedSectionVars false

/-- Determinant, written out. -/
def det3 (A : Mat3 K) : K :=
  A.a00 * (A.a11 * A.a22 - A.a12 * A.a21) - A.a01 * (A.a10 * A.a22 - A.a12 * A.a20)
    + A.a02 * (A.a10 * A.a21 - A.a11 * A.a20)

theorem below_0 : below 0 = [] := by decide
theorem below_1 : below 1 = [0] := by decide
theorem below_2 : below 2 = [0, 1] := by decide
theorem above_0 : above 0 = [1, 2] := by decide
theorem above_1 : above 1 = [2] := by decide
theorem above_2 : above 2 = [] := by decide
theorem from_0 : fromIdx 0 = [0, 1, 2] := by decide
theorem from_1 : fromIdx 1 = [1, 2] := by decide
theorem from_2 : fromIdx 2 = [2] := by decide

/-- One column with the pivot row given. -/
def columnAt (s : LU K) (j p : Fin 3) : LU K :=
  let s := { s with A := stepAlpha j (stepBeta j s.A) }
  let s := swapRows j p s
  { s with A := scaleColumn j (fixPivot j s.A) }

theorem column_eq (s : LU K) (j : Fin 3) :
    column s j = columnAt s j (argmax j { s with A := stepAlpha j (stepBeta j s.A) }) := rfl

/-- The scales are positive. -/
def PosScale (s : LU K) : Prop := 0 < s.scale.v0 ∧ 0 < s.scale.v1 ∧ 0 < s.scale.v2

theorem fold_argmax (f : Fin 3 → K) (l : List (Fin 3)) (m0 : K) (p0 : Fin 3) :
    let r := l.foldl (fun (p : K × Fin 3) i => if p.1 ≤ f i then (f i, i) else p) (m0, p0)
    m0 ≤ r.1 ∧ (∀ i ∈ l, f i ≤ r.1) ∧ ((r.2 ∈ l ∧ r.1 = f r.2) ∨ r = (m0, p0)) := by
  induction l generalizing m0 p0 with
  | nil => simp
  | cons i l ih =>
    simp only [List.foldl_cons]
    split
    · rename_i h
      obtain ⟨h1, h2, h3⟩ := ih (f i) i
      refine ⟨le_trans h h1, ?_, ?_⟩
      · intro k hk
        rcases List.mem_cons.1 hk with rfl | hk
        · exact h1
        · exact h2 k hk
      · rcases h3 with ⟨h3, h4⟩ | h3
        · exact Or.inl ⟨List.mem_cons_of_mem _ h3, h4⟩
        · left; rw [h3]; simp
    · rename_i h
      obtain ⟨h1, h2, h3⟩ := ih m0 p0
      refine ⟨h1, ?_, ?_⟩
      · intro k hk
        rcases List.mem_cons.1 hk with rfl | hk
        · exact le_trans (le_of_not_ge h) h1
        · exact h2 k hk
      · rcases h3 with ⟨h3, h4⟩ | h3
        · exact Or.inl ⟨List.mem_cons_of_mem _ h3, h4⟩
        · exact Or.inr h3

/-- The pivot search finds a non-zero element if there is one. -/
theorem argmax_spec (j : Fin 3) (s : LU K) (hs : PosScale s) (i : Fin 3) (hi : i ∈ fromIdx j) (h : s.A.get i j ≠ 0) :
    argmax j s ∈ fromIdx j ∧ s.A.get (argmax j s) j ≠ 0 := by
  have hp : ∀ i, 0 < s.scale.get i := by
    intro i; fin_cases i
    · exact hs.1
    · exact hs.2.1
    · exact hs.2.2
  obtain ⟨_, h2, h3⟩ := fold_argmax (fun i => s.scale.get i * |s.A.get i j|) (fromIdx j) 0 j
  have hpos : 0 < s.scale.get i * |s.A.get i j| := mul_pos (hp i) (abs_pos.2 h)
  have h4 := h2 i hi
  rcases h3 with ⟨h3, h5⟩ | h3
  · refine ⟨h3, ?_⟩
    intro h0
    rw [h5] at h4
    have : s.scale.get i * |s.A.get i j| ≤ s.scale.get (argmax j s) * |s.A.get (argmax j s) j| := h4
    rw [h0, abs_zero, mul_zero] at this
    exact absurd this (not_le.2 hpos)
  · rw [h3] at h4
    exact absurd h4 (not_le.2 hpos)

/-- Column 0, given the pivot row. -/
def col0 (A : Mat3 K) : Mat3 K :=
  { A with a10 := A.a10 / A.a00, a20 := A.a20 / A.a00 }

/-- Column 1 after column 0, before the exchange of rows. -/
def mid1 (A : Mat3 K) : Mat3 K := { A with a11 := A.a11 - A.a10 * A.a01, a21 := A.a21 - A.a20 * A.a01 }

/-- Column 1 after the exchange of rows. -/
def col1 (A : Mat3 K) : Mat3 K := { A with a21 := A.a21 / A.a11 }

/-- Column 2. -/
def col2 (A : Mat3 K) : Mat3 K :=
  { A with a12 := A.a12 - A.a10 * A.a02
           a22 := A.a22 - (A.a20 * A.a02 + A.a21 * (A.a12 - A.a10 * A.a02)) }

theorem pre0 (A : Mat3 K) : stepAlpha 0 (stepBeta 0 A) = A := by
  simp [stepAlpha, stepBeta, from_0, below_0, sumBelow, Mat3.set, Mat3.get]

theorem pre1 (A : Mat3 K) : stepAlpha 1 (stepBeta 1 A) = mid1 A := by
  simp [stepAlpha, stepBeta, from_1, below_0, below_1, sumBelow, Mat3.set, Mat3.get, mid1]

theorem pre2 (A : Mat3 K) : stepAlpha 2 (stepBeta 2 A) = col2 A := by
  simp [stepAlpha, stepBeta, from_2, below_0, below_1, below_2, sumBelow, Mat3.set, Mat3.get, col2]

theorem post0 (A : Mat3 K) (h : A.a00 ≠ 0) : scaleColumn 0 (fixPivot 0 A) = col0 A := by
  simp [fixPivot, scaleColumn, above_0, Mat3.get, Mat3.set, h, col0, div_eq_mul_inv]

theorem post1 (A : Mat3 K) (h : A.a11 ≠ 0) : scaleColumn 1 (fixPivot 1 A) = col1 A := by
  simp [fixPivot, scaleColumn, above_1, Mat3.get, Mat3.set, h, col1, div_eq_mul_inv]

theorem post2 (A : Mat3 K) (h : A.a22 ≠ 0) : scaleColumn 2 (fixPivot 2 A) = A := by
  simp [fixPivot, scaleColumn, above_2, Mat3.get, h]

theorem argmax2 (s : LU K) : argmax 2 s = 2 := by
  simp only [argmax, from_2, List.foldl]
  split <;> rfl

/-- Exchange of rows 1 and 2. -/
def ex12 (A : Mat3 K) : Mat3 K := ⟨A.a00, A.a01, A.a02, A.a20, A.a21, A.a22, A.a10, A.a11, A.a12⟩
/-- Exchange of rows 0 and 1. -/
def ex01 (A : Mat3 K) : Mat3 K := ⟨A.a10, A.a11, A.a12, A.a00, A.a01, A.a02, A.a20, A.a21, A.a22⟩
/-- Exchange of rows 0 and 2. -/
def ex02 (A : Mat3 K) : Mat3 K := ⟨A.a20, A.a21, A.a22, A.a10, A.a11, A.a12, A.a00, A.a01, A.a02⟩

theorem swapMat01 (A : Mat3 K) : swapMat 0 1 A = ex01 A := by simp [swapMat, Mat3.set, Mat3.get, ex01]
theorem swapMat02 (A : Mat3 K) : swapMat 0 2 A = ex02 A := by simp [swapMat, Mat3.set, Mat3.get, ex02]
theorem swapMat12 (A : Mat3 K) : swapMat 1 2 A = ex12 A := by simp [swapMat, Mat3.set, Mat3.get, ex12]

/-- The LU decomposition without exchanges (unit lower triangle and upper triangle in one matrix). -/
def doolittle (B : Mat3 K) : Mat3 K := col2 (col1 (mid1 (col0 B)))

/-- The three pivots are non-zero. -/
def Regular (B : Mat3 K) : Prop :=
  B.a00 ≠ 0 ∧ (mid1 (col0 B)).a11 ≠ 0 ∧ (doolittle B).a22 ≠ 0

theorem factor (B : Mat3 K) (h0 : B.a00 ≠ 0) (h1 : (mid1 (col0 B)).a11 ≠ 0) :
    B.a10 = (doolittle B).a10 * (doolittle B).a00 ∧
    B.a20 = (doolittle B).a20 * (doolittle B).a00 ∧
    B.a11 = (doolittle B).a10 * (doolittle B).a01 + (doolittle B).a11 ∧
    B.a12 = (doolittle B).a10 * (doolittle B).a02 + (doolittle B).a12 ∧
    B.a21 = (doolittle B).a20 * (doolittle B).a01 + (doolittle B).a21 * (doolittle B).a11 ∧
    B.a22 = (doolittle B).a20 * (doolittle B).a02 + (doolittle B).a21 * (doolittle B).a12 + (doolittle B).a22 := by
  have h1' : (doolittle B).a11 ≠ 0 := h1
  refine ⟨?_, ?_, ?_, ?_, ?_, ?_⟩
  · simp only [doolittle, col2, col1, mid1, col0]; field_simp
  · simp only [doolittle, col2, col1, mid1, col0]; field_simp
  · simp only [doolittle, col2, col1, mid1, col0]; ring
  · simp only [doolittle, col2, col1, mid1, col0]; ring
  · have : (doolittle B).a21 = (mid1 (col0 B)).a21 / (doolittle B).a11 := rfl
    rw [this, div_mul_cancel₀ _ h1']
    simp only [doolittle, col2, col1, mid1, col0]; ring
  · simp only [doolittle, col2, col1, mid1, col0]; ring

theorem det_pivots (B : Mat3 K) (h0 : B.a00 ≠ 0) (h1 : (mid1 (col0 B)).a11 ≠ 0) :
    det3 B = B.a00 * (mid1 (col0 B)).a11 * (doolittle B).a22 := by
  obtain ⟨f10, f20, f11, f12, f21, f22⟩ := factor B h0 h1
  have h11 : (mid1 (col0 B)).a11 = (doolittle B).a11 := rfl
  have h00 : B.a00 = (doolittle B).a00 := rfl
  have f01 : B.a01 = (doolittle B).a01 := rfl
  have f02 : B.a02 = (doolittle B).a02 := rfl
  rw [det3, h11, f10, f20, f11, f12, f21, f22, h00, f01, f02]
  ring

theorem det_mid (B : Mat3 K) (h0 : B.a00 ≠ 0) (h1 : (mid1 (col0 B)).a11 = 0) (h2 : (mid1 (col0 B)).a21 = 0) :
    det3 B = 0 := by
  simp only [det3, mid1, col0] at *
  have e1 : B.a11 = B.a10 / B.a00 * B.a01 := by linarith
  have e2 : B.a21 = B.a20 / B.a00 * B.a01 := by linarith
  rw [e1, e2]
  field_simp
  ring

/-- Forward and backward substitution with the right-hand side already permuted. -/
def dsolve (L : Mat3 K) (b : V3 K) : V3 K :=
  let y0 := b.v0
  let y1 := b.v1 - L.a10 * y0
  let y2 := b.v2 - (L.a20 * y0 + L.a21 * y1)
  let x2 := y2 / L.a22
  let x1 := (y1 - L.a12 * x2) / L.a11
  let x0 := (y0 - (L.a01 * x1 + L.a02 * x2)) / L.a00
  ⟨x0, x1, x2⟩

/-- The permutations a decomposition can end with. -/
def IsPerm (p : V3 (Fin 3)) : Prop :=
  p = ⟨0, 1, 2⟩ ∨ p = ⟨0, 2, 1⟩ ∨ p = ⟨1, 0, 2⟩ ∨ p = ⟨1, 2, 0⟩ ∨ p = ⟨2, 1, 0⟩ ∨ p = ⟨2, 0, 1⟩

theorem luSolve_eq (s : LU K) (hp : IsPerm s.idx) (b : V3 K) :
    luSolve s b = dsolve s.A ⟨b.get s.idx.v0, b.get s.idx.v1, b.get s.idx.v2⟩ := by
  rcases s with ⟨A, idx, sc⟩
  rcases hp with h | h | h | h | h | h <;> simp only at h <;> subst h <;>
    simp [luSolve, backward, forward, dsolve, below_0, below_1, below_2, above_0, above_1, above_2, V3.get, V3.set,
      Mat3.get]

theorem dsolve_spec (B : Mat3 K) (h : Regular B) (b : V3 K) : mulVec B (dsolve (doolittle B) b) = b := by
  obtain ⟨h0, h1, h2⟩ := h
  have hA : (doolittle B).a11 = (mid1 (col0 B)).a11 := rfl
  have h00 : (doolittle B).a00 = B.a00 := rfl
  have h1' : (doolittle B).a11 ≠ 0 := h1
  have e0 : (doolittle B).a00 ≠ 0 := h0
  obtain ⟨f10, f20, f11, f12, f21, f22⟩ := factor B h0 h1
  have f01 : B.a01 = (doolittle B).a01 := rfl
  have f02 : B.a02 = (doolittle B).a02 := rfl
  rw [← h00] at h0
  generalize doolittle B = L at *
  ext
  · simp only [mulVec, dotVec, Mat3.get, dsolve, ← h00, f01, f02]
    field_simp; ring
  · simp only [mulVec, dotVec, Mat3.get, dsolve, f10, f11, f12]
    field_simp; ring
  · simp only [mulVec, dotVec, Mat3.get, dsolve, f20, f21, f22]
    field_simp; ring

/-- The matrix with its rows permuted. -/
def permRows (p : V3 (Fin 3)) (A : Mat3 K) : Mat3 K :=
  ⟨A.get p.v0 0, A.get p.v0 1, A.get p.v0 2, A.get p.v1 0, A.get p.v1 1, A.get p.v1 2,
   A.get p.v2 0, A.get p.v2 1, A.get p.v2 2⟩

theorem columns12 (s : LU K) (B : Mat3 K) (hA : s.A = col0 B) (hs : PosScale s) (h0 : B.a00 ≠ 0) (hd : det3 B ≠ 0) :
    let r := column (column s 1) 2
    (r.A = doolittle B ∧ r.idx = s.idx ∧ Regular B) ∨
    (r.A = doolittle (ex12 B) ∧ r.idx = ⟨s.idx.v0, s.idx.v2, s.idx.v1⟩ ∧ Regular (ex12 B)) := by
  obtain ⟨A, idx, sc⟩ := s
  simp only at hA
  subst hA
  have hex : ∃ i ∈ fromIdx 1, (mid1 (col0 B)).get i 1 ≠ 0 := by
    by_contra hcon
    simp only [from_1, List.mem_cons, List.not_mem_nil, or_false, not_exists, not_and, not_not, forall_eq_or_imp,
      forall_eq] at hcon
    exact hd (det_mid B h0 hcon.1 hcon.2)
  obtain ⟨i, hi, hne⟩ := hex
  obtain ⟨hm, hp⟩ := argmax_spec 1 (⟨mid1 (col0 B), idx, sc⟩ : LU K) hs i hi hne
  simp only at hp
  rw [column_eq, column_eq (⟨col0 B, idx, sc⟩ : LU K)]
  simp only [pre1]
  rw [from_1] at hm
  simp only [List.mem_cons, List.not_mem_nil, or_false] at hm
  rcases hm with hm | hm <;> rw [hm] at hp ⊢
  · left
    have h1 : (mid1 (col0 B)).a11 ≠ 0 := hp
    have hdp := det_pivots B h0 h1
    have h2 : (doolittle B).a22 ≠ 0 := by intro h; rw [hdp, h, mul_zero] at hd; exact hd rfl
    have e : columnAt (⟨col0 B, idx, sc⟩ : LU K) 1 1 = ⟨col1 (mid1 (col0 B)), idx, sc⟩ := by
      simp only [columnAt, pre1, swapRows, if_true]
      rw [post1 _ h1]
    rw [e]
    simp only [columnAt, pre2, argmax2, swapRows, if_true]
    refine ⟨?_, trivial, h0, h1, h2⟩
    exact post2 _ h2
  · right
    have h1 : (mid1 (col0 (ex12 B))).a11 ≠ 0 := hp
    have hd' : det3 (ex12 B) = - det3 B := by simp only [det3, ex12]; ring
    have hdp := det_pivots (ex12 B) h0 h1
    have h2 : (doolittle (ex12 B)).a22 ≠ 0 := by
      intro h; rw [hd', h, mul_zero, neg_eq_zero] at hdp; exact hd hdp
    have e : columnAt (⟨col0 B, idx, sc⟩ : LU K) 1 2
        = ⟨col1 (mid1 (col0 (ex12 B))), ⟨idx.v0, idx.v2, idx.v1⟩, sc.set 2 (sc.get 1)⟩ := by
      have : ¬ (1 : Fin 3) = 2 := by decide
      simp only [columnAt, pre1, swapRows, if_neg this, swapMat12]
      have e2 : ex12 (mid1 (col0 B)) = mid1 (col0 (ex12 B)) := rfl
      rw [e2, post1 _ h1]
      rfl
    rw [e]
    simp only [columnAt, pre2, argmax2, swapRows, if_true]
    refine ⟨?_, trivial, h0, h1, h2⟩
    exact post2 _ h2

theorem columns (A : Mat3 K) (sc : V3 K) (hs : PosScale ⟨A, ⟨0, 1, 2⟩, sc⟩) (hd : det3 A ≠ 0) :
    ∃ p, IsPerm p ∧ ([0, 1, 2].foldl column (⟨A, ⟨0, 1, 2⟩, sc⟩ : LU K)).idx = p ∧
      ([0, 1, 2].foldl column (⟨A, ⟨0, 1, 2⟩, sc⟩ : LU K)).A = doolittle (permRows p A) ∧ Regular (permRows p A) := by
  have hex : ∃ i ∈ fromIdx 0, A.get i 0 ≠ 0 := by
    by_contra hcon
    simp only [from_0, List.mem_cons, List.not_mem_nil, or_false, not_exists, not_and, not_not, forall_eq_or_imp,
      forall_eq, Mat3.get] at hcon
    apply hd
    simp only [det3, hcon.1, hcon.2.1, hcon.2.2]; ring
  obtain ⟨i, hi, hne⟩ := hex
  obtain ⟨hm, hp⟩ := argmax_spec 0 (⟨A, ⟨0, 1, 2⟩, sc⟩ : LU K) hs i hi hne
  simp only at hp
  simp only [List.foldl]
  rw [column_eq (⟨A, ⟨0, 1, 2⟩, sc⟩ : LU K)]
  simp only [pre0]
  generalize argmax 0 (⟨A, ⟨0, 1, 2⟩, sc⟩ : LU K) = p0 at *
  obtain ⟨s0, s1, s2⟩ := hs
  simp only at s0 s1 s2
  fin_cases p0
  · have h0 : A.a00 ≠ 0 := hp
    have e : columnAt (⟨A, ⟨0, 1, 2⟩, sc⟩ : LU K) 0 0 = ⟨col0 A, ⟨0, 1, 2⟩, sc⟩ := by
      simp only [columnAt, pre0, swapRows, if_true]
      rw [post0 _ h0]
    simp only [Fin.zero_eta]
    rw [e]
    rcases columns12 (⟨col0 A, ⟨0, 1, 2⟩, sc⟩ : LU K) A rfl ⟨s0, s1, s2⟩ h0 hd with ⟨h1, h2, h3⟩ | ⟨h1, h2, h3⟩
    · exact ⟨_, by simp [IsPerm], h2, h1, h3⟩
    · exact ⟨_, by simp [IsPerm], h2, h1, h3⟩
  · have h0 : (ex01 A).a00 ≠ 0 := hp
    have e : columnAt (⟨A, ⟨0, 1, 2⟩, sc⟩ : LU K) 0 1 = ⟨col0 (ex01 A), ⟨1, 0, 2⟩, ⟨sc.v0, sc.v0, sc.v2⟩⟩ := by
      have : ¬ (0 : Fin 3) = 1 := by decide
      simp only [columnAt, pre0, swapRows, if_neg this, swapMat01]
      rw [post0 _ h0]
      rfl
    simp only [Fin.mk_one]
    rw [e]
    have hd' : det3 (ex01 A) ≠ 0 := by
      have : det3 (ex01 A) = - det3 A := by simp only [det3, ex01]; ring
      rw [this]; exact neg_ne_zero.2 hd
    rcases columns12 (⟨col0 (ex01 A), ⟨1, 0, 2⟩, ⟨sc.v0, sc.v0, sc.v2⟩⟩ : LU K) (ex01 A) rfl ⟨s0, s0, s2⟩ h0 hd' with
      ⟨h1, h2, h3⟩ | ⟨h1, h2, h3⟩
    · exact ⟨_, by simp [IsPerm], h2, h1, h3⟩
    · exact ⟨_, by simp [IsPerm], h2, h1, h3⟩
  · have h0 : (ex02 A).a00 ≠ 0 := hp
    have e : columnAt (⟨A, ⟨0, 1, 2⟩, sc⟩ : LU K) 0 2 = ⟨col0 (ex02 A), ⟨2, 1, 0⟩, ⟨sc.v0, sc.v1, sc.v0⟩⟩ := by
      have : ¬ (0 : Fin 3) = 2 := by decide
      simp only [columnAt, pre0, swapRows, if_neg this, swapMat02]
      rw [post0 _ h0]
      rfl
    simp only [Fin.reduceFinMk]
    rw [e]
    have hd' : det3 (ex02 A) ≠ 0 := by
      have : det3 (ex02 A) = - det3 A := by simp only [det3, ex02]; ring
      rw [this]; exact neg_ne_zero.2 hd
    rcases columns12 (⟨col0 (ex02 A), ⟨2, 1, 0⟩, ⟨sc.v0, sc.v1, sc.v0⟩⟩ : LU K) (ex02 A) rfl ⟨s0, s1, s0⟩ h0 hd' with
      ⟨h1, h2, h3⟩ | ⟨h1, h2, h3⟩
    · exact ⟨_, by simp [IsPerm], h2, h1, h3⟩
    · exact ⟨_, by simp [IsPerm], h2, h1, h3⟩

theorem largest_nonneg (A : Mat3 K) (stray : K) (i : Fin 3) : 0 ≤ largest A stray i :=
  le_trans (abs_nonneg _) (le_max_left _ _)

theorem largest_eq_zero (A : Mat3 K) (stray : K) (i : Fin 3) :
    largest A stray i = 0 ↔ A.get i 0 = 0 ∧ A.get i 1 = 0 ∧ A.get i 2 = 0 ∧ pastEnd A stray i = 0 := by
  constructor
  · intro h
    have h3 : |pastEnd A stray i| ≤ 0 := h ▸ le_max_left _ _
    have h2 : |A.get i 2| ≤ 0 := h ▸ le_trans (le_max_left _ _) (le_max_right _ _)
    have h1 : |A.get i 1| ≤ 0 := h ▸ le_trans (le_max_left _ _) (le_trans (le_max_right _ _) (le_max_right _ _))
    have h0 : |A.get i 0| ≤ 0 :=
      h ▸ le_trans (le_max_left _ _) (le_trans (le_max_right _ _) (le_trans (le_max_right _ _) (le_max_right _ _)))
    exact ⟨abs_nonpos_iff.1 h0, abs_nonpos_iff.1 h1, abs_nonpos_iff.1 h2, abs_nonpos_iff.1 h3⟩
  · rintro ⟨h0, h1, h2, h3⟩
    simp [largest, h0, h1, h2, h3]

theorem luDecompose_none (A : Mat3 K) (stray : K) :
    luDecompose A stray = none ↔ ∃ i, A.get i 0 = 0 ∧ A.get i 1 = 0 ∧ A.get i 2 = 0 ∧ pastEnd A stray i = 0 := by
  simp only [luDecompose, largest_eq_zero]
  constructor
  · intro h
    split at h
    · rename_i h'
      rcases h' with h' | h' | h'
      · exact ⟨0, h'⟩
      · exact ⟨1, h'⟩
      · exact ⟨2, h'⟩
    · cases h
  · rintro ⟨i, h⟩
    rw [if_pos]
    fin_cases i
    · exact Or.inl h
    · exact Or.inr (Or.inl h)
    · exact Or.inr (Or.inr h)

theorem row_ne_zero (A : Mat3 K) (hd : det3 A ≠ 0) (i : Fin 3) :
    ¬ (A.get i 0 = 0 ∧ A.get i 1 = 0 ∧ A.get i 2 = 0) := by
  rintro ⟨h0, h1, h2⟩
  apply hd
  have hi : i = 0 ∨ i = 1 ∨ i = 2 := by clear h0 h1 h2 hd; revert i; decide
  rcases hi with rfl | rfl | rfl <;> simp only [Mat3.get] at h0 h1 h2 <;> simp only [det3, h0, h1, h2] <;> ring

theorem invert_some (A : Mat3 K) (stray : K) (hd : det3 A ≠ 0) :
    ∃ R, invert A stray = some R ∧ mul A R = identity := by
  have hl : ∀ i, largest A stray i ≠ 0 := by
    intro i h
    obtain ⟨h0, h1, h2, _⟩ := (largest_eq_zero A stray i).1 h
    exact row_ne_zero A hd i ⟨h0, h1, h2⟩
  have hl' : ∀ i, 0 < 1 / largest A stray i := fun i =>
    one_div_pos.2 (lt_of_le_of_ne (largest_nonneg A stray i) (Ne.symm (hl i)))
  obtain ⟨p, hp, hidx, hA, hreg⟩ := columns A ⟨1 / largest A stray 0, 1 / largest A stray 1, 1 / largest A stray 2⟩
    ⟨hl' 0, hl' 1, hl' 2⟩ hd
  have hinv : invert A stray = some (let s := [0, 1, 2].foldl column (⟨A, ⟨0, 1, 2⟩,
        ⟨1 / largest A stray 0, 1 / largest A stray 1, 1 / largest A stray 2⟩⟩ : LU K)
      ofColumns (luSolve s ⟨1, 0, 0⟩) (luSolve s ⟨0, 1, 0⟩) (luSolve s ⟨0, 0, 1⟩)) := by
    simp only [invert, luDecompose, hl, or_self, if_false, Option.map_some]
  refine ⟨_, hinv, ?_⟩
  · have hsol : ∀ b, mulVec (permRows p A) (luSolve ([0, 1, 2].foldl column (⟨A, ⟨0, 1, 2⟩,
        ⟨1 / largest A stray 0, 1 / largest A stray 1, 1 / largest A stray 2⟩⟩ : LU K)) b)
        = ⟨b.get p.v0, b.get p.v1, b.get p.v2⟩ := by
      intro b
      rw [luSolve_eq _ (by rw [hidx]; exact hp), hidx, hA]
      exact dsolve_spec _ hreg _
    generalize [0, 1, 2].foldl column (⟨A, ⟨0, 1, 2⟩,
        ⟨1 / largest A stray 0, 1 / largest A stray 1, 1 / largest A stray 2⟩⟩ : LU K) = s at *
    have e0 := hsol ⟨1, 0, 0⟩
    have e1 := hsol ⟨0, 1, 0⟩
    have e2 := hsol ⟨0, 0, 1⟩
    simp only [mulVec, dotVec, V3.mk.injEq] at e0 e1 e2
    obtain ⟨e00, e01, e02⟩ := e0
    obtain ⟨e10, e11, e12⟩ := e1
    obtain ⟨e20, e21, e22⟩ := e2
    rcases hp with h | h | h | h | h | h <;> subst h <;>
      simp only [permRows, Mat3.get, V3.get] at e00 e01 e02 e10 e11 e12 e20 e21 e22 <;>
      (ext <;> simp only [mul, dot, ofColumns, Mat3.get, identity] <;> assumption)

theorem argmax_mem (j : Fin 3) (s : LU K) : argmax j s ∈ fromIdx j := by
  have hj : j ∈ fromIdx j := by simp only [fromIdx, List.mem_filter]; revert j; decide
  rcases (fold_argmax (fun i => s.scale.get i * |s.A.get i j|) (fromIdx j) 0 j).2.2 with h | h
  · exact h.1
  · have : argmax j s = j := congrArg Prod.snd h
    rwa [this]

/-- After column `j` the pivot is non-zero. -/
theorem pivot_ne (j : Fin 3) (A : Mat3 K) : (scaleColumn j (fixPivot j A)).get j j ≠ 0 := by
  have h : (fixPivot j A).get j j ≠ 0 := by
    rw [fixPivot]
    split
    · have : (A.set j j (1 / 10 ^ 20)).get j j = 1 / 10 ^ 20 := by
        revert j; intro j _
        fin_cases j <;> rfl
      rw [this]; positivity
    · assumption
  have e : (scaleColumn j (fixPivot j A)).get j j = (fixPivot j A).get j j := by
    generalize fixPivot j A = B
    fin_cases j <;> rfl
  rw [e]; exact h

theorem diag_ne_zero (A : Mat3 K) (stray : K) (s : LU K) (h : luDecompose A stray = some s) :
    s.A.a00 ≠ 0 ∧ s.A.a11 ≠ 0 ∧ s.A.a22 ≠ 0 := by
  simp only [luDecompose] at h
  split at h
  · cases h
  cases h
  simp only [List.foldl]
  generalize (⟨A, ⟨0, 1, 2⟩, ⟨1 / largest A stray 0, 1 / largest A stray 1, 1 / largest A stray 2⟩⟩ : LU K) = s
  have h0 : (column s 0).A.a00 ≠ 0 := pivot_ne 0 _
  generalize column s 0 = s1 at *
  have h1 : (column s1 1).A.a11 ≠ 0 := pivot_ne 1 _
  have h01 : (column s1 1).A.a00 = s1.A.a00 := by
    rw [column_eq]
    have hm := argmax_mem 1 ({ s1 with A := stepAlpha 1 (stepBeta 1 s1.A) } : LU K)
    rw [from_1] at hm
    simp only [List.mem_cons, List.not_mem_nil, or_false] at hm
    simp only [columnAt, pre1]
    rcases hm with hm | hm <;> simp only [pre1] at hm <;> rw [hm]
    · simp only [swapRows, if_true, scaleColumn, above_1, List.foldl, fixPivot]
      split <;> rfl
    · have h12 : ¬ (1 : Fin 3) = 2 := by decide
      simp only [swapRows, if_neg h12, swapMat12, scaleColumn, above_1, List.foldl, fixPivot]
      split <;> rfl
  generalize column s1 1 = s2 at *
  have h2 : (column s2 2).A.a22 ≠ 0 := pivot_ne 2 _
  have e2 : (column s2 2).A.a00 = s2.A.a00 ∧ (column s2 2).A.a11 = s2.A.a11 := by
    rw [column_eq]
    simp only [columnAt, pre2, argmax2, swapRows, if_true, scaleColumn, above_2, List.foldl, fixPivot]
    split <;> exact ⟨rfl, rfl⟩
  rw [e2.1, e2.2]
  exact ⟨h01 ▸ h0, h1, h2⟩

theorem toMatrix_det (A : Mat3 K) : A.toMatrix.det = det3 A := by
  rw [Matrix.det_fin_three]
  simp [Mat3.toMatrix, det3]
  ring

theorem toMatrix_mul (A B : Mat3 K) : (mul A B).toMatrix = A.toMatrix * B.toMatrix := by
  ext i j
  rw [Matrix.mul_apply, Fin.sum_univ_three]
  fin_cases i <;> fin_cases j <;> rfl

theorem toVec_mulVec (A : Mat3 K) (v : V3 K) : (mulVec A v).toVec = A.toMatrix.mulVec v.toVec := by
  ext i
  simp only [Matrix.mulVec, dotProduct, Fin.sum_univ_three]
  fin_cases i <;> rfl

theorem toMatrix_identity : (identity : Mat3 K).toMatrix = 1 := by
  ext i j
  fin_cases i <;> fin_cases j <;> rfl

end Verif.Linalg
