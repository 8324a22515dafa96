import Verif.Lemmas.Linalg64Lu

/-!
# The run of the elimination and of the solution
-/

namespace Verif.Linalg64

open Verif Verif.Linalg Verif.Align

/-- A matrix the elimination is accurate for: `s` are the scales of the rows. -/
structure Sys (a : Fin 3 → Fin 3 → ℚ) (s : Fin 3 → ℚ) : Prop where
  mag : ∀ i, Mag 40 (s i)
  le : ∀ i j, |a i j| ≤ s i
  rep : ∀ i j, Representable b64 (a i j)

/-- The determinant with the rows in the given order is not small. -/
def GoodAt (a : Fin 3 → Fin 3 → ℚ) (s : Fin 3 → ℚ) (i0 i1 i2 : Fin 3) : Prop :=
  Good (s i0) (s i1) (s i2) (det3 (a i0 0) (a i0 1) (a i0 2) (a i1 0) (a i1 1) (a i1 2) (a i2 0) (a i2 1) (a i2 2))

theorem GoodAt.swap12 {a : Fin 3 → Fin 3 → ℚ} {s : Fin 3 → ℚ} {i0 i1 i2 : Fin 3} (h : GoodAt a s i0 i1 i2) : GoodAt a s i0 i2 i1 := by
  unfold GoodAt Good at *
  have e : det3 (a i0 0) (a i0 1) (a i0 2) (a i2 0) (a i2 1) (a i2 2) (a i1 0) (a i1 1) (a i1 2) =
    -det3 (a i0 0) (a i0 1) (a i0 2) (a i1 0) (a i1 1) (a i1 2) (a i2 0) (a i2 1) (a i2 2) := by unfold det3; ring
  rw [e, abs_neg, mul_comm (s i2)]; exact h

theorem GoodAt.swap01 {a : Fin 3 → Fin 3 → ℚ} {s : Fin 3 → ℚ} {i0 i1 i2 : Fin 3} (h : GoodAt a s i0 i1 i2) : GoodAt a s i1 i0 i2 := by
  unfold GoodAt Good at *
  have e : det3 (a i1 0) (a i1 1) (a i1 2) (a i0 0) (a i0 1) (a i0 2) (a i2 0) (a i2 1) (a i2 2) =
    -det3 (a i0 0) (a i0 1) (a i0 2) (a i1 0) (a i1 1) (a i1 2) (a i2 0) (a i2 1) (a i2 2) := by unfold det3; ring
  rw [e, abs_neg, show s i1 * (s i0 * s i2) = s i0 * (s i1 * s i2) by ring]; exact h

/-- The rounded reciprocals of the scales. -/
def Weights (s w : Fin 3 → ℚ) : Prop := ∀ i, |w i * s i - 1| ≤ u

/-- What the first column leaves behind. -/
structure First (a : Fin 3 → Fin 3 → ℚ) (s : Fin 3 → ℚ) (i0 i1 i2 : Fin 3) (l1 l2 : ℚ) : Prop where
  good : GoodAt a s i0 i1 i2
  piv : s i0 ≤ 2 ^ 43 * |a i0 0|
  h1 : |l1| * s i0 ≤ 1.01 * s i1
  h2 : |l2| * s i0 ≤ 1.01 * s i2
  e1 : |l1 * a i0 0 - a i1 0| ≤ 2.02 * u * s i1
  e2 : |l2 * a i0 0 - a i2 0| ≤ 2.02 * u * s i2

theorem mag_pivot {s x k : ℚ} (hs : Mag 40 s) (h : s ≤ 2 ^ 43 * |x|) (hx : |x| ≤ k * s) (hk : k ≤ 16) : Mag 100 |x| := by
  constructor
  · have := hs.1
    have h2 : (1 : ℚ) / 2 ^ 40 ≤ 2 ^ 43 * |x| := this.trans h
    norm_num at h2 ⊢
    linarith
  · have := hs.2
    have h3 : k * s ≤ 16 * s := mul_le_mul_of_nonneg_right hk hs.pos.le
    have h2 : |x| ≤ 16 * 2 ^ 40 := by linarith
    norm_num at h2 ⊢
    linarith

theorem core0 {a : Fin 3 → Fin 3 → ℚ} {s : Fin 3 → ℚ} (H : Sys a s) {i0 i1 i2 : Fin 3} (hd : GoodAt a s i0 i1 i2)
    (hb : |a i1 0| * s i0 ≤ 1.0005 * (|a i0 0| * s i1) + δ * (s i0 * s i1))
    (hc : |a i2 0| * s i0 ≤ 1.0005 * (|a i0 0| * s i2) + δ * (s i0 * s i2)) :
    ∃ l1 l2, scaleColumn 0 (okMat a i0 i1 i2) =
        ⟨.ok (a i0 0), .ok (a i0 1), .ok (a i0 2), .ok l1, .ok (a i1 1), .ok (a i1 2), .ok l2, .ok (a i2 1), .ok (a i2 2)⟩ ∧
      a i0 0 ≠ 0 ∧ First a s i0 i1 i2 l1 l2 := by
  obtain ⟨k1, k2, k3⟩ := pivot0 (H.mag i0).pos (H.mag i1).pos (H.mag i2).pos (H.le i0 1) (H.le i0 2) (H.le i1 1) (H.le i1 2) (H.le i2 1) (H.le i2 2)
    hd hb hc
  have M : Mag 100 |a i0 0| := mag_pivot (H.mag i0) k1 (by have := H.le i0 0; linarith) (by norm_num : (1 : ℚ) ≤ 16)
  have m : ∀ i, Mag 100 (s i) := fun i => (H.mag i).mono (by norm_num)
  obtain ⟨ρ, f1, f2⟩ := recip (M.mono (by norm_num))
  obtain ⟨l1, g1, -, g2, g3⟩ := multiplier (k := 1) (m i0) (m i1) (M.mono (by norm_num)) f2 k2 (by have := H.le i1 0; linarith)
    (by have := H.le i0 0; linarith) (by norm_num)
  obtain ⟨l2, h1, -, h2, h3⟩ := multiplier (k := 1) (m i0) (m i2) (M.mono (by norm_num)) f2 k3 (by have := H.le i2 0; linarith)
    (by have := H.le i0 0; linarith) (by norm_num)
  refine ⟨l1, l2, ?_, abs_pos.1 M.pos, ⟨hd, k1, g2, h2, by linarith, by linarith⟩⟩
  show (⟨.ok (a i0 0), .ok (a i0 1), .ok (a i0 2), mulD (.ok (a i1 0)) (divD one (.ok (a i0 0))), .ok (a i1 1), .ok (a i1 2),
    mulD (.ok (a i2 0)) (divD one (.ok (a i0 0))), .ok (a i2 1), .ok (a i2 2)⟩ : Mat3 D) = _
  rw [f1, g1, h1]

/-- The rows are a permutation. -/
def Perm3 (i0 i1 i2 : Fin 3) : Prop := i0 ≠ i1 ∧ i0 ≠ i2 ∧ i1 ≠ i2

theorem col0 {a : Fin 3 → Fin 3 → ℚ} {s w : Fin 3 → ℚ} (H : Sys a s) (hw : Weights s w) (hd : GoodAt a s 0 1 2) :
    ∃ i0 i1 i2 l1 l2 c, Perm3 i0 i1 i2 ∧ First a s i0 i1 i2 l1 l2 ∧
      column ⟨okMat a 0 1 2, ⟨0, 1, 2⟩, ⟨.ok (w 0), .ok (w 1), .ok (w 2)⟩⟩ 0 = .ok ⟨⟨.ok (a i0 0), .ok (a i0 1), .ok (a i0 2), .ok l1, .ok (a i1 1),
        .ok (a i1 2), .ok l2, .ok (a i2 1), .ok (a i2 2)⟩, ⟨i0, i1, i2⟩, ⟨c, .ok (w i1), .ok (w i2)⟩⟩ := by
  have m : ∀ i, Mag 100 (s i) := fun i => (H.mag i).mono (by norm_num)
  have hp := fun i => (H.mag i).pos
  have st : stepAlpha 0 (stepBeta 0 (okMat a 0 1 2)) = okMat a 0 1 2 := by
    show (⟨sub (.ok (a 0 0)) zero, .ok (a 0 1), .ok (a 0 2), sub (.ok (a 1 0)) zero, .ok (a 1 1), .ok (a 1 2), sub (.ok (a 2 0)) zero, .ok (a 2 1),
      .ok (a 2 2)⟩ : Mat3 D) = _
    have x := fun i => sub_zero_exact ((H.mag i).mono (by norm_num)) (H.le i 0) (H.rep i 0)
    rw [x 0, x 1, x 2]; rfl
  have b16 : ∀ i, |a i 0| ≤ 16 * s i := fun i => by have := H.le i 0; have := hp i; linarith
  obtain ⟨m0, c0, n0, d0⟩ := compared (m 0) (hw 0) (b16 0)
  obtain ⟨m1, c1, n1, d1⟩ := compared (m 1) (hw 1) (b16 1)
  obtain ⟨m2, c2, n2, d2⟩ := compared (m 2) (hw 2) (b16 2)
  rcases argmax0 (A := okMat a 0 1 2) (idx := ⟨0, 1, 2⟩) (scale := ⟨.ok (w 0), .ok (w 1), .ok (w 2)⟩) c0 c1 c2 n0 with ⟨e, k1, k2⟩ | ⟨e, k1, k2⟩ | ⟨e, k1, k2⟩
  · obtain ⟨l1, l2, f1, f2, f3⟩ := core0 H hd (pivot_ineq (hp 0) (hp 1) d0 d1 k1) (pivot_ineq (hp 0) (hp 2) d0 d2 k2)
    refine ⟨0, 1, 2, l1, l2, .ok (w 0), by unfold Perm3; decide, f3, ?_⟩
    rw [column_eq (p := 0) (x := a 0 0) (by rw [st]; exact e) (by rw [st]; rfl) f2, st]
    show (.ok (⟨scaleColumn 0 (okMat a 0 1 2), ⟨0, 1, 2⟩, ⟨.ok (w 0), .ok (w 1), .ok (w 2)⟩⟩ : LU D) : C (LU D)) = _
    rw [f1]
  · obtain ⟨l1, l2, f1, f2, f3⟩ := core0 H hd.swap01 (pivot_ineq (hp 1) (hp 0) d1 d0 k1) (pivot_ineq (hp 1) (hp 2) d1 d2 k2)
    refine ⟨1, 0, 2, l1, l2, .ok (w 0), by unfold Perm3; decide, f3, ?_⟩
    rw [column_eq (p := 1) (x := a 1 0) (by rw [st]; exact e) (by rw [st]; rfl) f2, st]
    show (.ok (⟨scaleColumn 0 (okMat a 1 0 2), ⟨1, 0, 2⟩, ⟨.ok (w 0), .ok (w 0), .ok (w 2)⟩⟩ : LU D) : C (LU D)) = _
    rw [f1]
  · obtain ⟨l1, l2, f1, f2, f3⟩ := core0 H (hd.swap12.swap01).swap12 (pivot_ineq (hp 2) (hp 1) d2 d1 k2) (pivot_ineq (hp 2) (hp 0) d2 d0 k1)
    refine ⟨2, 1, 0, l1, l2, .ok (w 0), by unfold Perm3; decide, f3, ?_⟩
    rw [column_eq (p := 2) (x := a 2 0) (by rw [st]; exact e) (by rw [st]; rfl) f2, st]
    show (.ok (⟨scaleColumn 0 (okMat a 2 1 0), ⟨2, 1, 0⟩, ⟨.ok (w 0), .ok (w 1), .ok (w 0)⟩⟩ : LU D) : C (LU D)) = _
    rw [f1]

/-- The factors: the rows in the order `i0 i1 i2` are the product of the two triangles, up to rounding errors. -/
structure Fact (a : Fin 3 → Fin 3 → ℚ) (s : Fin 3 → ℚ) (i0 i1 i2 : Fin 3) (l10 l20 l21 u11 u12 u22 : ℚ) : Prop where
  mult : Mult (s i0) (s i1) (s i2) l10 l20 l21
  upper : Upper (s i0) (s i1) (s i2) (a i0 0) (a i0 1) (a i0 2) u11 u12 u22
  e10 : |l10 * a i0 0 - a i1 0| ≤ 2.02 * u * s i1
  e20 : |l20 * a i0 0 - a i2 0| ≤ 2.02 * u * s i2
  e11 : |u11 - (a i1 1 - l10 * a i0 1)| ≤ 3.1 * u * s i1
  e12 : |u12 - (a i1 2 - l10 * a i0 2)| ≤ 3.1 * u * s i1
  e21 : |l21 * u11 - (a i2 1 - l20 * a i0 1)| ≤ 7.3 * u * s i2
  e22 : |u22 - (a i2 2 - l20 * a i0 2 - l21 * u12)| ≤ 10.3 * u * s i2

theorem mag_one : Mag 300 1 := ⟨by rw [div_le_one (by positivity)]; exact one_le_pow₀ (by norm_num), one_le_pow₀ (by norm_num)⟩

/-- The second and the third column, once the second pivot row is known (`t1`, `t2` are the elements of the second column). -/
theorem core1 {a : Fin 3 → Fin 3 → ℚ} {s w : Fin 3 → ℚ} (H : Sys a s) (hw : Weights s w) {i0 i1 i2 : Fin 3} {l1 l2 t1 t2 : ℚ} (F : First a s i0 i1 i2 l1 l2)
    (b1 : |t1| ≤ 2.03 * s i1) (b2 : |t2| ≤ 2.03 * s i2) (e1 : |t1 - (a i1 1 - l1 * a i0 1)| ≤ 3.1 * u * s i1)
    (e2 : |t2 - (a i2 1 - l2 * a i0 1)| ≤ 3.1 * u * s i2) (hp : |t2| * s i1 ≤ 1.0005 * (|t1| * s i2) + δ * (s i1 * s i2)) (c d : D) :
    t1 ≠ 0 ∧ ∃ l21 u12 u22 scale, Fact a s i0 i1 i2 l1 l2 l21 t1 u12 u22 ∧
      column ⟨⟨.ok (a i0 0), .ok (a i0 1), .ok (a i0 2), .ok l1, .ok t1, .ok (a i1 2), .ok l2, mulD (.ok t2) (divD one (.ok t1)), .ok (a i2 2)⟩,
        ⟨i0, i1, i2⟩, ⟨c, d, .ok (w i2)⟩⟩ 2 = .ok (okLU (a i0 0) (a i0 1) (a i0 2) l1 t1 u12 l2 l21 u22 i0 i1 i2 scale) := by
  have m : ∀ i, Mag 100 (s i) := fun i => (H.mag i).mono (by norm_num)
  have p := fun i => (H.mag i).pos
  obtain ⟨k1, k2⟩ := pivot1 (p i0) (p i1) (p i2) (H.le i0 0) (H.le i0 1) (H.le i0 2) (H.le i1 2) (H.le i2 1) (H.le i2 2) F.good F.h1 F.h2 F.e1 F.e2
    e1 e2 b1 hp
  have M0 : Mag 100 |a i0 0| := mag_pivot (H.mag i0) F.piv (by have := H.le i0 0; linarith) (by norm_num : (1 : ℚ) ≤ 16)
  have M1 : Mag 100 |t1| := mag_pivot (H.mag i1) k1 b1 (by norm_num)
  obtain ⟨ρ, f1, f2⟩ := recip (M1.mono (by norm_num))
  obtain ⟨l21, g1, -, g2, g3⟩ := multiplier (k := 2.03) (m i1) (m i2) (M1.mono (by norm_num)) f2 k2 b2 b1 (by norm_num)
  have X : Mult (s i0) (s i1) (s i2) l1 l2 l21 := ⟨m i0, m i1, m i2, F.h1, F.h2, g2⟩
  have one' : ∀ i j, |a i j| ≤ 1 * s i := fun i j => by have := H.le i j; linarith
  obtain ⟨u12, v1, v2, v3, v4⟩ := fwd1 (m i1) F.h1 mag_one (one' i0 2) (one' i1 2)
  obtain ⟨u22, w1, w2, w3, w4⟩ := fwd2 X mag_one (one' i0 2) v3 (one' i2 2)
  have hu := u_pos
  have pu := mul_pos hu (p i2)
  have e21 : |l21 * t1 - (a i2 1 - l2 * a i0 1)| ≤ 7.3 * u * s i2 := by
    have := abs_le.1 g3; have := abs_le.1 e2
    exact abs_le.2 ⟨by linarith, by linarith⟩
  rw [one_mul] at v3 v4 w3 w4
  have k3 := pivot2 (p i0) (p i1) (p i2) (H.le i0 0) (H.le i0 1) (H.le i0 2) (H.le i1 0) (H.le i1 1) (H.le i1 2) (H.le i2 0) (H.le i2 1) (H.le i2 2)
    F.good b1 F.e1 F.e2 e1 v4 e21 w4
  have M2 : Mag 100 |u22| := mag_pivot (H.mag i2) k3 w3 (by norm_num)
  obtain ⟨m2, c2, n2, -⟩ := compared (m i2) (hw i2) (by have := p i2; linarith : |u22| ≤ 16 * s i2)
  refine ⟨abs_pos.1 M1.pos, l21, u12, u22, ⟨c, d, .ok (w i2)⟩, ⟨X, ⟨H.mag i0, H.mag i1, H.mag i2, M0, M1, M2, H.le i0 1, H.le i0 2, v3⟩, F.e1, F.e2, e1, v4, e21, w4⟩, ?_⟩
  have st : stepAlpha 2 (stepBeta 2 ⟨.ok (a i0 0), .ok (a i0 1), .ok (a i0 2), .ok l1, .ok t1, .ok (a i1 2), .ok l2, mulD (.ok t2) (divD one (.ok t1)),
      .ok (a i2 2)⟩) = (⟨.ok (a i0 0), .ok (a i0 1), .ok (a i0 2), .ok l1, .ok t1, .ok u12, .ok l2, .ok l21, .ok u22⟩ : Mat3 D) := by
    show (⟨.ok (a i0 0), .ok (a i0 1), sub (.ok (a i0 2)) zero, .ok l1, .ok t1,
      sub (.ok (a i1 2)) (add zero (mulD (.ok l1) (sub (.ok (a i0 2)) zero))), .ok l2, mulD (.ok t2) (divD one (.ok t1)),
      sub (.ok (a i2 2)) (add (add zero (mulD (.ok l2) (sub (.ok (a i0 2)) zero))) (mulD (mulD (.ok t2) (divD one (.ok t1)))
        (sub (.ok (a i1 2)) (add zero (mulD (.ok l1) (sub (.ok (a i0 2)) zero))))))⟩ : Mat3 D) = _
    rw [sub_zero_exact ((H.mag i0).mono (by norm_num)) (H.le i0 2) (H.rep i0 2), v1, f1, g1, w1]
  rw [column_eq (p := 2) (x := u22) (by simp only [st]; exact argmax2 c2 n2) (by simp only [st]; rfl) (abs_pos.1 M2.pos)]
  simp only [st]
  rfl

theorem col12 {a : Fin 3 → Fin 3 → ℚ} {s w : Fin 3 → ℚ} (H : Sys a s) (hw : Weights s w) {i0 i1 i2 : Fin 3} {l1 l2 : ℚ} (F : First a s i0 i1 i2 l1 l2)
    (hi : Perm3 i0 i1 i2) (c : D) :
    ∃ j0 j1 j2 l10 l20 l21 u11 u12 u22 scale, Perm3 j0 j1 j2 ∧ Fact a s j0 j1 j2 l10 l20 l21 u11 u12 u22 ∧
      [1, 2].foldlM column ⟨⟨.ok (a i0 0), .ok (a i0 1), .ok (a i0 2), .ok l1, .ok (a i1 1), .ok (a i1 2), .ok l2, .ok (a i2 1), .ok (a i2 2)⟩,
        ⟨i0, i1, i2⟩, ⟨c, .ok (w i1), .ok (w i2)⟩⟩ = .ok (okLU (a j0 0) (a j0 1) (a j0 2) l10 u11 u12 l20 l21 u22 j0 j1 j2 scale) := by
  have m : ∀ i, Mag 100 (s i) := fun i => (H.mag i).mono (by norm_num)
  have p := fun i => (H.mag i).pos
  have one' : ∀ i j, |a i j| ≤ 1 * s i := fun i j => by have := H.le i j; linarith
  obtain ⟨t1, v1, v2, v3, v4⟩ := fwd1 (m i1) F.h1 mag_one (one' i0 1) (one' i1 1)
  obtain ⟨t2, w1, w2, w3, w4⟩ := fwd1 (m i2) F.h2 mag_one (one' i0 1) (one' i2 1)
  rw [one_mul] at v3 v4 w3 w4
  obtain ⟨m1, c1, n1, d1⟩ := compared (m i1) (hw i1) (by have := p i1; linarith : |t1| ≤ 16 * s i1)
  obtain ⟨m2, c2, n2, d2⟩ := compared (m i2) (hw i2) (by have := p i2; linarith : |t2| ≤ 16 * s i2)
  have st : stepAlpha 1 (stepBeta 1 ⟨.ok (a i0 0), .ok (a i0 1), .ok (a i0 2), .ok l1, .ok (a i1 1), .ok (a i1 2), .ok l2, .ok (a i2 1), .ok (a i2 2)⟩) =
      (⟨.ok (a i0 0), .ok (a i0 1), .ok (a i0 2), .ok l1, .ok t1, .ok (a i1 2), .ok l2, .ok t2, .ok (a i2 2)⟩ : Mat3 D) := by
    show (⟨.ok (a i0 0), sub (.ok (a i0 1)) zero, .ok (a i0 2), .ok l1, sub (.ok (a i1 1)) (add zero (mulD (.ok l1) (sub (.ok (a i0 1)) zero))),
      .ok (a i1 2), .ok l2, sub (.ok (a i2 1)) (add zero (mulD (.ok l2) (sub (.ok (a i0 1)) zero))), .ok (a i2 2)⟩ : Mat3 D) = _
    rw [sub_zero_exact ((H.mag i0).mono (by norm_num)) (H.le i0 1) (H.rep i0 1), v1, w1]
  have fold : ∀ x : LU D, [(1 : Fin 3), 2].foldlM column x = (do let y ← column x 1; column y 2) := by
    intro x
    simp only [List.foldlM]
    cases column x 1 with
    | error e => rfl
    | ok y => simp only [bind_ok]; cases column y 2 <;> rfl
  rw [fold]
  rcases argmax1 (A := ⟨.ok (a i0 0), .ok (a i0 1), .ok (a i0 2), .ok l1, .ok t1, .ok (a i1 2), .ok l2, .ok t2, .ok (a i2 2)⟩) (idx := ⟨i0, i1, i2⟩)
    (scale := ⟨c, .ok (w i1), .ok (w i2)⟩) c1 c2 n1 with ⟨e, k⟩ | ⟨e, k⟩
  · obtain ⟨q1, l21, u12, u22, scale, q2, q3⟩ := core1 H hw F v3 w3 v4 w4 (pivot_ineq (p i1) (p i2) d1 d2 k) c (.ok (w i1))
    refine ⟨i0, i1, i2, l1, l2, l21, t1, u12, u22, scale, hi, q2, ?_⟩
    rw [column_eq (p := 1) (x := t1) (by simp only [st]; exact e) (by simp only [st]; rfl) q1]
    simp only [st, bind_ok]
    exact q3
  · obtain ⟨q1, l21, u12, u22, scale, q2, q3⟩ := core1 (w := w) H hw ⟨F.good.swap12, F.piv, F.h2, F.h1, F.e2, F.e1⟩ w3 v3 w4 v4
      (pivot_ineq (p i2) (p i1) d2 d1 k) c (.ok (w i1))
    refine ⟨i0, i2, i1, l2, l1, l21, t2, u12, u22, scale, ⟨hi.2.1, hi.1, hi.2.2.symm⟩, q2, ?_⟩
    rw [column_eq (p := 2) (x := t2) (by simp only [st]; exact e) (by simp only [st]; rfl) q1]
    simp only [st, bind_ok]
    exact q3

/-! ### The decomposition -/

/-- The element behind row `i`. -/
def behind (a : Fin 3 → Fin 3 → ℚ) (stray : ℚ) : Fin 3 → ℚ
  | 0 => a 1 0
  | 1 => a 2 0
  | 2 => stray

/-- `NotSoBasicLinearAlgebra.h:53-59`: the largest element of row `i`, including the one read too many. -/
def scaleOf (a : Fin 3 → Fin 3 → ℚ) (stray : ℚ) (i : Fin 3) : ℚ :=
  max |behind a stray i| (max |a i 2| (max |a i 1| (max |a i 0| 0)))

theorem largest_ok (a : Fin 3 → Fin 3 → ℚ) (stray : ℚ) (i : Fin 3) : largest (okMat a 0 1 2) (.ok stray) i = .ok (scaleOf a stray i) := by
  fin_cases i <;> rfl

theorem lu_ok {a : Fin 3 → Fin 3 → ℚ} {stray : ℚ} (H : Sys a (scaleOf a stray)) (hd : GoodAt a (scaleOf a stray) 0 1 2) :
    ∃ j0 j1 j2 l10 l20 l21 u11 u12 u22 scale, Perm3 j0 j1 j2 ∧ Fact a (scaleOf a stray) j0 j1 j2 l10 l20 l21 u11 u12 u22 ∧
      luDecompose (okMat a 0 1 2) (.ok stray) = .ok (some (okLU (a j0 0) (a j0 1) (a j0 2) l10 u11 u12 l20 l21 u22 j0 j1 j2 scale)) := by
  have hs : ∀ i, ∃ w, divD one (.ok (scaleOf a stray i)) = .ok w ∧ |w * scaleOf a stray i - 1| ≤ u := fun i => scale_ok ((H.mag i).mono (by norm_num))
  choose w hw1 hw2 using hs
  obtain ⟨i0, i1, i2, l1, l2, c, hi, F, e⟩ := col0 H hw2 hd
  obtain ⟨j0, j1, j2, l10, l20, l21, u11, u12, u22, scale, hj, G, e2⟩ := col12 H hw2 F hi c
  refine ⟨j0, j1, j2, l10, l20, l21, u11, u12, u22, scale, hj, G, ?_⟩
  unfold luDecompose
  simp only [largest_ok, bind_ok]
  have hne := fun i => (H.mag i).pos.ne'
  rw [if_neg (by simp [hne])]
  have fold : ∀ x : LU D, [(0 : Fin 3), 1, 2].foldlM column x = (do let y ← column x 0; [1, 2].foldlM column y) := fun _ => rfl
  rw [fold, hw1, hw1, hw1, e]
  simp only [bind_ok]
  rw [e2]
  rfl

/-! ### The solution -/

theorem luSolve_eq {A : Mat3 D} {i0 i1 i2 : Fin 3} {scale : V3 D} (hi : Perm3 i0 i1 i2) (b : V3 D) {y0 y1 y2 x0 x1 x2 : D}
    (h0 : sub (b.get i0) zero = y0) (h1 : sub (b.get i1) (add zero (mulD A.a10 y0)) = y1)
    (h2 : sub (b.get i2) (add (add zero (mulD A.a20 y0)) (mulD A.a21 y1)) = y2)
    (k2 : divD (sub y2 zero) A.a22 = x2) (k1 : divD (sub y1 (add zero (mulD A.a12 x2))) A.a11 = x1)
    (k0 : divD (sub y0 (add (add zero (mulD A.a01 x1)) (mulD A.a02 x2))) A.a00 = x0) :
    luSolve ⟨A, ⟨i0, i1, i2⟩, scale⟩ b = ⟨x0, x1, x2⟩ := by
  subst h0 h1 h2 k2 k1 k0
  obtain ⟨a1, a2, a3⟩ := hi
  fin_cases i0 <;> fin_cases i1 <;> fin_cases i2 <;> first | (exfalso; simp at a1 a2 a3; done) | rfl

theorem residual {a0 a1 a2 b0 b1 b2 c0 c1 c2 r0 r1 r2 s0 s1 s2 l10 l20 l21 u11 u12 u22 y1 y2 x0 x1 x2 T : ℚ}
    (p0 : 0 < s0) (p1 : 0 < s1) (p2 : 0 < s2) (hT : 0 < T) (h10 : |l10| * s0 ≤ 1.01 * s1) (h20 : |l20| * s0 ≤ 1.01 * s2) (h21 : |l21| * s1 ≤ 1.01 * s2)
    (e10 : |l10 * a0 - b0| ≤ 2.02 * u * s1) (e20 : |l20 * a0 - c0| ≤ 2.02 * u * s2) (e11 : |u11 - (b1 - l10 * a1)| ≤ 3.1 * u * s1)
    (e12 : |u12 - (b2 - l10 * a2)| ≤ 3.1 * u * s1) (e21 : |l21 * u11 - (c1 - l20 * a1)| ≤ 7.3 * u * s2)
    (e22 : |u22 - (c2 - l20 * a2 - l21 * u12)| ≤ 10.3 * u * s2) (f1 : |y1 - (r1 - l10 * r0)| ≤ 3.1 * u * (T * s1))
    (f2 : |y2 - (r2 - l20 * r0 - l21 * y1)| ≤ 10.3 * u * (T * s2))
    (g2 : |u22 * x2 - y2| ≤ 4.2 * u * (s2 * (|x0| + |x1| + |x2| + T))) (g1 : |u11 * x1 + u12 * x2 - y1| ≤ 10.4 * u * (s1 * (|x0| + |x1| + |x2| + T)))
    (g0 : |a0 * x0 + a1 * x1 + a2 * x2 - r0| ≤ 10.2 * u * (s0 * (|x0| + |x1| + |x2| + T))) :
    |a0 * x0 + a1 * x1 + a2 * x2 - r0| ≤ 46 * u * (s0 * (|x0| + |x1| + |x2| + T)) ∧
      |b0 * x0 + b1 * x1 + b2 * x2 - r1| ≤ 46 * u * (s1 * (|x0| + |x1| + |x2| + T)) ∧
      |c0 * x0 + c1 * x1 + c2 * x2 - r2| ≤ 46 * u * (s2 * (|x0| + |x1| + |x2| + T)) := by
  have hu := u_pos
  obtain ⟨Z, hZ⟩ : ∃ Z, Z = |x0| + |x1| + |x2| + T := ⟨_, rfl⟩
  rw [← hZ] at g0 g1 g2 ⊢
  have n0 := abs_nonneg x0
  have n1 := abs_nonneg x1
  have n2 := abs_nonneg x2
  have pZ : 0 < Z := by linarith
  have uz0 := mul_pos hu (mul_pos p0 pZ)
  have uz1 := mul_pos hu (mul_pos p1 pZ)
  have uz2 := mul_pos hu (mul_pos p2 pZ)
  have L0 := mul_scaled (v := a0 * x0 + a1 * x1 + a2 * x2 - r0) (b := 10.2 * u * Z) h10 (by linarith) (by positivity)
  have L1 := mul_scaled (v := a0 * x0 + a1 * x1 + a2 * x2 - r0) (b := 10.2 * u * Z) h20 (by linarith) (by positivity)
  have L2 := mul_scaled (v := u11 * x1 + u12 * x2 - y1) (b := 10.4 * u * Z) h21 (by linarith) (by positivity)
  have comb : ∀ {E0 E1 E2 B s : ℚ}, 0 < s → |E0| ≤ B * u * s → |E1| ≤ B * u * s → |E2| ≤ B * u * s → 0 ≤ B →
      |E0 * x0 + E1 * x1 + E2 * x2| ≤ B * (u * (s * Z)) - B * (u * (s * T)) := by
    intro E0 E1 E2 B s hs q0 q1 q2 hB
    have w0 : |E0 * x0| ≤ B * u * s * |x0| := by rw [abs_mul]; exact mul_le_mul_of_nonneg_right q0 n0
    have w1 : |E1 * x1| ≤ B * u * s * |x1| := by rw [abs_mul]; exact mul_le_mul_of_nonneg_right q1 n1
    have w2 : |E2 * x2| ≤ B * u * s * |x2| := by rw [abs_mul]; exact mul_le_mul_of_nonneg_right q2 n2
    have e : B * (u * (s * Z)) - B * (u * (s * T)) = B * u * s * |x0| + B * u * s * |x1| + B * u * s * |x2| := by rw [hZ]; ring
    rw [e]
    have := abs_le.1 w0; have := abs_le.1 w1; have := abs_le.1 w2
    exact abs_le.2 ⟨by linarith, by linarith⟩
  have t1 := mul_pos hu (mul_pos p1 hT)
  have t2 := mul_pos hu (mul_pos p2 hT)
  have us1 := mul_pos hu p1
  have us2 := mul_pos hu p2
  have C1 := comb (B := 3.1) p1 (by linarith : |l10 * a0 - b0| ≤ 3.1 * u * s1) e11 e12 (by norm_num)
  have C2 := comb (B := 10.3) p2 (by linarith : |l20 * a0 - c0| ≤ 10.3 * u * s2) (by linarith : |l21 * u11 - (c1 - l20 * a1)| ≤ 10.3 * u * s2) e22 (by norm_num)
  refine ⟨by linarith, ?_, ?_⟩
  · have e : b0 * x0 + b1 * x1 + b2 * x2 - r1 = l10 * (a0 * x0 + a1 * x1 + a2 * x2 - r0) + (u11 * x1 + u12 * x2 - y1) + (y1 - (r1 - l10 * r0)) -
        ((l10 * a0 - b0) * x0 + (u11 - (b1 - l10 * a1)) * x1 + (u12 - (b2 - l10 * a2)) * x2) := by ring
    rw [e]
    have := abs_le.1 L0; have := abs_le.1 g1; have := abs_le.1 f1; have := abs_le.1 C1
    exact abs_le.2 ⟨by linarith, by linarith⟩
  · have e : c0 * x0 + c1 * x1 + c2 * x2 - r2 = l20 * (a0 * x0 + a1 * x1 + a2 * x2 - r0) + l21 * (u11 * x1 + u12 * x2 - y1) + (u22 * x2 - y2) +
        (y2 - (r2 - l20 * r0 - l21 * y1)) -
        ((l20 * a0 - c0) * x0 + (l21 * u11 - (c1 - l20 * a1)) * x1 + (u22 - (c2 - l20 * a2 - l21 * u12)) * x2) := by ring
    rw [e]
    have := abs_le.1 L1; have := abs_le.1 L2; have := abs_le.1 g2; have := abs_le.1 f2; have := abs_le.1 C2
    exact abs_le.2 ⟨by linarith, by linarith⟩

theorem solve_ok {a : Fin 3 → Fin 3 → ℚ} {s : Fin 3 → ℚ} {j0 j1 j2 : Fin 3} {l10 l20 l21 u11 u12 u22 : ℚ} {scale : V3 D} (hj : Perm3 j0 j1 j2)
    (F : Fact a s j0 j1 j2 l10 l20 l21 u11 u12 u22) {r : Fin 3 → ℚ} {T : ℚ} (hT : Mag 40 T) (hr : ∀ i, |r i| ≤ T * s i)
    (rr : ∀ i, Representable b64 (r i)) :
    ∃ x0 x1 x2, luSolve (okLU (a j0 0) (a j0 1) (a j0 2) l10 u11 u12 l20 l21 u22 j0 j1 j2 scale) ⟨.ok (r 0), .ok (r 1), .ok (r 2)⟩ =
        ⟨.ok x0, .ok x1, .ok x2⟩ ∧ (|x0| ≤ 2 ^ 500 ∧ |x1| ≤ 2 ^ 500 ∧ |x2| ≤ 2 ^ 500) ∧
      ∀ i, |a i 0 * x0 + a i 1 * x1 + a i 2 * x2 - r i| ≤ 46 * u * (s i * (|x0| + |x1| + |x2| + T)) := by
  have hT' : Mag 300 T := hT.mono (by norm_num)
  have m0 : Mag 1000 (T * s j0) := (hT.mul F.upper.m0).mono (by norm_num)
  obtain ⟨y1, v1, v2, v3, v4⟩ := fwd1 F.mult.m1 F.mult.h10 hT' (hr j0) (hr j1)
  obtain ⟨y2, w1, w2, w3, w4⟩ := fwd2 F.mult hT' (hr j0) v3 (hr j2)
  obtain ⟨x0, x1, x2, k2, k1, k0, -, g2, g1, g0, n0, n1, n2⟩ := bwd F.upper hT w2 (hr j0) v3 w3
  have R := residual F.upper.m0.pos F.upper.m1.pos F.upper.m2.pos hT.pos F.mult.h10 F.mult.h20 F.mult.h21 F.e10 F.e20 F.e11 F.e12 F.e21 F.e22 v4 w4 g2 g1 g0
  have hb : ∀ i, (⟨.ok (r 0), .ok (r 1), .ok (r 2)⟩ : V3 D).get i = .ok (r i) := by intro i; fin_cases i <;> rfl
  refine ⟨x0, x1, x2, ?_, ⟨n0, n1, n2⟩, ?_⟩
  · refine luSolve_eq hj _ (y0 := .ok (r j0)) (y1 := .ok y1) (y2 := .ok y2) ?_ ?_ ?_ k2 k1 k0
    · rw [hb]; exact sub_zero_exact m0 (hr j0) (rr j0)
    · rw [hb]; exact v1
    · rw [hb]; exact w1
  · intro i
    have : i = j0 ∨ i = j1 ∨ i = j2 := by
      obtain ⟨a1, a2, a3⟩ := hj
      omega
    rcases this with rfl | rfl | rfl
    · exact R.1
    · exact R.2.1
    · exact R.2.2

/-- The identity. -/
def idn (i j : Fin 3) : ℚ := if i = j then 1 else 0

theorem invert_ok {a : Fin 3 → Fin 3 → ℚ} {stray : ℚ} (H : Sys a (scaleOf a stray)) (hd : GoodAt a (scaleOf a stray) 0 1 2) :
    ∃ x : Fin 3 → Fin 3 → ℚ, invert (okMat a 0 1 2) (.ok stray) = .ok (some (okMat x 0 1 2)) ∧ (∀ i j, |x i j| ≤ 2 ^ 500) ∧
      ∀ i j, |a i 0 * x 0 j + a i 1 * x 1 j + a i 2 * x 2 j - idn i j| ≤
        46 * u * (scaleOf a stray i * (|x 0 j| + |x 1 j| + |x 2 j| + 1 / scaleOf a stray j)) := by
  obtain ⟨j0, j1, j2, l10, l20, l21, u11, u12, u22, scale, hj, F, e⟩ := lu_ok H hd
  have hp := fun i => (H.mag i).pos
  have hcol : ∀ j, ∃ y : V3 ℚ, luSolve (okLU (a j0 0) (a j0 1) (a j0 2) l10 u11 u12 l20 l21 u22 j0 j1 j2 scale)
      ⟨.ok (idn 0 j), .ok (idn 1 j), .ok (idn 2 j)⟩ = ⟨.ok y.v0, .ok y.v1, .ok y.v2⟩ ∧ (|y.v0| ≤ 2 ^ 500 ∧ |y.v1| ≤ 2 ^ 500 ∧ |y.v2| ≤ 2 ^ 500) ∧
      ∀ i, |a i 0 * y.v0 + a i 1 * y.v1 + a i 2 * y.v2 - idn i j| ≤
        46 * u * (scaleOf a stray i * (|y.v0| + |y.v1| + |y.v2| + 1 / scaleOf a stray j)) := by
    intro j
    obtain ⟨x0, x1, x2, q1, q2, q3⟩ := solve_ok (scale := scale) (r := fun i => idn i j) (T := 1 / scaleOf a stray j) hj F (H.mag j).inv (by
      intro i
      have h1 := hp i
      have h2 := hp j
      show |idn i j| ≤ _
      unfold idn
      split_ifs with h
      · subst h; rw [abs_one, one_div_mul_cancel h1.ne']
      · rw [abs_zero]; positivity) (by
      intro i
      show Representable b64 (idn i j)
      unfold idn
      split_ifs
      · exact rep_one
      · exact rep_zero)
    exact ⟨⟨x0, x1, x2⟩, q1, q2, q3⟩
  choose y hy1 hy2 hy3 using hcol
  refine ⟨fun i j => (y j).get i, ?_, ?_, fun i j => hy3 j i⟩
  · unfold invert
    rw [e]
    simp only [bind_ok, Option.map]
    have z0 := hy1 0
    have z1 := hy1 1
    have z2 := hy1 2
    simp only [idn] at z0 z1 z2
    have o : one = .ok 1 := rfl
    have z : zero = .ok 0 := rfl
    rw [o, z]
    simp only [Fin.isValue, if_true, if_false, (by decide : ¬(1 : Fin 3) = 0), (by decide : ¬(2 : Fin 3) = 0), (by decide : ¬(0 : Fin 3) = 1),
      (by decide : ¬(2 : Fin 3) = 1), (by decide : ¬(0 : Fin 3) = 2), (by decide : ¬(1 : Fin 3) = 2)] at z0 z1 z2
    rw [z0, z1, z2]
    rfl
  · intro i j
    have := hy2 j
    fin_cases i
    · exact this.1
    · exact this.2.1
    · exact this.2.2

end Verif.Linalg64
