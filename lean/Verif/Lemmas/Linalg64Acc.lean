import Verif.Lemmas.Linalg64Run

/-!
# From the residual to the error of a transformed point
-/

namespace Verif.Linalg64

open Verif Verif.Linalg Verif.Align

/-- Sum of the magnitudes of column `j`. -/
def norm1 (b : Fin 3 → Fin 3 → ℚ) (j : Fin 3) : ℚ := |b 0 j| + |b 1 j| + |b 2 j|

/-- `b` is the inverse of `a`. -/
structure Inv (a b : Fin 3 → Fin 3 → ℚ) : Prop where
  left : ∀ i j, b i 0 * a 0 j + b i 1 * a 1 j + b i 2 * a 2 j = idn i j
  right : ∀ i j, a i 0 * b 0 j + a i 1 * b 1 j + a i 2 * b 2 j = idn i j

/-- Sum of the scaled columns of the inverse. -/
def cond (b : Fin 3 → Fin 3 → ℚ) (s : Fin 3 → ℚ) : ℚ := norm1 b 0 * s 0 + norm1 b 1 * s 1 + norm1 b 2 * s 2

theorem norm1_nonneg (b : Fin 3 → Fin 3 → ℚ) (j : Fin 3) : 0 ≤ norm1 b j := by unfold norm1; positivity

theorem one_le_scaled {a b : Fin 3 → Fin 3 → ℚ} {s : Fin 3 → ℚ} (hi : Inv a b) (le : ∀ i j, |a i j| ≤ s i) (j : Fin 3) : 1 ≤ norm1 b j * s j := by
  have h := hi.right j j
  have h1 : idn j j = 1 := by simp [idn]
  rw [h1] at h
  have q : ∀ k, |a j k * b k j| ≤ s j * |b k j| := fun k => by rw [abs_mul]; exact mul_le_mul_of_nonneg_right (le j k) (abs_nonneg _)
  have := (abs_le.1 (q 0)).2; have := (abs_le.1 (q 1)).2; have := (abs_le.1 (q 2)).2
  unfold norm1
  linarith

/-- A weighted sum of three residuals, summed over the rows of `b`. -/
theorem spread {b : Fin 3 → Fin 3 → ℚ} {s : Fin 3 → ℚ} {e : Fin 3 → ℚ} {E : ℚ} (he : ∀ i, |e i| ≤ E * s i) :
    |b 0 0 * e 0 + b 0 1 * e 1 + b 0 2 * e 2| + |b 1 0 * e 0 + b 1 1 * e 1 + b 1 2 * e 2| + |b 2 0 * e 0 + b 2 1 * e 1 + b 2 2 * e 2| ≤ E * cond b s := by
  have q : ∀ m, |b m 0 * e 0 + b m 1 * e 1 + b m 2 * e 2| ≤ |b m 0| * (E * s 0) + |b m 1| * (E * s 1) + |b m 2| * (E * s 2) := by
    intro m
    refine (abs_add_three _ _ _).trans ?_
    rw [abs_mul, abs_mul, abs_mul]
    have := mul_le_mul_of_nonneg_left (he 0) (abs_nonneg (b m 0))
    have := mul_le_mul_of_nonneg_left (he 1) (abs_nonneg (b m 1))
    have := mul_le_mul_of_nonneg_left (he 2) (abs_nonneg (b m 2))
    linarith
  have := q 0; have := q 1; have := q 2
  unfold cond norm1
  linarith

/-- The columns of the computed inverse are as large as those of the inverse. -/
theorem size_inv {a b x : Fin 3 → Fin 3 → ℚ} {s : Fin 3 → ℚ} (hi : Inv a b) (hs : ∀ i, 0 < s i) (le : ∀ i j, |a i j| ≤ s i) (hc : 46 * u * cond b s ≤ 0.001) {j : Fin 3}
    (hx : ∀ i, |a i 0 * x 0 j + a i 1 * x 1 j + a i 2 * x 2 j - idn i j| ≤ 46 * u * (s i * (norm1 x j + 1 / s j))) :
    norm1 x j + 1 / s j ≤ 2.01 * norm1 b j := by
  have hT : 1 / s j ≤ norm1 b j := by
    rw [div_le_iff₀ (hs j)]; exact one_le_scaled hi le j
  have hT0 : 0 < 1 / s j := by have := hs j; positivity
  have hX := norm1_nonneg x j
  obtain ⟨Z, hZ⟩ : ∃ Z, Z = norm1 x j + 1 / s j := ⟨_, rfl⟩
  rw [← hZ] at hx ⊢
  have e : ∀ m, x m j = b m j + (b m 0 * (a 0 0 * x 0 j + a 0 1 * x 1 j + a 0 2 * x 2 j - idn 0 j) + b m 1 * (a 1 0 * x 0 j + a 1 1 * x 1 j + a 1 2 * x 2 j - idn 1 j) +
      b m 2 * (a 2 0 * x 0 j + a 2 1 * x 1 j + a 2 2 * x 2 j - idn 2 j)) := by
    intro m
    have l0 := hi.left m 0
    have l1 := hi.left m 1
    have l2 := hi.left m 2
    have i1 : x m j = idn m 0 * x 0 j + idn m 1 * x 1 j + idn m 2 * x 2 j := by
      fin_cases m <;> simp [idn]
    have i2 : b m j = b m 0 * idn 0 j + b m 1 * idn 1 j + b m 2 * idn 2 j := by
      fin_cases j <;> simp [idn]
    rw [i1, i2, ← l0, ← l1, ← l2]
    ring
  have sp := spread (b := b) (s := s) (e := fun i => a i 0 * x 0 j + a i 1 * x 1 j + a i 2 * x 2 j - idn i j) (E := 46 * u * Z)
    (fun i => (hx i).trans (le_of_eq (by ring)))
  have q : ∀ m, |x m j| ≤ |b m j| + |b m 0 * (a 0 0 * x 0 j + a 0 1 * x 1 j + a 0 2 * x 2 j - idn 0 j) + b m 1 * (a 1 0 * x 0 j + a 1 1 * x 1 j + a 1 2 * x 2 j - idn 1 j) +
      b m 2 * (a 2 0 * x 0 j + a 2 1 * x 1 j + a 2 2 * x 2 j - idn 2 j)| := by
    intro m
    conv_lhs => rw [e m]
    exact abs_add_le _ _
  have k : norm1 x j ≤ norm1 b j + 46 * u * Z * cond b s := by
    have := q 0; have := q 1; have := q 2
    unfold norm1
    linarith
  have hZ0 : 0 < Z := by linarith
  have k2 : 46 * u * cond b s * Z ≤ 0.001 * Z := mul_le_mul_of_nonneg_right hc hZ0.le
  linarith

/-! ### Products -/

/-- A rounded sum of three products. -/
theorem dot_ok {a0 a1 a2 b0 b1 b2 B : ℚ} (hB : Mag 900 B) (h : |a0 * b0| + |a1 * b1| + |a2 * b2| ≤ B) :
    ∃ r, add (add (mulD (.ok a0) (.ok b0)) (mulD (.ok a1) (.ok b1))) (mulD (.ok a2) (.ok b2)) = .ok r ∧ |r - (a0 * b0 + a1 * b1 + a2 * b2)| ≤ 5.1 * u * B := by
  have hu := u_pos
  have hu2 := u_small
  have p := hB.pos
  have ub : u * B ≤ 0.001 * B := mul_le_mul_of_nonneg_right (by norm_num at hu2 ⊢; linarith) p.le
  have n0 := abs_nonneg (a0 * b0)
  have n1 := abs_nonneg (a1 * b1)
  have n2 := abs_nonneg (a2 * b2)
  have M : Mag 1000 B := hB.mono (by norm_num)
  obtain ⟨p0, e0, -, d0⟩ := fl_bound M (by linarith : |a0 * b0| ≤ B)
  obtain ⟨p1, e1, -, d1⟩ := fl_bound M (by linarith : |a1 * b1| ≤ B)
  obtain ⟨p2, e2, -, d2⟩ := fl_bound M (by linarith : |a2 * b2| ≤ B)
  have l0 := neg_abs_le (a0 * b0)
  have l0' := le_abs_self (a0 * b0)
  have l1 := neg_abs_le (a1 * b1)
  have l1' := le_abs_self (a1 * b1)
  have l2 := neg_abs_le (a2 * b2)
  have l2' := le_abs_self (a2 * b2)
  obtain ⟨d00, d01⟩ := abs_le.1 d0
  obtain ⟨d10, d11⟩ := abs_le.1 d1
  obtain ⟨d20, d21⟩ := abs_le.1 d2
  have q1 : |p0 + p1| ≤ 1.01 * B := abs_le.2 ⟨by linarith, by linarith⟩
  obtain ⟨s1, e3, -, d3⟩ := fl_bound ((hB.smul 1.01 (by norm_num) (by norm_num)).mono (by norm_num)) q1
  obtain ⟨d30, d31⟩ := abs_le.1 d3
  have q2 : |s1 + p2| ≤ 1.02 * B := abs_le.2 ⟨by linarith, by linarith⟩
  obtain ⟨s2, e4, -, d4⟩ := fl_bound ((hB.smul 1.02 (by norm_num) (by norm_num)).mono (by norm_num)) q2
  obtain ⟨d40, d41⟩ := abs_le.1 d4
  refine ⟨s2, ?_, ?_⟩
  · show add (add (fl b64 (a0 * b0)) (fl b64 (a1 * b1))) (fl b64 (a2 * b2)) = _
    rw [e0, e1, e2]
    show add (fl b64 (p0 + p1)) (.ok p2) = _
    rw [e3]
    exact e4
  · have := mul_pos hu p
    exact abs_le.2 ⟨by linarith, by linarith⟩

/-- The exact image of the point `q` under `r * b`. -/
def image (r b : Fin 3 → Fin 3 → ℚ) (q : Fin 3 → ℚ) (i : Fin 3) : ℚ :=
  r i 0 * (b 0 0 * q 0 + b 0 1 * q 1 + b 0 2 * q 2) + r i 1 * (b 1 0 * q 0 + b 1 1 * q 1 + b 1 2 * q 2) + r i 2 * (b 2 0 * q 0 + b 2 1 * q 1 + b 2 2 * q 2)

/-- The sum of the columns of the inverse weighted with the point. -/
def weight (b : Fin 3 → Fin 3 → ℚ) (q : Fin 3 → ℚ) : ℚ := norm1 b 0 * |q 0| + norm1 b 1 * |q 1| + norm1 b 2 * |q 2|

theorem accuracy {a b r : Fin 3 → Fin 3 → ℚ} {stray R : ℚ} (H : Sys a (scaleOf a stray)) (hd : GoodAt a (scaleOf a stray) 0 1 2) (hi : Inv a b)
    (hc : 46 * u * cond b (scaleOf a stray) ≤ 0.001) (hR : Mag 100 R) (hr : ∀ i j, |r i j| ≤ R) :
    ∃ m : Fin 3 → Fin 3 → ℚ, solveMatrix (.ok stray) (okMat r 0 1 2) (okMat a 0 1 2) = .ok (okMat m 0 1 2) ∧
      ∀ q : Fin 3 → ℚ, q 2 = 1 → |q 0| ≤ 2 ^ 40 → |q 1| ≤ 2 ^ 40 → ∀ i, ∃ o, dotVec (okMat m 0 1 2) ⟨.ok (q 0), .ok (q 1), .ok (q 2)⟩ i = .ok o ∧
        |o - image r b q i| ≤ 100 * u * R * (cond b (scaleOf a stray) * weight b q) := by
  obtain ⟨x, e1, e2, e3⟩ := invert_ok H hd
  set s := scaleOf a stray with hsd
  have hs := fun i => (H.mag i).pos
  have hu := u_pos
  have pR := hR.pos
  have z : ∀ j, norm1 x j + 1 / s j ≤ 2.01 * norm1 b j := fun j => size_inv hi hs H.le hc (fun i => by
    have := e3 i j; unfold norm1; exact this)
  have zpos : ∀ j, 0 < norm1 x j + 1 / s j := fun j => by
    have := norm1_nonneg x j; have := hs j; positivity
  have zmag : ∀ j, Mag 510 (norm1 x j + 1 / s j) := fun j => by
    have h1 : norm1 x j ≤ 2 ^ 502 := by
      unfold norm1
      exact pow_add_le (pow_add_le (e2 0 j) (e2 1 j) le_rfl) (e2 2 j) (by norm_num)
    exact (mag_add (H.mag j).inv (norm1_nonneg x j) h1 (by norm_num)).mono (by norm_num)
  -- the matrix
  have hm : ∀ i j, ∃ r', dot (okMat r 0 1 2) (okMat x 0 1 2) i j = .ok r' ∧
      |r' - (r i 0 * x 0 j + r i 1 * x 1 j + r i 2 * x 2 j)| ≤ 5.1 * u * (R * (norm1 x j + 1 / s j)) := by
    intro i j
    have hB : Mag 900 (R * (norm1 x j + 1 / s j)) := (hR.mul (zmag j)).mono (by norm_num)
    have hbb : |r i 0 * x 0 j| + |r i 1 * x 1 j| + |r i 2 * x 2 j| ≤ R * (norm1 x j + 1 / s j) := by
      rw [abs_mul, abs_mul, abs_mul]
      have := mul_le_mul_of_nonneg_right (hr i 0) (abs_nonneg (x 0 j))
      have := mul_le_mul_of_nonneg_right (hr i 1) (abs_nonneg (x 1 j))
      have := mul_le_mul_of_nonneg_right (hr i 2) (abs_nonneg (x 2 j))
      have : 0 < R * (1 / s j) := by have := hs j; positivity
      unfold norm1
      linarith
    obtain ⟨r', f1, f2⟩ := dot_ok hB hbb
    refine ⟨r', ?_, f2⟩
    rw [← f1]
    fin_cases i <;> fin_cases j <;> rfl
  choose m hm1 hm2 using hm
  refine ⟨m, ?_, ?_⟩
  · unfold solveMatrix
    rw [e1]
    simp only [bind_ok, pure_ok]
    unfold mul
    simp only [hm1]
    rfl
  intro q q2 qb0 qb1 i
  have N0 : ∀ j, 0 ≤ |q j| := fun j => abs_nonneg _
  obtain ⟨N, hN⟩ : ∃ N, N = (norm1 x 0 + 1 / s 0) * |q 0| + (norm1 x 1 + 1 / s 1) * |q 1| + (norm1 x 2 + 1 / s 2) * |q 2| := ⟨_, rfl⟩
  have w0 := mul_nonneg (zpos 0).le (N0 0)
  have w1 := mul_nonneg (zpos 1).le (N0 1)
  have w2 := mul_nonneg (zpos 2).le (N0 2)
  have q2' : |q 2| = 1 := by rw [q2, abs_one]
  have hNm : Mag 600 N := by
    have t0 : (norm1 x 0 + 1 / s 0) * |q 0| ≤ 2 ^ 550 := by
      rw [show (550 : ℕ) = 510 + 40 from rfl, pow_add]
      exact mul_le_mul (zmag 0).2 qb0 (N0 0) (by positivity)
    have t1 : (norm1 x 1 + 1 / s 1) * |q 1| ≤ 2 ^ 550 := by
      rw [show (550 : ℕ) = 510 + 40 from rfl, pow_add]
      exact mul_le_mul (zmag 1).2 qb1 (N0 1) (by positivity)
    rw [hN, q2', mul_one]
    exact (mag_add (zmag 2) (add_nonneg w0 w1) (pow_add_le t0 t1 le_rfl) (by norm_num)).mono (by norm_num)
  have pN := hNm.pos
  have mb : ∀ j, |m i j| ≤ 1.01 * (R * (norm1 x j + 1 / s j)) := by
    intro j
    have h1 := hm2 i j
    have hbb : |r i 0 * x 0 j + r i 1 * x 1 j + r i 2 * x 2 j| ≤ R * (norm1 x j + 1 / s j) := by
      refine (abs_add_three _ _ _).trans ?_
      rw [abs_mul, abs_mul, abs_mul]
      have := mul_le_mul_of_nonneg_right (hr i 0) (abs_nonneg (x 0 j))
      have := mul_le_mul_of_nonneg_right (hr i 1) (abs_nonneg (x 1 j))
      have := mul_le_mul_of_nonneg_right (hr i 2) (abs_nonneg (x 2 j))
      have : 0 < R * (1 / s j) := by have := hs j; positivity
      unfold norm1
      linarith
    have h2 := abs_sub_abs_le_abs_sub (m i j) (r i 0 * x 0 j + r i 1 * x 1 j + r i 2 * x 2 j)
    have h3 : u * (R * (norm1 x j + 1 / s j)) ≤ 0.001 * (R * (norm1 x j + 1 / s j)) := by
      refine mul_le_mul_of_nonneg_right ?_ (mul_pos pR (zpos j)).le
      have := u_small; norm_num at this ⊢; linarith
    have := mul_pos pR (zpos j)
    linarith
  have mq : |m i 0 * q 0| + |m i 1 * q 1| + |m i 2 * q 2| ≤ 1.01 * (R * N) := by
    rw [abs_mul, abs_mul, abs_mul, hN]
    have := mul_le_mul_of_nonneg_right (mb 0) (N0 0)
    have := mul_le_mul_of_nonneg_right (mb 1) (N0 1)
    have := mul_le_mul_of_nonneg_right (mb 2) (N0 2)
    linarith
  obtain ⟨o, o1, o2⟩ := dot_ok (((hR.mul hNm).smul 1.01 (by norm_num) (by norm_num)).mono (by norm_num)) mq
  refine ⟨o, ?_, ?_⟩
  · rw [← o1]
    fin_cases i <;> rfl
  -- the error
  have res : ∀ k, |(a k 0 * x 0 0 + a k 1 * x 1 0 + a k 2 * x 2 0 - idn k 0) * q 0 + (a k 0 * x 0 1 + a k 1 * x 1 1 + a k 2 * x 2 1 - idn k 1) * q 1 +
      (a k 0 * x 0 2 + a k 1 * x 1 2 + a k 2 * x 2 2 - idn k 2) * q 2| ≤ 46 * u * N * s k := by
    intro k
    refine (abs_add_three _ _ _).trans ?_
    rw [abs_mul, abs_mul, abs_mul, hN]
    have := mul_le_mul_of_nonneg_right (e3 k 0) (N0 0)
    have := mul_le_mul_of_nonneg_right (e3 k 1) (N0 1)
    have := mul_le_mul_of_nonneg_right (e3 k 2) (N0 2)
    unfold norm1
    linarith
  have sp := spread (b := b) (s := s) res
  have bary : ∀ t, (x t 0 * q 0 + x t 1 * q 1 + x t 2 * q 2) - (b t 0 * q 0 + b t 1 * q 1 + b t 2 * q 2) =
      b t 0 * ((a 0 0 * x 0 0 + a 0 1 * x 1 0 + a 0 2 * x 2 0 - idn 0 0) * q 0 + (a 0 0 * x 0 1 + a 0 1 * x 1 1 + a 0 2 * x 2 1 - idn 0 1) * q 1 +
        (a 0 0 * x 0 2 + a 0 1 * x 1 2 + a 0 2 * x 2 2 - idn 0 2) * q 2) +
      b t 1 * ((a 1 0 * x 0 0 + a 1 1 * x 1 0 + a 1 2 * x 2 0 - idn 1 0) * q 0 + (a 1 0 * x 0 1 + a 1 1 * x 1 1 + a 1 2 * x 2 1 - idn 1 1) * q 1 +
        (a 1 0 * x 0 2 + a 1 1 * x 1 2 + a 1 2 * x 2 2 - idn 1 2) * q 2) +
      b t 2 * ((a 2 0 * x 0 0 + a 2 1 * x 1 0 + a 2 2 * x 2 0 - idn 2 0) * q 0 + (a 2 0 * x 0 1 + a 2 1 * x 1 1 + a 2 2 * x 2 1 - idn 2 1) * q 1 +
        (a 2 0 * x 0 2 + a 2 1 * x 1 2 + a 2 2 * x 2 2 - idn 2 2) * q 2) := by
    intro t
    have l0 := hi.left t 0
    have l1 := hi.left t 1
    have l2 := hi.left t 2
    have i1 : ∀ j, x t j = idn t 0 * x 0 j + idn t 1 * x 1 j + idn t 2 * x 2 j := by
      intro j; fin_cases t <;> simp [idn]
    rw [i1 0, i1 1, i1 2, ← l0, ← l1, ← l2]
    simp only [idn, if_true, (by decide : ¬(1 : Fin 3) = 0), (by decide : ¬(2 : Fin 3) = 0), (by decide : ¬(0 : Fin 3) = 1),
      (by decide : ¬(2 : Fin 3) = 1), (by decide : ¬(0 : Fin 3) = 2), (by decide : ¬(1 : Fin 3) = 2), if_false]
    ring
  rw [← bary 0, ← bary 1, ← bary 2] at sp
  have refpart : |r i 0 * ((x 0 0 * q 0 + x 0 1 * q 1 + x 0 2 * q 2) - (b 0 0 * q 0 + b 0 1 * q 1 + b 0 2 * q 2)) +
      r i 1 * ((x 1 0 * q 0 + x 1 1 * q 1 + x 1 2 * q 2) - (b 1 0 * q 0 + b 1 1 * q 1 + b 1 2 * q 2)) +
      r i 2 * ((x 2 0 * q 0 + x 2 1 * q 1 + x 2 2 * q 2) - (b 2 0 * q 0 + b 2 1 * q 1 + b 2 2 * q 2))| ≤ R * (46 * u * N * cond b s) := by
    refine (abs_add_three _ _ _).trans ?_
    rw [abs_mul, abs_mul, abs_mul]
    have := mul_le_mul_of_nonneg_left sp pR.le
    have := mul_le_mul_of_nonneg_right (hr i 0) (abs_nonneg ((x 0 0 * q 0 + x 0 1 * q 1 + x 0 2 * q 2) - (b 0 0 * q 0 + b 0 1 * q 1 + b 0 2 * q 2)))
    have := mul_le_mul_of_nonneg_right (hr i 1) (abs_nonneg ((x 1 0 * q 0 + x 1 1 * q 1 + x 1 2 * q 2) - (b 1 0 * q 0 + b 1 1 * q 1 + b 1 2 * q 2)))
    have := mul_le_mul_of_nonneg_right (hr i 2) (abs_nonneg ((x 2 0 * q 0 + x 2 1 * q 1 + x 2 2 * q 2) - (b 2 0 * q 0 + b 2 1 * q 1 + b 2 2 * q 2)))
    linarith
  have matpart : |(m i 0 - (r i 0 * x 0 0 + r i 1 * x 1 0 + r i 2 * x 2 0)) * q 0 + (m i 1 - (r i 0 * x 0 1 + r i 1 * x 1 1 + r i 2 * x 2 1)) * q 1 +
      (m i 2 - (r i 0 * x 0 2 + r i 1 * x 1 2 + r i 2 * x 2 2)) * q 2| ≤ 5.1 * u * (R * N) := by
    refine (abs_add_three _ _ _).trans ?_
    rw [abs_mul, abs_mul, abs_mul, hN]
    have := mul_le_mul_of_nonneg_right (hm2 i 0) (N0 0)
    have := mul_le_mul_of_nonneg_right (hm2 i 1) (N0 1)
    have := mul_le_mul_of_nonneg_right (hm2 i 2) (N0 2)
    linarith
  have split : o - image r b q i = (o - (m i 0 * q 0 + m i 1 * q 1 + m i 2 * q 2)) +
      ((m i 0 - (r i 0 * x 0 0 + r i 1 * x 1 0 + r i 2 * x 2 0)) * q 0 + (m i 1 - (r i 0 * x 0 1 + r i 1 * x 1 1 + r i 2 * x 2 1)) * q 1 +
        (m i 2 - (r i 0 * x 0 2 + r i 1 * x 1 2 + r i 2 * x 2 2)) * q 2) +
      (r i 0 * ((x 0 0 * q 0 + x 0 1 * q 1 + x 0 2 * q 2) - (b 0 0 * q 0 + b 0 1 * q 1 + b 0 2 * q 2)) +
        r i 1 * ((x 1 0 * q 0 + x 1 1 * q 1 + x 1 2 * q 2) - (b 1 0 * q 0 + b 1 1 * q 1 + b 1 2 * q 2)) +
        r i 2 * ((x 2 0 * q 0 + x 2 1 * q 1 + x 2 2 * q 2) - (b 2 0 * q 0 + b 2 1 * q 1 + b 2 2 * q 2))) := by
    unfold image; ring
  rw [split]
  refine (abs_add_three _ _ _).trans ?_
  have hNw : N ≤ 2.01 * weight b q := by
    rw [hN]; unfold weight
    have := mul_le_mul_of_nonneg_right (z 0) (N0 0)
    have := mul_le_mul_of_nonneg_right (z 1) (N0 1)
    have := mul_le_mul_of_nonneg_right (z 2) (N0 2)
    linarith
  have c3 : 3 ≤ cond b s := by
    have := one_le_scaled hi H.le 0; have := one_le_scaled hi H.le 1; have := one_le_scaled hi H.le 2
    unfold cond
    rw [← hsd] at *
    linarith
  have tot : u * R * (10.3 * N + 46 * (cond b s * N)) ≤ u * R * (100 * (cond b s * weight b q)) := by
    refine mul_le_mul_of_nonneg_left ?_ (by positivity)
    have g1 := mul_le_mul_of_nonneg_left hNw (by linarith : 0 ≤ cond b s)
    have g2 := mul_le_mul_of_nonneg_right c3 pN.le
    have g3 : 0 < cond b s * N := mul_pos (by linarith) pN
    linarith
  have : 0 < u * (R * N) := by positivity
  linarith

end Verif.Linalg64
