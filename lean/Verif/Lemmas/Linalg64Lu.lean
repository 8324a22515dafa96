import Verif.Lemmas.Linalg64
import Mathlib.Tactic.FinCases

/-!
# The elimination: pivots, factors, and the residual of a solution
-/

namespace Verif.Linalg64

open Verif Verif.Linalg Verif.Align

/-! ### Determinants -/

/-- Determinant of three rows. -/
def det3 (a0 a1 a2 b0 b1 b2 c0 c1 c2 : ℚ) : ℚ := a0 * (b1 * c2 - b2 * c1) - a1 * (b0 * c2 - b2 * c0) + a2 * (b0 * c1 - b1 * c0)

theorem minor_bound {b0 b1 c0 c1 B C : ℚ} (h0 : |b0| ≤ B) (h1 : |b1| ≤ B) (k0 : |c0| ≤ C) (k1 : |c1| ≤ C) (hB : 0 ≤ B) :
    |b0 * c1 - b1 * c0| ≤ 2 * (B * C) := by
  refine (abs_sub _ _).trans ?_
  rw [abs_mul, abs_mul]
  have := mul_le_mul h0 k1 (abs_nonneg _) hB
  have := mul_le_mul h1 k0 (abs_nonneg _) hB
  linarith

theorem det_bound {a0 a1 a2 b0 b1 b2 c0 c1 c2 A B C : ℚ} (h0 : |a0| ≤ A) (h1 : |a1| ≤ A) (h2 : |a2| ≤ A)
    (k0 : |b0| ≤ B) (k1 : |b1| ≤ B) (k2 : |b2| ≤ B) (m0 : |c0| ≤ C) (m1 : |c1| ≤ C) (m2 : |c2| ≤ C) (hA : 0 ≤ A) (hB : 0 ≤ B) :
    |det3 a0 a1 a2 b0 b1 b2 c0 c1 c2| ≤ 6 * (A * (B * C)) := by
  unfold det3
  have n0 := minor_bound k1 k2 m1 m2 hB
  have n1 := minor_bound k0 k2 m0 m2 hB
  have n2 := minor_bound k0 k1 m0 m1 hB
  have q0 : |a0 * (b1 * c2 - b2 * c1)| ≤ A * (2 * (B * C)) := by
    rw [abs_mul]; exact mul_le_mul h0 n0 (abs_nonneg _) hA
  have q1 : |a1 * (b0 * c2 - b2 * c0)| ≤ A * (2 * (B * C)) := by
    rw [abs_mul]; exact mul_le_mul h1 n1 (abs_nonneg _) hA
  have q2 : |a2 * (b0 * c1 - b1 * c0)| ≤ A * (2 * (B * C)) := by
    rw [abs_mul]; exact mul_le_mul h2 n2 (abs_nonneg _) hA
  have := abs_le.1 q0; have := abs_le.1 q1; have := abs_le.1 q2
  exact abs_le.2 ⟨by linarith, by linarith⟩

/-! ### Choice of the pivot -/

/-- A negligible number. -/
@[irreducible] def δ : ℚ := 1 / 2 ^ 100

theorem δ_pos : 0 < δ := by unfold δ; positivity
theorem δ_small : δ ≤ 1 / 10 ^ 30 := by unfold δ; norm_num

theorem scale_ok {s : ℚ} (hs : Mag 100 s) : ∃ w, divD one (.ok s) = .ok w ∧ |w * s - 1| ≤ u :=
  recip (by rw [abs_of_pos hs.pos]; exact hs.mono (by norm_num))

/-- The value compared is defined and close to the scaled element. -/
theorem compared {s w t : ℚ} (hs : Mag 100 s) (hw : |w * s - 1| ≤ u) (ht : |t| ≤ 16 * s) :
    ∃ m, mulD (.ok w) (fabs (.ok t)) = .ok m ∧ 0 ≤ m ∧ |m * s - (|t|)| ≤ 2.1 * u * |t| + δ / 4 * s := by
  have hu := u_pos
  have hu2 := u_small
  have p := hs.pos
  have hwb := abs_le.1 hw
  have hw0 : 0 < w := by
    by_contra hn
    have : w * s ≤ 0 := mul_nonpos_of_nonpos_of_nonneg (not_lt.1 hn) p.le
    norm_num at hu2
    linarith
  have q : |w * (|t|)| ≤ w * |t| + 1 / 2 ^ 1000 := by
    rw [abs_of_nonneg (by positivity)]
    have : (0 : ℚ) < 1 / 2 ^ 1000 := by positivity
    linarith
  have ub : w * |t| ≤ 32 := by
    have : w * |t| ≤ w * (16 * s) := mul_le_mul_of_nonneg_left ht hw0.le
    norm_num at hu2
    linarith
  have hB : Mag 1000 (w * |t| + 1 / 2 ^ 1000) := by
    constructor
    · have : 0 ≤ w * |t| := by positivity
      linarith
    · have h1 : (1 : ℚ) / 2 ^ 1000 ≤ 1 := by
        rw [div_le_one (by positivity)]; exact one_le_pow₀ (by norm_num)
      have h2 : (2 : ℚ) ^ 6 ≤ 2 ^ 1000 := pow_le_pow_right₀ (by norm_num) (by norm_num)
      have h3 : (64 : ℚ) ≤ 2 ^ 1000 := le_trans (by norm_num) h2
      clear q h2
      generalize (2 : ℚ) ^ 1000 = N at h1 h3 ⊢
      linarith
  obtain ⟨m, e, r, d⟩ := fl_bound hB q
  refine ⟨m, e, ?_, ?_⟩
  · have h1 : fl b64 (w * |t|) = .ok m := e
    unfold fl at h1
    split_ifs at h1
    rw [← Except.ok.inj h1]
    exact rnd_nonneg (by positivity)
  · have e1 : m * s - |t| = (m - w * |t|) * s + (w * s - 1) * |t| := by ring
    rw [e1]
    refine (abs_add_le _ _).trans ?_
    rw [abs_mul, abs_mul, abs_of_pos p, abs_abs]
    have h1 : |m - w * (|t|)| * s ≤ u * (w * |t| + 1 / 2 ^ 1000) * s := mul_le_mul_of_nonneg_right d p.le
    have h2 : |w * s - 1| * |t| ≤ u * |t| := mul_le_mul_of_nonneg_right hw (abs_nonneg _)
    have h3 : u * ((w * s) * |t|) ≤ u * (1.001 * |t|) := by
      refine mul_le_mul_of_nonneg_left (mul_le_mul_of_nonneg_right ?_ (abs_nonneg _)) hu.le
      norm_num at hu2 ⊢; linarith
    have h4 : u * (1 / 2 ^ 1000) ≤ δ / 4 := by
      have a : (1 : ℚ) / 2 ^ 1000 ≤ 1 / 2 ^ 102 := one_div_le_one_div_of_le (by positivity) (pow_le_pow_right₀ (by norm_num) (by norm_num))
      have b : u * (1 / 2 ^ 1000) ≤ 1 * (1 / 2 ^ 102) := mul_le_mul (by linarith [u_le]) a (by positivity) (by norm_num)
      refine b.trans ?_
      unfold δ; norm_num
    have h5 := mul_le_mul_of_nonneg_right h4 p.le
    have h6 : 0 ≤ u * |t| := by positivity
    linarith

/-- What the comparison of two compared values says about the elements. -/
theorem pivot_ineq {s t m s' t' m' : ℚ} (hs : 0 < s) (hs' : 0 < s') (h : |m * s - (|t|)| ≤ 2.1 * u * |t| + δ / 4 * s)
    (h' : |m' * s' - (|t'|)| ≤ 2.1 * u * |t'| + δ / 4 * s') (hm : m' ≤ m) :
    |t'| * s ≤ 1.0005 * (|t| * s') + δ * (s * s') := by
  have hu2 := u_small
  norm_num at hu2
  have a := (abs_le.1 h).2
  have a' := (abs_le.1 h').1
  have ut : u * |t| ≤ 0.0001 * |t| := mul_le_mul_of_nonneg_right (by norm_num; linarith) (abs_nonneg _)
  have ut' : u * |t'| ≤ 0.0001 * |t'| := mul_le_mul_of_nonneg_right (by norm_num; linarith) (abs_nonneg _)
  have k1 : |t'| * (1 - 2.1 * u) ≤ m' * s' + δ / 4 * s' := by linarith
  have k2 : m * s ≤ |t| * (1 + 2.1 * u) + δ / 4 * s := by linarith
  have k3 : m' * s' * s ≤ m * s * s' := by
    have := mul_le_mul_of_nonneg_right hm (mul_pos hs hs').le
    linarith
  have k4 : |t'| * (1 - 2.1 * u) * s ≤ (m' * s' + δ / 4 * s') * s := mul_le_mul_of_nonneg_right k1 hs.le
  have k5 : m * s * s' ≤ (|t| * (1 + 2.1 * u) + δ / 4 * s) * s' := mul_le_mul_of_nonneg_right k2 hs'.le
  have k6 : |t'| * s * (1 - 2.1 * u) ≤ |t| * s' * (1 + 2.1 * u) + δ / 2 * (s * s') := by linarith
  have p1 : 0 ≤ |t| * s' := by positivity
  have p2 : 0 ≤ |t'| * s := by positivity
  have p3 : 0 < δ * (s * s') := mul_pos δ_pos (mul_pos hs hs')
  have v1 : u * (|t| * s') ≤ 1 / 10 ^ 10 * (|t| * s') := mul_le_mul_of_nonneg_right (by norm_num; linarith) p1
  have v2 : u * (|t'| * s) ≤ 1 / 10 ^ 10 * (|t'| * s) := mul_le_mul_of_nonneg_right (by norm_num; linarith) p2
  norm_num at v1 v2 ⊢
  linarith

/-! ### The pivots are not small -/

/-- The determinant is not small compared to the scales of the rows. -/
def Good (s0 s1 s2 d : ℚ) : Prop := s0 * (s1 * s2) ≤ 2 ^ 40 * |d|

theorem pivot0 {s0 s1 s2 a0 a1 a2 b0 b1 b2 c0 c1 c2 : ℚ} (p0 : 0 < s0) (p1 : 0 < s1) (p2 : 0 < s2)
    (ha1 : |a1| ≤ s0) (ha2 : |a2| ≤ s0) (hb1 : |b1| ≤ s1) (hb2 : |b2| ≤ s1) (hc1 : |c1| ≤ s2) (hc2 : |c2| ≤ s2)
    (hd : Good s0 s1 s2 (det3 a0 a1 a2 b0 b1 b2 c0 c1 c2))
    (hb : |b0| * s0 ≤ 1.0005 * (|a0| * s1) + δ * (s0 * s1)) (hc : |c0| * s0 ≤ 1.0005 * (|a0| * s2) + δ * (s0 * s2)) :
    s0 ≤ 2 ^ 43 * |a0| ∧ |b0| * s0 ≤ 1.001 * (|a0| * s1) ∧ |c0| * s0 ≤ 1.001 * (|a0| * s2) := by
  have dp := δ_pos
  have ds := δ_small
  unfold Good at hd
  have e : det3 a0 a1 a2 b0 b1 b2 c0 c1 c2 = a0 * (b1 * c2 - b2 * c1) - b0 * (a1 * c2 - a2 * c1) + c0 * (a1 * b2 - a2 * b1) := by
    unfold det3; ring
  have n0 := minor_bound hb1 hb2 hc1 hc2 p1.le
  have n1 := minor_bound ha1 ha2 hc1 hc2 p0.le
  have n2 := minor_bound ha1 ha2 hb1 hb2 p0.le
  have q0 : |a0 * (b1 * c2 - b2 * c1)| ≤ |a0| * (2 * (s1 * s2)) := by rw [abs_mul]; exact mul_le_mul_of_nonneg_left n0 (abs_nonneg _)
  have q1 : |b0 * (a1 * c2 - a2 * c1)| ≤ |b0| * (2 * (s0 * s2)) := by rw [abs_mul]; exact mul_le_mul_of_nonneg_left n1 (abs_nonneg _)
  have q2 : |c0 * (a1 * b2 - a2 * b1)| ≤ |c0| * (2 * (s0 * s1)) := by rw [abs_mul]; exact mul_le_mul_of_nonneg_left n2 (abs_nonneg _)
  have q : |det3 a0 a1 a2 b0 b1 b2 c0 c1 c2| ≤ |a0| * (2 * (s1 * s2)) + |b0| * (2 * (s0 * s2)) + |c0| * (2 * (s0 * s1)) := by
    rw [e]
    have := abs_le.1 q0; have := abs_le.1 q1; have := abs_le.1 q2
    exact abs_le.2 ⟨by linarith, by linarith⟩
  have hb' := mul_le_mul_of_nonneg_right hb p2.le
  have hc' := mul_le_mul_of_nonneg_right hc p1.le
  have k : s0 * (s1 * s2) ≤ (2 ^ 40 * (6.003 * |a0| + 4 * δ * s0)) * (s1 * s2) := by
    have : 0 ≤ |a0| * (s1 * s2) := by positivity
    norm_num at hd hb' hc' q ⊢
    linarith
  have k2 : s0 ≤ 2 ^ 40 * (6.003 * |a0| + 4 * δ * s0) := le_of_mul_le_mul_right k (mul_pos p1 p2)
  have k3 : δ * s0 ≤ 1 / 10 ^ 30 * s0 := mul_le_mul_of_nonneg_right ds p0.le
  have k4 : s0 ≤ 2 ^ 43 * |a0| := by
    norm_num at k2 k3 ⊢
    linarith
  have k5 : ∀ s, 0 < s → δ * (s0 * s) ≤ 0.0001 * (|a0| * s) := by
    intro s hs
    have h1 : δ * s0 ≤ 0.0001 * |a0| := by norm_num at k3 k4 ⊢; linarith
    have := mul_le_mul_of_nonneg_right h1 hs.le
    linarith
  refine ⟨k4, ?_, ?_⟩
  · have := k5 s1 p1
    have : 0 ≤ |a0| * s1 := by positivity
    linarith
  · have := k5 s2 p2
    have : 0 ≤ |a0| * s2 := by positivity
    linarith

theorem pivot1 {s0 s1 s2 a0 a1 a2 b0 b1 b2 c0 c1 c2 l10 l20 t1 t2 : ℚ} (p0 : 0 < s0) (p1 : 0 < s1) (p2 : 0 < s2)
    (ha0 : |a0| ≤ s0) (ha1 : |a1| ≤ s0) (ha2 : |a2| ≤ s0) (hb2 : |b2| ≤ s1) (hc1 : |c1| ≤ s2) (hc2 : |c2| ≤ s2)
    (hd : Good s0 s1 s2 (det3 a0 a1 a2 b0 b1 b2 c0 c1 c2))
    (h10 : |l10| * s0 ≤ 1.01 * s1) (h20 : |l20| * s0 ≤ 1.01 * s2) (e10 : |l10 * a0 - b0| ≤ 2.02 * u * s1) (e20 : |l20 * a0 - c0| ≤ 2.02 * u * s2)
    (e11 : |t1 - (b1 - l10 * a1)| ≤ 3.1 * u * s1) (e21 : |t2 - (c1 - l20 * a1)| ≤ 3.1 * u * s2) (ht1 : |t1| ≤ 2.03 * s1)
    (hp : |t2| * s1 ≤ 1.0005 * (|t1| * s2) + δ * (s1 * s2)) :
    s1 ≤ 2 ^ 43 * |t1| ∧ |t2| * s1 ≤ 1.001 * (|t1| * s2) := by
  have hu := u_pos
  have hu2 := u_small
  have dp := δ_pos
  have ds := δ_small
  unfold Good at hd
  have us1 : u * s1 ≤ 0.001 * s1 := mul_le_mul_of_nonneg_right (by norm_num at hu2 ⊢; linarith) p1.le
  have us2 : u * s2 ≤ 0.001 * s2 := mul_le_mul_of_nonneg_right (by norm_num at hu2 ⊢; linarith) p2.le
  have pu1 := mul_pos hu p1
  have pu2 := mul_pos hu p2
  obtain ⟨n1, hn1⟩ : ∃ n, n = b2 - l10 * a2 := ⟨_, rfl⟩
  obtain ⟨n2, hn2⟩ : ∃ n, n = c2 - l20 * a2 := ⟨_, rfl⟩
  have m1 := mul_scaled (v := a2) (b := 1) h10 (by linarith) (by norm_num)
  have m2 := mul_scaled (v := a2) (b := 1) h20 (by linarith) (by norm_num)
  have m3 := mul_scaled (v := a1) (b := 1) h20 (by linarith) (by norm_num)
  have bn1 : |n1| ≤ 2.03 * s1 := by
    rw [hn1]
    have := abs_le.1 m1; have := abs_le.1 hb2
    exact abs_le.2 ⟨by linarith, by linarith⟩
  have bn2 : |n2| ≤ 2.03 * s2 := by
    rw [hn2]
    have := abs_le.1 m2; have := abs_le.1 hc2
    exact abs_le.2 ⟨by linarith, by linarith⟩
  have bc1 : |c1 - l20 * a1| ≤ 2.03 * s2 := by
    have := abs_le.1 m3; have := abs_le.1 hc1
    exact abs_le.2 ⟨by linarith, by linarith⟩
  have f10 : |b0 - l10 * a0| ≤ 3.1 * u * s1 := by rw [abs_sub_comm]; linarith
  have f20 : |c0 - l20 * a0| ≤ 3.1 * u * s2 := by rw [abs_sub_comm]; linarith
  have f20' : |c0 - l20 * a0| ≤ 2.03 * s2 := by linarith
  have f11 : |b1 - l10 * a1 - t1| ≤ 3.1 * u * s1 := by rw [abs_sub_comm]; exact e11
  have f21 : |c1 - l20 * a1 - t2| ≤ 3.1 * u * s2 := by rw [abs_sub_comm]; exact e21
  have z1 : |(0 : ℚ)| ≤ 3.1 * u * s1 := by rw [abs_zero]; linarith
  have z2 : |(0 : ℚ)| ≤ 3.1 * u * s2 := by rw [abs_zero]; linarith
  have z3 : |(0 : ℚ)| ≤ 2.03 * s1 := by rw [abs_zero]; linarith
  have e : det3 a0 a1 a2 b0 b1 b2 c0 c1 c2 = a0 * (t1 * n2 - n1 * t2) +
      det3 a0 a1 a2 (b0 - l10 * a0) (b1 - l10 * a1 - t1) 0 (c0 - l20 * a0) (c1 - l20 * a1) n2 +
      det3 a0 a1 a2 0 t1 n1 (c0 - l20 * a0) (c1 - l20 * a1 - t2) 0 := by
    rw [hn1, hn2]; unfold det3; ring
  have d1 := det_bound ha0 ha1 ha2 f10 f11 z1 f20' bc1 bn2 p0.le (by linarith)
  have d2 := det_bound ha0 ha1 ha2 z3 ht1 bn1 f20 f21 z2 p0.le (by linarith)
  have g1 : |t1 * n2| ≤ 2.03 * (|t1| * s2) := by
    rw [abs_mul]
    have := mul_le_mul_of_nonneg_left bn2 (abs_nonneg t1)
    linarith
  have g2 : |n1 * t2| ≤ 2.03 * (|t2| * s1) := by
    rw [abs_mul]
    have := mul_le_mul_of_nonneg_right bn1 (abs_nonneg t2)
    linarith
  have g3 : |t1 * n2 - n1 * t2| ≤ 4.07 * (|t1| * s2) + 2.03 * (δ * (s1 * s2)) := by
    refine (abs_sub _ _).trans ?_
    have : 0 ≤ |t1| * s2 := by positivity
    linarith
  have g4 : |a0 * (t1 * n2 - n1 * t2)| ≤ s0 * (4.07 * (|t1| * s2) + 2.03 * (δ * (s1 * s2))) := by
    rw [abs_mul]; exact mul_le_mul ha0 g3 (abs_nonneg _) p0.le
  have g5 : |det3 a0 a1 a2 b0 b1 b2 c0 c1 c2| ≤ s0 * (4.07 * (|t1| * s2) + 2.03 * (δ * (s1 * s2))) + 76 * u * (s0 * (s1 * s2)) := by
    rw [e]
    have := mul_pos hu (mul_pos p0 (mul_pos p1 p2))
    have := abs_le.1 d1; have := abs_le.1 d2; have := abs_le.1 g4
    exact abs_le.2 ⟨by linarith, by linarith⟩
  have k : s1 * (s0 * s2) ≤ (2 ^ 40 * (4.07 * |t1| + 2.03 * (δ * s1) + 76 * (u * s1))) * (s0 * s2) := by
    norm_num at hd g5 ⊢
    linarith
  have k2 := le_of_mul_le_mul_right k (mul_pos p0 p2)
  have k3 : δ * s1 ≤ 1 / 10 ^ 30 * s1 := mul_le_mul_of_nonneg_right ds p1.le
  have k3' : 2 ^ 40 * 76 * u ≤ 1 / 50 := by unfold u; norm_num
  have k3'' := mul_le_mul_of_nonneg_right k3' p1.le
  have k4 : s1 ≤ 2 ^ 43 * |t1| := by
    norm_num at k2 k3 k3'' ⊢
    linarith
  refine ⟨k4, ?_⟩
  have h1 : δ * s1 ≤ 0.0001 * |t1| := by norm_num at k3 k4 ⊢; linarith
  have := mul_le_mul_of_nonneg_right h1 p2.le
  have : 0 ≤ |t1| * s2 := by positivity
  linarith

theorem pivot2 {s0 s1 s2 a0 a1 a2 b0 b1 b2 c0 c1 c2 l10 l20 l21 t1 u12 u22 : ℚ} (p0 : 0 < s0) (p1 : 0 < s1) (p2 : 0 < s2)
    (ha0 : |a0| ≤ s0) (ha1 : |a1| ≤ s0) (ha2 : |a2| ≤ s0) (hb0 : |b0| ≤ s1) (hb1 : |b1| ≤ s1) (hb2 : |b2| ≤ s1)
    (hc0 : |c0| ≤ s2) (hc1 : |c1| ≤ s2) (hc2 : |c2| ≤ s2)
    (hd : Good s0 s1 s2 (det3 a0 a1 a2 b0 b1 b2 c0 c1 c2)) (ht1 : |t1| ≤ 2.03 * s1)
    (e10 : |l10 * a0 - b0| ≤ 2.02 * u * s1) (e20 : |l20 * a0 - c0| ≤ 2.02 * u * s2)
    (e11 : |t1 - (b1 - l10 * a1)| ≤ 3.1 * u * s1) (e12 : |u12 - (b2 - l10 * a2)| ≤ 3.1 * u * s1)
    (e21 : |l21 * t1 - (c1 - l20 * a1)| ≤ 7.3 * u * s2) (e22 : |u22 - (c2 - l20 * a2 - l21 * u12)| ≤ 10.3 * u * s2) :
    s2 ≤ 2 ^ 43 * |u22| := by
  have hu := u_pos
  have hu2 := u_small
  unfold Good at hd
  have us2 : u * s2 ≤ 0.0001 * s2 := mul_le_mul_of_nonneg_right (by norm_num at hu2 ⊢; linarith) p2.le
  have pu1 := mul_pos hu p1
  have pu2 := mul_pos hu p2
  have f0 : |l10 * a0 - b0| ≤ 3.1 * u * s1 := by linarith
  have f1 : |l10 * a1 + t1 - b1| ≤ 3.1 * u * s1 := by
    have e : l10 * a1 + t1 - b1 = t1 - (b1 - l10 * a1) := by ring
    rw [e]; exact e11
  have f2 : |l10 * a2 + u12 - b2| ≤ 3.1 * u * s1 := by
    have e : l10 * a2 + u12 - b2 = u12 - (b2 - l10 * a2) := by ring
    rw [e]; exact e12
  have g0 : |l20 * a0 - c0| ≤ 10.3 * u * s2 := by linarith
  have g1 : |l20 * a1 + l21 * t1 - c1| ≤ 10.3 * u * s2 := by
    have e : l20 * a1 + l21 * t1 - c1 = l21 * t1 - (c1 - l20 * a1) := by ring
    rw [e]; linarith
  have g2 : |l20 * a2 + l21 * u12 + u22 - c2| ≤ 10.3 * u * s2 := by
    have e : l20 * a2 + l21 * u12 + u22 - c2 = u22 - (c2 - l20 * a2 - l21 * u12) := by ring
    rw [e]; exact e22
  have near : ∀ {x c : ℚ}, |x - c| ≤ 10.3 * u * s2 → |c| ≤ s2 → |x| ≤ 1.01 * s2 := by
    intro x c h1 h2
    have := abs_sub_abs_le_abs_sub x c
    linarith
  have e : a0 * t1 * u22 = det3 a0 a1 a2 b0 b1 b2 c0 c1 c2 +
      det3 a0 a1 a2 (l10 * a0 - b0) (l10 * a1 + t1 - b1) (l10 * a2 + u12 - b2) (l20 * a0) (l20 * a1 + l21 * t1) (l20 * a2 + l21 * u12 + u22) +
      det3 a0 a1 a2 b0 b1 b2 (l20 * a0 - c0) (l20 * a1 + l21 * t1 - c1) (l20 * a2 + l21 * u12 + u22 - c2) := by
    unfold det3; ring
  have d1 := det_bound ha0 ha1 ha2 f0 f1 f2 (near g0 hc0) (near g1 hc1) (near g2 hc2) p0.le (by linarith)
  have d2 := det_bound ha0 ha1 ha2 hb0 hb1 hb2 g0 g1 g2 p0.le p1.le
  have h1 : |a0 * t1 * u22| ≤ 2.03 * (s0 * s1 * |u22|) := by
    rw [abs_mul, abs_mul]
    have := mul_le_mul ha0 ht1 (abs_nonneg _) p0.le
    have := mul_le_mul_of_nonneg_right this (abs_nonneg u22)
    linarith
  have h2 : |det3 a0 a1 a2 b0 b1 b2 c0 c1 c2| ≤ 2.03 * (s0 * s1 * |u22|) + 81 * u * (s0 * (s1 * s2)) := by
    have := mul_pos hu (mul_pos p0 (mul_pos p1 p2))
    have := abs_le.1 d1; have := abs_le.1 d2; have := abs_le.1 h1
    have e' : det3 a0 a1 a2 b0 b1 b2 c0 c1 c2 = a0 * t1 * u22 -
      det3 a0 a1 a2 (l10 * a0 - b0) (l10 * a1 + t1 - b1) (l10 * a2 + u12 - b2) (l20 * a0) (l20 * a1 + l21 * t1) (l20 * a2 + l21 * u12 + u22) -
      det3 a0 a1 a2 b0 b1 b2 (l20 * a0 - c0) (l20 * a1 + l21 * t1 - c1) (l20 * a2 + l21 * u12 + u22 - c2) := by linarith
    rw [e']
    exact abs_le.2 ⟨by linarith, by linarith⟩
  have k : s2 * (s0 * s1) ≤ (2 ^ 40 * (2.03 * |u22| + 81 * (u * s2))) * (s0 * s1) := by
    norm_num at hd h2 ⊢
    linarith
  have k2 := le_of_mul_le_mul_right k (mul_pos p0 p1)
  have k3' : 2 ^ 40 * 81 * u ≤ 1 / 50 := by unfold u; norm_num
  have k3'' := mul_le_mul_of_nonneg_right k3' p2.le
  norm_num at k2 k3'' ⊢
  linarith

/-! ### The program -/

/-- The matrix of numbers as the program holds it. -/
def okMat (a : Fin 3 → Fin 3 → ℚ) (i0 i1 i2 : Fin 3) : Mat3 D :=
  ⟨.ok (a i0 0), .ok (a i0 1), .ok (a i0 2), .ok (a i1 0), .ok (a i1 1), .ok (a i1 2), .ok (a i2 0), .ok (a i2 1), .ok (a i2 2)⟩

/-- The state of the elimination in pivot order. -/
def okLU (u00 u01 u02 l10 u11 u12 l20 l21 u22 : ℚ) (i0 i1 i2 : Fin 3) (scale : V3 D) : LU D :=
  ⟨⟨.ok u00, .ok u01, .ok u02, .ok l10, .ok u11, .ok u12, .ok l20, .ok l21, .ok u22⟩, ⟨i0, i1, i2⟩, scale⟩

theorem argmax0 {A : Mat3 D} {idx : V3 (Fin 3)} {scale : V3 D} {m0 m1 m2 : ℚ}
    (h0 : mulD scale.v0 (fabs A.a00) = .ok m0) (h1 : mulD scale.v1 (fabs A.a10) = .ok m1) (h2 : mulD scale.v2 (fabs A.a20) = .ok m2)
    (p0 : 0 ≤ m0) :
    (argmax 0 ⟨A, idx, scale⟩ = .ok 0 ∧ m1 ≤ m0 ∧ m2 ≤ m0) ∨ (argmax 0 ⟨A, idx, scale⟩ = .ok 1 ∧ m0 ≤ m1 ∧ m2 ≤ m1) ∨
      (argmax 0 ⟨A, idx, scale⟩ = .ok 2 ∧ m0 ≤ m2 ∧ m1 ≤ m2) := by
  have e : argmax 0 ⟨A, idx, scale⟩ = .ok (if m1 ≤ m2 ∧ m0 ≤ m1 then 2 else if m0 ≤ m1 then 1 else if m0 ≤ m2 then 2 else 0) := by
    show (do
      let r ← [(0 : Fin 3), 1, 2].foldlM (fun (p : ℚ × Fin 3) i => do
        let thisElem ← mulD (scale.get i) (fabs (A.get i 0))
        return if p.1 ≤ thisElem then (thisElem, i) else p) ((0 : ℚ), (0 : Fin 3))
      return r.2) = _
    simp only [List.foldlM, V3.get, Mat3.get, h0, h1, h2, bind_ok, pure_ok, if_pos p0]
    by_cases k1 : m0 ≤ m1 <;> by_cases k2 : m1 ≤ m2 <;> by_cases k3 : m0 ≤ m2 <;> simp [k1, k2, k3]
  rw [e]
  by_cases k1 : m0 ≤ m1 <;> by_cases k2 : m1 ≤ m2 <;> by_cases k3 : m0 ≤ m2 <;> simp [k1, k2, k3] <;>
    first | linarith | (constructor <;> linarith)

theorem argmax1 {A : Mat3 D} {idx : V3 (Fin 3)} {scale : V3 D} {m1 m2 : ℚ}
    (h1 : mulD scale.v1 (fabs A.a11) = .ok m1) (h2 : mulD scale.v2 (fabs A.a21) = .ok m2) (p1 : 0 ≤ m1) :
    (argmax 1 ⟨A, idx, scale⟩ = .ok 1 ∧ m2 ≤ m1) ∨ (argmax 1 ⟨A, idx, scale⟩ = .ok 2 ∧ m1 ≤ m2) := by
  have e : argmax 1 ⟨A, idx, scale⟩ = .ok (if m1 ≤ m2 then 2 else 1) := by
    show (do
      let r ← [(1 : Fin 3), 2].foldlM (fun (p : ℚ × Fin 3) i => do
        let thisElem ← mulD (scale.get i) (fabs (A.get i 1))
        return if p.1 ≤ thisElem then (thisElem, i) else p) ((0 : ℚ), (1 : Fin 3))
      return r.2) = _
    simp only [List.foldlM, V3.get, Mat3.get, h1, h2, bind_ok, pure_ok, if_pos p1]
    split_ifs <;> rfl
  rw [e]
  by_cases k : m1 ≤ m2
  · right; simp [k]
  · left; simp [k]; linarith

theorem argmax2 {A : Mat3 D} {idx : V3 (Fin 3)} {scale : V3 D} {m2 : ℚ} (h2 : mulD scale.v2 (fabs A.a22) = .ok m2) (p2 : 0 ≤ m2) :
    argmax 2 ⟨A, idx, scale⟩ = .ok 2 := by
  show (do
      let r ← [(2 : Fin 3)].foldlM (fun (p : ℚ × Fin 3) i => do
        let thisElem ← mulD (scale.get i) (fabs (A.get i 2))
        return if p.1 ≤ thisElem then (thisElem, i) else p) ((0 : ℚ), (2 : Fin 3))
      return r.2) = _
  simp only [List.foldlM, V3.get, Mat3.get, h2, bind_ok, pure_ok, if_pos p2]

/-- One column when the pivot row is known. -/
theorem column_eq {s : LU D} {j p : Fin 3} {x : ℚ} (h1 : argmax j { s with A := stepAlpha j (stepBeta j s.A) } = .ok p)
    (h2 : (swapRows j p { s with A := stepAlpha j (stepBeta j s.A) }).A.get j j = .ok x) (h3 : x ≠ 0) :
    column s j = .ok { (swapRows j p { s with A := stepAlpha j (stepBeta j s.A) }) with
      A := scaleColumn j (swapRows j p { s with A := stepAlpha j (stepBeta j s.A) }).A } := by
  unfold column
  simp only [h1, bind_ok]
  unfold fixPivot
  simp only [h2, bind_ok, if_neg h3, pure_ok]

end Verif.Linalg64
