import Verif.Lemmas.Linalg64Acc
import Verif.Spec.Linalg64

/-!
# The matrix of a triangle of stars
-/

namespace Verif.Linalg64

open Verif Verif.Linalg Verif.Align

/-- Three points as the columns of a matrix. -/
def cols (p q r : Pt ℚ) : Fin 3 → Fin 3 → ℚ
  | 0, 0 => p.x
  | 0, 1 => q.x
  | 0, 2 => r.x
  | 1, 0 => p.y
  | 1, 1 => q.y
  | 1, 2 => r.y
  | 2, _ => 1

/-- The barycentric coordinates of the triangle. -/
def bary (p q r : Pt ℚ) : Fin 3 → Fin 3 → ℚ
  | 0, 0 => (q.y - r.y) / orient p q r
  | 0, 1 => (r.x - q.x) / orient p q r
  | 0, 2 => (q.x * r.y - r.x * q.y) / orient p q r
  | 1, 0 => (r.y - p.y) / orient p q r
  | 1, 1 => (p.x - r.x) / orient p q r
  | 1, 2 => (r.x * p.y - p.x * r.y) / orient p q r
  | 2, 0 => (p.y - q.y) / orient p q r
  | 2, 1 => (q.x - p.x) / orient p q r
  | 2, 2 => (p.x * q.y - q.x * p.y) / orient p q r

/-- A point as a column. -/
def pt (z : Pt ℚ) : Fin 3 → ℚ
  | 0 => z.x
  | 1 => z.y
  | 2 => 1

theorem bary_inv {p q r : Pt ℚ} (hd : orient p q r ≠ 0) : Inv (cols p q r) (bary p q r) := by
  obtain ⟨D, hD⟩ : ∃ D, D = orient p q r := ⟨_, rfl⟩
  have hD' := hD
  unfold orient at hD'
  rw [← hD] at hd
  have e : ∀ a b c a' b' c' : ℚ, a / D * a' + b / D * b' + c / D * c' = (a * a' + b * b' + c * c') / D := fun _ _ _ _ _ _ => by ring
  have e' : ∀ a b c a' b' c' : ℚ, a' * (a / D) + b' * (b / D) + c' * (c / D) = (a * a' + b * b' + c * c') / D := fun _ _ _ _ _ _ => by ring
  constructor
  · intro i j
    fin_cases i <;> fin_cases j <;> simp only [idn, bary, cols, ← hD] <;> rw [e, div_eq_iff hd] <;> simp <;> (try rw [hD']) <;> ring
  · intro i j
    fin_cases i <;> fin_cases j <;> simp only [idn, bary, cols, ← hD] <;> rw [e', div_eq_iff hd] <;> simp <;> (try rw [hD']) <;> ring

theorem cols_le {p q r : Pt ℚ} {R : ℚ} (hR : 1 ≤ R) (hp : Within R p) (hq : Within R q) (hr : Within R r) (i j : Fin 3) : |cols p q r i j| ≤ R := by
  have := hp.1; have := hp.2; have := hq.1; have := hq.2; have := hr.1; have := hr.2
  have : |(1 : ℚ)| ≤ R := by rw [abs_one]; exact hR
  fin_cases i <;> fin_cases j <;> simp only [cols] <;> assumption

theorem cols_rep {p q r : Pt ℚ} (hp : IsDouble p) (hq : IsDouble q) (hr : IsDouble r) (i j : Fin 3) : Representable b64 (cols p q r i j) := by
  have := hp.1; have := hp.2; have := hq.1; have := hq.2; have := hr.1; have := hr.2
  have := rep_one
  fin_cases i <;> fin_cases j <;> simp only [cols] <;> assumption

theorem triCorners_ok (p q r : Pt ℚ) : triCorners p q r = okMat (cols p q r) 0 1 2 := rfl

theorem sum_zero {a b c m : ℚ} (h : a + b + c = 0) (ha : |a| ≤ m) (hb : |b| ≤ m) (hc : |c| ≤ m) : |a| + |b| + |c| ≤ 2 * m := by
  obtain ⟨a1, a2⟩ := abs_le.1 ha
  obtain ⟨b1, b2⟩ := abs_le.1 hb
  obtain ⟨c1, c2⟩ := abs_le.1 hc
  rcases abs_cases a with ⟨e, _⟩ | ⟨e, _⟩ <;> rcases abs_cases b with ⟨e', _⟩ | ⟨e', _⟩ <;> rcases abs_cases c with ⟨e'', _⟩ | ⟨e'', _⟩ <;>
    rw [e, e', e''] <;> linarith

theorem side {h D x y : ℚ} (h0 : 0 < h) (hs : h ^ 2 * (x ^ 2 + y ^ 2) ≤ D ^ 2) : |x| ≤ |D| / h ∧ |y| ≤ |D| / h := by
  constructor <;> rw [le_div_iff₀ h0] <;> apply abs_le_of_sq_le_sq' _ (abs_nonneg D) |>.2 <;> rw [mul_pow, sq_abs, sq_abs] <;>
    nlinarith [mul_nonneg (sq_nonneg h) (sq_nonneg x), mul_nonneg (sq_nonneg h) (sq_nonneg y)]

structure Sides (g : ℚ) (p q r : Pt ℚ) : Prop where
  pqx : |p.x - q.x| ≤ g
  pqy : |p.y - q.y| ≤ g
  qrx : |q.x - r.x| ≤ g
  qry : |q.y - r.y| ≤ g
  rpx : |r.x - p.x| ≤ g
  rpy : |r.y - p.y| ≤ g

theorem sides {h : ℚ} {p q r : Pt ℚ} (H : Tall h p q r) : Sides (|orient p q r| / h) p q r := by
  obtain ⟨h0, -, h1, h2, h3⟩ := H
  unfold dist2 at h1 h2 h3
  exact ⟨(side h0 h1).1, (side h0 h1).2, (side h0 h2).1, (side h0 h2).2, (side h0 h3).1, (side h0 h3).2⟩

/-- Twice the area is at least half the square of the least height. -/
theorem area_low {h : ℚ} {p q r : Pt ℚ} (H : Tall h p q r) : h ^ 2 ≤ 2 * |orient p q r| := by
  have s := sides H
  obtain ⟨h0, hd, -⟩ := H
  have dpos : 0 < |orient p q r| := abs_pos.2 hd
  have h1 : |orient p q r| ≤ |p.x - q.x| * (|orient p q r| / h) + |p.y - q.y| * (|orient p q r| / h) := by
    have e : orient p q r = (q.x - p.x) * (r.y - p.y) - (q.y - p.y) * (r.x - p.x) := rfl
    have k := abs_sub ((q.x - p.x) * (r.y - p.y)) ((q.y - p.y) * (r.x - p.x))
    rw [← e, abs_mul, abs_mul, abs_sub_comm q.x, abs_sub_comm q.y] at k
    have k1 := mul_le_mul_of_nonneg_left s.rpy (abs_nonneg (p.x - q.x))
    have k2 := mul_le_mul_of_nonneg_left s.rpx (abs_nonneg (p.y - q.y))
    linarith
  have h2 : h ≤ |p.x - q.x| + |p.y - q.y| := by
    have e : |p.x - q.x| * (|orient p q r| / h) + |p.y - q.y| * (|orient p q r| / h) = |orient p q r| * ((|p.x - q.x| + |p.y - q.y|) / h) := by ring
    rw [e] at h1
    have h3 : |orient p q r| * 1 ≤ |orient p q r| * ((|p.x - q.x| + |p.y - q.y|) / h) := by linarith
    have h4 := le_of_mul_le_mul_left h3 dpos
    rwa [le_div_iff₀ h0, one_mul] at h4
  have h5 : h ≤ 2 * (|orient p q r| / h) := by linarith [s.pqx, s.pqy]
  rw [← mul_div_assoc, le_div_iff₀ h0] at h5
  linarith

theorem norm1_bary {h S : ℚ} {p q r : Pt ℚ} (H : Tall h p q r) (hS : 0 ≤ S) (hp : Within S p) (hq : Within S q) (hr : Within S r) :
    norm1 (bary p q r) 0 ≤ 2 / h ∧ norm1 (bary p q r) 1 ≤ 2 / h ∧ norm1 (bary p q r) 2 ≤ 4 * S / h := by
  have s := sides H
  obtain ⟨h0, hd, -⟩ := H
  have dpos : 0 < |orient p q r| := abs_pos.2 hd
  obtain ⟨D, hD⟩ : ∃ D, D = |orient p q r| := ⟨_, rfl⟩
  rw [← hD] at s dpos
  have X := sum_zero (a := q.x - r.x) (b := r.x - p.x) (c := p.x - q.x) (by ring) s.qrx s.rpx s.pqx
  have Y := sum_zero (a := q.y - r.y) (b := r.y - p.y) (c := p.y - q.y) (by ring) s.qry s.rpy s.pqy
  have e : ∀ k : ℚ, k / h = (k * (D / h)) / D := fun k => by field_simp
  refine ⟨?_, ?_, ?_⟩
  · show |(q.y - r.y) / orient p q r| + |(r.y - p.y) / orient p q r| + |(p.y - q.y) / orient p q r| ≤ _
    rw [abs_div, abs_div, abs_div, ← hD, ← add_div, ← add_div, e]
    gcongr
  · show |(r.x - q.x) / orient p q r| + |(p.x - r.x) / orient p q r| + |(q.x - p.x) / orient p q r| ≤ _
    rw [abs_div, abs_div, abs_div, ← hD, ← add_div, ← add_div, e, abs_sub_comm r.x, abs_sub_comm p.x, abs_sub_comm q.x p.x]
    gcongr
  · show |(q.x * r.y - r.x * q.y) / orient p q r| + |(r.x * p.y - p.x * r.y) / orient p q r| + |(p.x * q.y - q.x * p.y) / orient p q r| ≤ _
    rw [abs_div, abs_div, abs_div, ← hD, ← add_div, ← add_div, e]
    have k : ∀ a b : Pt ℚ, Within S a → |a.x * b.y - b.x * a.y| ≤ S * |a.x - b.x| + S * |a.y - b.y| := by
      intro a b ha
      have e1 : a.x * b.y - b.x * a.y = -(a.x * (a.y - b.y)) + a.y * (a.x - b.x) := by ring
      rw [e1]
      refine (abs_add_le _ _).trans ?_
      rw [abs_neg, abs_mul, abs_mul]
      have := mul_le_mul_of_nonneg_right ha.1 (abs_nonneg (a.y - b.y))
      have := mul_le_mul_of_nonneg_right ha.2 (abs_nonneg (a.x - b.x))
      linarith
    have k1 := k q r hq
    have k2 := k r p hr
    have k3 := k p q hp
    have X' := mul_le_mul_of_nonneg_left X hS
    have Y' := mul_le_mul_of_nonneg_left Y hS
    refine div_le_div_of_nonneg_right ?_ dpos.le
    linarith

/-- The exact image of a point: that of any affine map with the same values in the corners. -/
theorem image_affine {p q r p' q' r' : Pt ℚ} (hd : orient p q r ≠ 0) {f : Pt ℚ → Pt ℚ} (hf : IsAffine f) (e1 : f p = p') (e2 : f q = q') (e3 : f r = r')
    (z : Pt ℚ) : image (cols p' q' r') (bary p q r) (pt z) 0 = (f z).x ∧ image (cols p' q' r') (bary p q r) (pt z) 1 = (f z).y := by
  obtain ⟨a, b, c, d, e, g, hf⟩ := hf
  obtain ⟨D, hD⟩ : ∃ D, D = orient p q r := ⟨_, rfl⟩
  have hD' := hD
  unfold orient at hD'
  subst e1 e2 e3
  have k : ∀ a b c : ℚ, a / D * z.x + b / D * z.y + c / D * 1 = (a * z.x + b * z.y + c) / D := fun _ _ _ => by ring
  have k' : ∀ a b c a' b' c' : ℚ, a' * (a / D) + b' * (b / D) + c' * (c / D) = (a * a' + b * b' + c * c') / D := fun _ _ _ _ _ _ => by ring
  constructor
  · unfold image
    simp only [bary, cols, pt, ← hD, hf, k, k']
    rw [← hD] at hd
    rw [div_eq_iff hd, hD']
    ring
  · unfold image
    simp only [bary, cols, pt, ← hD, hf, k, k']
    rw [← hD] at hd
    rw [div_eq_iff hd, hD']
    ring

theorem weight_nonneg (b : Fin 3 → Fin 3 → ℚ) (z : Fin 3 → ℚ) : 0 ≤ weight b z := by
  unfold weight
  exact add_nonneg (add_nonneg (mul_nonneg (norm1_nonneg _ _) (abs_nonneg _)) (mul_nonneg (norm1_nonneg _ _) (abs_nonneg _)))
    (mul_nonneg (norm1_nonneg _ _) (abs_nonneg _))

theorem rep_fl {x c : ℚ} (h : fl b64 x = .ok c) : Representable b64 c := by
  unfold fl at h
  split at h
  · simp only [Except.ok.injEq] at h
    rw [← h]
    exact representable_rnd (by decide) _
  · simp at h

theorem rep_add {a b : D} {c : ℚ} (h : add a b = .ok c) : Representable b64 c := by
  unfold add at h
  rw [bind_eq_ok] at h
  obtain ⟨v, -, h⟩ := h
  rw [bind_eq_ok] at h
  obtain ⟨w, -, h⟩ := h
  exact rep_fl h

/-- Everything about the matrix of a triangle. -/
theorem triangle {h S S2 R stray : ℚ} {p q r p' q' r' : Pt ℚ} (H : Tall h p q r) (hS : 1 ≤ S) (hS' : S ≤ 2 ^ 20) (hp : Within S p) (hq : Within S q) (hr : Within S r)
    (dp : IsDouble p) (dq : IsDouble q) (dr : IsDouble r) (h1 : 1 ≤ S2) (h2 : |stray| ≤ S2) (h3 : S2 ≤ 2 ^ 20) (hh : S * (1 + S2) ≤ 2 ^ 20 * h)
    (hR : 1 ≤ R) (hR' : R ≤ 2 ^ 20) (hp' : Within R p') (hq' : Within R q') (hr' : Within R r') :
    ∃ m : Fin 3 → Fin 3 → ℚ, solveMatrix (.ok stray) (triCorners p' q' r') (triCorners p q r) = .ok (okMat m 0 1 2) ∧
      ∀ z : Pt ℚ, Within S z → ∃ z' : Pt ℚ, apply (okMat m 0 1 2) z = .ok z' ∧ IsDouble z' ∧
        |z'.x - image (cols p' q' r') (bary p q r) (pt z) 0| ≤ 3200 * (1 + S2) * u * R * S ^ 2 / h ^ 2 ∧
        |z'.y - image (cols p' q' r') (bary p q r) (pt z) 1| ≤ 3200 * (1 + S2) * u * R * S ^ 2 / h ^ 2 := by
  have hu := u_pos
  have hi := bary_inv H.2.1
  obtain ⟨n0, n1, n2⟩ := norm1_bary H (by linarith) hp hq hr
  have lowD := area_low H
  have h0 := H.1
  have le : ∀ i j, |cols p q r i j| ≤ scaleOf (cols p q r) stray i := by
    intro i j
    unfold scaleOf
    fin_cases j <;> simp
  have rep := cols_rep dp dq dr
  have u0 : scaleOf (cols p q r) stray 0 ≤ S := by
    show max |p.y| (max |r.x| (max |q.x| (max |p.x| 0))) ≤ S
    simp only [max_le_iff]
    exact ⟨hp.2, hr.1, hq.1, hp.1, by linarith⟩
  have u1 : scaleOf (cols p q r) stray 1 ≤ S := by
    show max |(1 : ℚ)| (max |r.y| (max |q.y| (max |p.y| 0))) ≤ S
    simp only [max_le_iff, abs_one]
    exact ⟨hS, hr.2, hq.2, hp.2, by linarith⟩
  have u2 : scaleOf (cols p q r) stray 2 ≤ S2 := by
    show max |stray| (max |(1 : ℚ)| (max |(1 : ℚ)| (max |(1 : ℚ)| 0))) ≤ S2
    simp only [max_le_iff, abs_one]
    exact ⟨h2, h1, h1, h1, by linarith⟩
  have l2 : 1 ≤ scaleOf (cols p q r) stray 2 := by
    have := le 2 0
    have e : cols p q r 2 0 = 1 := rfl
    rwa [e, abs_one] at this
  have hlow : 1 / 2 ^ 19 ≤ h := by
    have : (1 : ℚ) * 2 ≤ S * (1 + S2) := mul_le_mul hS (by linarith) (by norm_num) (by linarith)
    norm_num at hh ⊢
    linarith
  have low : ∀ j : Fin 3, norm1 (bary p q r) j ≤ 2 / h → 1 / 2 ^ 20 ≤ scaleOf (cols p q r) stray j := by
    intro j hj
    have k := one_le_scaled hi le j
    have k0 : 0 ≤ scaleOf (cols p q r) stray j := (abs_nonneg _).trans (le j 0)
    have k1 := mul_le_mul_of_nonneg_right hj k0
    have k2 : (1 : ℚ) ≤ 2 / h * scaleOf (cols p q r) stray j := k.trans k1
    rw [div_mul_eq_mul_div, le_div_iff₀ h0] at k2
    norm_num at hlow ⊢
    linarith
  have sys : Sys (cols p q r) (scaleOf (cols p q r) stray) := by
    refine ⟨?_, le, rep⟩
    intro i
    have a0 := low 0 n0
    have a1 := low 1 n1
    fin_cases i
    · exact ⟨le_trans (by norm_num) a0, u0.trans (hS'.trans (by norm_num))⟩
    · exact ⟨le_trans (by norm_num) a1, u1.trans (hS'.trans (by norm_num))⟩
    · exact ⟨le_trans (by norm_num) l2, u2.trans (h3.trans (by norm_num))⟩
  have pos := fun i => (sys.mag i).pos
  have good : GoodAt (cols p q r) (scaleOf (cols p q r) stray) 0 1 2 := by
    unfold GoodAt Good
    have e : det3 (cols p q r 0 0) (cols p q r 0 1) (cols p q r 0 2) (cols p q r 1 0) (cols p q r 1 1) (cols p q r 1 2) (cols p q r 2 0) (cols p q r 2 1)
      (cols p q r 2 2) = orient p q r := by
      show det3 p.x q.x r.x p.y q.y r.y 1 1 1 = _
      unfold det3 orient; ring
    rw [e]
    have k1 : scaleOf (cols p q r) stray 0 * (scaleOf (cols p q r) stray 1 * scaleOf (cols p q r) stray 2) ≤ S * (S * S2) :=
      mul_le_mul u0 (mul_le_mul u1 u2 (pos 2).le (by linarith)) (mul_pos (pos 1) (pos 2)).le (by linarith)
    have k2 : (S * (1 + S2)) ^ 2 ≤ (2 ^ 20 * h) ^ 2 := pow_le_pow_left₀ (mul_nonneg (by linarith) (by linarith)) hh 2
    have k3 : 4 * (S * (S * S2)) ≤ (S * (1 + S2)) ^ 2 := by nlinarith [mul_nonneg (sq_nonneg S) (sq_nonneg (1 - S2))]
    have k4 : (2 ^ 20 * h) ^ 2 = 2 ^ 40 * h ^ 2 := by ring
    rw [k4] at k2
    have k5 := abs_nonneg (orient p q r)
    norm_num at k2 ⊢
    linarith
  have cb : cond (bary p q r) (scaleOf (cols p q r) stray) ≤ 4 * (S * (1 + S2)) / h := by
    unfold cond
    have q0 := mul_le_mul n0 u0 (pos 0).le (by positivity)
    have q1 := mul_le_mul n1 u1 (pos 1).le (by positivity)
    have q2 := mul_le_mul n2 u2 (pos 2).le (div_nonneg (by linarith) h0.le)
    have e : 2 / h * S + 2 / h * S + 4 * S / h * S2 = 4 * (S * (1 + S2)) / h := by ring
    linarith
  have hc : 46 * u * cond (bary p q r) (scaleOf (cols p q r) stray) ≤ 0.001 := by
    have q1 : 4 * (S * (1 + S2)) / h ≤ 4 * 2 ^ 20 := by
      rw [div_le_iff₀ h0]; linarith
    have q2 : 46 * u * cond (bary p q r) (scaleOf (cols p q r) stray) ≤ 46 * u * (4 * 2 ^ 20) := mul_le_mul_of_nonneg_left (cb.trans q1) (by linarith)
    have := u_small
    norm_num at this q2 ⊢
    linarith
  have mr : Mag 100 R := ⟨le_trans (by norm_num) hR, hR'.trans (by norm_num)⟩
  have hrr := cols_le hR hp' hq' hr'
  obtain ⟨m, em, am⟩ := accuracy sys good hi hc mr hrr
  refine ⟨m, em, ?_⟩
  intro z hz
  have A := am (pt z) rfl (hz.1.trans (hS'.trans (by norm_num))) (hz.2.trans (hS'.trans (by norm_num)))
  obtain ⟨x, ex, bx⟩ := A 0
  obtain ⟨y, ey, by'⟩ := A 1
  have wb : weight (bary p q r) (pt z) ≤ 8 * S / h := by
    show norm1 (bary p q r) 0 * |z.x| + norm1 (bary p q r) 1 * |z.y| + norm1 (bary p q r) 2 * |(1 : ℚ)| ≤ _
    rw [abs_one, mul_one]
    have q0 := mul_le_mul n0 hz.1 (abs_nonneg _) (by positivity)
    have q1 := mul_le_mul n1 hz.2 (abs_nonneg _) (by positivity)
    have e : 2 / h * S + 2 / h * S + 4 * S / h = 8 * S / h := by ring
    linarith
  have w0 := weight_nonneg (bary p q r) (pt z)
  have tot : 100 * u * R * (cond (bary p q r) (scaleOf (cols p q r) stray) * weight (bary p q r) (pt z)) ≤ 3200 * (1 + S2) * u * R * S ^ 2 / h ^ 2 := by
    have q0 := mul_le_mul cb wb w0 (div_nonneg (mul_nonneg (by norm_num) (mul_nonneg (by linarith) (by linarith))) h0.le)
    have q1 := mul_le_mul_of_nonneg_left q0 (by positivity : 0 ≤ 100 * u * R)
    have e : 100 * u * R * (4 * (S * (1 + S2)) / h * (8 * S / h)) = 3200 * (1 + S2) * u * R * S ^ 2 / h ^ 2 := by
      field_simp; ring
    linarith
  refine ⟨⟨x, y⟩, ?_, ⟨rep_add ex, rep_add ey⟩, bx.trans tot, by'.trans tot⟩
  show (do
    let x ← dotVec (okMat m 0 1 2) ⟨.ok z.x, .ok z.y, .ok 1⟩ 0
    let y ← dotVec (okMat m 0 1 2) ⟨.ok z.x, .ok z.y, .ok 1⟩ 1
    return (⟨x, y⟩ : Pt ℚ)) = _
  have ex' : dotVec (okMat m 0 1 2) ⟨.ok z.x, .ok z.y, .ok 1⟩ 0 = .ok x := ex
  have ey' : dotVec (okMat m 0 1 2) ⟨.ok z.x, .ok z.y, .ok 1⟩ 1 = .ok y := ey
  rw [ex', ey']
  rfl

end Verif.Linalg64
