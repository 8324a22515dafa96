import Verif.Model.Linalg64
import Verif.Lemmas.FloatRep
import Verif.Lemmas.Strto
import Mathlib.Tactic.LinearCombination
import Mathlib.Tactic.FieldSimp

/-!
# Error analysis of the 3×3 elimination in double arithmetic

All errors are measured against scales `s` of the rows: `s i` bounds the elements of row `i`.
-/

namespace Verif.Linalg64

open Verif Verif.Linalg Verif.Align

/-- Half a unit in the last place of 1. -/
@[irreducible] def u : ℚ := 1 / 2 ^ 53

theorem u_pos : 0 < u := by unfold u; positivity
theorem u_small : u ≤ 1 / 10 ^ 15 := by unfold u; norm_num
theorem u_le : u ≤ 1 / 1000 := by unfold u; norm_num

/-- Magnitude between `2^-n` and `2^n`. -/
def Mag (n : ℕ) (x : ℚ) : Prop := 1 / 2 ^ n ≤ x ∧ x ≤ 2 ^ n

theorem Mag.pos {n : ℕ} {x : ℚ} (h : Mag n x) : 0 < x := lt_of_lt_of_le (by positivity) h.1

theorem Mag.mono {n m : ℕ} {x : ℚ} (h : Mag n x) (hnm : n ≤ m) : Mag m x := by
  refine ⟨le_trans ?_ h.1, h.2.trans (pow_le_pow_right₀ (by norm_num) hnm)⟩
  exact one_div_le_one_div_of_le (by positivity) (pow_le_pow_right₀ (by norm_num) hnm)

theorem Mag.mul {n m : ℕ} {x y : ℚ} (hx : Mag n x) (hy : Mag m y) : Mag (n + m) (x * y) := by
  constructor
  · rw [pow_add, ← one_div_mul_one_div]
    exact mul_le_mul hx.1 hy.1 (by positivity) hx.pos.le
  · rw [pow_add]
    exact mul_le_mul hx.2 hy.2 hy.pos.le (by positivity)

theorem Mag.inv {n : ℕ} {x : ℚ} (hx : Mag n x) : Mag n (1 / x) := by
  constructor
  · exact one_div_le_one_div_of_le hx.pos hx.2
  · rw [div_le_iff₀ hx.pos]
    have := mul_le_mul_of_nonneg_left hx.1 (by positivity : (0 : ℚ) ≤ 2 ^ n)
    rwa [mul_one_div_cancel (by positivity)] at this

theorem Mag.div {n m : ℕ} {x y : ℚ} (hx : Mag n x) (hy : Mag m y) : Mag (n + m) (x / y) := by
  rw [div_eq_mul_one_div]; exact hx.mul hy.inv

theorem Mag.smul {n : ℕ} {x : ℚ} (k : ℚ) (hx : Mag n x) (h1 : 1 / 16 ≤ k) (h2 : k ≤ 16) : Mag (n + 4) (k * x) := by
  rw [add_comm]
  exact Mag.mul ⟨by norm_num; linarith, by norm_num; linarith⟩ hx

/-! ### One rounded operation -/

theorem rnd_bound {q B : ℚ} (hB : Mag 1000 B) (h : |q| ≤ B) : |rnd b64 q - q| ≤ u * B := by
  by_cases h0 : q = 0
  · subst h0; rw [rnd_zero]; simp; exact mul_nonneg u_pos.le hB.pos.le
  by_cases hn : (2 : ℚ) ^ (b64.emin + b64.prec - 1) ≤ |q|
  · refine (rnd_rel hn).trans ?_
    rw [mul_comm]
    have e : (2 : ℚ) ^ (-(b64.prec : ℤ)) = u := by unfold u b64; rw [zpow_neg, zpow_natCast, one_div]
    rw [e]
    exact mul_le_mul_of_nonneg_left h u_pos.le
  · rw [not_le] at hn
    have hn' : |q| < (2 : ℚ) ^ (-1021 : ℤ) := hn.trans_le (zpow_le_zpow_right₀ (by norm_num) (by decide))
    refine (rnd_error_lt (F := b64) hn' (by decide)).trans ?_
    have e : (2 : ℚ) ^ (-1021 - (b64.prec : ℤ) - 1) ≤ u * (1 / 2 ^ 1000) := by
      have : -1021 - (b64.prec : ℤ) - 1 = -((1075 : ℕ) : ℤ) := by decide
      rw [this, zpow_neg, zpow_natCast]
      unfold u
      rw [← one_div, one_div_mul_one_div, ← pow_add]
      exact one_div_le_one_div_of_le (by positivity) (pow_le_pow_right₀ (by norm_num) (by norm_num))
    exact e.trans (mul_le_mul_of_nonneg_left hB.1 u_pos.le)

theorem fl_bound {q B : ℚ} (hB : Mag 1000 B) (h : |q| ≤ B) :
    ∃ r, fl b64 q = .ok r ∧ Representable b64 r ∧ |r - q| ≤ u * B := by
  refine ⟨rnd b64 q, ?_, representable_rnd (by decide) q, rnd_bound hB h⟩
  have hr := rnd_bound hB h
  unfold fl
  rw [if_pos]
  have h1 : |rnd b64 q| ≤ 2 * B := by
    have h2 := u_le
    have h3 := hB.pos
    have h4 : u * B ≤ 1 * B := mul_le_mul_of_nonneg_right (by linarith) h3.le
    have := abs_sub_abs_le_abs_sub (rnd b64 q) q
    linarith
  have h2 : (2 : ℚ) * B ≤ 2 ^ 1001 := by
    rw [pow_succ' (2 : ℚ) 1000]
    exact mul_le_mul_of_nonneg_left hB.2 (by norm_num)
  refine lt_of_le_of_lt (h1.trans h2) ?_
  rw [show b64.emax = ((1024 : ℕ) : ℤ) from rfl, zpow_natCast]
  exact pow_lt_pow_right₀ (by norm_num) (by norm_num)

theorem rep_zero : Representable b64 0 := ⟨0, 0, by decide, by decide, by simp⟩
theorem rep_one : Representable b64 1 := ⟨1, 0, by decide, by decide, by simp⟩

theorem fl_exact {q B : ℚ} (hB : Mag 1000 B) (h : |q| ≤ B) (hr : Representable b64 q) : fl b64 q = .ok q := by
  obtain ⟨r, h1, -, -⟩ := fl_bound hB h
  have h2 := h1
  unfold fl at h2
  split_ifs at h2
  rw [rnd_of_representable hr] at h2
  rw [h1, h2]

theorem sub_zero_exact {q B : ℚ} (hB : Mag 1000 B) (h : |q| ≤ B) (hr : Representable b64 q) : sub (.ok q) zero = .ok q := by
  show fl b64 (q - 0) = _
  rw [sub_zero]; exact fl_exact hB h hr

theorem zero_add_exact {q B : ℚ} (hB : Mag 1000 B) (h : |q| ≤ B) (hr : Representable b64 q) : add zero (.ok q) = .ok q := by
  show fl b64 (0 + q) = _
  rw [zero_add]; exact fl_exact hB h hr

/-- A product with a scaled factor. -/
theorem mul_scaled {l v s s' k b : ℚ} (h1 : |l| * s ≤ k * s') (h2 : |v| ≤ b * s) (hb : 0 ≤ b) : |l * v| ≤ k * b * s' := by
  rw [abs_mul]
  have := mul_le_mul_of_nonneg_left h2 (abs_nonneg l)
  have := mul_le_mul_of_nonneg_left h1 hb
  linarith

/-! ### Forward substitution -/

/-- The multipliers of the elimination are bounded as scaled pivoting makes them. -/
structure Mult (s0 s1 s2 l10 l20 l21 : ℚ) : Prop where
  m0 : Mag 100 s0
  m1 : Mag 100 s1
  m2 : Mag 100 s2
  h10 : |l10| * s0 ≤ 1.01 * s1
  h20 : |l20| * s0 ≤ 1.01 * s2
  h21 : |l21| * s1 ≤ 1.01 * s2

/-- First step: `v1 = c1 - l10 * c0`. -/
theorem fwd1 {s0 s1 l10 c0 c1 T : ℚ} (m1 : Mag 100 s1) (h10 : |l10| * s0 ≤ 1.01 * s1) (hT : Mag 300 T)
    (b0 : |c0| ≤ T * s0) (b1 : |c1| ≤ T * s1) :
    ∃ v1, sub (.ok c1) (add zero (mulD (.ok l10) (.ok c0))) = .ok v1 ∧ Representable b64 v1 ∧ |v1| ≤ 2.03 * (T * s1) ∧
      |v1 - (c1 - l10 * c0)| ≤ 3.1 * u * (T * s1) := by
  have hu := u_pos
  have hu2 := u_small
  have M1 : Mag 400 (T * s1) := hT.mul m1
  have p := M1.pos
  have hT0 := hT.pos.le
  have q1 : |l10 * c0| ≤ 1.01 * (T * s1) := by
    have := mul_scaled h10 b0 hT0; linarith
  obtain ⟨p1, e1, r1, d1⟩ := fl_bound ((M1.smul 1.01 (by norm_num) (by norm_num)).mono (by norm_num)) q1
  have ud : u * (T * s1) ≤ 0.001 * (T * s1) := mul_le_mul_of_nonneg_right (by norm_num at hu2 ⊢; linarith) p.le
  have q2 : |p1| ≤ 1.02 * (T * s1) := by
    have := abs_le.1 d1; have := abs_le.1 q1
    exact abs_le.2 ⟨by linarith, by linarith⟩
  have q3 : |c1 - p1| ≤ 2.02 * (T * s1) := by
    have := abs_le.1 b1; have := abs_le.1 q2
    exact abs_le.2 ⟨by linarith, by linarith⟩
  obtain ⟨v1, e2, r2, d2⟩ := fl_bound ((M1.smul 2.02 (by norm_num) (by norm_num)).mono (by norm_num)) q3
  refine ⟨v1, ?_, r2, ?_, ?_⟩
  · show (sub (.ok c1) (add zero (fl b64 (l10 * c0)))) = _
    rw [e1, zero_add_exact ((M1.smul 1.02 (by norm_num) (by norm_num)).mono (by norm_num)) q2 r1]
    exact e2
  · have := abs_le.1 d2; have := abs_le.1 q3
    exact abs_le.2 ⟨by linarith, by linarith⟩
  · have := abs_le.1 d1; have := abs_le.1 d2
    have := mul_pos hu p
    exact abs_le.2 ⟨by linarith, by linarith⟩

/-- Second step: `v2 = c2 - (l20 * c0 + l21 * v1)`. -/
theorem fwd2 {s0 s1 s2 l10 l20 l21 c0 v1 c2 T : ℚ} (H : Mult s0 s1 s2 l10 l20 l21) (hT : Mag 300 T)
    (b0 : |c0| ≤ T * s0) (b1 : |v1| ≤ 2.03 * (T * s1)) (b2 : |c2| ≤ T * s2) :
    ∃ v2, sub (.ok c2) (add (add zero (mulD (.ok l20) (.ok c0))) (mulD (.ok l21) (.ok v1))) = .ok v2 ∧ Representable b64 v2 ∧
      |v2| ≤ 4.1 * (T * s2) ∧ |v2 - (c2 - l20 * c0 - l21 * v1)| ≤ 10.3 * u * (T * s2) := by
  have hu := u_pos
  have hu2 := u_small
  have M1 : Mag 400 (T * s2) := hT.mul H.m2
  have p := M1.pos
  have hT0 := hT.pos.le
  have ud : u * (T * s2) ≤ 0.001 * (T * s2) := mul_le_mul_of_nonneg_right (by norm_num at hu2 ⊢; linarith) p.le
  have q1 : |l20 * c0| ≤ 1.01 * (T * s2) := by
    have := mul_scaled H.h20 b0 hT0; linarith
  obtain ⟨p1, e1, r1, d1⟩ := fl_bound ((M1.smul 1.01 (by norm_num) (by norm_num)).mono (by norm_num)) q1
  have q2 : |p1| ≤ 1.02 * (T * s2) := by
    have := abs_le.1 d1; have := abs_le.1 q1
    exact abs_le.2 ⟨by linarith, by linarith⟩
  have q3 : |l21 * v1| ≤ 2.06 * (T * s2) := by
    have := mul_scaled (v := v1) (b := 2.03 * T) H.h21 (by linarith) (by linarith); linarith
  obtain ⟨p2, e2, r2, d2⟩ := fl_bound ((M1.smul 2.06 (by norm_num) (by norm_num)).mono (by norm_num)) q3
  have q4 : |p2| ≤ 2.07 * (T * s2) := by
    have := abs_le.1 d2; have := abs_le.1 q3
    exact abs_le.2 ⟨by linarith, by linarith⟩
  have q5 : |p1 + p2| ≤ 3.08 * (T * s2) := by
    have := abs_le.1 d1; have := abs_le.1 d2; have := abs_le.1 q1; have := abs_le.1 q3
    exact abs_le.2 ⟨by linarith, by linarith⟩
  obtain ⟨p3, e3, r3, d3⟩ := fl_bound ((M1.smul 3.08 (by norm_num) (by norm_num)).mono (by norm_num)) q5
  have q6 : |c2 - p3| ≤ 4.09 * (T * s2) := by
    have := abs_le.1 d3; have := abs_le.1 q5; have := abs_le.1 b2
    exact abs_le.2 ⟨by linarith, by linarith⟩
  obtain ⟨v2, e4, r4, d4⟩ := fl_bound ((M1.smul 4.09 (by norm_num) (by norm_num)).mono (by norm_num)) q6
  refine ⟨v2, ?_, r4, ?_, ?_⟩
  · show (sub (.ok c2) (add (add zero (fl b64 (l20 * c0))) (fl b64 (l21 * v1)))) = _
    rw [e1, zero_add_exact ((M1.smul 1.02 (by norm_num) (by norm_num)).mono (by norm_num)) q2 r1, e2]
    show (sub (.ok c2) (fl b64 (p1 + p2))) = _
    rw [e3]
    exact e4
  · have := abs_le.1 d4; have := abs_le.1 q6
    exact abs_le.2 ⟨by linarith, by linarith⟩
  · have := abs_le.1 d1; have := abs_le.1 d2; have := abs_le.1 d3; have := abs_le.1 d4
    have := mul_pos hu p
    exact abs_le.2 ⟨by linarith, by linarith⟩

/-! ### Division by the pivot -/

/-- The reciprocal of the pivot. -/
theorem recip {x : ℚ} (hx : Mag 200 |x|) : ∃ ρ, divD one (.ok x) = .ok ρ ∧ |ρ * x - 1| ≤ u := by
  have hx0 : x ≠ 0 := abs_pos.1 hx.pos
  obtain ⟨ρ, e, -, d⟩ := fl_bound (q := 1 / x) (B := 1 / |x|) (hx.inv.mono (by norm_num)) (by rw [abs_div, abs_one])
  refine ⟨ρ, ?_, ?_⟩
  · show (if x = 0 then .error .nonfinite else fl b64 (1 / x)) = _
    rw [if_neg hx0, e]
  · have : ρ * x - 1 = (ρ - 1 / x) * x := by field_simp
    rw [this, abs_mul]
    calc |ρ - 1 / x| * |x| ≤ u * (1 / |x|) * |x| := mul_le_mul_of_nonneg_right d (abs_nonneg _)
      _ = u := by have := hx.pos.ne'; field_simp

/-- The multiplier `l = a * ρ`: `k` bounds `a` relative to the scale of its row. -/
theorem multiplier {s0 s x ρ a k : ℚ} (m0 : Mag 100 s0) (m : Mag 100 s) (hx : Mag 200 |x|) (hρ : |ρ * x - 1| ≤ u)
    (hp : |a| * s0 ≤ 1.001 * (|x| * s)) (ha : |a| ≤ k * s) (hxk : |x| ≤ k * s0) (hk : 0 ≤ k) :
    ∃ l, mulD (.ok a) (.ok ρ) = .ok l ∧ Representable b64 l ∧ |l| * s0 ≤ 1.01 * s ∧ |l * x - a| ≤ 2.02 * k * u * s := by
  have hu := u_pos
  have hu2 := u_small
  have p0 := m0.pos
  have p := m.pos
  have px := hx.pos
  have hx0 : x ≠ 0 := abs_pos.1 px
  have M1 : Mag 200 (s / s0) := m.div m0
  have M2 : 0 < s / s0 := M1.pos
  have eρ : |ρ| * |x| ≤ 1 + u := by
    rw [← abs_mul]
    have := abs_sub_abs_le_abs_sub (ρ * x) 1
    rw [abs_one] at this
    linarith
  have es : s / s0 * s0 = s := by field_simp
  have q1 : |a * ρ| ≤ 1.005 * (s / s0) := by
    rw [abs_mul]
    have h1 : |a| * s0 * (|ρ| * |x|) ≤ 1.001 * (|x| * s) * (1 + u) :=
      mul_le_mul hp eρ (by positivity) (by positivity)
    have h2 : (|a| * |ρ|) * (s0 * |x|) ≤ 1.005 * (s / s0) * (s0 * |x|) := by
      have e1 : (|a| * |ρ|) * (s0 * |x|) = |a| * s0 * (|ρ| * |x|) := by ring
      have e2 : 1.005 * (s / s0) * (s0 * |x|) = 1.005 * (|x| * s) := by
        linear_combination (1.005 * |x|) * es
      rw [e1, e2]
      refine h1.trans ?_
      have : 0 < |x| * s := mul_pos px p
      have h3 : u * (|x| * s) ≤ 0.001 * (|x| * s) := mul_le_mul_of_nonneg_right (by norm_num at hu2 ⊢; linarith) this.le
      linarith
    exact le_of_mul_le_mul_right h2 (mul_pos p0 px)
  obtain ⟨l, e, r, d⟩ := fl_bound ((M1.smul 1.005 (by norm_num) (by norm_num)).mono (by norm_num)) q1
  refine ⟨l, e, r, ?_, ?_⟩
  · have h1 : |l| ≤ 1.01 * (s / s0) := by
      have := abs_sub_abs_le_abs_sub l (a * ρ)
      have h3 : u * (s / s0) ≤ 0.001 * (s / s0) := mul_le_mul_of_nonneg_right (by norm_num at hu2 ⊢; linarith) M2.le
      linarith
    have := mul_le_mul_of_nonneg_right h1 p0.le
    linarith
  · have : l * x - a = (l - a * ρ) * x + a * (ρ * x - 1) := by ring
    rw [this]
    refine (abs_add_le _ _).trans ?_
    rw [abs_mul, abs_mul]
    have h1 : |l - a * ρ| * |x| ≤ u * (1.005 * (s / s0)) * (k * s0) := mul_le_mul d hxk (abs_nonneg _) (by positivity)
    have h2 : |a| * |ρ * x - 1| ≤ k * s * u := mul_le_mul ha hρ (abs_nonneg _) (by positivity)
    have e3 : u * (1.005 * (s / s0)) * (k * s0) = 1.005 * (k * u * s) := by linear_combination (1.005 * u * k) * es
    have : 0 ≤ k * u * s := by positivity
    linarith

/-! ### Backward substitution -/

theorem division {d x B : ℚ} {n m : ℕ} (hx : Mag m |x|) (hB : Mag n B) (hn : n + m ≤ 1000) (hd : |d| ≤ B) :
    ∃ r, divD (.ok d) (.ok x) = .ok r ∧ Representable b64 r ∧ |r * x - d| ≤ u * B ∧ |r| ≤ 2 * (B / |x|) := by
  have px := hx.pos
  have hx0 : x ≠ 0 := abs_pos.1 px
  have M := hB.div hx
  have q : |d / x| ≤ B / |x| := by rw [abs_div]; exact div_le_div_of_nonneg_right hd px.le
  obtain ⟨r, e, rr, dd⟩ := fl_bound (M.mono hn) q
  refine ⟨r, ?_, rr, ?_, ?_⟩
  · show (if x = 0 then .error .nonfinite else fl b64 (d / x)) = _
    rw [if_neg hx0, e]
  · have : r * x - d = (r - d / x) * x := by field_simp
    rw [this, abs_mul]
    calc |r - d / x| * |x| ≤ u * (B / |x|) * |x| := mul_le_mul_of_nonneg_right dd (abs_nonneg _)
      _ = u * B := by field_simp
  · have h1 := abs_sub_abs_le_abs_sub r (d / x)
    have h2 : u * (B / |x|) ≤ 1 * (B / |x|) := mul_le_mul_of_nonneg_right (by have := u_le; linarith) M.pos.le
    linarith

theorem mag_add {n : ℕ} {T b : ℚ} {m : ℕ} (hT : Mag m T) (h0 : 0 ≤ b) (hb : b ≤ 2 ^ n) (hmn : m ≤ n) : Mag (n + 1) (b + T) := by
  have h1 := hT.mono (m := n + 1) (by omega)
  have h2 := (hT.mono hmn).2
  refine ⟨by linarith [h1.1], ?_⟩
  rw [pow_succ]
  linarith

theorem pow_dbl {n : ℕ} {x a : ℚ} (h : x ≤ 2 * a) (ha : a ≤ 2 ^ n) : x ≤ 2 ^ (n + 1) := by
  rw [pow_succ']; linarith

theorem pow_add_le {n m : ℕ} {x a : ℚ} (h : x ≤ 2 ^ n) (ha : a ≤ 2 ^ m) (hm : m ≤ n) : x + a ≤ 2 ^ (n + 1) := by
  have : (2 : ℚ) ^ m ≤ 2 ^ n := pow_le_pow_right₀ (by norm_num) hm
  rw [pow_succ']; linarith

/-- Bounds of the upper triangle. -/
structure Upper (s0 s1 s2 u00 u01 u02 u11 u12 u22 : ℚ) : Prop where
  m0 : Mag 40 s0
  m1 : Mag 40 s1
  m2 : Mag 40 s2
  p0 : Mag 100 |u00|
  p1 : Mag 100 |u11|
  p2 : Mag 100 |u22|
  h01 : |u01| ≤ s0
  h02 : |u02| ≤ s0
  h12 : |u12| ≤ 2.03 * s1

theorem mul_bound {a b s z k : ℚ} (ha : |a| ≤ k * s) (hb : |b| ≤ z) (hk : 0 ≤ k * s) : |a * b| ≤ k * (s * z) := by
  rw [abs_mul]
  have := mul_le_mul ha hb (abs_nonneg _) hk
  linarith

theorem bwd {s0 s1 s2 u00 u01 u02 u11 u12 u22 y0 y1 y2 T : ℚ} (H : Upper s0 s1 s2 u00 u01 u02 u11 u12 u22) (hT : Mag 40 T)
    (r2 : Representable b64 y2) (b0 : |y0| ≤ T * s0) (b1 : |y1| ≤ 2.03 * (T * s1)) (b2 : |y2| ≤ 4.1 * (T * s2)) :
    ∃ x0 x1 x2, divD (sub (.ok y2) zero) (.ok u22) = .ok x2 ∧
      divD (sub (.ok y1) (add zero (mulD (.ok u12) (.ok x2)))) (.ok u11) = .ok x1 ∧
      divD (sub (.ok y0) (add (add zero (mulD (.ok u01) (.ok x1))) (mulD (.ok u02) (.ok x2)))) (.ok u00) = .ok x0 ∧
      (Representable b64 x0 ∧ Representable b64 x1 ∧ Representable b64 x2) ∧
      |u22 * x2 - y2| ≤ 4.2 * u * (s2 * (|x0| + |x1| + |x2| + T)) ∧
      |u11 * x1 + u12 * x2 - y1| ≤ 10.4 * u * (s1 * (|x0| + |x1| + |x2| + T)) ∧
      |u00 * x0 + u01 * x1 + u02 * x2 - y0| ≤ 10.2 * u * (s0 * (|x0| + |x1| + |x2| + T)) ∧
      |x0| ≤ 2 ^ 500 ∧ |x1| ≤ 2 ^ 500 ∧ |x2| ≤ 2 ^ 500 := by
  have hu := u_pos
  have hu2 := u_small
  have hu3 : u ≤ 0.001 := by norm_num at hu2 ⊢; linarith
  have ps0 := H.m0.pos
  have ps1 := H.m1.pos
  have ps2 := H.m2.pos
  have pT := hT.pos
  have M2 : Mag 80 (T * s2) := hT.mul H.m2
  have M2' : Mag 84 (4.1 * (T * s2)) := M2.smul 4.1 (by norm_num) (by norm_num)
  obtain ⟨x2, e2, rx2, d2, n2⟩ := division H.p2 M2' (by norm_num) b2
  have n2' : |x2| ≤ 2 ^ 185 := pow_dbl n2 (M2'.div H.p2).2
  -- row 1
  obtain ⟨Z2, hZ2⟩ : ∃ Z2, Z2 = |x2| + T := ⟨_, rfl⟩
  have MZ2 : Mag 186 Z2 := hZ2 ▸ mag_add hT (abs_nonneg _) n2' (by norm_num)
  have M1 : Mag 226 (s1 * Z2) := (H.m1.mul MZ2).mono (by norm_num)
  have pM1 := M1.pos
  have u1 : u * (s1 * Z2) ≤ 0.001 * (s1 * Z2) := mul_le_mul_of_nonneg_right hu3 pM1.le
  have tz : T * s1 ≤ s1 * Z2 := by
    rw [mul_comm]; exact mul_le_mul_of_nonneg_left (by rw [hZ2]; linarith [abs_nonneg x2]) ps1.le
  have c1 : |u12 * x2| ≤ 2.03 * (s1 * Z2) := mul_bound H.h12 (by rw [hZ2]; linarith) (by linarith)
  obtain ⟨q1, f1, g1, k1⟩ := fl_bound ((M1.smul 2.03 (by norm_num) (by norm_num)).mono (by norm_num)) c1
  have c2 : |q1| ≤ 2.04 * (s1 * Z2) := by
    have := abs_le.1 k1; have := abs_le.1 c1
    exact abs_le.2 ⟨by linarith, by linarith⟩
  have c3 : |y1 - q1| ≤ 4.1 * (s1 * Z2) := by
    have := abs_le.1 c2; have := abs_le.1 b1
    exact abs_le.2 ⟨by linarith, by linarith⟩
  obtain ⟨q2, f2, g2, k2⟩ := fl_bound ((M1.smul 4.1 (by norm_num) (by norm_num)).mono (by norm_num)) c3
  have c4 : |q2| ≤ 4.2 * (s1 * Z2) := by
    have := abs_le.1 k2; have := abs_le.1 c3
    exact abs_le.2 ⟨by linarith, by linarith⟩
  have M1' : Mag 230 (4.2 * (s1 * Z2)) := M1.smul 4.2 (by norm_num) (by norm_num)
  obtain ⟨x1, e1, rx1, d1, n1⟩ := division H.p1 M1' (by norm_num) c4
  have n1' : |x1| ≤ 2 ^ 331 := pow_dbl n1 (M1'.div H.p1).2
  -- row 0
  obtain ⟨Z1, hZ1⟩ : ∃ Z1, Z1 = |x1| + |x2| + T := ⟨_, rfl⟩
  have MZ1 : Mag 333 Z1 := by
    rw [hZ1]
    exact mag_add hT (by positivity) (pow_add_le n1' n2' (by norm_num)) (by norm_num)
  have M0 : Mag 373 (s0 * Z1) := (H.m0.mul MZ1).mono (by norm_num)
  have pM0 := M0.pos
  have u0 : u * (s0 * Z1) ≤ 0.001 * (s0 * Z1) := mul_le_mul_of_nonneg_right hu3 pM0.le
  have tz0 : T * s0 ≤ s0 * Z1 := by
    rw [mul_comm]; exact mul_le_mul_of_nonneg_left (by rw [hZ1]; linarith [abs_nonneg x2, abs_nonneg x1]) ps0.le
  have a1 : |u01 * x1| ≤ 1 * (s0 * Z1) := mul_bound (by linarith [H.h01]) (by rw [hZ1]; linarith [abs_nonneg x2]) (by linarith)
  have a2 : |u02 * x2| ≤ 1 * (s0 * Z1) := mul_bound (by linarith [H.h02]) (by rw [hZ1]; linarith [abs_nonneg x1]) (by linarith)
  obtain ⟨w1, h1, i1, j1⟩ := fl_bound ((M0.smul 1 (by norm_num) (by norm_num)).mono (by norm_num)) a1
  obtain ⟨w2, h2, i2, j2⟩ := fl_bound ((M0.smul 1 (by norm_num) (by norm_num)).mono (by norm_num)) a2
  have a3 : |w1| ≤ 1.01 * (s0 * Z1) := by
    have := abs_le.1 j1; have := abs_le.1 a1
    exact abs_le.2 ⟨by linarith, by linarith⟩
  have a4 : |w1 + w2| ≤ 2.01 * (s0 * Z1) := by
    have := abs_le.1 j1; have := abs_le.1 a1; have := abs_le.1 j2; have := abs_le.1 a2
    exact abs_le.2 ⟨by linarith, by linarith⟩
  obtain ⟨w3, h3, i3, j3⟩ := fl_bound ((M0.smul 2.01 (by norm_num) (by norm_num)).mono (by norm_num)) a4
  have a5 : |y0 - w3| ≤ 3.02 * (s0 * Z1) := by
    have := abs_le.1 j3; have := abs_le.1 a4; have := abs_le.1 b0
    exact abs_le.2 ⟨by linarith, by linarith⟩
  obtain ⟨w4, h4, i4, j4⟩ := fl_bound ((M0.smul 3.02 (by norm_num) (by norm_num)).mono (by norm_num)) a5
  have a6 : |w4| ≤ 3.03 * (s0 * Z1) := by
    have := abs_le.1 j4; have := abs_le.1 a5
    exact abs_le.2 ⟨by linarith, by linarith⟩
  have M0' : Mag 377 (3.03 * (s0 * Z1)) := M0.smul 3.03 (by norm_num) (by norm_num)
  obtain ⟨x0, e0, rx0, d0, n0⟩ := division H.p0 M0' (by norm_num) a6
  have n0' : |x0| ≤ 2 ^ 478 := pow_dbl n0 (M0'.div H.p0).2
  obtain ⟨Z, hZ⟩ : ∃ Z, Z = |x0| + |x1| + |x2| + T := ⟨_, rfl⟩
  have z2 : T * s2 ≤ s2 * Z := by
    rw [mul_comm]; exact mul_le_mul_of_nonneg_left (by rw [hZ]; linarith [abs_nonneg x2, abs_nonneg x1, abs_nonneg x0]) ps2.le
  have z1 : s1 * Z2 ≤ s1 * Z := mul_le_mul_of_nonneg_left (by rw [hZ, hZ2]; linarith [abs_nonneg x1, abs_nonneg x0]) ps1.le
  have z0 : s0 * Z1 ≤ s0 * Z := mul_le_mul_of_nonneg_left (by rw [hZ, hZ1]; linarith [abs_nonneg x0]) ps0.le
  have z2' := mul_le_mul_of_nonneg_left z2 hu.le
  have z1' := mul_le_mul_of_nonneg_left z1 hu.le
  have z0' := mul_le_mul_of_nonneg_left z0 hu.le
  have pu0 := mul_pos hu pM0
  have pu1 := mul_pos hu pM1
  have pu2 := mul_pos hu M2.pos
  have big : ∀ {n : ℕ} {x : ℚ}, |x| ≤ 2 ^ n → n ≤ 500 → |x| ≤ 2 ^ 500 := fun h hn => h.trans (pow_le_pow_right₀ (by norm_num) hn)
  refine ⟨x0, x1, x2, ?_, ?_, ?_, ⟨rx0, rx1, rx2⟩, ?_, ?_, ?_, big n0' (by norm_num), big n1' (by norm_num), big n2' (by norm_num)⟩
  all_goals try rw [← hZ]
  · rw [sub_zero_exact (M2'.mono (by norm_num)) b2 r2]; exact e2
  · show divD (sub (.ok y1) (add zero (fl b64 (u12 * x2)))) (.ok u11) = _
    rw [f1, zero_add_exact ((M1.smul 2.04 (by norm_num) (by norm_num)).mono (by norm_num)) c2 g1]
    show divD (fl b64 (y1 - q1)) (.ok u11) = _
    rw [f2]; exact e1
  · show divD (sub (.ok y0) (add (add zero (fl b64 (u01 * x1))) (fl b64 (u02 * x2)))) (.ok u00) = _
    rw [h1, zero_add_exact ((M0.smul 1.01 (by norm_num) (by norm_num)).mono (by norm_num)) a3 i1, h2]
    show divD (sub (.ok y0) (fl b64 (w1 + w2))) (.ok u00) = _
    rw [h3]
    show divD (fl b64 (y0 - w3)) (.ok u00) = _
    rw [h4]; exact e0
  · have := abs_le.1 d2
    exact abs_le.2 ⟨by linarith, by linarith⟩
  · have := abs_le.1 d1; have := abs_le.1 k1; have := abs_le.1 k2
    exact abs_le.2 ⟨by linarith, by linarith⟩
  · have := abs_le.1 d0; have := abs_le.1 j1; have := abs_le.1 j2; have := abs_le.1 j3; have := abs_le.1 j4
    exact abs_le.2 ⟨by linarith, by linarith⟩

end Verif.Linalg64
