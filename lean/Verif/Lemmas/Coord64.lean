import Verif.Spec.Coord64
import Verif.Lemmas.Coord
import Verif.Lemmas.FloatRep
import Mathlib.Analysis.Real.Pi.Bounds

/-!
# Error analysis of the coordinate conversions
-/

namespace Verif.Coord64

open Verif Spec

/-- Half a unit in the last place of 1. -/
@[irreducible] noncomputable def eps : ℝ := 2⁻¹ ^ 53

theorem eps_pos : 0 < eps := by unfold eps; positivity
/-- A bound for the errors of numbers near the smallest `double`. -/
@[irreducible] noncomputable def tiny : ℝ := 2⁻¹ ^ 100

theorem tiny_pos : 0 < tiny := by unfold tiny; positivity
theorem tiny_small : 4 * tiny ≤ eps / 1000 := by unfold tiny eps; norm_num
theorem tiny_sq : tiny ^ 2 ≤ eps / 1000 := by
  have h1 := tiny_pos
  have h2 := tiny_small
  have h3 : tiny ≤ 1 := by unfold tiny; norm_num
  nlinarith

theorem eps_small : eps ≤ 1 / 10 ^ 15 := by unfold eps; norm_num

/-! ### Rounding -/

theorem fl_err (k : ℕ) (hk : k ≤ 20) (q : ℚ) (h : |(q : ℝ)| < 2 ^ k) : ∃ q', fl b64 q = .ok q' ∧ |(q' : ℝ) - q| ≤ 2 ^ k / 2 * eps := by
  have hq : |q| < (2 : ℚ) ^ (k : ℤ) := by rw [zpow_natCast]; exact_mod_cast h
  have hb : |q| ≤ 10000000 := by
    refine hq.le.trans ?_
    rw [zpow_natCast]
    exact (pow_le_pow_right₀ (by norm_num) hk).trans (by norm_num)
  refine ⟨rnd b64 q, fl_eq_rnd_64 hb, ?_⟩
  have he := rnd_error_lt (F := b64) hq (by simp only [b64]; omega)
  have : |((rnd b64 q - q : ℚ) : ℝ)| ≤ ((2 : ℚ) ^ ((k : ℤ) - (b64.prec : ℤ) - 1) : ℚ) := by exact_mod_cast he
  push_cast at this
  refine this.trans (le_of_eq ?_)
  unfold eps
  have hz : (k : ℤ) - (b64.prec : ℤ) - 1 = (k : ℤ) + (-54) := by simp only [b64]; ring
  rw [hz, zpow_add₀ (by norm_num), zpow_natCast]
  norm_num
  ring

theorem fl_rel (q : ℚ) (h : |(q : ℝ)| ≤ 1000) : ∃ q', fl b64 q = .ok q' ∧ |(q' : ℝ) - q| ≤ eps * |(q : ℝ)| + tiny ^ 2 := by
  have hb : |q| ≤ 10000000 := by
    have : |q| ≤ 1000 := by exact_mod_cast h
    linarith
  refine ⟨rnd b64 q, fl_eq_rnd_64 hb, ?_⟩
  by_cases hn : (2 : ℚ) ^ (b64.emin + b64.prec - 1) ≤ |q|
  · have he := rnd_rel (F := b64) hn
    have h2 : |((rnd b64 q - q : ℚ) : ℝ)| ≤ ((|q| * (2 : ℚ) ^ (-(b64.prec : ℤ)) : ℚ) : ℝ) := by exact_mod_cast he
    push_cast at h2
    have e : (2 : ℝ) ^ (-(b64.prec : ℤ)) = eps := by
      unfold eps b64; rw [zpow_neg, zpow_natCast, inv_pow]
    rw [e] at h2
    have : (0 : ℝ) < tiny ^ 2 := by have := tiny_pos; positivity
    linarith
  · have hq : |q| < (2 : ℚ) ^ (-900 : ℤ) :=
      (not_le.1 hn).trans_le (zpow_le_zpow_right₀ (by norm_num) (by simp only [b64]; norm_num))
    have he := rnd_error_lt (F := b64) hq (by simp only [b64]; norm_num)
    have h2 : |((rnd b64 q - q : ℚ) : ℝ)| ≤ ((2 : ℚ) ^ ((-900 : ℤ) - (b64.prec : ℤ) - 1) : ℚ) := by exact_mod_cast he
    push_cast at h2
    have e : (2 : ℝ) ^ ((-900 : ℤ) - (b64.prec : ℤ) - 1) ≤ tiny ^ 2 := by
      unfold tiny
      rw [← pow_mul, inv_pow, ← zpow_natCast, ← zpow_neg]
      exact zpow_le_zpow_right₀ (by norm_num) (by simp only [b64]; norm_num)
    have := mul_nonneg eps_pos.le (abs_nonneg (q : ℝ))
    linarith

/-! ### Errors of products and sums -/

theorem prod_err {a b a' b' e1 e2 : ℝ} (ha : |a| ≤ 1) (hb : |b| ≤ 1) (h1 : |a' - a| ≤ e1) (h2 : |b' - b| ≤ e2)
    (s1 : e1 ≤ 1000 * eps) (s2 : e2 ≤ 1000 * eps) : |a' * b' - a * b| ≤ e1 + e2 + eps / 2 := by
  have he := eps_pos
  have hs := eps_small
  have e : a' * b' - a * b = (a' - a) * (b' - b) + (a' - a) * b + a * (b' - b) := by ring
  rw [e]
  have t1 : |(a' - a) * (b' - b)| ≤ eps / 2 := by
    rw [abs_mul]
    calc |a' - a| * |b' - b| ≤ (1000 * eps) * (1000 * eps) :=
          mul_le_mul (h1.trans s1) (h2.trans s2) (abs_nonneg _) (by positivity)
      _ ≤ eps / 2 := by nlinarith
  have t2 : |(a' - a) * b| ≤ e1 := by
    rw [abs_mul]; nlinarith [abs_nonneg (a' - a), abs_nonneg b]
  have t3 : |a * (b' - b)| ≤ e2 := by
    rw [abs_mul]; nlinarith [abs_nonneg (b' - b), abs_nonneg a]
  calc _ ≤ |(a' - a) * (b' - b) + (a' - a) * b| + |a * (b' - b)| := abs_add_le _ _
    _ ≤ |(a' - a) * (b' - b)| + |(a' - a) * b| + |a * (b' - b)| := by gcongr; exact abs_add_le _ _
    _ ≤ _ := by linarith

/-- A rounded product of two numbers up to 1. -/
theorem fl_mul (a' b' : ℚ) {a b e1 e2 : ℝ} (ha : |a| ≤ 1) (hb : |b| ≤ 1) (h1 : |(a' : ℝ) - a| ≤ e1) (h2 : |(b' : ℝ) - b| ≤ e2)
    (s1 : e1 ≤ 1000 * eps) (s2 : e2 ≤ 1000 * eps) :
    ∃ q, fl b64 (a' * b') = .ok q ∧ |(q : ℝ) - a * b| ≤ e1 + e2 + 2 * eps := by
  have hs := eps_small
  have hp := prod_err ha hb h1 h2 s1 s2
  have hab : |a * b| ≤ 1 := by rw [abs_mul]; nlinarith [abs_nonneg a, abs_nonneg b]
  have hlt : |((a' * b' : ℚ) : ℝ)| < 2 ^ 1 := by
    push_cast
    have := abs_sub_abs_le_abs_sub ((a' : ℝ) * b') (a * b)
    have : eps ≤ 1 / 10 ^ 15 := hs
    norm_num at *
    linarith
  obtain ⟨q, hq, he⟩ := fl_err 1 (by norm_num) _ hlt
  refine ⟨q, hq, ?_⟩
  push_cast at he
  have := abs_sub_le (q : ℝ) ((a' : ℝ) * b') (a * b)
  have := eps_pos
  linarith

/-- A rounded sum whose exact value is at most 1. -/
theorem fl_add1 (a' b' : ℚ) {a b e1 e2 : ℝ} (hab : |a + b| ≤ 1) (h1 : |(a' : ℝ) - a| ≤ e1) (h2 : |(b' : ℝ) - b| ≤ e2)
    (s1 : e1 ≤ 1000 * eps) (s2 : e2 ≤ 1000 * eps) :
    ∃ q, fl b64 (a' + b') = .ok q ∧ |(q : ℝ) - (a + b)| ≤ e1 + e2 + eps := by
  have hs := eps_small
  have hp : |((a' : ℝ) + b') - (a + b)| ≤ e1 + e2 := by
    have : ((a' : ℝ) + b') - (a + b) = (a' - a) + (b' - b) := by ring
    rw [this]; exact (abs_add_le _ _).trans (add_le_add h1 h2)
  have hlt : |((a' + b' : ℚ) : ℝ)| < 2 ^ 1 := by
    push_cast
    have := abs_sub_abs_le_abs_sub ((a' : ℝ) + b') (a + b)
    norm_num at *
    linarith
  obtain ⟨q, hq, he⟩ := fl_err 1 (by norm_num) _ hlt
  refine ⟨q, hq, ?_⟩
  push_cast at he
  have := abs_sub_le (q : ℝ) ((a' : ℝ) + b') (a + b)
  linarith

/-! ### Degrees and radians -/

theorem pi_err : |(PI : ℝ) - Real.pi| ≤ 2 * eps := by
  have h1 := Real.pi_gt_d20
  have h2 := Real.pi_lt_d20
  unfold PI eps
  rw [abs_le]
  constructor <;> push_cast <;> norm_num <;> norm_num at h1 h2 <;> linarith

theorem pi_bounds : (3.14 : ℝ) < PI ∧ (PI : ℝ) < 3.15 := by
  unfold PI; constructor <;> push_cast <;> norm_num

theorem rad_err (d : ℚ) (h : |(d : ℝ)| ≤ 361) : ∃ r, rad d = .ok r ∧ |(r : ℝ) - Coord.rad d| ≤ 15 * eps ∧ |r| ≤ 7 := by
  have hs := eps_small
  have he := eps_pos
  have hpi := pi_err
  obtain ⟨p1, p2⟩ := pi_bounds
  have b1 : |((d * PI : ℚ) : ℝ)| < 2 ^ 11 := by
    push_cast
    rw [abs_mul, abs_of_pos (by linarith : (0 : ℝ) < PI)]
    nlinarith [abs_nonneg (d : ℝ)]
  obtain ⟨a, ha, ea⟩ := fl_err 11 (by norm_num) _ b1
  push_cast at ea
  have b2 : |((a / 180 : ℚ) : ℝ)| ≤ 6.5 := by
    push_cast
    rw [abs_div, abs_of_pos (by norm_num : (0 : ℝ) < 180), div_le_iff₀ (by norm_num)]
    have := abs_sub_abs_le_abs_sub (a : ℝ) (d * PI)
    push_cast at b1
    have : |(d : ℝ) * PI| ≤ 361 * 3.15 := by
      rw [abs_mul, abs_of_pos (by linarith : (0 : ℝ) < PI)]
      nlinarith [abs_nonneg (d : ℝ)]
    norm_num at *
    linarith
  obtain ⟨r, hr, er⟩ := fl_err 3 (by norm_num) (a / 180) (lt_of_le_of_lt b2 (by norm_num))
  push_cast at er
  refine ⟨r, ?_, ?_, ?_⟩
  · unfold rad; rw [ha]; exact hr
  · unfold Coord.rad
    have e3 : |(d : ℝ) * PI / 180 - d * Real.pi / 180| ≤ 5 * eps := by
      have : (d : ℝ) * PI / 180 - d * Real.pi / 180 = d / 180 * (PI - Real.pi) := by ring
      rw [this, abs_mul]
      have : |(d : ℝ) / 180| ≤ 2.01 := by
        rw [abs_div, abs_of_pos (by norm_num : (0 : ℝ) < 180), div_le_iff₀ (by norm_num)]; linarith
      nlinarith [abs_nonneg ((PI : ℝ) - Real.pi), abs_nonneg ((d : ℝ) / 180)]
    have e2 : |(a : ℝ) / 180 - d * PI / 180| ≤ 6 * eps := by
      have : (a : ℝ) / 180 - d * PI / 180 = (a - d * PI) / 180 := by ring
      rw [this, abs_div, abs_of_pos (by norm_num : (0 : ℝ) < 180), div_le_iff₀ (by norm_num)]
      norm_num at ea; linarith
    have t1 := abs_sub_le (r : ℝ) (a / 180) (d * Real.pi / 180)
    have t2 := abs_sub_le ((a : ℝ) / 180) (d * PI / 180) (d * Real.pi / 180)
    norm_num at er
    linarith
  · have := abs_sub_abs_le_abs_sub (r : ℝ) (a / 180)
    push_cast at b2
    have : |(r : ℝ)| ≤ 7 := by norm_num at *; linarith
    exact_mod_cast this

theorem deg_err (r : ℚ) (h : |(r : ℝ)| ≤ 6.5) :
    ∃ d, deg r = .ok d ∧ |(d : ℝ) - Coord.deg r| ≤ 1000 * eps ∧ |Coord.rad d - r| ≤ 18 * eps := by
  have hs := eps_small
  have he := eps_pos
  have hpi := pi_err
  obtain ⟨p1, p2⟩ := pi_bounds
  have q1 := Real.pi_gt_d2
  have q2 := Real.pi_lt_d2
  have b1 : |((r * 180 : ℚ) : ℝ)| ≤ 1170 := by
    push_cast
    rw [abs_mul, abs_of_pos (by norm_num : (0 : ℝ) < 180)]
    norm_num at h ⊢
    linarith
  obtain ⟨a, ha, ea⟩ := fl_err 11 (by norm_num) _ (lt_of_le_of_lt b1 (by norm_num))
  push_cast at ea b1
  have hp0 : (0 : ℝ) < PI := by linarith
  have b2 : |(a : ℝ)| ≤ 1171 := by
    have := abs_sub_abs_le_abs_sub (a : ℝ) (r * 180)
    norm_num at *; linarith
  have b3 : |((a / PI : ℚ) : ℝ)| < 2 ^ 9 := by
    push_cast
    rw [abs_div, abs_of_pos hp0, div_lt_iff₀ hp0]
    nlinarith
  obtain ⟨d, hd, ed⟩ := fl_err 9 (by norm_num) (a / PI) b3
  push_cast at ed
  have key : |(d : ℝ) - Coord.deg r| ≤ 1000 * eps := by
    unfold Coord.deg
    have e2 : |(a : ℝ) / PI - r * 180 / PI| ≤ 327 * eps := by
      rw [← sub_div, abs_div, abs_of_pos hp0, div_le_iff₀ hp0]
      norm_num at ea; nlinarith
    have e3 : |(r : ℝ) * 180 / PI - r * 180 / Real.pi| ≤ 240 * eps := by
      have : (r : ℝ) * 180 / PI - r * 180 / Real.pi = r * 180 * (Real.pi - PI) / (PI * Real.pi) := by
        field_simp
      rw [this, abs_div, abs_mul, abs_of_pos (by positivity : (0 : ℝ) < PI * Real.pi), div_le_iff₀ (by positivity), abs_sub_comm]
      have : |(r : ℝ) * 180| * |(PI : ℝ) - Real.pi| ≤ 1170 * (2 * eps) := mul_le_mul b1 hpi (abs_nonneg _) (by norm_num)
      have : (9.8 : ℝ) ≤ PI * Real.pi := by nlinarith
      nlinarith
    have t1 := abs_sub_le (d : ℝ) (a / PI) (r * 180 / Real.pi)
    have t2 := abs_sub_le ((a : ℝ) / PI) (r * 180 / PI) (r * 180 / Real.pi)
    norm_num at ed
    linarith
  refine ⟨d, ?_, key, ?_⟩
  · unfold deg; rw [ha]; exact hd
  · have : Coord.rad d - r = Coord.rad (d - Coord.deg r) := by rw [Coord.rad_sub, Coord.rad_deg]
    rw [this]
    unfold Coord.rad
    rw [abs_div, abs_mul, abs_of_pos Real.pi_pos, abs_of_pos (by norm_num : (0 : ℝ) < 180), div_le_iff₀ (by norm_num)]
    nlinarith

/-- `deg` returns the rounded quotient of the rounded product. -/
theorem deg_eq (r d : ℚ) (h : |r| ≤ 7) (hd : deg r = .ok d) : d = rnd b64 (rnd b64 (r * 180) / PI) := by
  have b1 : |r * 180| ≤ 1260 := by rw [abs_mul, abs_of_pos (by norm_num : (0 : ℚ) < 180)]; linarith
  have b2 : |rnd b64 (r * 180)| ≤ 1260 :=
    rnd_abs_le (by decide) (representable_int (F := b64) (z := 1260) (by decide) (by decide) (by decide)) b1
  have b3 : |rnd b64 (r * 180) / PI| ≤ 1260 := by
    rw [abs_div, abs_of_pos (by unfold PI; norm_num : (0 : ℚ) < PI), div_le_iff₀ (by unfold PI; norm_num)]
    refine b2.trans ?_
    unfold PI; norm_num
  unfold deg at hd
  rw [fl_eq_rnd_64 (b1.trans (by norm_num))] at hd
  simp only [bind, Except.bind] at hd
  rw [fl_eq_rnd_64 (b3.trans (by norm_num))] at hd
  exact (Except.ok.inj hd).symm

/-- A full circle in radians is a full circle in degrees. -/
theorem deg_range (r d : ℚ) (h0 : 0 ≤ r) (h1 : r ≤ 2 * PI) (hd : deg r = .ok d) : 0 ≤ d ∧ d ≤ 360 := by
  have hpi : (0 : ℚ) < PI := by unfold PI; norm_num
  rw [deg_eq r d (by rw [abs_of_nonneg h0]; exact h1.trans (by unfold PI; norm_num)) hd]
  refine ⟨rnd_nonneg (div_nonneg (rnd_nonneg (by linarith)) hpi.le), ?_⟩
  have e : rnd b64 (rnd b64 (2 * PI * 180) / PI) = 360 := by decide +kernel
  rw [← e]
  refine rnd_mono (by decide) (div_le_div_of_nonneg_right (rnd_mono (by decide) (by linarith)) hpi.le)

/-! ### Sine and cosine -/

theorem sin_sub_le (x y : ℝ) : |Real.sin x - Real.sin y| ≤ |x - y| := by
  have := Real.lipschitzWith_sin.dist_le_mul x y
  simpa [Real.dist_eq] using this

theorem cos_sub_le (x y : ℝ) : |Real.cos x - Real.cos y| ≤ |x - y| := by
  have := Real.lipschitzWith_cos.dist_le_mul x y
  simpa [Real.dist_eq] using this

theorem two_eps : (2⁻¹ : ℝ) ^ 52 = 2 * eps := by unfold eps; norm_num
theorem four_eps : (2⁻¹ : ℝ) ^ 51 = 4 * eps := by unfold eps; norm_num

theorem libm_sin {M : Libm} (hM : Accurate M) {x' : ℚ} (hx : |x'| ≤ 7) {x e : ℝ} (h : |(x' : ℝ) - x| ≤ e) :
    |(M.sin x' : ℝ) - Real.sin x| ≤ e + 2 * eps := by
  have h1 := hM.sin x' hx
  rw [two_eps] at h1
  have h2 := sin_sub_le (x' : ℝ) x
  have h3 := abs_sub_le (M.sin x' : ℝ) (Real.sin x') (Real.sin x)
  linarith

theorem libm_cos {M : Libm} (hM : Accurate M) {x' : ℚ} (hx : |x'| ≤ 7) {x e : ℝ} (h : |(x' : ℝ) - x| ≤ e) :
    |(M.cos x' : ℝ) - Real.cos x| ≤ e + 2 * eps := by
  have h1 := hM.cos x' hx
  rw [two_eps] at h1
  have h2 := cos_sub_le (x' : ℝ) x
  have h3 := abs_sub_le (M.cos x' : ℝ) (Real.cos x') (Real.cos x)
  linarith

/-! ### The length of a vector -/

/-- Rounding the sum of the squares changes the length little. -/
theorem sqrt_near {s S c : ℝ} (hs : 0 ≤ s) (hS : 0 ≤ S) (h : |s - S| ≤ 3 * eps * S + 4 * c ^ 2) (hc : 0 < c) :
    |√s - √S| ≤ 3 * eps * √S + 4 * c := by
  have he := eps_pos
  have n0 := Real.sqrt_nonneg S
  have m0 := Real.sqrt_nonneg s
  have nn := Real.mul_self_sqrt hS
  have mm := Real.mul_self_sqrt hs
  set N := √S with hN
  set m := √s with hm
  obtain ⟨h1, h2⟩ := abs_le.1 h
  rw [abs_le]
  have hcc : 0 ≤ 3 * eps * N + 4 * c := by positivity
  constructor
  · by_contra hlt
    push Not at hlt
    -- m < N - (3 eps N + 4 c)
    have hpos : 0 ≤ N - (3 * eps * N + 4 * c) := by linarith
    have : m * m ≤ (N - (3 * eps * N + 4 * c)) * (N - (3 * eps * N + 4 * c)) := by
      apply mul_self_le_mul_self m0; linarith
    have h5 : (3 * eps * N + 4 * c) * (3 * eps * N + 4 * c) ≤ N * (3 * eps * N + 4 * c) :=
      mul_le_mul_of_nonneg_right (by linarith) hcc
    have h6 : 4 * c * (4 * c) ≤ N * (4 * c) := by
      apply mul_le_mul_of_nonneg_right _ (by positivity)
      have : 0 ≤ 3 * eps * N := by positivity
      linarith
    nlinarith
  · by_contra hlt
    push Not at hlt
    have : (N + (3 * eps * N + 4 * c)) * (N + (3 * eps * N + 4 * c)) ≤ m * m := by
      apply mul_self_le_mul_self (by positivity); linarith
    have h5 : 0 ≤ eps * N * c := by positivity
    have h6 : 0 ≤ N * c := by positivity
    have h7 : 0 ≤ eps * N * (eps * N) := by positivity
    have h8 : 0 < c * c := by positivity
    have h9 : 0 ≤ eps * (N * N) := by positivity
    nlinarith

/-- The computed length. -/
theorem norm_err {M : Libm} (hM : Accurate M) (x y : ℚ) (hx : |(x : ℝ)| ≤ 1.01) (hy : |(y : ℝ)| ≤ 1.01) :
    ∃ xx yy s, fl b64 (x * x) = .ok xx ∧ fl b64 (y * y) = .ok yy ∧ fl b64 (xx + yy) = .ok s ∧
      0 ≤ (M.sqrt s : ℝ) ∧ |(M.sqrt s : ℝ) - √(x * x + y * y)| ≤ 9 * eps ∧ (M.sqrt s ≠ 0 → x ≠ 0 ∨ y ≠ 0) := by
  have he := eps_pos
  have hsm := eps_small
  have sq : ∀ t : ℝ, |t| ≤ 1.01 → 0 ≤ t * t ∧ t * t ≤ 1.0201 := by
    intro t ht
    refine ⟨mul_self_nonneg t, ?_⟩
    have := abs_le.1 ht
    nlinarith
  obtain ⟨x0, x1⟩ := sq x hx
  obtain ⟨y0, y1⟩ := sq y hy
  obtain ⟨xx, hxx, ex⟩ := fl_rel (x * x) (by push_cast; rw [abs_of_nonneg x0]; linarith)
  obtain ⟨yy, hyy, ey⟩ := fl_rel (y * y) (by push_cast; rw [abs_of_nonneg y0]; linarith)
  push_cast at ex ey
  rw [abs_of_nonneg x0] at ex
  rw [abs_of_nonneg y0] at ey
  have ht' := tiny_pos
  have ht2 := tiny_sq
  have ht : 0 < tiny ^ 2 := by positivity
  have hb : |((xx + yy : ℚ) : ℝ)| ≤ 3 := by
    push_cast
    obtain ⟨a1, a2⟩ := abs_le.1 ex
    obtain ⟨b1, b2⟩ := abs_le.1 ey
    rw [abs_le]; constructor <;> nlinarith
  obtain ⟨s, hs, es⟩ := fl_rel (xx + yy) (hb.trans (by norm_num))
  push_cast at es hb
  have hnn : 0 ≤ s := by
    have hp : 0 < b64.prec := by decide
    have r1 : 0 ≤ xx := by
      unfold fl at hxx; split at hxx
      · injection hxx with hxx; rw [← hxx]; exact rnd_nonneg (mul_self_nonneg x)
      · cases hxx
    have r2 : 0 ≤ yy := by
      unfold fl at hyy; split at hyy
      · injection hyy with hyy; rw [← hyy]; exact rnd_nonneg (mul_self_nonneg y)
      · cases hyy
    unfold fl at hs; split at hs
    · injection hs with hs; rw [← hs]; exact rnd_nonneg (by linarith)
    · cases hs
  have hnr : (0 : ℝ) ≤ s := by exact_mod_cast hnn
  set S : ℝ := (x : ℝ) * x + y * y with hS
  have S0 : 0 ≤ S := by positivity
  have hxy : |(xx : ℝ) + yy| ≤ S + eps * S + 2 * tiny ^ 2 := by
    obtain ⟨a1, a2⟩ := abs_le.1 ex
    obtain ⟨b1, b2⟩ := abs_le.1 ey
    have : 0 ≤ eps * S := by positivity
    rw [abs_le]
    constructor <;> nlinarith
  have hmain : |(s : ℝ) - S| ≤ 3 * eps * S + 4 * tiny ^ 2 := by
    generalize tiny ^ 2 = w at *
    have t1 := abs_sub_le (s : ℝ) (xx + yy) S
    have t2 : |(xx : ℝ) + yy - S| ≤ eps * S + 2 * w := by
      have : (xx : ℝ) + yy - S = (xx - x * x) + (yy - y * y) := by rw [hS]; ring
      rw [this]
      have := abs_add_le ((xx : ℝ) - x * x) (yy - y * y)
      rw [hS]; linarith
    have t3 : eps * |(xx : ℝ) + yy| ≤ eps * (S + eps * S + 2 * w) := mul_le_mul_of_nonneg_left hxy he.le
    have t4 : eps * (eps * S) ≤ 0.5 * (eps * S) := by
      have : 0 ≤ eps * S := by positivity
      nlinarith
    have t5 : eps * (2 * w) ≤ 0.5 * w := by nlinarith
    have : 0 ≤ eps * S := by positivity
    nlinarith
  have hq := sqrt_near hnr S0 hmain ht'
  have hSb : √S ≤ 1.45 := by
    rw [Real.sqrt_le_left (by norm_num)]; nlinarith
  have hc := tiny_small
  have hsb : √(s : ℝ) ≤ 1.46 := by
    have := (abs_le.1 hq).2
    have : 3 * eps * √S ≤ 3 * eps * 1.45 := by apply mul_le_mul_of_nonneg_left hSb; positivity
    linarith
  have hacc := hM.sqrt s hnn
  rw [two_eps] at hacc
  have s0 := Real.sqrt_nonneg (s : ℝ)
  refine ⟨xx, yy, s, hxx, hyy, hs, ?_, ?_, ?_⟩
  · have := (abs_le.1 hacc).1
    nlinarith
  · have t := abs_sub_le (M.sqrt s : ℝ) (√(s : ℝ)) (√S)
    have : 3 * eps * √S ≤ 3 * eps * 1.45 := by apply mul_le_mul_of_nonneg_left hSb; positivity
    have : 2 * eps * √(s : ℝ) ≤ 2 * eps * 1.46 := by apply mul_le_mul_of_nonneg_left hsb; positivity
    linarith
  · intro hr
    by_contra hcon
    push Not at hcon
    obtain ⟨rfl, rfl⟩ := hcon
    have f0 : fl b64 0 = .ok 0 := by decide +kernel
    rw [mul_zero, f0] at hxx hyy
    injection hxx with hxx; injection hyy with hyy
    rw [← hxx, ← hyy, add_zero, f0] at hs
    injection hs with hs
    rw [← hs] at hacc hr
    simp at hacc
    exact hr hacc

theorem isAngle_cos {y x θ : ℝ} (h : IsAngle y x θ) : √(x * x + y * y) * Real.cos θ = x ∧ √(x * x + y * y) * Real.sin θ = y := by
  rcases h with rfl | ⟨rfl, hx, rfl⟩
  · exact ⟨Coord.atan2_cos y x, Coord.atan2_sin y x⟩
  · rw [Real.cos_neg, Real.sin_neg, Real.cos_pi, Real.sin_pi, mul_zero, add_zero, Real.sqrt_mul_self_eq_abs, abs_of_neg hx]
    constructor <;> ring

theorem isAngle_range {y x θ : ℝ} (h : IsAngle y x θ) : |θ| ≤ Real.pi := by
  rcases h with rfl | ⟨-, -, rfl⟩
  · exact Complex.abs_arg_le_pi _
  · rw [abs_neg, abs_of_pos Real.pi_pos]

theorem norm_sub_le (x y X Y : ℝ) : |√(x * x + y * y) - √(X * X + Y * Y)| ≤ |x - X| + |y - Y| := by
  have h := abs_norm_sub_norm_le (⟨x, y⟩ : ℂ) ⟨X, Y⟩
  rw [Coord.norm_mk, Coord.norm_mk] at h
  refine h.trans ?_
  have := Complex.norm_le_abs_re_add_abs_im ((⟨x, y⟩ : ℂ) - ⟨X, Y⟩)
  simpa using this

/-! ### The rotation -/

set_option maxHeartbeats 1000000 in
theorem turn_err {M : Libm} (hM : Accurate M) {lon' lat' phi' : ℚ} (b1 : |lon'| ≤ 7) (b2 : |lat'| ≤ 7) (b3 : |phi'| ≤ 7)
    {lon lat phi : ℝ} (e1 : |(lon' : ℝ) - lon| ≤ 30 * eps) (e2 : |(lat' : ℝ) - lat| ≤ 15 * eps) (e3 : |(phi' : ℝ) - phi| ≤ 15 * eps) :
    ∃ a e : ℚ, turn M lon' lat' phi' = .ok (a, e) ∧ |(a : ℝ)| ≤ 3.2 ∧ |(e : ℝ)| ≤ Real.pi / 2 + 4 * eps ∧
      |Real.cos e * Real.cos a - Coord.rx phi lon lat| ≤ 400 * eps ∧ |Real.cos e * Real.sin a - Coord.ry lon lat| ≤ 400 * eps ∧
      |Real.sin e - Coord.rz phi lon lat| ≤ 400 * eps := by
  have he := eps_pos
  have hsm := eps_small
  have sl := libm_sin hM b1 e1
  have cl := libm_cos hM b1 e1
  have st := libm_sin hM b2 e2
  have ct := libm_cos hM b2 e2
  have sp := libm_sin hM b3 e3
  have cp := libm_cos hM b3 e3
  have neg_err : ∀ {p : ℚ} {q e : ℝ}, |(p : ℝ) - q| ≤ e → |((-p : ℚ) : ℝ) - -q| ≤ e := by
    intro p q e h
    push_cast
    rw [show -(p : ℝ) - -q = -(p - q) by ring, abs_neg]; exact h
  have a1 : ∀ t, |Real.sin t| ≤ 1 := Real.abs_sin_le_one
  have a2 : ∀ t, |Real.cos t| ≤ 1 := Real.abs_cos_le_one
  have a3 : ∀ {p q : ℝ}, |p| ≤ 1 → |q| ≤ 1 → |p * q| ≤ 1 := by
    intro p q hp hq; rw [abs_mul]; nlinarith [abs_nonneg p, abs_nonneg q]
  have n := Coord.rot_norm phi lon lat
  have a4 : ∀ {p q r : ℝ}, p * p + q * q + r * r = 1 → |p| ≤ 1 := by
    intro p q r h
    rw [abs_le_one_iff_mul_self_le_one]
    nlinarith [mul_self_nonneg q, mul_self_nonneg r]
  have hX : |Coord.rx phi lon lat| ≤ 1 := a4 n
  have hY : |Coord.ry lon lat| ≤ 1 := a4 (p := Coord.ry lon lat) (q := Coord.rx phi lon lat) (r := Coord.rz phi lon lat) (by linarith)
  have hZ : |Coord.rz phi lon lat| ≤ 1 := a4 (p := Coord.rz phi lon lat) (q := Coord.rx phi lon lat) (r := Coord.ry lon lat) (by linarith)
  obtain ⟨x1, hx1, ex1⟩ := fl_mul (-M.cos lon') (M.cos lat') (by rw [abs_neg]; exact a2 lon) (a2 lat) (neg_err cl) ct (by linarith) (by linarith)
  obtain ⟨x2, hx2, ex2⟩ := fl_mul x1 (M.sin phi') (a3 (by rw [abs_neg]; exact a2 lon) (a2 lat)) (a1 phi) ex1 sp (by linarith) (by linarith)
  obtain ⟨x3, hx3, ex3⟩ := fl_mul (M.sin lat') (M.cos phi') (a1 lat) (a2 phi) st cp (by linarith) (by linarith)
  obtain ⟨x, hx, ex⟩ := fl_add1 x2 x3 hX ex2 ex3 (by linarith) (by linarith)
  obtain ⟨y, hy, ey⟩ := fl_mul (-M.sin lon') (M.cos lat') (by rw [abs_neg]; exact a1 lon) (a2 lat) (neg_err sl) ct (by linarith) (by linarith)
  obtain ⟨z1, hz1, ez1⟩ := fl_mul (M.cos lon') (M.cos lat') (a2 lon) (a2 lat) cl ct (by linarith) (by linarith)
  obtain ⟨z2, hz2, ez2⟩ := fl_mul z1 (M.cos phi') (a3 (a2 lon) (a2 lat)) (a2 phi) ez1 cp (by linarith) (by linarith)
  obtain ⟨z3, hz3, ez3⟩ := fl_mul (M.sin lat') (M.sin phi') (a1 lat) (a1 phi) st sp (by linarith) (by linarith)
  obtain ⟨z, hz, ez⟩ := fl_add1 z2 z3 hZ ez2 ez3 (by linarith) (by linarith)
  set X := Coord.rx phi lon lat with hXd
  set Y := Coord.ry lon lat with hYd
  set Z := Coord.rz phi lon lat with hZd
  have Ex : |(x : ℝ) - X| ≤ 107 * eps := by rw [hXd]; unfold Coord.rx; linarith
  have Ey : |(y : ℝ) - Y| ≤ 51 * eps := by rw [hYd]; unfold Coord.ry; linarith
  have Ez : |(z : ℝ) - Z| ≤ 107 * eps := by rw [hZd]; unfold Coord.rz; linarith
  have bx : |(x : ℝ)| ≤ 1.01 := by
    have := abs_sub_abs_le_abs_sub (x : ℝ) X
    norm_num at hsm ⊢; linarith
  have by' : |(y : ℝ)| ≤ 1.01 := by
    have := abs_sub_abs_le_abs_sub (y : ℝ) Y
    norm_num at hsm ⊢; linarith
  obtain ⟨xx, yy, s, hxx, hyy, hs, r0, er, hne⟩ := norm_err hM x y bx by'
  set r := M.sqrt s with hr
  set N := √((x : ℝ) * x + y * y) with hN
  have N0 : 0 ≤ N := Real.sqrt_nonneg _
  -- the first angle
  obtain ⟨a, ha, ba, ca, sa⟩ : ∃ a : ℚ, a = (if r ≠ 0 then M.atan2 y x else 0) ∧ |(a : ℝ)| ≤ 3.2 ∧
      |(r : ℝ) * Real.cos a - x| ≤ 15 * eps ∧ |(r : ℝ) * Real.sin a - y| ≤ 15 * eps := by
    refine ⟨_, rfl, ?_⟩
    by_cases h0 : r = 0
    · rw [if_neg (by simpa using h0)]
      rw [h0] at er ⊢
      have hN9 : N ≤ 9 * eps := by
        rw [Rat.cast_zero, zero_sub, abs_neg, abs_of_nonneg N0] at er; exact er
      have hx' : |(x : ℝ)| ≤ N := Real.abs_le_sqrt (by nlinarith [mul_self_nonneg (y : ℝ)])
      have hy' : |(y : ℝ)| ≤ N := Real.abs_le_sqrt (by nlinarith [mul_self_nonneg (x : ℝ)])
      refine ⟨by norm_num, ?_, ?_⟩
      · rw [Rat.cast_zero, zero_mul, zero_sub, abs_neg]; linarith
      · rw [Rat.cast_zero, zero_mul, zero_sub, abs_neg]; linarith
    · rw [if_pos h0]
      obtain ⟨θ, hθ, eθ⟩ := hM.atan2 y x (hne h0)
      rw [four_eps] at eθ
      obtain ⟨c1, c2⟩ := isAngle_cos hθ
      rw [← hN] at c1 c2
      have hNb : N ≤ 1.45 := by
        rw [hN, Real.sqrt_le_left (by norm_num)]
        have := abs_le.1 bx; have := abs_le.1 by'
        nlinarith
      refine ⟨?_, ?_, ?_⟩
      · have := abs_sub_abs_le_abs_sub (M.atan2 y x : ℝ) θ
        have := isAngle_range hθ
        have hpi := Real.pi_lt_d2
        norm_num at hsm hpi ⊢; linarith
      · have h1 : (r : ℝ) * Real.cos (M.atan2 y x) - x = (r - N) * Real.cos (M.atan2 y x) + N * (Real.cos (M.atan2 y x) - Real.cos θ) := by
          rw [mul_sub, c1]; ring
        rw [h1]
        refine (abs_add_le _ _).trans ?_
        rw [abs_mul, abs_mul, abs_of_nonneg N0]
        have h2 := (cos_sub_le (M.atan2 y x : ℝ) θ).trans eθ
        have h3 : N * |Real.cos (M.atan2 y x) - Real.cos θ| ≤ 1.45 * (4 * eps) := mul_le_mul hNb h2 (abs_nonneg _) (by norm_num)
        have h4 : |(r : ℝ) - N| * |Real.cos (M.atan2 y x)| ≤ 9 * eps * 1 := mul_le_mul er (a2 _) (abs_nonneg _) (by positivity)
        linarith
      · have h1 : (r : ℝ) * Real.sin (M.atan2 y x) - y = (r - N) * Real.sin (M.atan2 y x) + N * (Real.sin (M.atan2 y x) - Real.sin θ) := by
          rw [mul_sub, c2]; ring
        rw [h1]
        refine (abs_add_le _ _).trans ?_
        rw [abs_mul, abs_mul, abs_of_nonneg N0]
        have h2 := (sin_sub_le (M.atan2 y x : ℝ) θ).trans eθ
        have h3 : N * |Real.sin (M.atan2 y x) - Real.sin θ| ≤ 1.45 * (4 * eps) := mul_le_mul hNb h2 (abs_nonneg _) (by norm_num)
        have h4 : |(r : ℝ) - N| * |Real.sin (M.atan2 y x)| ≤ 9 * eps * 1 := mul_le_mul er (a1 _) (abs_nonneg _) (by positivity)
        linarith
  -- the length of (r, z) is nearly 1
  set P := √((r : ℝ) * r + z * z) with hP
  have hP1 : |P - 1| ≤ 274 * eps := by
    have k1 : (1 : ℝ) = √(√(X * X + Y * Y) * √(X * X + Y * Y) + Z * Z) := by
      rw [Real.mul_self_sqrt (add_nonneg (mul_self_nonneg _) (mul_self_nonneg _)), n, Real.sqrt_one]
    have k2 := norm_sub_le (r : ℝ) z (√(X * X + Y * Y)) Z
    rw [← k1, ← hP] at k2
    have k3 := norm_sub_le (x : ℝ) y X Y
    rw [← hN] at k3
    have k4 := abs_sub_le (r : ℝ) N (√(X * X + Y * Y))
    linarith
  have hzr : (r ≠ 0 ∨ z ≠ 0) := by
    by_contra hcon
    push Not at hcon
    rw [hP, hcon.1, hcon.2] at hP1
    simp at hP1
    linarith
  obtain ⟨θ, hθ, eθ⟩ := hM.atan2 z r hzr
  rw [four_eps] at eθ
  obtain ⟨c1, c2⟩ := isAngle_cos hθ
  rw [← hP] at c1 c2
  have hθr : |θ| ≤ Real.pi / 2 := by
    rcases hθ with h | ⟨-, h, -⟩
    · rw [h]; exact Complex.abs_arg_le_pi_div_two_iff.2 (by simpa using r0)
    · linarith
  have ce : |Real.cos (M.atan2 z r) - r| ≤ 278 * eps := by
    have h1 := (cos_sub_le (M.atan2 z r : ℝ) θ).trans eθ
    have h2 : |Real.cos θ - r| ≤ 274 * eps := by
      rw [← c1, show Real.cos θ - P * Real.cos θ = -((P - 1) * Real.cos θ) by ring, abs_neg, abs_mul]
      nlinarith [a2 θ, abs_nonneg (P - 1), abs_nonneg (Real.cos θ)]
    have := abs_sub_le (Real.cos (M.atan2 z r)) (Real.cos θ) r
    linarith
  have se : |Real.sin (M.atan2 z r) - z| ≤ 278 * eps := by
    have h1 := (sin_sub_le (M.atan2 z r : ℝ) θ).trans eθ
    have h2 : |Real.sin θ - z| ≤ 274 * eps := by
      rw [← c2, show Real.sin θ - P * Real.sin θ = -((P - 1) * Real.sin θ) by ring, abs_neg, abs_mul]
      nlinarith [a1 θ, abs_nonneg (P - 1), abs_nonneg (Real.sin θ)]
    have := abs_sub_le (Real.sin (M.atan2 z r)) (Real.sin θ) z
    linarith
  refine ⟨a, M.atan2 z r, ?_, ba, ?_, ?_, ?_, ?_⟩
  · unfold turn
    simp only [hx1, hx2, hx3, hx, hy, hz1, hz2, hz3, hz, hxx, hyy, hs, bind, Except.bind, pure, Except.pure]
    rw [← hr, ← ha]
  · have := abs_sub_abs_le_abs_sub (M.atan2 z r : ℝ) θ
    linarith
  · have k1 : Real.cos (M.atan2 z r) * Real.cos a - X =
        (Real.cos (M.atan2 z r) - r) * Real.cos a + (r * Real.cos a - x) + (x - X) := by ring
    rw [k1]
    have k2 := abs_add_three ((Real.cos (M.atan2 z r) - r) * Real.cos a) (r * Real.cos a - x) (x - X)
    have k3 : |(Real.cos (M.atan2 z r) - r) * Real.cos a| ≤ 278 * eps * 1 := by
      rw [abs_mul]; exact mul_le_mul ce (a2 _) (abs_nonneg _) (by positivity)
    linarith
  · have k1 : Real.cos (M.atan2 z r) * Real.sin a - Y =
        (Real.cos (M.atan2 z r) - r) * Real.sin a + (r * Real.sin a - y) + (y - Y) := by ring
    rw [k1]
    have k2 := abs_add_three ((Real.cos (M.atan2 z r) - r) * Real.sin a) (r * Real.sin a - y) (y - Y)
    have k3 : |(Real.cos (M.atan2 z r) - r) * Real.sin a| ≤ 278 * eps * 1 := by
      rw [abs_mul]; exact mul_le_mul ce (a1 _) (abs_nonneg _) (by positivity)
    linarith
  · have k2 := abs_sub_le (Real.sin (M.atan2 z r)) z Z
    linarith

end Verif.Coord64
