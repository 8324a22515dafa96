import Verif.Model.OneStar64
import Verif.Props.Coord64
import Verif.Props.Sidereal64

/-!
# C71 From goto to report in double arithmetic
-/

namespace Verif.OneStar64

open Verif Verif.Spec Verif.Coord64

/-! ### Angles from components -/

/-- An angle with small sine and positive cosine is near a full turn. -/
theorem angle_of_sin {x s : ℝ} (hs : |Real.sin x| ≤ s) (hc : 0 < Real.cos x) : ∃ k : ℤ, |x - k * (2 * Real.pi)| ≤ Real.pi / 2 * s := by
  have hpi := Real.pi_pos
  refine ⟨round (x / (2 * Real.pi)), ?_⟩
  set k := round (x / (2 * Real.pi))
  have h1 := abs_sub_round (x / (2 * Real.pi))
  set y := x - k * (2 * Real.pi) with hy
  have h2 : |y| ≤ Real.pi := by
    have e : y = (x / (2 * Real.pi) - k) * (2 * Real.pi) := by rw [hy]; field_simp
    rw [e, abs_mul, abs_of_pos (by positivity : 0 < 2 * Real.pi)]
    nlinarith
  have cy : Real.cos y = Real.cos x := by rw [hy, Real.cos_sub_int_mul_two_pi]
  have sy : Real.sin y = Real.sin x := by rw [hy, Real.sin_sub_int_mul_two_pi]
  have h3 : |y| ≤ Real.pi / 2 := by
    by_contra hn
    rw [not_le] at hn
    have := Real.cos_nonpos_of_pi_div_two_le_of_le hn.le (by linarith : |y| ≤ Real.pi + Real.pi / 2)
    rw [Real.cos_abs, cy] at this
    linarith
  have h4 := Real.mul_abs_le_abs_sin h3
  rw [sy] at h4
  have h5 : |y| = Real.pi / 2 * (2 / Real.pi * |y|) := by field_simp
  rw [h5]
  exact mul_le_mul_of_nonneg_left (h4.trans hs) (by positivity)

/-- Two directions with nearly equal components, away from the poles, have nearly equal angles. -/
theorem angles_of_components {δ δ' h h' E1 E2 E3 c : ℝ} (hX : |Real.cos δ' * Real.cos h' - Real.cos δ * Real.cos h| ≤ E1)
    (hY : |Real.cos δ' * Real.sin h' - Real.cos δ * Real.sin h| ≤ E2) (hZ : |Real.sin δ' - Real.sin δ| ≤ E3)
    (hc : c ≤ Real.cos δ) (hc' : 0 ≤ Real.cos δ' + c / 2) (hE : E1 + E2 ≤ c / 100) (hE3 : E3 ≤ 1 / 100) (h0 : 0 < c) :
    (∃ k : ℤ, |δ' - δ - k * (2 * Real.pi)| ≤ Real.pi / 2 * (E1 + E2 + E3)) ∧
      ∃ k : ℤ, |h' - h - k * (2 * Real.pi)| ≤ Real.pi / 2 * ((E1 + E2) / (c * (99 / 100))) := by
  have p1 := Real.sin_sq_add_cos_sq δ
  have p2 := Real.sin_sq_add_cos_sq δ'
  have hc1 := Real.cos_le_one δ
  set X := Real.cos δ * Real.cos h with hXd
  set Y := Real.cos δ * Real.sin h with hYd
  set X' := Real.cos δ' * Real.cos h' with hXd'
  set Y' := Real.cos δ' * Real.sin h' with hYd'
  have root : ∀ a b : ℝ, √((Real.cos a * Real.cos b) * (Real.cos a * Real.cos b) + (Real.cos a * Real.sin b) * (Real.cos a * Real.sin b)) = |Real.cos a| := by
    intro a b
    rw [← Real.sqrt_sq_eq_abs]
    congr 1
    have := Real.sin_sq_add_cos_sq b
    linear_combination (Real.cos a) ^ 2 * this
  have n := norm_sub_le X' Y' X Y
  rw [root δ' h', root δ h, abs_of_pos (by linarith : 0 < Real.cos δ)] at n
  have n2 : |(|Real.cos δ'| - Real.cos δ)| ≤ E1 + E2 := n.trans (by linarith)
  obtain ⟨n3, n4⟩ := abs_le.1 n2
  have cpos : 0 < Real.cos δ' := by
    by_contra hn
    rw [abs_of_nonpos (not_lt.1 hn)] at n3
    linarith
  rw [abs_of_pos cpos] at n2 n3 n4
  have clow : c * (99 / 100) ≤ Real.cos δ' := by linarith
  obtain ⟨z1, z2⟩ := abs_le.1 hZ
  constructor
  · apply angle_of_sin
    · have e : Real.sin (δ' - δ) = (Real.sin δ' - Real.sin δ) * Real.cos δ - (Real.cos δ' - Real.cos δ) * Real.sin δ := by
        rw [Real.sin_sub]; ring
      rw [e]
      refine (abs_sub _ _).trans ?_
      rw [abs_mul, abs_mul]
      have b1 := Real.abs_cos_le_one δ
      have b2 := Real.abs_sin_le_one δ
      nlinarith [abs_nonneg (Real.sin δ' - Real.sin δ), abs_nonneg (Real.cos δ' - Real.cos δ)]
    · rw [Real.cos_sub]
      have e : Real.cos δ' * Real.cos δ + Real.sin δ' * Real.sin δ =
          1 + (Real.cos δ' - Real.cos δ) * Real.cos δ + (Real.sin δ' - Real.sin δ) * Real.sin δ := by linear_combination p1
      rw [e]
      have b1 := abs_mul (Real.cos δ' - Real.cos δ) (Real.cos δ)
      have b2 := abs_mul (Real.sin δ' - Real.sin δ) (Real.sin δ)
      have b3 := Real.abs_cos_le_one δ
      have b4 := Real.abs_sin_le_one δ
      have b5 : |(Real.cos δ' - Real.cos δ) * Real.cos δ| ≤ 1 / 100 := by
        rw [b1]; nlinarith [abs_nonneg (Real.cos δ' - Real.cos δ)]
      have b6 : |(Real.sin δ' - Real.sin δ) * Real.sin δ| ≤ 1 / 100 := by
        rw [b2]; nlinarith [abs_nonneg (Real.sin δ' - Real.sin δ)]
      have := (abs_le.1 b5).1
      have := (abs_le.1 b6).1
      linarith
  · have cp : 0 < Real.cos δ := by linarith
    have bX : |X| ≤ Real.cos δ := by
      rw [hXd, abs_mul, abs_of_pos cp]; nlinarith [Real.abs_cos_le_one h]
    have bY : |Y| ≤ Real.cos δ := by
      rw [hYd, abs_mul, abs_of_pos cp]; nlinarith [Real.abs_sin_le_one h]
    apply angle_of_sin
    · have e : (Y' - Y) * X - (X' - X) * Y = Real.cos δ' * Real.cos δ * Real.sin (h' - h) := by
        rw [Real.sin_sub, hXd, hYd, hXd', hYd']; ring
      have e2 : |(Y' - Y) * X - (X' - X) * Y| ≤ (E1 + E2) * Real.cos δ := by
        refine (abs_sub _ _).trans ?_
        rw [abs_mul (Y' - Y) X, abs_mul (X' - X) Y]
        have k1 := mul_le_mul hY bX (abs_nonneg _) ((abs_nonneg _).trans hY)
        have k2 := mul_le_mul hX bY (abs_nonneg _) ((abs_nonneg _).trans hX)
        linarith
      rw [e, abs_mul, abs_mul, abs_of_pos cpos, abs_of_pos cp] at e2
      have e3 : Real.cos δ' * |Real.sin (h' - h)| ≤ E1 + E2 := by
        have : (Real.cos δ' * |Real.sin (h' - h)|) * Real.cos δ ≤ (E1 + E2) * Real.cos δ := by linarith
        exact le_of_mul_le_mul_right this cp
      rw [le_div_iff₀ (by positivity)]
      have := mul_le_mul_of_nonneg_right clow (abs_nonneg (Real.sin (h' - h)))
      linarith
    · have e : Real.cos δ' * Real.cos δ * Real.cos (h' - h) = X' * X + Y' * Y := by
        rw [Real.cos_sub, hXd, hYd, hXd', hYd']; ring
      have e2 : X' * X + Y' * Y = Real.cos δ ^ 2 + ((X' - X) * X + (Y' - Y) * Y) := by
        have : X * X + Y * Y = Real.cos δ ^ 2 := by
          rw [hXd, hYd]
          have := Real.sin_sq_add_cos_sq h
          linear_combination (Real.cos δ) ^ 2 * this
        linear_combination this
      have e3 : |(X' - X) * X + (Y' - Y) * Y| ≤ (E1 + E2) * Real.cos δ := by
        refine (abs_add_le _ _).trans ?_
        rw [abs_mul (X' - X) X, abs_mul (Y' - Y) Y]
        have k1 := mul_le_mul hY bY (abs_nonneg _) ((abs_nonneg _).trans hY)
        have k2 := mul_le_mul hX bX (abs_nonneg _) ((abs_nonneg _).trans hX)
        linarith
      have e4 : 0 < X' * X + Y' * Y := by
        rw [e2]
        have k1 := (abs_le.1 e3).1
        have k2 : (E1 + E2) * Real.cos δ ≤ (Real.cos δ / 100) * Real.cos δ := mul_le_mul_of_nonneg_right (by linarith) cp.le
        have k3 : 0 < Real.cos δ * Real.cos δ := mul_pos cp cp
        rw [sq]; linarith
      rw [← e] at e4
      exact (mul_pos_iff_of_pos_left (mul_pos cpos cp)).1 e4

/-! ### The shift -/

theorem fl_rep {F : Fmt} (hF : 0 < F.prec) {q r : ℚ} (h : fl F q = .ok r) : Representable F r := by
  unfold fl at h
  split at h
  · rw [← Except.ok.inj h]; exact representable_rnd hF _
  · cases h

theorem eps_cast : ((Helper.eps : ℚ) : ℝ) = Coord64.eps := by unfold Helper.eps Coord64.eps; push_cast; rfl

open Helper in
/-- Shifting the orientation by the difference gives the reference, up to the rounding errors. -/
theorem calibrate_near (o r : ℚ × ℚ) (h1 : |o.1| ≤ 361) (h2 : |o.2| ≤ 91) (h3 : |r.1| ≤ 361) (h4 : |r.2| ≤ 91) :
    ∃ s h, shift o r = .ok s ∧ calibrate s o = .ok h ∧ -1 ≤ h.1 ∧ h.1 ≤ 360 ∧ |h.2| ≤ 92 ∧
      (∃ k : ℤ, |h.1 - (r.1 + 360 * k)| ≤ 2400 * Helper.eps) ∧ |h.2 - r.2| ≤ 1000 * Helper.eps := by
  have he := Helper.eps_pos
  have hs := Helper.eps_small
  norm_num at hs
  obtain ⟨a1, a2⟩ := abs_le.1 h1
  obtain ⟨a3, a4⟩ := abs_le.1 h2
  obtain ⟨a5, a6⟩ := abs_le.1 h3
  obtain ⟨a7, a8⟩ := abs_le.1 h4
  -- differences
  obtain ⟨dx, hdx, ex⟩ := wide_fl_near NexStar.wide_b64 10 (by norm_num) (r.1 - o.1) (by rw [abs_lt]; norm_num; constructor <;> linarith)
  obtain ⟨dy, hdy, ey⟩ := wide_fl_near NexStar.wide_b64 8 (by norm_num) (r.2 - o.2) (by rw [abs_lt]; norm_num; constructor <;> linarith)
  obtain ⟨ex1, ex2⟩ := abs_le.1 ex
  obtain ⟨ey1, ey2⟩ := abs_le.1 ey
  norm_num at ex1 ex2 ey1 ey2
  -- first row
  obtain ⟨p1, hp1, f1⟩ := wide_fl_near NexStar.wide_b64 9 (by norm_num) (1 * o.1) (by rw [one_mul, abs_lt]; norm_num; constructor <;> linarith)
  obtain ⟨f1a, f1b⟩ := abs_le.1 f1
  norm_num at f1a f1b
  have z1 : fl b64 (0 * o.2) = .ok 0 := by rw [zero_mul]; decide +kernel
  obtain ⟨p2, hp2, f2⟩ := wide_fl_near NexStar.wide_b64 9 (by norm_num) (p1 + 0) (by rw [abs_lt]; norm_num; constructor <;> linarith)
  obtain ⟨f2a, f2b⟩ := abs_le.1 f2
  norm_num at f2a f2b
  obtain ⟨p3, hp3, f3⟩ := wide_fl_near NexStar.wide_b64 10 (by norm_num) (dx * 1) (by rw [mul_one, abs_lt]; norm_num; constructor <;> linarith)
  obtain ⟨f3a, f3b⟩ := abs_le.1 f3
  norm_num at f3a f3b
  obtain ⟨x, hx, f4⟩ := wide_fl_near NexStar.wide_b64 10 (by norm_num) (p2 + p3) (by rw [abs_lt]; norm_num; constructor <;> linarith)
  obtain ⟨f4a, f4b⟩ := abs_le.1 f4
  norm_num at f4a f4b
  -- second row
  have z2 : fl b64 (0 * o.1) = .ok 0 := by rw [zero_mul]; decide +kernel
  obtain ⟨q1, hq1, g1⟩ := wide_fl_near NexStar.wide_b64 7 (by norm_num) (1 * o.2) (by rw [one_mul, abs_lt]; norm_num; constructor <;> linarith)
  obtain ⟨g1a, g1b⟩ := abs_le.1 g1
  norm_num at g1a g1b
  obtain ⟨q2, hq2, g2⟩ := wide_fl_near NexStar.wide_b64 7 (by norm_num) (0 + q1) (by rw [abs_lt]; norm_num; constructor <;> linarith)
  obtain ⟨g2a, g2b⟩ := abs_le.1 g2
  norm_num at g2a g2b
  obtain ⟨q3, hq3, g3⟩ := wide_fl_near NexStar.wide_b64 8 (by norm_num) (dy * 1) (by rw [mul_one, abs_lt]; norm_num; constructor <;> linarith)
  obtain ⟨g3a, g3b⟩ := abs_le.1 g3
  norm_num at g3a g3b
  obtain ⟨y, hy, g4⟩ := wide_fl_near NexStar.wide_b64 8 (by norm_num) (q2 + q3) (by rw [abs_lt]; norm_num; constructor <;> linarith)
  obtain ⟨g4a, g4b⟩ := abs_le.1 g4
  norm_num at g4a g4b
  have bx : |x| ≤ 2 ^ 40 := by rw [abs_le]; norm_num; constructor <;> linarith
  obtain ⟨w, hw⟩ := fmod360_ok bx
  obtain ⟨w1, w2, -, k, wk⟩ := fmod360_range (fl_rep (by decide) hx) bx hw
  obtain ⟨k1, k2⟩ := abs_le.1 wk
  refine ⟨⟨dx, dy⟩, (w, y), ?_, ?_, ?_, w2, ?_, ⟨-k, ?_⟩, ?_⟩
  · unfold shift
    rw [hdx]; simp only [bind, Except.bind]
    rw [hdy]; rfl
  · unfold calibrate row64
    simp only
    rw [hp1]; simp only [bind, Except.bind]
    rw [z1]; simp only
    rw [hp2]; simp only
    rw [hp3]; simp only
    rw [hx]; simp only
    rw [z2]; simp only
    rw [hq1]; simp only
    rw [hq2]; simp only
    rw [hq3]; simp only
    rw [hy]; simp only
    rw [hw]; rfl
  · have : (2⁻¹ : ℚ) ^ 1000 ≤ 1 := pow_le_one₀ (by norm_num) (by norm_num)
    simp only; linarith
  · rw [abs_le]; simp only; constructor <;> linarith
  · simp only; push_cast; rw [abs_le]; constructor <;> linarith
  · simp only; rw [abs_le]; constructor <;> linarith

/-- The same direction up to full turns and small errors. -/
theorem near_shift {t A a A' a' α δ φ l : ℝ} (h : NearDirection t A a α δ φ l) {d1 d2 : ℝ} (hA : ∃ k : ℤ, |A' - (A + 360 * k)| ≤ d1)
    (ha : |a' - a| ≤ d2) : NearDirection (t + (d1 + d2) * (3.15 / 180)) A' a' α δ φ l := by
  obtain ⟨k, hk⟩ := hA
  have r1 := rad_abs _ _ hk
  have r2 := rad_abs _ _ ha
  have e1 : |Coord.rad A' - (Coord.rad A + k * (2 * Real.pi))| ≤ d1 * (3.15 / 180) := by
    have : Coord.rad A' - (Coord.rad A + k * (2 * Real.pi)) = Coord.rad (A' - (A + 360 * k)) := by
      rw [Coord.rad_sub, show A + 360 * (k : ℝ) = A + k * 360 by ring, Coord.rad_turns]
    rw [this]; exact r1
  rw [Coord.rad_sub] at r2
  obtain ⟨c1, c2, c3⟩ := cc_err r2 e1
  rw [Real.cos_add_int_mul_two_pi] at c1
  rw [Real.sin_add_int_mul_two_pi] at c2
  obtain ⟨n1, n2, n3⟩ := h
  simp only [cosd_rad, sind_rad] at n1 n2 n3
  have d1' : 0 ≤ d1 := (abs_nonneg _).trans hk
  constructor
  · simp only [cosd_rad, sind_rad]
    refine (abs_sub_le _ (Real.cos (Coord.rad a) * Real.cos (Coord.rad A)) _).trans ?_
    linarith
  · simp only [cosd_rad, sind_rad]
    have e : Real.cos (Coord.rad a') * Real.sin (Coord.rad A') + Real.cos (Coord.rad δ) * Real.sin (Coord.rad (l - α)) =
      (Real.cos (Coord.rad a') * Real.sin (Coord.rad A') - Real.cos (Coord.rad a) * Real.sin (Coord.rad A)) +
      (Real.cos (Coord.rad a) * Real.sin (Coord.rad A) + Real.cos (Coord.rad δ) * Real.sin (Coord.rad (l - α))) := by ring
    rw [e]
    refine (abs_add_le _ _).trans ?_
    linarith
  · simp only [cosd_rad, sind_rad]
    refine (abs_sub_le _ (Real.sin (Coord.rad a)) _).trans ?_
    have : 0 ≤ d1 * (3.15 / 180) := by positivity
    linarith

/-! ### C71 -/

/-- The numbers `horizontalToEquatorial` returns are `double`s. -/
theorem h2e_rep {M : Libm} {a e l t ra dec : ℚ} (h : horizontalToEquatorial M a e l t = .ok (ra, dec)) :
    Representable b64 ra ∧ Representable b64 dec := by
  unfold horizontalToEquatorial at h
  obtain ⟨_, -, h⟩ := bind_eq_ok.1 h
  obtain ⟨_, -, h⟩ := bind_eq_ok.1 h
  obtain ⟨_, -, h⟩ := bind_eq_ok.1 h
  obtain ⟨⟨_, _⟩, -, h⟩ := bind_eq_ok.1 h
  obtain ⟨d, hd, h⟩ := bind_eq_ok.1 h
  obtain ⟨_, -, h⟩ := bind_eq_ok.1 h
  obtain ⟨_, -, h⟩ := bind_eq_ok.1 h
  obtain ⟨r, hr, h⟩ := bind_eq_ok.1 h
  obtain ⟨rfl, rfl⟩ := Prod.mk.inj (Except.ok.inj h)
  constructor
  · unfold Helper.fModIEEE at hr
    obtain ⟨_, -, hr⟩ := bind_eq_ok.1 hr
    obtain ⟨_, -, hr⟩ := bind_eq_ok.1 hr
    exact fl_rep (by decide) hr
  · unfold deg at hd
    obtain ⟨_, -, hd⟩ := bind_eq_ok.1 hd
    exact fl_rep (by decide) hd

/-- **C71.** A telescope that is synchronised with a first star (not within 0.1° of a pole: `cos ≥ 1/600`) and does not move reports,
in double arithmetic throughout, that star's declination (up to `2^-30` degrees) and its right ascension, advanced by the sidereal time
that has passed in between, up to 0.49 units of the 32-bit wire format and full turns. -/
theorem C71_position (M M' : Libm) (hM : Accurate M) (hM' : Accurate M') (o : ℚ × ℚ) (ho1 : |o.1| ≤ 361) (ho2 : |o.2| ≤ 91)
    (ra dec lat lst lst' : ℚ) (h1 : |lst - ra| ≤ 360) (h2 : |dec| ≤ 361) (h3 : |lat| ≤ 361) (h4 : |lst'| ≤ 361) (hpole : 1 / 600 ≤ cosd dec) :
    ∃ s ra' dec', addFirst M o ra dec lat lst = .ok s ∧ position M' s o lat lst' = .ok (ra', dec') ∧
      -2⁻¹ ^ 1000 ≤ ra' ∧ ra' ≤ 360 ∧ |dec'| ≤ 90 + 2⁻¹ ^ 42 ∧ Representable b64 ra' ∧ Representable b64 dec' ∧
      (∃ k : ℤ, |dec' - dec - 360 * k| ≤ 2⁻¹ ^ 30) ∧ ∃ k : ℤ, |(ra' - lst') - (ra - lst) - 360 * k| ≤ 0.49 * (360 / 2 ^ 32) := by
  have he := Coord64.eps_pos
  have hs := Coord64.eps_small
  obtain ⟨az, alt, e1, a1, a2, a3, n1⟩ := C69_e2h M hM ra dec lat lst h1 h2 h3
  obtain ⟨s, h, e2, e3, c1, c2, c3, c4, c5⟩ := calibrate_near o (az, alt) ho1 ho2 (by rw [abs_le]; constructor <;> simp only <;> linarith)
    (a3.trans (by norm_num))
  obtain ⟨ra', dec', e4, r1, r2, r3, n2⟩ := C69_h2e M' hM' h.1 h.2 lat lst' (by rw [abs_le]; constructor <;> linarith) (c3.trans (by norm_num)) h3 h4
  obtain ⟨rep1, rep2⟩ := h2e_rep e4
  have n3 := near_shift n1 (A' := h.1) (a' := h.2) (d1 := 2400 * Coord64.eps) (d2 := 1000 * Coord64.eps)
    (by
      obtain ⟨k, hk⟩ := c4
      refine ⟨k, ?_⟩
      have : ((|h.1 - (az + 360 * k)| : ℚ) : ℝ) ≤ ((2400 * Helper.eps : ℚ) : ℝ) := by exact_mod_cast hk
      push_cast at this; rw [eps_cast] at this; exact this)
    (by
      have : ((|h.2 - alt| : ℚ) : ℝ) ≤ ((1000 * Helper.eps : ℚ) : ℝ) := by exact_mod_cast c5
      push_cast at this; rw [eps_cast] at this; exact this)
  obtain ⟨m1, m2, m3⟩ := near_near n3 n2
  have tol : (2⁻¹ : ℝ) ^ 43 = 1024 * Coord64.eps := by unfold Coord64.eps; norm_num
  have tt : 2⁻¹ ^ 43 + (2400 * Coord64.eps + 1000 * Coord64.eps) * (3.15 / 180) + 2⁻¹ ^ 43 ≤ 2108 * Coord64.eps := by
    rw [tol]; linarith
  simp only [cosd_rad, sind_rad] at m1 m2 m3 hpole
  have hlow : 0 ≤ Real.cos (Coord.rad dec') + 1 / 600 / 2 := by
    have hd : |(dec' : ℝ)| ≤ 90 + 1 / 10 ^ 6 := by
      have : |dec'| ≤ 90 + 1 / 10 ^ 6 := r3.trans (by norm_num)
      have : ((|dec'| : ℚ) : ℝ) ≤ ((90 + 1 / 10 ^ 6 : ℚ) : ℝ) := by exact_mod_cast this
      push_cast at this; exact this
    have e : Real.cos (Coord.rad dec') = Real.sin (Coord.rad (90 - |(dec' : ℝ)|)) := by
      rw [Coord.rad_sub, show Coord.rad (90 : ℝ) = Real.pi / 2 by unfold Coord.rad; ring, Real.sin_pi_div_two_sub]
      rcases abs_cases (dec' : ℝ) with ⟨h, -⟩ | ⟨h, -⟩
      · rw [h]
      · rw [h, show Coord.rad (-(dec' : ℝ)) = -Coord.rad dec' by unfold Coord.rad; ring, Real.cos_neg]
    rcases le_or_gt 0 (90 - |(dec' : ℝ)|) with hn | hn
    · have : 0 ≤ Real.sin (Coord.rad (90 - |(dec' : ℝ)|)) := by
        apply Real.sin_nonneg_of_nonneg_of_le_pi
        · unfold Coord.rad; have := Real.pi_pos; positivity
        · unfold Coord.rad
          have := Real.pi_pos
          have := abs_nonneg (dec' : ℝ)
          rw [div_le_iff₀ (by norm_num)]; nlinarith
      rw [e]; linarith
    · have k1 := sin_sub_le (Coord.rad (90 - |(dec' : ℝ)|)) 0
      rw [Real.sin_zero, sub_zero, sub_zero] at k1
      have k2 := rad_abs (90 - |(dec' : ℝ)|) (1 / 10 ^ 6) (by rw [abs_of_neg hn]; linarith)
      have := (abs_le.1 k1).1
      rw [e]; norm_num at k2 ⊢; linarith
  obtain ⟨⟨kd, hkd⟩, kh, hkh⟩ := angles_of_components (c := 1 / 600) (E1 := 4216 * Coord64.eps) (E2 := 2108 * Coord64.eps) (E3 := 4216 * Coord64.eps)
    (m1.trans (by linarith)) (m2.trans tt) (m3.trans (by linarith)) hpole hlow (by norm_num at hs ⊢; linarith) (by norm_num at hs ⊢; linarith)
    (by norm_num)
  have back : ∀ (x : ℝ) (k : ℤ) (b : ℝ), |Coord.rad x - k * (2 * Real.pi)| ≤ Real.pi / 2 * b → |x - 360 * k| ≤ 90 * b := by
    intro x k b hb
    have hpi := Real.pi_pos
    have e : Coord.rad x - k * (2 * Real.pi) = (x - 360 * k) * (Real.pi / 180) := by unfold Coord.rad; ring
    rw [e, abs_mul, abs_of_pos (by positivity : 0 < Real.pi / 180)] at hb
    have : |x - 360 * k| * (Real.pi / 180) ≤ 90 * b * (Real.pi / 180) := by linarith
    exact le_of_mul_le_mul_right this (by positivity)
  refine ⟨s, ra', dec', ?_, ?_, r1, r2, r3, rep1, rep2, ⟨kd, ?_⟩, -kh, ?_⟩
  · unfold addFirst; rw [e1]; exact e2
  · unfold position; rw [e3]; exact e4
  · rw [← Coord.rad_sub] at hkd
    have := back _ _ _ hkd
    have t30 : (2⁻¹ : ℝ) ^ 30 = 2 ^ 23 * Coord64.eps := by unfold Coord64.eps; norm_num
    have : ((|dec' - dec - 360 * kd| : ℚ) : ℝ) ≤ ((2⁻¹ ^ 30 : ℚ) : ℝ) := by
      push_cast; rw [t30]; norm_num at this ⊢; linarith
    exact_mod_cast this
  · rw [← Coord.rad_sub] at hkh
    have := back _ _ _ hkh
    have e : ((ra' : ℝ) - lst') - (ra - lst) - 360 * ((-kh : ℤ) : ℝ) = -((lst' : ℝ) - ra' - (lst - ra) - 360 * kh) := by push_cast; ring
    have t0 : (0.49 : ℝ) * (360 / 2 ^ 32) = 0.49 * 360 * 2 ^ 21 * Coord64.eps := by unfold Coord64.eps; norm_num
    have : ((|(ra' - lst') - (ra - lst) - 360 * (-kh : ℤ)| : ℚ) : ℝ) ≤ ((0.49 * (360 / 2 ^ 32) : ℚ) : ℝ) := by
      push_cast
      push_cast at e
      rw [e, abs_neg, t0]; norm_num at this ⊢; linarith
    exact_mod_cast this

/-- Encoding an angle within 0.495 units of a whole number of units. -/
theorem encode_round (P : Platform) {x : ℚ} (hx : Representable b64 x) (hb : |x| ≤ 361) (w : ℤ) (h : |x / 360 * 2 ^ 32 - w| ≤ 0.495) :
    Codec.encodeAngle64 P x = castU32 P ((w : ℤ) : ℚ) := by
  obtain ⟨b1, b2⟩ := abs_le.1 hb
  obtain ⟨w1, w2⟩ := abs_le.1 h
  have ha : fl b64 (x * 2147483648) = .ok (x * 2147483648) := by
    rw [show x * 2147483648 = x * 2 ^ 31 by norm_num]
    apply Codec.fl_scale hx
    have : ((2 : ℚ) ^ (50 : ℤ)) ≤ (2 : ℚ) ^ b64.emax := zpow_le_zpow_right₀ (by norm_num) (by decide)
    rw [abs_mul, abs_of_pos (by norm_num : (0 : ℚ) < 2 ^ 31)]
    norm_num at this ⊢; linarith
  obtain ⟨X, hX, eX⟩ := Helper.wide_fl_near NexStar.wide_b64 33 (by norm_num) (x * 2147483648 / 180) (by
    rw [abs_lt]; norm_num; constructor <;> linarith)
  obtain ⟨x1, x2⟩ := abs_le.1 eX
  have hs := Helper.eps_small
  norm_num at hs x1 x2
  obtain ⟨Y, hY, eY⟩ := Helper.wide_fl_near NexStar.wide_b64 33 (by norm_num) (1 / 2 + X) (by
    rw [abs_lt]; norm_num; constructor <;> linarith)
  obtain ⟨y1, y2⟩ := abs_le.1 eY
  norm_num at y1 y2 w1 w2
  have hf : ⌊Y⌋ = w := by rw [Int.floor_eq_iff]; constructor <;> linarith
  unfold Codec.encodeAngle64
  rw [ha, bind_ok, hX, bind_ok, hY, bind_ok, hf]

theorem castU32_wire (P : Platform) (u : Nat) (hu : u < 2 ^ 32) (k : ℤ) (h : k = 0 ∨ P.fcast = .wrap) :
    castU32 P (((u + 2 ^ 32 * k : ℤ)) : ℚ) = .ok (UInt32.ofNat u) := by
  unfold castU32 castUnsigned
  rw [Codec.truncZ_intCast]
  split
  · rename_i hr
    have hk : k = 0 := by omega
    subst hk
    simp
  · rename_i hr
    rcases h with rfl | h
    · exfalso; apply hr; omega
    · rw [h]
      have : ((u : ℤ) + 2 ^ 32 * k) % 2 ^ 32 = u := by omega
      simp only [this, bind, Except.bind, pure, Except.pure, Int.toNat_natCast]

/-- Six arc minutes from the pole the cosine is still at least 1/600. -/
theorem cos_pole {d : ℝ} (h0 : 0 ≤ d) (h1 : d ≤ 89.9) : 1 / 600 ≤ cosd d := by
  have hpi := Real.pi_gt_d4
  have hpi2 := Real.pi_lt_d4
  rw [cosd_rad, ← Real.sin_pi_div_two_sub]
  have e : Real.pi / 2 - Coord.rad d = (90 - d) * Real.pi / 180 := by unfold Coord.rad; ring
  rw [e]
  set x : ℝ := 0.1 * Real.pi / 180 with hx
  have x1 : 0.001745 < x := by rw [hx]; norm_num at hpi ⊢; linarith
  have x2 : x < 0.001746 := by rw [hx]; norm_num at hpi2 ⊢; linarith
  have k1 := Real.sin_gt_sub_cube (x := x) (by linarith)
  have k2 : Real.sin x ≤ Real.sin ((90 - d) * Real.pi / 180) := by
    apply Real.sin_le_sin_of_le_of_le_pi_div_two
    · have := Real.pi_pos; linarith
    · have := Real.pi_pos; nlinarith
    · rw [hx]; have := Real.pi_pos; norm_num at h1 ⊢; nlinarith
  have k3 : x ^ 3 / 6 ≤ 0.00001 := by
    have : x ^ 3 ≤ 0.001746 ^ 3 := by gcongr
    norm_num at this ⊢; linarith
  norm_num at *
  linarith

open Verif.Codec in
/-- **C71.** From goto to report, bit for bit, in double arithmetic throughout: when a goto message (declination at most 89.9° north, or
south where the conversion of negative numbers is defined) is taken as the first star by a telescope that does not move, the position
report at the same sidereal time carries the very coordinate bytes of the goto message. -/
theorem C71_echo (P : Platform) (M M' : Libm) (hM : Accurate M) (hM' : Accurate M') (o : ℚ × ℚ) (ho1 : |o.1| ≤ 361) (ho2 : |o.2| ≤ 91)
    (lat lst : ℚ) (h3 : |lat| ≤ 361) (h4 : 0 ≤ lst) (h5 : lst ≤ 360) (out : UnpackOut ℚ) (data : List UInt8) (n : Nat) (hn : n ≤ data.length)
    (hA : Accepts data n) (ts : UInt64) (buffer : List UInt8) (hb : 24 ≤ buffer.length)
    (hu : 0 < leVal (slice data 12 4) ∨ P.fcast = .wrap)
    (hv : (leVal (slice data 16 4) : ℚ) ≤ 89.9 / 360 * 2 ^ 32 ∨
      (P.fcast = .wrap ∧ 2 ^ 32 - 89.9 / 360 * 2 ^ 32 ≤ (leVal (slice data 16 4) : ℚ))) :
    ∃ out' s ra dec b, unpackPosition64 out data n = .ok (true, out') ∧ addFirst M o out'.ra out'.dec lat lst = .ok s ∧
      position M' s o lat lst = .ok (ra, dec) ∧ packPosition64 P ra dec ts buffer 24 = .ok (24, b) ∧
      slice b 12 4 = slice data 12 4 ∧ slice b 16 4 = slice data 16 4 := by
  have h20 : 20 ≤ n := le_trans hA.1 hA.2.1
  have hl : ∀ i, i + 4 ≤ 20 → (slice data i 4).length = 4 := by
    intro i hi; simp [slice]; omega
  have lt : ∀ i, i + 4 ≤ 20 → leVal (slice data i 4) < 2 ^ 32 := by
    intro i hi
    have := leVal_lt (slice data i 4)
    rw [hl i hi] at this; simpa using this
  have hu1 := lt 12 (by omega)
  have hv1 := lt 16 (by omega)
  have hout : unpackPosition64 out data n = .ok (true, decoded out data) := by
    rw [C66_unpack_exact, C04_unpack _ _ _ (by omega) hn, if_pos hA]
  set u := leVal (slice data 12 4) with hud
  set v := leVal (slice data 16 4) with hvd
  have era : (decoded out data).ra = (u : ℚ) * 360 / 2 ^ 32 := by simp only [decoded]; rw [hud]
  have edec : (decoded out data).dec = (v : ℚ) * 360 / 2 ^ 32 := by simp only [decoded]; rw [hvd]
  have u0 : (0 : ℚ) ≤ u := by positivity
  have v0 : (0 : ℚ) ≤ v := by positivity
  have u2 : (u : ℚ) + 1 ≤ 2 ^ 32 := by exact_mod_cast hu1
  have v2 : (v : ℚ) + 1 ≤ 2 ^ 32 := by exact_mod_cast hv1
  have ra0 : 0 ≤ (decoded out data).ra := by rw [era]; positivity
  have ra1 : (decoded out data).ra ≤ 360 := by rw [era, div_le_iff₀ (by norm_num)]; linarith
  have dec0 : 0 ≤ (decoded out data).dec := by rw [edec]; positivity
  have dec1 : (decoded out data).dec ≤ 360 := by rw [edec, div_le_iff₀ (by norm_num)]; linarith
  have hpole : 1 / 600 ≤ cosd (((decoded out data).dec : ℚ) : ℝ) := by
    rcases hv with hv | ⟨-, hv⟩
    · apply cos_pole (by exact_mod_cast dec0)
      have : (decoded out data).dec ≤ 89.9 := by rw [edec, div_le_iff₀ (by norm_num)]; norm_num at hv ⊢; linarith
      have : (((decoded out data).dec : ℚ) : ℝ) ≤ ((89.9 : ℚ) : ℝ) := by exact_mod_cast this
      push_cast at this; exact this
    · have e : cosd (((decoded out data).dec : ℚ) : ℝ) = cosd ((360 - (decoded out data).dec : ℚ) : ℝ) := by
        rw [cosd_rad, cosd_rad]; push_cast
        rw [Coord.rad_sub, show Coord.rad (360 : ℝ) = 2 * Real.pi by unfold Coord.rad; ring, Real.cos_two_pi_sub]
      rw [e]
      apply cos_pole
      · have : 0 ≤ 360 - (decoded out data).dec := by linarith
        exact_mod_cast this
      · have : 360 - (decoded out data).dec ≤ 89.9 := by
          rw [edec, sub_le_iff_le_add, ← sub_le_iff_le_add', le_div_iff₀ (by norm_num)]; norm_num at hv ⊢; linarith
        have : ((360 - (decoded out data).dec : ℚ) : ℝ) ≤ ((89.9 : ℚ) : ℝ) := by exact_mod_cast this
        push_cast at this ⊢; exact this
  obtain ⟨s, ra', dec', e1, e2, r1, r2, r3, rep1, rep2, ⟨kd, hkd⟩, k, hk⟩ := C71_position M M' hM hM' o ho1 ho2 (decoded out data).ra
    (decoded out data).dec lat lst lst (by rw [abs_le]; constructor <;> linarith) (by rw [abs_of_nonneg dec0]; linarith) h3
    (by rw [abs_of_nonneg h4]; linarith) hpole
  rw [show ra' - lst - ((decoded out data).ra - lst) - 360 * (k : ℚ) = ra' - (decoded out data).ra - 360 * k by ring, era] at hk
  rw [edec] at hkd
  have tiny : (2⁻¹ : ℚ) ^ 1000 ≤ 2⁻¹ ^ 60 := pow_le_pow_of_le_one (by norm_num) (by norm_num) (by norm_num)
  have tiny1 : (2⁻¹ : ℚ) ^ 60 = 1 / 1152921504606846976 := by norm_num
  rw [tiny1] at tiny
  have ra0' : -(1 / 1152921504606846976) ≤ ra' := le_trans (neg_le_neg tiny) r1
  clear tiny r1
  obtain ⟨k1, k2⟩ := abs_le.1 hk
  obtain ⟨d1, d2⟩ := abs_le.1 hkd
  obtain ⟨d3, d4⟩ := abs_le.1 r3
  norm_num at k1 k2 d1 d2 d3 d4
  have enc1 : encodeAngle64 P ra' = .ok (UInt32.ofNat u) := by
    have hk0 : k = 0 ∨ P.fcast = .wrap := by
      rcases hu with hu | hu
      · left
        have hu' : (1 : ℚ) ≤ u := by exact_mod_cast hu
        have c1 : (k : ℚ) < 1 := by linarith
        have c2 : (-1 : ℚ) < k := by linarith
        have c1' : k < 1 := by exact_mod_cast c1
        have c2' : -1 < k := by exact_mod_cast c2
        omega
      · exact Or.inr hu
    rw [encode_round P rep1 (by rw [abs_le]; constructor <;> linarith) (u + 2 ^ 32 * k) (by
      rw [abs_le]; push_cast; norm_num; constructor <;> linarith)]
    exact castU32_wire P u hu1 k hk0
  have enc2 : encodeAngle64 P dec' = .ok (UInt32.ofNat v) := by
    have hk0 : kd = 0 ∨ P.fcast = .wrap := by
      rcases hv with hv | ⟨hv, -⟩
      · left
        norm_num at hv
        have c1 : (kd : ℚ) < 1 := by linarith
        have c2 : (-1 : ℚ) < kd := by linarith
        have c1' : kd < 1 := by exact_mod_cast c1
        have c2' : -1 < kd := by exact_mod_cast c2
        omega
      · exact Or.inr hv
    rw [encode_round P rep2 (by rw [abs_le]; constructor <;> linarith) (v + 2 ^ 32 * kd) (by
      rw [abs_le]; push_cast; norm_num; constructor <;> linarith)]
    exact castU32_wire P v hv1 kd hk0
  refine ⟨decoded out data, s, ra', dec', positionMessage ts.toNat u v ++ buffer.drop 24, hout, e1, e2, ?_, ?_, ?_⟩
  · rw [pack_bytes64 _ _ _ _ _ _ le_rfl hb, enc1, enc2, bind_ok, bind_ok]
    simp only [pure, Except.pure, UInt32.toNat_ofNat', Nat.mod_eq_of_lt hu1, Nat.mod_eq_of_lt hv1]
  · rw [(slices_positionMessage _ _ _ _).2.2.2.1]
    exact le_leVal _ (hl 12 (by omega))
  · rw [(slices_positionMessage _ _ _ _).2.2.2.2]
    exact le_leVal _ (hl 16 (by omega))

open Verif.Codec in
/-- Polaris' neighbourhood at α = 30°, δ = 67.5°, a strict platform (out-of-range conversions undefined), a tilted mount. -/
example : ∃ M, Accurate M ∧ ∃ out' s ra dec b,
    unpackPosition64 ⟨0, 0, none⟩ (positionMessage 0 357913941 805306368) 24 = .ok (true, out') ∧
    addFirst M (12.5, 40.25) out'.ra out'.dec 48.5 200 = .ok s ∧ position M s (12.5, 40.25) 48.5 200 = .ok (ra, dec) ∧
    packPosition64 Platform.native ra dec 5 (List.replicate 160 0) 24 = .ok (24, b) ∧
    slice b 12 4 = slice (positionMessage 0 357913941 805306368) 12 4 ∧
    slice b 16 4 = slice (positionMessage 0 357913941 805306368) 16 4 := by
  obtain ⟨M, hM⟩ := accurate_exists
  exact ⟨M, hM, C71_echo Platform.native M M hM hM (12.5, 40.25) (by norm_num) (by norm_num) 48.5 200 (by norm_num) (by norm_num) (by norm_num)
    ⟨0, 0, none⟩ (positionMessage 0 357913941 805306368) 24 (by decide +kernel) (by decide +kernel) 5 (List.replicate 160 0) (by decide +kernel)
    (Or.inl (by decide +kernel)) (Or.inl (by
      have : leVal (slice (positionMessage 0 357913941 805306368) 16 4) = 805306368 := by decide +kernel
      rw [this]; norm_num))⟩

end Verif.OneStar64
