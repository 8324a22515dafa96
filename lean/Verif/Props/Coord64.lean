import Verif.Lemmas.Coord64

/-!
# C69: the coordinate conversions in double arithmetic

Every operation rounds; the C library's functions are accurate to one unit in the last place.  Inputs are any `double`s (rationals) in the
given ranges, including poles and zenith.  `2⁻¹ ^ 43` is about `1.2e-13` radians.
-/

namespace Verif.Coord64

open Verif Spec

theorem sind_rad (x : ℝ) : sind x = Real.sin (Coord.rad x) := rfl
theorem cosd_rad (x : ℝ) : cosd x = Real.cos (Coord.rad x) := rfl

/-- The product of two cosines (or sines) for slightly wrong angles. -/
theorem cc_err {e e' a a' d1 d2 : ℝ} (h1 : |e' - e| ≤ d1) (h2 : |a' - a| ≤ d2) :
    |Real.cos e' * Real.cos a' - Real.cos e * Real.cos a| ≤ d1 + d2 ∧ |Real.cos e' * Real.sin a' - Real.cos e * Real.sin a| ≤ d1 + d2 ∧
      |Real.sin e' - Real.sin e| ≤ d1 := by
  have k1 := (cos_sub_le e' e).trans h1
  have k2 := (cos_sub_le a' a).trans h2
  have k3 := (sin_sub_le a' a).trans h2
  have b1 := Real.abs_cos_le_one a'
  have b2 := Real.abs_cos_le_one e
  have b3 := Real.abs_sin_le_one a'
  refine ⟨?_, ?_, (sin_sub_le e' e).trans h1⟩
  · rw [show Real.cos e' * Real.cos a' - Real.cos e * Real.cos a =
      (Real.cos e' - Real.cos e) * Real.cos a' + Real.cos e * (Real.cos a' - Real.cos a) by ring]
    refine (abs_add_le _ _).trans ?_
    rw [abs_mul, abs_mul]
    nlinarith [abs_nonneg (Real.cos e' - Real.cos e), abs_nonneg (Real.cos a' - Real.cos a)]
  · rw [show Real.cos e' * Real.sin a' - Real.cos e * Real.sin a =
      (Real.cos e' - Real.cos e) * Real.sin a' + Real.cos e * (Real.sin a' - Real.sin a) by ring]
    refine (abs_add_le _ _).trans ?_
    rw [abs_mul, abs_mul]
    nlinarith [abs_nonneg (Real.cos e' - Real.cos e), abs_nonneg (Real.sin a' - Real.sin a)]

/-- `f_mod(a, 360)` of a number up to 600: the same angle up to 256 eps degrees. -/
theorem fmod_err (a : ℚ) (h : |(a : ℝ)| ≤ 600) :
    ∃ r, Helper.fModIEEE a 360 = .ok r ∧ (∃ k : ℤ, |(r : ℝ) - (a - 360 * k)| ≤ 256 * eps) ∧ -1 ≤ (r : ℝ) ∧ (r : ℝ) ≤ 361 := by
  have hs := eps_small
  have he := eps_pos
  have b1 : |((a / 360 : ℚ) : ℝ)| < 2 ^ 1 := by
    push_cast
    rw [abs_div, abs_of_pos (by norm_num : (0 : ℝ) < 360), div_lt_iff₀ (by norm_num)]
    linarith
  obtain ⟨q, hq, eq⟩ := fl_err 1 (by norm_num) _ b1
  push_cast at eq
  have f1 : ((⌊q⌋ : ℤ) : ℝ) ≤ q := by exact_mod_cast Int.floor_le q
  have f2 : (q : ℝ) < ⌊q⌋ + 1 := by exact_mod_cast Int.lt_floor_add_one q
  obtain ⟨e1, e2⟩ := abs_le.1 eq
  have n1 : -1 / 2 ≤ (a : ℝ) - 360 * ⌊q⌋ := by norm_num at hs e1 e2; linarith
  have n2 : (a : ℝ) - 360 * ⌊q⌋ ≤ 360.5 := by norm_num at hs e1 e2 ⊢; linarith
  have kb : |(⌊q⌋ : ℤ)| ≤ 3 := by
    have c1 : (-3 : ℝ) ≤ ⌊q⌋ := by have := abs_le.1 h; norm_num at hs e1 e2; linarith
    have c2 : ((⌊q⌋ : ℤ) : ℝ) ≤ 3 := by have := abs_le.1 h; norm_num at hs e1 e2; linarith
    rw [abs_le]
    exact ⟨by exact_mod_cast c1, by exact_mod_cast c2⟩
  have hp : fl b64 (360 * (⌊q⌋ : ℚ)) = .ok (360 * (⌊q⌋ : ℚ)) := by
    have hz : |360 * ⌊q⌋| ≤ 2 ^ b64.prec := by
      have := abs_le.1 kb
      rw [abs_le]; simp only [b64]; constructor <;> omega
    have hr := rnd_of_representable (representable_int (F := b64) hz (by decide) (by decide))
    have hb : |(360 * (⌊q⌋ : ℚ))| ≤ 10000000 := by
      have : |((360 * ⌊q⌋ : ℤ) : ℚ)| ≤ 10000000 := by
        rw [← Int.cast_abs]
        have := abs_le.1 kb
        have : |360 * ⌊q⌋| ≤ 10000000 := by rw [abs_le]; constructor <;> omega
        exact_mod_cast this
      push_cast at this; exact this
    rw [fl_eq_rnd_64 hb]
    push_cast at hr
    rw [hr]
  obtain ⟨r, hr, er⟩ := fl_err 9 (by norm_num) (a - 360 * (⌊q⌋ : ℚ)) (by
    push_cast
    rw [abs_lt]; constructor <;> linarith)
  push_cast at er
  norm_num at er
  refine ⟨r, ?_, ⟨⌊q⌋, er⟩, ?_, ?_⟩
  · unfold Helper.fModIEEE
    rw [hq]
    simp only [bind, Except.bind]
    rw [hp]
    exact hr
  · have := (abs_le.1 er).1; norm_num at *; linarith
  · have := (abs_le.1 er).2; norm_num at *; linarith

/-- The result of `f_mod(a, 360)` lies in the circle (it may be `360`, and for denormal numbers the negative argument itself). -/
theorem fmod_range (a r : ℚ) (ha : Representable b64 a) (h : |a| ≤ 600) (hr : Helper.fModIEEE a 360 = .ok r) : -2⁻¹ ^ 1000 ≤ r ∧ r ≤ 360 := by
  obtain ⟨hl, hu⟩ := abs_le.1 h
  have b1 : |a / 360| ≤ 10000000 := by
    rw [abs_div, abs_of_pos (by norm_num : (0 : ℚ) < 360), div_le_iff₀ (by norm_num)]; linarith
  set q := rnd b64 (a / 360) with hq
  have mono : ∀ x y : ℚ, x ≤ y → rnd b64 x ≤ rnd b64 y := fun x y h => rnd_mono (by decide) h
  have q2 : q ≤ 2 := by
    refine (mono _ 2 ?_).trans (by decide +kernel)
    rw [div_le_iff₀ (by norm_num)]; linarith
  have q3 : -2 ≤ q := by
    refine le_trans (by decide +kernel : (-2 : ℚ) ≤ rnd b64 (-2)) (mono _ _ ?_)
    rw [le_div_iff₀ (by norm_num)]; linarith
  have kb : |(360 * ⌊q⌋ : ℤ)| ≤ 720 := by
    have k1 : ⌊q⌋ ≤ 2 := by have := Int.floor_le_floor q2; simpa using this
    have k2 : -2 ≤ ⌊q⌋ := Int.le_floor.2 (by push_cast; exact q3)
    rw [abs_le]; constructor <;> omega
  have hz := rnd_of_representable (representable_int (F := b64) (z := 360 * ⌊q⌋) (kb.trans (by decide)) (by decide) (by decide))
  push_cast at hz
  have kb' : |(360 * (⌊q⌋ : ℚ))| ≤ 720 := by
    have : |((360 * ⌊q⌋ : ℤ) : ℚ)| ≤ 720 := by rw [← Int.cast_abs]; exact_mod_cast kb
    push_cast at this; exact this
  have b3 : |a - 360 * (⌊q⌋ : ℚ)| ≤ 10000000 := (abs_sub _ _).trans (by linarith)
  have hre : r = rnd b64 (a - 360 * (⌊q⌋ : ℚ)) := by
    unfold Helper.fModIEEE at hr
    rw [fl_eq_rnd_64 b1] at hr
    simp only [bind, Except.bind] at hr
    rw [← hq, fl_eq_rnd_64 (kb'.trans (by norm_num)), hz] at hr
    simp only at hr
    rw [fl_eq_rnd_64 b3] at hr
    exact (Except.ok.inj hr).symm
  -- a number below an integer multiple of the circle is below it by a unit in the last place
  have gap : ∀ z : ℤ, 300 ≤ |z| → a < z → a ≤ z - 2⁻¹ ^ 44 := by
    intro z hz3 hlt
    obtain ⟨m, e, he, hm, rfl⟩ := ha
    by_cases h44 : -44 ≤ e
    · obtain ⟨n, hn⟩ := Int.eq_ofNat_of_zero_le (show 0 ≤ e + 44 by omega)
      have e1 : (m : ℚ) * 2 ^ e = ((m * 2 ^ n : ℤ) : ℚ) * 2⁻¹ ^ 44 := by
        rw [show e = (n : ℤ) + (-44) by push_cast at hn; omega, zpow_add₀ (by norm_num), zpow_natCast]
        push_cast
        rw [show (2 : ℚ) ^ (-44 : ℤ) = 2⁻¹ ^ 44 by norm_num]; ring
      rw [e1] at hlt ⊢
      have h1 : m * 2 ^ n < z * 2 ^ 44 := by
        have : ((m * 2 ^ n : ℤ) : ℚ) < ((z * 2 ^ 44 : ℤ) : ℚ) := by
          have := mul_lt_mul_of_pos_right hlt (by norm_num : (0 : ℚ) < 2 ^ 44)
          push_cast at this ⊢
          norm_num at this ⊢; linarith
        exact_mod_cast this
      have h2 : ((m * 2 ^ n : ℤ) : ℚ) ≤ ((z * 2 ^ 44 - 1 : ℤ) : ℚ) := by exact_mod_cast Int.le_sub_one_of_lt h1
      have h3 := mul_le_mul_of_nonneg_right h2 (by positivity : (0 : ℚ) ≤ 2⁻¹ ^ 44)
      refine h3.trans (le_of_eq ?_)
      push_cast; norm_num; ring
    · have hb : |(m : ℚ) * 2 ^ e| < 256 := by
        rw [abs_mul, abs_of_pos (two_zpow_pos e)]
        have h1 : (2 : ℚ) ^ e ≤ 2 ^ (-45 : ℤ) := zpow_le_zpow_right₀ (by norm_num) (by omega)
        have h2 : |(m : ℚ)| < 2 ^ 53 := by
          have : |m| < 2 ^ 53 := hm
          rw [← Int.cast_abs]; exact_mod_cast this
        have h3 : |(m : ℚ)| * 2 ^ e ≤ |(m : ℚ)| * 2 ^ (-45 : ℤ) := mul_le_mul_of_nonneg_left h1 (abs_nonneg _)
        have h4 : |(m : ℚ)| * 2 ^ (-45 : ℤ) < 2 ^ 53 * 2 ^ (-45 : ℤ) := mul_lt_mul_of_pos_right h2 (two_zpow_pos _)
        norm_num at h3 h4 ⊢; linarith
      obtain ⟨c1, c2⟩ := abs_lt.1 hb
      rcases le_abs.1 hz3 with h1 | h1
      · have : (300 : ℚ) ≤ z := by exact_mod_cast h1
        norm_num; linarith
      · have : (300 : ℚ) ≤ -z := by exact_mod_cast h1
        linarith
  constructor
  · rw [hre]
    by_cases hge : 0 ≤ a - 360 * (⌊q⌋ : ℚ)
    · exact (neg_nonpos.2 (by positivity) : (-2⁻¹ ^ 1000 : ℚ) ≤ 0).trans (rnd_nonneg hge)
    have hlt : a < 360 * (⌊q⌋ : ℚ) := by linarith
    have fq := Int.floor_le q
    have k1 : ⌊q⌋ ≤ 1 := by
      refine Int.le_of_lt_add_one (Int.floor_lt.2 ?_)
      refine lt_of_le_of_lt (mono _ (5 / 3) ?_) (by decide +kernel)
      rw [div_le_iff₀ (by norm_num)]; linarith
    have k2 : -1 ≤ ⌊q⌋ := by
      have : (-600 : ℚ) < ((360 * ⌊q⌋ : ℤ) : ℚ) := by push_cast; linarith
      have : (-600 : ℤ) < 360 * ⌊q⌋ := by exact_mod_cast this
      omega
    have cases : ⌊q⌋ = -1 ∨ ⌊q⌋ = 0 ∨ ⌊q⌋ = 1 := by omega
    rcases cases with hk | hk | hk
    · rw [hk] at hlt fq
      have g := gap (-360) (by decide) (by push_cast at hlt ⊢; linarith)
      have : q ≤ rnd b64 (-1 - 2⁻¹ ^ 44 / 360) := mono _ _ (by rw [div_le_iff₀ (by norm_num)]; push_cast at g; linarith)
      have h2 : rnd b64 (-1 - 2⁻¹ ^ 44 / 360) < -1 := by decide +kernel
      push_cast at fq; linarith
    · rw [hk] at hlt fq ⊢
      simp only [Int.cast_zero, mul_zero, sub_zero] at hlt fq ⊢
      rw [rnd_of_representable ha]
      by_contra hc
      have : q ≤ rnd b64 (-2⁻¹ ^ 1000 / 360) := mono _ _ (by rw [div_le_div_iff_of_pos_right (by norm_num)]; linarith)
      have h2 : rnd b64 (-2⁻¹ ^ 1000 / 360) < 0 := by decide +kernel
      linarith
    · rw [hk] at hlt fq
      have g := gap 360 (by decide) (by push_cast at hlt ⊢; linarith)
      have : q ≤ rnd b64 (1 - 2⁻¹ ^ 44 / 360) := mono _ _ (by rw [div_le_iff₀ (by norm_num)]; push_cast at g; linarith)
      have h2 : rnd b64 (1 - 2⁻¹ ^ 44 / 360) < 1 := by decide +kernel
      push_cast at fq; linarith
  · have : a - 360 * (⌊q⌋ : ℚ) ≤ 360 := by
      have f1 : ⌊a / 360⌋ ≤ ⌊q⌋ := by
        refine Int.le_floor.2 ?_
        have hk : |⌊a / 360⌋| ≤ 2 := by
          have k1 : ⌊a / 360⌋ ≤ 2 := Int.le_of_lt_add_one (Int.floor_lt.2 (by push_cast; rw [div_lt_iff₀ (by norm_num)]; linarith))
          have k2 : -2 ≤ ⌊a / 360⌋ := Int.le_floor.2 (by push_cast; rw [le_div_iff₀ (by norm_num)]; linarith)
          rw [abs_le]; exact ⟨k2, k1⟩
        rw [← rnd_of_representable (representable_int (F := b64) (z := ⌊a / 360⌋) (hk.trans (by decide)) (by decide) (by decide))]
        exact mono _ _ (Int.floor_le _)
      have f2 : (⌊a / 360⌋ : ℚ) ≤ ⌊q⌋ := by exact_mod_cast f1
      have f3 := Int.lt_floor_add_one (a / 360)
      rw [div_lt_iff₀ (by norm_num)] at f3
      linarith
    rw [hre]
    exact (mono _ _ this).trans (by decide +kernel)

/-- Degrees to radians, for differences. -/
theorem rad_abs (x d : ℝ) (h : |x| ≤ d) : |Coord.rad x| ≤ d * (3.15 / 180) := by
  have := Real.pi_lt_d2
  unfold Coord.rad
  rw [abs_div, abs_mul, abs_of_pos Real.pi_pos, abs_of_pos (by norm_num : (0 : ℝ) < 180)]
  have h0 := abs_nonneg x
  have : |x| * Real.pi ≤ d * 3.15 := mul_le_mul h (by linarith) Real.pi_pos.le (by linarith)
  rw [div_le_iff₀ (by norm_num)]
  linarith

theorem deg_abs (x d : ℝ) (h : |x| ≤ d) : |Coord.deg x| ≤ d * (180 / 3.14) := by
  have := Real.pi_gt_d2
  unfold Coord.deg
  rw [abs_div, abs_mul, abs_of_pos Real.pi_pos, abs_of_pos (by norm_num : (0 : ℝ) < 180), div_le_iff₀ Real.pi_pos]
  have h0 := abs_nonneg x
  have : d * 180 ≤ d * (180 / 3.14) * Real.pi := by
    rw [mul_assoc]; apply mul_le_mul_of_nonneg_left _ (by linarith)
    rw [div_mul_eq_mul_div, le_div_iff₀ (by norm_num)]; linarith
  nlinarith

/-- An angle up to a right angle, in degrees. -/
theorem deg_right {d e : ℚ} (h : |(d : ℝ) - Coord.deg e| ≤ 1000 * eps) (he : |(e : ℝ)| ≤ Real.pi / 2 + 4 * eps) :
    |(d : ℝ)| ≤ 90 + 2048 * eps := by
  have hp := eps_pos
  have hpi := Real.pi_gt_three
  have h1 := abs_sub_abs_le_abs_sub (d : ℝ) (Coord.deg e)
  have h2 : |Coord.deg e| ≤ 90 + 240 * eps := by
    unfold Coord.deg
    rw [abs_div, abs_mul, abs_of_pos Real.pi_pos, abs_of_pos (by norm_num : (0 : ℝ) < 180), div_le_iff₀ Real.pi_pos]
    nlinarith
  linarith

set_option maxHeartbeats 800000 in
/-- The result of `horizontalToEquatorial`, in equatorial components. -/
theorem h2e_err {M : Libm} (hM : Accurate M) (az alt lat lst : ℚ) (h1 : |(az : ℝ)| ≤ 361) (h2 : |(alt : ℝ)| ≤ 361) (h3 : |(lat : ℝ)| ≤ 361)
    (h4 : |(lst : ℝ)| ≤ 361) :
    ∃ ra dec, horizontalToEquatorial M az alt lat lst = .ok (ra, dec) ∧ -2⁻¹ ^ 1000 ≤ ra ∧ ra ≤ 360 ∧ |(dec : ℝ)| ≤ 90 + 2048 * eps ∧
      |cosd dec * cosd (lst - ra) - Coord.rx (Coord.rad lat) (Coord.rad az) (Coord.rad alt)| ≤ 460 * eps ∧
      |cosd dec * sind (lst - ra) - Coord.ry (Coord.rad az) (Coord.rad alt)| ≤ 460 * eps ∧
      |sind dec - Coord.rz (Coord.rad lat) (Coord.rad az) (Coord.rad alt)| ≤ 460 * eps := by
  have hs := eps_small
  have he := eps_pos
  obtain ⟨az', ha, ea, ba⟩ := rad_err az h1
  obtain ⟨el', hel, eel, bel⟩ := rad_err alt h2
  obtain ⟨phi', hphi, ephi, bphi⟩ := rad_err lat h3
  obtain ⟨ha', d', ht, bh, bd, t1, t2, t3⟩ := turn_err hM ba bel bphi (ea.trans (by linarith)) eel ephi
  have bd' : |(d' : ℝ)| ≤ 1.6 := by
    have := Real.pi_lt_d2
    norm_num at hs this ⊢; linarith
  obtain ⟨dec, hdec, edec, rdec⟩ := deg_err d' (bd'.trans (by norm_num))
  obtain ⟨h, hh, eh, rh⟩ := deg_err ha' (bh.trans (by norm_num))
  have hb : |(h : ℝ)| ≤ 184 := by
    have := abs_sub_abs_le_abs_sub (h : ℝ) (Coord.deg ha')
    have := deg_abs _ _ bh
    norm_num at *; linarith
  obtain ⟨a, haa, eaa⟩ := fl_err 10 (by norm_num) (lst - h) (by
    push_cast
    have := abs_sub (lst : ℝ) h
    norm_num; linarith)
  push_cast at eaa
  norm_num at eaa
  have hab : |(a : ℝ)| ≤ 600 := by
    have := abs_sub_abs_le_abs_sub (a : ℝ) (lst - h)
    have := abs_sub (lst : ℝ) h
    norm_num at *; linarith
  obtain ⟨ra, hra, ⟨k, ek⟩, -, -⟩ := fmod_err a hab
  have hrep : Representable b64 a := by
    unfold fl at haa
    split at haa
    · rw [← Except.ok.inj haa]; exact representable_rnd (by decide) _
    · cases haa
  obtain ⟨r1, r2⟩ := fmod_range a ra hrep (by exact_mod_cast hab) hra
  refine ⟨ra, dec, ?_, r1, r2, ?_, ?_⟩
  · unfold horizontalToEquatorial
    rw [ha]; simp only [bind, Except.bind]
    rw [hel]; simp only
    rw [hphi]; simp only
    rw [ht]; simp only
    rw [hdec]; simp only
    rw [hh]; simp only
    rw [haa]; simp only
    rw [hra]; rfl
  · exact deg_right edec bd
  -- the hour angle of the result
  have hha : |Coord.rad (lst - ra) + (-k) * (2 * Real.pi) - ha'| ≤ 32 * eps := by
    have e : Coord.rad (lst - ra) + (-k) * (2 * Real.pi) = Coord.rad (lst - ra + ((-k : ℤ) : ℝ) * 360) := by
      rw [Coord.rad_turns]; push_cast; ring
    have e2 : Coord.rad (lst - ra + ((-k : ℤ) : ℝ) * 360) - ha' =
        Coord.rad ((lst - ra + ((-k : ℤ) : ℝ) * 360) - h) + (Coord.rad h - ha') := by rw [Coord.rad_sub]; ring
    have e3 : |((lst : ℝ) - ra + ((-k : ℤ) : ℝ) * 360) - h| ≤ 768 * eps := by
      have : ((lst : ℝ) - ra + ((-k : ℤ) : ℝ) * 360) - h = -(a - (lst - h)) - (ra - (a - 360 * k)) := by push_cast; ring
      rw [this]
      refine (abs_sub _ _).trans ?_
      rw [abs_neg]; linarith
    rw [e, e2]
    refine (abs_add_le _ _).trans ?_
    have := rad_abs _ _ e3
    norm_num at *
    linarith
  have cper : Real.cos (Coord.rad (lst - ra) + (-k) * (2 * Real.pi)) = Real.cos (Coord.rad (lst - ra)) := by
    have := Real.cos_add_int_mul_two_pi (Coord.rad (lst - ra)) (-k); push_cast at this; exact this
  have sper : Real.sin (Coord.rad (lst - ra) + (-k) * (2 * Real.pi)) = Real.sin (Coord.rad (lst - ra)) := by
    have := Real.sin_add_int_mul_two_pi (Coord.rad (lst - ra)) (-k); push_cast at this; exact this
  obtain ⟨c1, c2, c3⟩ := cc_err rdec hha
  rw [cper] at c1
  rw [sper] at c2
  rw [cosd_rad, cosd_rad, sind_rad, sind_rad]
  refine ⟨?_, ?_, ?_⟩
  · have := abs_sub_le (Real.cos (Coord.rad dec) * Real.cos (Coord.rad (lst - ra))) (Real.cos d' * Real.cos ha')
      (Coord.rx (Coord.rad lat) (Coord.rad az) (Coord.rad alt))
    linarith
  · have := abs_sub_le (Real.cos (Coord.rad dec) * Real.sin (Coord.rad (lst - ra))) (Real.cos d' * Real.sin ha')
      (Coord.ry (Coord.rad az) (Coord.rad alt))
    linarith
  · have := abs_sub_le (Real.sin (Coord.rad dec)) (Real.sin d') (Coord.rz (Coord.rad lat) (Coord.rad az) (Coord.rad alt))
    linarith

/-- **C69.** `horizontalToEquatorial` in double arithmetic never leaves the number range and is accurate: the direction it returns differs
from the given one by at most `2^-43` in each component. -/
theorem C69_h2e (M : Libm) (hM : Accurate M) (az alt lat lst : ℚ) (h1 : |az| ≤ 361) (h2 : |alt| ≤ 361) (h3 : |lat| ≤ 361) (h4 : |lst| ≤ 361) :
    ∃ ra dec, horizontalToEquatorial M az alt lat lst = .ok (ra, dec) ∧ -2⁻¹ ^ 1000 ≤ ra ∧ ra ≤ 360 ∧ |dec| ≤ 90 + 2⁻¹ ^ 42 ∧
      NearDirection (2⁻¹ ^ 43) az alt ra dec lat lst := by
  obtain ⟨ra, dec, h, r1, r2, r3, e1, e2, e3⟩ := h2e_err hM az alt lat lst (by exact_mod_cast h1) (by exact_mod_cast h2) (by exact_mod_cast h3)
    (by exact_mod_cast h4)
  have he := eps_pos
  have tol : (2⁻¹ : ℝ) ^ 43 = 1024 * eps := by unfold eps; norm_num
  have b1 := Real.abs_sin_le_one (Coord.rad lat)
  have b2 := Real.abs_cos_le_one (Coord.rad lat)
  have pyth := Real.sin_sq_add_cos_sq (Coord.rad (lat : ℝ))
  have r4 : |dec| ≤ 90 + 2⁻¹ ^ 42 := by
    have : ((|dec| : ℚ) : ℝ) ≤ ((90 + 2⁻¹ ^ 42 : ℚ) : ℝ) := by
      push_cast
      rw [show (2⁻¹ : ℝ) ^ 42 = 2048 * eps by unfold eps; norm_num]; exact r3
    exact_mod_cast this
  refine ⟨ra, dec, h, r1, r2, r4, ⟨?_, ?_, ?_⟩⟩
  · rw [tol]
    have : cosd (alt : ℝ) * cosd az - (sind (dec : ℝ) * cosd lat - cosd (dec : ℝ) * cosd (lst - ra) * sind lat) =
        (cosd (dec : ℝ) * cosd (lst - ra) - Coord.rx (Coord.rad lat) (Coord.rad az) (Coord.rad alt)) * sind lat -
        (sind (dec : ℝ) - Coord.rz (Coord.rad lat) (Coord.rad az) (Coord.rad alt)) * cosd lat := by
      simp only [cosd_rad, sind_rad]
      unfold Coord.rx Coord.rz
      linear_combination (-(Real.cos (Coord.rad az) * Real.cos (Coord.rad alt))) * pyth
    rw [this]
    refine (abs_sub _ _).trans ?_
    rw [abs_mul, abs_mul, sind_rad lat, cosd_rad lat]
    have k1 := mul_le_mul e1 b1 (abs_nonneg _) (by positivity)
    have k2 := mul_le_mul e3 b2 (abs_nonneg _) (by positivity)
    linarith
  · rw [tol]
    have : cosd (alt : ℝ) * sind az + cosd (dec : ℝ) * sind (lst - ra) =
        cosd (dec : ℝ) * sind (lst - ra) - Coord.ry (Coord.rad az) (Coord.rad alt) := by
      simp only [cosd_rad, sind_rad]; unfold Coord.ry; ring
    rw [this]; linarith
  · rw [tol]
    have : sind (alt : ℝ) - (sind (dec : ℝ) * sind lat + cosd (dec : ℝ) * cosd (lst - ra) * cosd lat) =
        -((cosd (dec : ℝ) * cosd (lst - ra) - Coord.rx (Coord.rad lat) (Coord.rad az) (Coord.rad alt)) * cosd lat +
        (sind (dec : ℝ) - Coord.rz (Coord.rad lat) (Coord.rad az) (Coord.rad alt)) * sind lat) := by
      simp only [cosd_rad, sind_rad]
      unfold Coord.rx Coord.rz
      linear_combination (-Real.sin (Coord.rad alt)) * pyth
    rw [this, abs_neg]
    refine (abs_add_le _ _).trans ?_
    rw [abs_mul, abs_mul, sind_rad lat, cosd_rad lat]
    have k1 := mul_le_mul e1 b2 (abs_nonneg _) (by positivity)
    have k2 := mul_le_mul e3 b1 (abs_nonneg _) (by positivity)
    linarith

/-- The hour angle in double arithmetic. -/
theorem hourAngle_err (ra lst : ℚ) (h1 : |(lst : ℝ) - ra| ≤ 360) :
    ∃ h, hourAngle ra lst = .ok h ∧ |h| ≤ 7 ∧ ∃ k : ℤ, |(h : ℝ) - Coord.rad (lst - ra + k * 360)| ≤ 30 * eps := by
  have hs := eps_small
  have he := eps_pos
  obtain ⟨d, hd, ed⟩ := fl_err 9 (by norm_num) (lst - ra) (by push_cast; norm_num; linarith)
  push_cast at ed
  norm_num at ed hs
  have hdb : |(d : ℝ)| ≤ 361 := by
    have := abs_sub_abs_le_abs_sub (d : ℝ) (lst - ra); linarith
  by_cases h0 : 0 ≤ d
  · obtain ⟨r, hr, er, br⟩ := rad_err d hdb
    refine ⟨r, ?_, br, 0, ?_⟩
    · unfold hourAngle
      rw [hd]; simp only [bind, Except.bind]
      rw [if_pos h0]; exact hr
    · have e : Coord.rad (lst - ra + ((0 : ℤ) : ℝ) * 360) = Coord.rad d - Coord.rad (d - (lst - ra)) := by
        rw [Int.cast_zero, zero_mul, add_zero, Coord.rad_sub (d : ℝ)]; ring
      have k1 := rad_abs _ _ ed
      have k2 : (r : ℝ) - Coord.rad (lst - ra + ((0 : ℤ) : ℝ) * 360) = (r - Coord.rad d) + Coord.rad (d - (lst - ra)) := by rw [e]; ring
      rw [k2]
      refine (abs_add_le _ _).trans ?_
      norm_num at k1; linarith
  · have hneg : (d : ℝ) < 0 := by exact_mod_cast not_le.1 h0
    have hlo := (abs_le.1 hdb).1
    obtain ⟨g, hg, eg⟩ := fl_err 9 (by norm_num) (d + 360) (by
      push_cast; rw [abs_lt]; constructor <;> linarith)
    push_cast at eg
    norm_num at eg
    have hgb : |(g : ℝ)| ≤ 361 := by
      have := abs_le.1 eg
      rw [abs_le]; constructor <;> linarith
    obtain ⟨r, hr, er, br⟩ := rad_err g hgb
    refine ⟨r, ?_, br, 1, ?_⟩
    · unfold hourAngle
      rw [hd]; simp only [bind, Except.bind]
      rw [if_neg h0, hg]; exact hr
    · have e3 : |(g : ℝ) - (lst - ra + ((1 : ℤ) : ℝ) * 360)| ≤ 512 * eps := by
        have : (g : ℝ) - (lst - ra + ((1 : ℤ) : ℝ) * 360) = (g - (d + 360)) + (d - (lst - ra)) := by push_cast; ring
        rw [this]
        exact (abs_add_le _ _).trans (by linarith)
      have k1 := rad_abs _ _ e3
      have k2 : (r : ℝ) - Coord.rad (lst - ra + ((1 : ℤ) : ℝ) * 360) = (r - Coord.rad g) + Coord.rad (g - (lst - ra + ((1 : ℤ) : ℝ) * 360)) := by
        rw [Coord.rad_sub (g : ℝ)]; ring
      rw [k2]
      refine (abs_add_le _ _).trans ?_
      rw [show (512 : ℝ) * eps * (3.15 / 180) = 224 / 25 * eps by ring] at k1; exact (add_le_add er k1).trans (by linarith)

set_option maxHeartbeats 800000 in
/-- The result of `equatorialToHorizontal`, in horizontal components. -/
theorem e2h_err {M : Libm} (hM : Accurate M) (ra dec lat lst : ℚ) (h1 : |(lst : ℝ) - ra| ≤ 360) (h2 : |(dec : ℝ)| ≤ 361) (h3 : |(lat : ℝ)| ≤ 361) :
    ∃ az alt, equatorialToHorizontal M ra dec lat lst = .ok (az, alt) ∧ 0 ≤ az ∧ az ≤ 360 ∧ |(alt : ℝ)| ≤ 90 + 2048 * eps ∧
      |cosd alt * cosd az - Coord.rx (Coord.rad lat) (Coord.rad (lst - ra)) (Coord.rad dec)| ≤ 460 * eps ∧
      |cosd alt * sind az - Coord.ry (Coord.rad (lst - ra)) (Coord.rad dec)| ≤ 460 * eps ∧
      |sind alt - Coord.rz (Coord.rad lat) (Coord.rad (lst - ra)) (Coord.rad dec)| ≤ 460 * eps := by
  have hs := eps_small
  have he := eps_pos
  norm_num at hs
  obtain ⟨ha', hha, bha, k, eha⟩ := hourAngle_err ra lst h1
  obtain ⟨de', hde, ede, bde⟩ := rad_err dec h2
  obtain ⟨phi', hphi, ephi, bphi⟩ := rad_err lat h3
  obtain ⟨a', e', ht, ba, be, t1, t2, t3⟩ := turn_err hM bha bde bphi eha ede ephi
  have rx_turn : Coord.rx (Coord.rad lat) (Coord.rad (lst - ra + k * 360)) (Coord.rad dec) =
      Coord.rx (Coord.rad lat) (Coord.rad (lst - ra)) (Coord.rad dec) := by
    unfold Coord.rx; rw [Coord.cos_rad_turns]
  have ry_turn : Coord.ry (Coord.rad (lst - ra + k * 360)) (Coord.rad dec) = Coord.ry (Coord.rad (lst - ra)) (Coord.rad dec) := by
    unfold Coord.ry; rw [Coord.sin_rad_turns]
  have rz_turn : Coord.rz (Coord.rad lat) (Coord.rad (lst - ra + k * 360)) (Coord.rad dec) =
      Coord.rz (Coord.rad lat) (Coord.rad (lst - ra)) (Coord.rad dec) := by
    unfold Coord.rz; rw [Coord.cos_rad_turns]
  rw [rx_turn] at t1
  rw [ry_turn] at t2
  rw [rz_turn] at t3
  -- azimuth
  obtain ⟨z, hz, bz, z0, z1, ez⟩ : ∃ z : ℚ, (if a' < 0 then fl b64 (a' + 2 * PI) else .ok a') = .ok z ∧ |(z : ℝ)| ≤ 6.3 ∧ 0 ≤ z ∧ z ≤ 2 * PI ∧
      ∃ j : ℤ, |(z : ℝ) - (a' + j * (2 * Real.pi))| ≤ 8 * eps := by
    have hpi := pi_err
    obtain ⟨p1, p2⟩ := pi_bounds
    have q1 := Real.pi_gt_d4
    have q2 := Real.pi_lt_d4
    norm_num at q1 q2 p1 p2
    have ba1 := abs_le.1 ba
    norm_num at ba1
    by_cases hlt : a' < 0
    · rw [if_pos hlt]
      have hlt' : (a' : ℝ) < 0 := by exact_mod_cast hlt
      obtain ⟨z, hz, ez⟩ := fl_err 3 (by norm_num) (a' + 2 * PI) (by push_cast; rw [abs_lt]; constructor <;> norm_num <;> linarith)
      push_cast at ez
      norm_num at ez
      obtain ⟨z1, z2⟩ := abs_le.1 ez
      obtain ⟨w1, w2⟩ := abs_le.1 hpi
      have hzr : z = rnd b64 (a' + 2 * PI) := by
        rw [fl_eq_rnd_64 (by
          have : |((a' + 2 * PI : ℚ) : ℝ)| ≤ 10000000 := by push_cast; rw [abs_le]; constructor <;> linarith
          exact_mod_cast this)] at hz
        exact (Except.ok.inj hz).symm
      have hz0 : 0 ≤ z := by
        rw [hzr]; apply rnd_nonneg
        have : (0 : ℝ) ≤ ((a' + 2 * PI : ℚ) : ℝ) := by push_cast; linarith
        exact_mod_cast this
      have hz1 : z ≤ 2 * PI := by
        have e1 : rnd b64 (2 * PI) = 2 * PI := by decide +kernel
        have e2 := rnd_mono (F := b64) (by decide) (show a' + 2 * PI ≤ 2 * PI by linarith)
        rw [hzr]; linarith
      refine ⟨z, hz, ?_, hz0, hz1, 1, ?_⟩
      · rw [abs_le]; norm_num; constructor <;> linarith
      · rw [abs_le]; push_cast; constructor <;> linarith
    · rw [if_neg hlt]
      have : (0 : ℝ) ≤ a' := by exact_mod_cast not_lt.1 hlt
      refine ⟨a', rfl, ba.trans (by norm_num), not_lt.1 hlt, ?_, 0, ?_⟩
      · have : (a' : ℝ) ≤ ((2 * PI : ℚ) : ℝ) := by push_cast; linarith
        exact_mod_cast this
      simp
      exact he.le
  obtain ⟨j, ej⟩ := ez
  obtain ⟨az, haz, eaz, raz⟩ := deg_err z (bz.trans (by norm_num))
  have be' : |(e' : ℝ)| ≤ 1.6 := by
    have := Real.pi_lt_d2
    norm_num at hs this ⊢; linarith
  obtain ⟨alt, halt, ealt, ralt⟩ := deg_err e' (be'.trans (by norm_num))
  obtain ⟨az0, az1⟩ := deg_range z az z0 z1 haz
  refine ⟨az, alt, ?_, az0, az1, deg_right ealt be, ?_⟩
  · unfold equatorialToHorizontal
    rw [hha]; simp only [bind, Except.bind]
    rw [hde]; simp only
    rw [hphi]; simp only
    rw [ht]; simp only
    by_cases hlt : a' < 0
    · rw [if_pos hlt] at hz ⊢
      rw [hz]; simp only
      rw [haz]; simp only
      rw [halt]; rfl
    · rw [if_neg hlt] at hz ⊢
      rw [Except.ok.inj hz, haz]; simp only
      rw [halt]; rfl
  have hzz : |Coord.rad az - (a' + j * (2 * Real.pi))| ≤ 26 * eps := by
    have := abs_sub_le (Coord.rad az) z (a' + j * (2 * Real.pi))
    linarith
  obtain ⟨c1, c2, c3⟩ := cc_err ralt hzz
  rw [Real.cos_add_int_mul_two_pi] at c1
  rw [Real.sin_add_int_mul_two_pi] at c2
  rw [cosd_rad, cosd_rad, sind_rad, sind_rad]
  refine ⟨?_, ?_, ?_⟩
  · have := abs_sub_le (Real.cos (Coord.rad alt) * Real.cos (Coord.rad az)) (Real.cos e' * Real.cos a')
      (Coord.rx (Coord.rad lat) (Coord.rad (lst - ra)) (Coord.rad dec))
    linarith
  · have := abs_sub_le (Real.cos (Coord.rad alt) * Real.sin (Coord.rad az)) (Real.cos e' * Real.sin a')
      (Coord.ry (Coord.rad (lst - ra)) (Coord.rad dec))
    linarith
  · have := abs_sub_le (Real.sin (Coord.rad alt)) (Real.sin e') (Coord.rz (Coord.rad lat) (Coord.rad (lst - ra)) (Coord.rad dec))
    linarith

/-- **C69.** `equatorialToHorizontal` in double arithmetic never leaves the number range and is accurate: the direction it returns differs
from the given one by at most `2^-43` in each component. -/
theorem C69_e2h (M : Libm) (hM : Accurate M) (ra dec lat lst : ℚ) (h1 : |lst - ra| ≤ 360) (h2 : |dec| ≤ 361) (h3 : |lat| ≤ 361) :
    ∃ az alt, equatorialToHorizontal M ra dec lat lst = .ok (az, alt) ∧ 0 ≤ az ∧ az ≤ 360 ∧ |alt| ≤ 90 + 2⁻¹ ^ 42 ∧
      NearDirection (2⁻¹ ^ 43) az alt ra dec lat lst := by
  obtain ⟨az, alt, h, r1, r2, r3, e1, e2, e3⟩ := e2h_err hM ra dec lat lst (by exact_mod_cast h1) (by exact_mod_cast h2) (by exact_mod_cast h3)
  have he := eps_pos
  have tol : (2⁻¹ : ℝ) ^ 43 = 1024 * eps := by unfold eps; norm_num
  have r4 : |alt| ≤ 90 + 2⁻¹ ^ 42 := by
    have : ((|alt| : ℚ) : ℝ) ≤ ((90 + 2⁻¹ ^ 42 : ℚ) : ℝ) := by
      push_cast
      rw [show (2⁻¹ : ℝ) ^ 42 = 2048 * eps by unfold eps; norm_num]; exact r3
    exact_mod_cast this
  refine ⟨az, alt, h, r1, r2, r4, ⟨?_, ?_, ?_⟩⟩
  · have e : Coord.rx (Coord.rad lat) (Coord.rad (lst - ra)) (Coord.rad dec) =
        sind (dec : ℝ) * cosd lat - cosd (dec : ℝ) * cosd (lst - ra) * sind lat := by
      simp only [cosd_rad, sind_rad]; unfold Coord.rx; ring
    rw [e] at e1; rw [tol]; linarith
  · have e : Coord.ry (Coord.rad (lst - ra)) (Coord.rad dec) = -(cosd (dec : ℝ) * sind (lst - ra)) := by
      simp only [cosd_rad, sind_rad]; unfold Coord.ry; ring
    rw [e, sub_neg_eq_add] at e2; rw [tol]; linarith
  · have e : Coord.rz (Coord.rad lat) (Coord.rad (lst - ra)) (Coord.rad dec) =
        sind (dec : ℝ) * sind lat + cosd (dec : ℝ) * cosd (lst - ra) * cosd lat := by
      simp only [cosd_rad, sind_rad]; unfold Coord.rz; ring
    rw [e] at e3; rw [tol]; linarith

/-! ### There and back -/

/-- Two directions (at the same place, possibly at different times) that are both near the same horizontal direction are near each other. -/
theorem near_near {t1 t2 A a α δ α' δ' φ t t' : ℝ} (h : NearDirection t1 A a α δ φ t) (h' : NearDirection t2 A a α' δ' φ t') :
    |cosd δ' * cosd (t' - α') - cosd δ * cosd (t - α)| ≤ 2 * (t1 + t2) ∧ |cosd δ' * sind (t' - α') - cosd δ * sind (t - α)| ≤ t1 + t2 ∧
      |sind δ' - sind δ| ≤ 2 * (t1 + t2) := by
  obtain ⟨n1, n2, n3⟩ := h
  obtain ⟨m1, m2, m3⟩ := h'
  have b1 := Real.abs_sin_le_one (Coord.rad φ)
  have b2 := Real.abs_cos_le_one (Coord.rad φ)
  have pyth := Real.sin_sq_add_cos_sq (Coord.rad φ)
  rw [← sind_rad] at b1 pyth
  rw [← cosd_rad] at b2 pyth
  set D1 := (sind δ' * cosd φ - cosd δ' * cosd (t' - α') * sind φ) - (sind δ * cosd φ - cosd δ * cosd (t - α) * sind φ) with hD1
  set D3 := (sind δ' * sind φ + cosd δ' * cosd (t' - α') * cosd φ) - (sind δ * sind φ + cosd δ * cosd (t - α) * cosd φ) with hD3
  have d1 : |D1| ≤ t1 + t2 := by
    have : D1 = (cosd a * cosd A - (sind δ * cosd φ - cosd δ * cosd (t - α) * sind φ)) -
        (cosd a * cosd A - (sind δ' * cosd φ - cosd δ' * cosd (t' - α') * sind φ)) := by rw [hD1]; ring
    rw [this]; exact (abs_sub _ _).trans (add_le_add n1 m1)
  have d3 : |D3| ≤ t1 + t2 := by
    have : D3 = (sind a - (sind δ * sind φ + cosd δ * cosd (t - α) * cosd φ)) -
        (sind a - (sind δ' * sind φ + cosd δ' * cosd (t' - α') * cosd φ)) := by rw [hD3]; ring
    rw [this]; exact (abs_sub _ _).trans (add_le_add n3 m3)
  have s0 : 0 ≤ t1 + t2 := (abs_nonneg _).trans d1
  refine ⟨?_, ?_, ?_⟩
  · have : cosd δ' * cosd (t' - α') - cosd δ * cosd (t - α) = D3 * cosd φ - D1 * sind φ := by
      rw [hD1, hD3]
      linear_combination (-(cosd δ' * cosd (t' - α') - cosd δ * cosd (t - α))) * pyth
    rw [this]
    refine (abs_sub _ _).trans ?_
    rw [abs_mul, abs_mul]
    nlinarith [abs_nonneg D1, abs_nonneg D3, abs_nonneg (cosd φ), abs_nonneg (sind φ)]
  · have : cosd δ' * sind (t' - α') - cosd δ * sind (t - α) =
        (cosd a * sind A + cosd δ' * sind (t' - α')) - (cosd a * sind A + cosd δ * sind (t - α)) := by ring
    rw [this]
    exact (abs_sub _ _).trans (by linarith)
  · have : sind δ' - sind δ = D1 * cosd φ + D3 * sind φ := by
      rw [hD1, hD3]
      linear_combination (-(sind δ' - sind δ)) * pyth
    rw [this]
    refine (abs_add_le _ _).trans ?_
    rw [abs_mul, abs_mul]
    nlinarith [abs_nonneg D1, abs_nonneg D3, abs_nonneg (cosd φ), abs_nonneg (sind φ)]

/-- **C69.** There and back in double arithmetic: converting a star to horizontal coordinates and back changes its direction by at most
`2^-41` in each component (about `4.6e-13` radians), for every star (poles included), place and time. -/
theorem C69_roundtrip (M M' : Libm) (hM : Accurate M) (hM' : Accurate M') (ra dec lat lst : ℚ) (h1 : |lst - ra| ≤ 360) (h2 : |dec| ≤ 361)
    (h3 : |lat| ≤ 361) (h4 : |lst| ≤ 361) :
    ∃ az alt ra' dec', equatorialToHorizontal M ra dec lat lst = .ok (az, alt) ∧ horizontalToEquatorial M' az alt lat lst = .ok (ra', dec') ∧
      |cosd dec' * cosd (lst - ra') - cosd dec * cosd (lst - ra)| ≤ 2⁻¹ ^ 41 ∧
      |cosd dec' * sind (lst - ra') - cosd dec * sind (lst - ra)| ≤ 2⁻¹ ^ 41 ∧ |sind dec' - sind dec| ≤ 2⁻¹ ^ 41 := by
  obtain ⟨az, alt, e1, a1, a2, a3, n1⟩ := C69_e2h M hM ra dec lat lst h1 h2 h3
  obtain ⟨ra', dec', e2, -, -, -, n2⟩ := C69_h2e M' hM' az alt lat lst (by rw [abs_le]; constructor <;> linarith) (a3.trans (by norm_num)) h3 h4
  obtain ⟨c1, c2, c3⟩ := near_near n1 n2
  refine ⟨az, alt, ra', dec', e1, e2, c1.trans ?_, c2.trans ?_, c3.trans ?_⟩ <;> norm_num

/-! ### There are such libraries -/

/-- A library that rounds the exact values to within the required accuracy exists: the hypothesis can be met. -/
theorem accurate_exists : ∃ M, Accurate M := by
  have near : ∀ (x e : ℝ), 0 < e → ∃ q : ℚ, |(q : ℝ) - x| ≤ e := by
    intro x e he
    obtain ⟨q, h1, h2⟩ := exists_rat_btwn (show x - e < x + e by linarith)
    exact ⟨q, by rw [abs_le]; constructor <;> linarith⟩
  have root : ∀ x : ℚ, ∃ q : ℚ, 0 ≤ x → |(q : ℝ) - √x| ≤ 2⁻¹ ^ 52 * √x := by
    intro x
    by_cases h : 0 < x
    · have : 0 < √(x : ℝ) := Real.sqrt_pos.2 (by exact_mod_cast h)
      obtain ⟨q, hq⟩ := near (√x) (2⁻¹ ^ 52 * √x) (by positivity)
      exact ⟨q, fun _ => hq⟩
    · refine ⟨0, fun h0 => ?_⟩
      have : x = 0 := le_antisymm (not_lt.1 h) h0
      subst this
      simp
  choose s hs using fun x : ℚ => near (Real.sin x) (2⁻¹ ^ 52) (by positivity)
  choose c hc using fun x : ℚ => near (Real.cos x) (2⁻¹ ^ 52) (by positivity)
  choose r hr using root
  choose a ha using fun y x : ℚ => near (Complex.arg ⟨x, y⟩) (2⁻¹ ^ 51) (by positivity)
  exact ⟨⟨s, c, r, a⟩, fun x _ => hs x, fun x _ => hc x, hr, fun y x _ => ⟨_, Or.inl rfl, ha y x⟩⟩

/-- The theorems apply, e.g. to a star near the pole. -/
example : ∃ M, Accurate M ∧ ∃ az alt, equatorialToHorizontal M 37.95 89.26 48.5 200 = .ok (az, alt) ∧
    NearDirection (2⁻¹ ^ 43) az alt 37.95 89.26 48.5 200 := by
  obtain ⟨M, hM⟩ := accurate_exists
  obtain ⟨az, alt, h, -, -, -, n⟩ := C69_e2h M hM 37.95 89.26 48.5 200 (by norm_num) (by norm_num) (by norm_num)
  exact ⟨M, hM, az, alt, h, by push_cast at n; exact n⟩

end Verif.Coord64
