import Verif.Props.Helper
import Verif.Spec.Safety
import Verif.Props.NexStarFields

/-!
# Computations that cannot fail when the receiver's data are sane
-/

namespace Verif

theorem Nmea.Gnss.sane_init : (Nmea.Gnss.init 48 11).Sane := by
  constructor <;> simp [Nmea.Gnss.init] <;> norm_num

namespace Helper
open Nmea

/-- A float operation on values up to `2^k` stays there. -/
theorem fl_bound {F : Fmt} (hF : F = b32 ∨ F = b64) {q : ℚ} (k : ℤ) (hk0 : 0 ≤ k) (hk : k ≤ 100) (h : |q| ≤ (2 : ℚ) ^ k) :
    ∃ r, fl F q = .ok r ∧ |r| ≤ (2 : ℚ) ^ k := by
  refine ⟨_, fl_small hF (h.trans (zpow_le_zpow_right₀ (by norm_num) hk)), ?_⟩
  refine abs_rnd_le ?_ h ?_
  · rcases hF with rfl | rfl <;> decide
  · rcases hF with rfl | rfl
    · exact le_trans (by decide) hk0
    · exact le_trans (by decide) hk0

theorem floor_bound {q : ℚ} {B : ℚ} (h : |q| ≤ B) : |(⌊q⌋ : ℚ)| ≤ B + 1 := by
  have h1 := Int.floor_le q
  have h2 := Int.lt_floor_add_one q
  rw [abs_le] at h ⊢
  constructor <;> linarith

theorem julianDay_total (t : Tm) (hy : 0 ≤ t.year ∧ t.year < 10000) (hm : 0 ≤ t.mon ∧ t.mon < 100) (hd : 0 ≤ t.mday ∧ t.mday < 100) :
    ∃ j, julianDay t = .ok j := by
  unfold julianDay
  obtain ⟨year, mon, hym, y0, y1, m0, m1⟩ : ∃ year mon : ℤ, (if t.mon ≤ 2 then (t.year - 1, t.mon + 12) else (t.year, t.mon)) = (year, mon) ∧
      -1 ≤ year ∧ year < 10000 ∧ 0 ≤ mon ∧ mon < 100 := by
    split
    · exact ⟨_, _, rfl, by omega, by omega, by omega, by omega⟩
    · exact ⟨_, _, rfl, by omega, by omega, by omega, by omega⟩
  rw [hym]
  simp only
  have y0' : (-1 : ℚ) ≤ year := by exact_mod_cast y0
  have y1' : (year : ℚ) < 10000 := by exact_mod_cast y1
  have m0' : (0 : ℚ) ≤ mon := by exact_mod_cast m0
  have m1' : (mon : ℚ) < 100 := by exact_mod_cast m1
  have d0' : (0 : ℚ) ≤ t.mday := by exact_mod_cast hd.1
  have d1' : (t.mday : ℚ) < 100 := by exact_mod_cast hd.2
  have i32 : b32 = b32 ∨ b32 = b64 := Or.inl rfl
  have i64 : b64 = b32 ∨ b64 = b64 := Or.inr rfl
  obtain ⟨yf, e, b1⟩ := fl_bound (q := (year : ℚ)) i32 14 (by norm_num) (by norm_num) (by rw [abs_le]; constructor <;> norm_num <;> linarith)
  rw [e, bind_ok]
  norm_num at b1
  obtain ⟨q, e, b2⟩ := fl_bound (q := yf / 100) i32 14 (by norm_num) (by norm_num) (by
    rw [abs_div, div_le_iff₀ (by norm_num)]; norm_num; linarith)
  rw [e, bind_ok]
  norm_num at b2
  have b3 := floor_bound b2
  obtain ⟨d, e, b4⟩ := fl_bound (q := 2 - (⌊q⌋ : ℚ)) i32 16 (by norm_num) (by norm_num) (by
    rw [abs_le] at b3 ⊢; norm_num; constructor <;> linarith [b3.1, b3.2])
  rw [e, bind_ok]
  norm_num at b4
  obtain ⟨a4, e, b5⟩ := fl_bound (q := (⌊q⌋ : ℚ) / 4) i32 16 (by norm_num) (by norm_num) (by
    rw [abs_div, div_le_iff₀ (by norm_num)]; norm_num; linarith)
  rw [e, bind_ok]
  norm_num at b5
  have b6 := floor_bound b5
  obtain ⟨B, e, b7⟩ := fl_bound (q := d + (⌊a4⌋ : ℚ)) i32 18 (by norm_num) (by norm_num) (by
    rw [abs_le] at b4 b6 ⊢; norm_num; constructor <;> linarith [b4.1, b4.2, b6.1, b6.2])
  rw [e, bind_ok]
  norm_num at b7
  obtain ⟨yf', e, b8⟩ := fl_bound (q := ((year + 4716 : ℤ) : ℚ)) i32 14 (by norm_num) (by norm_num) (by
    push_cast; rw [abs_le]; constructor <;> norm_num <;> linarith)
  rw [e, bind_ok]
  norm_num at b8
  obtain ⟨p, e, b9⟩ := fl_bound (q := 365.25 * yf') i32 24 (by norm_num) (by norm_num) (by
    rw [abs_mul]; norm_num; linarith)
  rw [e, bind_ok]
  norm_num at b9
  have b10 := floor_bound b9
  have hr : |rnd b64 30.6001| ≤ (2 : ℚ) ^ (5 : ℤ) := abs_rnd_le (by decide) (by norm_num [abs_le]) (by decide)
  rw [show (2 : ℚ) ^ (5 : ℤ) = 32 by norm_num] at hr
  obtain ⟨m, e, b11⟩ := fl_bound (q := rnd b64 30.6001 * ((mon + 1 : ℤ) : ℚ)) i64 12 (by norm_num) (by norm_num) (by
    rw [abs_mul]
    have h1 : |((mon + 1 : ℤ) : ℚ)| ≤ 128 := by push_cast; rw [abs_le]; constructor <;> linarith
    calc |rnd b64 30.6001| * |((mon + 1 : ℤ) : ℚ)| ≤ 32 * 128 := mul_le_mul hr h1 (abs_nonneg _) (by norm_num)
      _ = _ := by norm_num)
  rw [e, bind_ok]
  norm_num at b11
  have b12 := floor_bound b11
  obtain ⟨s1, e, b13⟩ := fl_bound (q := (⌊p⌋ : ℚ) + (⌊m⌋ : ℚ)) i64 26 (by norm_num) (by norm_num) (by
    rw [abs_le] at b10 b12 ⊢; norm_num; constructor <;> linarith [b10.1, b10.2, b12.1, b12.2])
  rw [e, bind_ok]
  norm_num at b13
  obtain ⟨s2, e, b14⟩ := fl_bound (q := s1 + (t.mday : ℚ)) i64 28 (by norm_num) (by norm_num) (by
    rw [abs_le] at b13 ⊢; norm_num; constructor <;> linarith [b13.1, b13.2])
  rw [e, bind_ok]
  norm_num at b14
  obtain ⟨s3, e, b15⟩ := fl_bound (q := s2 + B) i64 30 (by norm_num) (by norm_num) (by
    rw [abs_le] at b14 b7 ⊢; norm_num; constructor <;> linarith [b14.1, b14.2, b7.1, b7.2])
  rw [e, bind_ok]
  norm_num at b15
  obtain ⟨s4, e, b16⟩ := fl_bound (q := s3 - 1524.5) i64 32 (by norm_num) (by norm_num) (by
    rw [abs_le] at b15 ⊢; norm_num; constructor <;> linarith [b15.1, b15.2])
  rw [e, bind_ok]
  norm_num at b16
  obtain ⟨s5, e, -⟩ := fl_bound (q := s4) i32 32 (by norm_num) (by norm_num) (by norm_num; exact b16)
  exact ⟨s5, e⟩

/-- The sidereal time can be computed and is in range. -/
theorem lst_total {K : Type} [Field K] [LinearOrder K] [IsStrictOrderedRing K] [FloorRing K] (t : Tm) (hy : 0 ≤ t.year ∧ t.year < 10000)
    (hm : 0 ≤ t.mon ∧ t.mon < 100) (hd : 0 ≤ t.mday ∧ t.mday < 100) (lon : K) :
    ∃ r : K, localSiderealTime t lon = .ok r ∧ 0 ≤ r ∧ r < 360 := by
  obtain ⟨j, hj⟩ := julianDay_total t hy hm hd
  unfold localSiderealTime
  rw [hj, bind_ok]
  obtain ⟨h0, h1, -⟩ := C23_fmod_range (280.46061837 + 360.98564736629 * deltaJulian j t +
    0.000388 * (deltaJulian j t / 36525) * (deltaJulian j t / 36525) + lon) (360 : K) (by norm_num)
  exact ⟨_, rfl, h0, h1⟩

end Helper

namespace NexStar
open Nmea

theorem castU8_total {P : Platform} {x : ℚ} (h : P.fcast = .strict → 0 ≤ x ∧ x < 256) : ∃ d, castU8 P x = .ok d := by
  cases hP : P.fcast with
  | strict => exact ⟨_, castU8_ok (h hP).1 (h hP).2⟩
  | wrap =>
    unfold castU8 castUnsigned
    split
    · exact ⟨_, rfl⟩
    · rw [hP]; exact ⟨_, rfl⟩

/-- One coordinate of the location reply: on a platform without wrapping conversions the coordinate must be in [0, 256). -/
theorem degMin_total (P : Platform) (v : ℚ) (h : P.fcast = .strict → 0 ≤ v ∧ v < 256) : ∃ r, degMin P v = .ok r := by
  have g0 : 0 ≤ v - ⌊v⌋ := by have := Int.floor_le v; linarith
  have g1 : v - ⌊v⌋ < 1 := by have := Int.lt_floor_add_one v; linarith
  unfold degMin
  obtain ⟨d, e⟩ := castU8_total (P := P) (x := |(⌊v⌋ : ℚ)|) (by
    intro hP
    obtain ⟨h0, h1⟩ := h hP
    have f0 : 0 ≤ ⌊v⌋ := Int.floor_nonneg.2 h0
    have f0' : (0 : ℚ) ≤ ⌊v⌋ := by exact_mod_cast f0
    rw [abs_of_nonneg f0']
    exact ⟨f0', by linarith⟩)
  rw [e, bind_ok]
  have hb : |(|v| - |(⌊v⌋ : ℚ)|)| ≤ 1 := by
    refine (abs_abs_sub_abs_le_abs_sub v ⌊v⌋).trans ?_
    rw [abs_of_nonneg g0]; linarith
  obtain ⟨x, e, bx⟩ := Helper.fl_bound (F := b32) (Or.inl rfl) (q := |v| - |(⌊v⌋ : ℚ)|) 0 (by norm_num) (by norm_num) (by simpa using hb)
  rw [e, bind_ok]
  simp only [zpow_zero] at bx
  obtain ⟨y, e', by'⟩ := Helper.fl_bound (F := b32) (Or.inl rfl) (q := x * 60) 6 (by norm_num) (by norm_num) (by
    rw [abs_mul]; norm_num; linarith)
  rw [e', bind_ok]
  norm_num at by'
  obtain ⟨m, em⟩ := castU8_total (P := P) (x := y) (by
    intro hP
    obtain ⟨h0, h1⟩ := h hP
    have f0 : 0 ≤ ⌊v⌋ := Int.floor_nonneg.2 h0
    have f0' : (0 : ℚ) ≤ ⌊v⌋ := by exact_mod_cast f0
    have hx : 0 ≤ x := by
      rw [abs_of_nonneg h0, abs_of_nonneg f0', fl32_small (le_pow100 (B := 1) (by rw [abs_of_nonneg g0]; linarith) (by norm_num))] at e
      injection e with e
      rw [← e]; exact rnd_nonneg g0
    have hy : 0 ≤ y := by
      rw [fl32_small (le_pow100 (B := 60) (by rw [abs_mul]; norm_num; linarith) (by norm_num))] at e'
      injection e' with e'
      rw [← e']; exact rnd_nonneg (by linarith)
    exact ⟨hy, by rw [abs_le] at by'; linarith [by'.2]⟩)
  rw [em]
  exact ⟨_, rfl⟩

end NexStar
end Verif
