import Verif.Model.Helper
import Verif.Lemmas.Float
import Verif.Spec.Calendar
import Mathlib.Tactic.IntervalCases

/-!
# Lemmas for `helper.cpp` (helpers, not claims)
-/

namespace Verif

theorem fl_ok {F : Fmt} {q : ℚ} (h : Representable F q) (hb : |q| < (2 : ℚ) ^ F.emax) : fl F q = .ok q := by
  unfold fl; rw [rnd_of_representable h, if_pos hb]

theorem fl_ok' {F : Fmt} {q : ℚ} (hb : |rnd F q| < (2 : ℚ) ^ F.emax) : fl F q = .ok (rnd F q) := by
  unfold fl; rw [if_pos hb]

/-- An exact dyadic `m·2^e` with a small numerator passes through `fl` unchanged. -/
theorem fl_dyadic {F : Fmt} {q : ℚ} (m e : ℤ) (hq : q = m * (2 : ℚ) ^ e) (he : F.emin ≤ e) (hm : |m| < 2 ^ F.prec)
    (hx : F.prec + e ≤ F.emax) : fl F q = .ok q := by
  apply fl_ok ⟨m, e, he, hm, hq⟩
  rw [hq, abs_mul, abs_of_pos (two_zpow_pos e)]
  have h1 : |(m : ℚ)| < (2 : ℚ) ^ (F.prec : ℤ) := by rw [zpow_natCast]; exact_mod_cast hm
  have h2 : (2 : ℚ) ^ ((F.prec : ℤ) + e) ≤ (2 : ℚ) ^ F.emax := zpow_le_zpow_right₀ (by norm_num) hx
  rw [zpow_add₀ (by norm_num)] at h2
  have := two_zpow_pos e
  nlinarith

theorem fl32_int {z : ℤ} (h : |z| < 2 ^ 24) : fl b32 (z : ℚ) = .ok (z : ℚ) :=
  fl_dyadic z 0 (by simp) (by decide) (by exact_mod_cast h) (by decide)

theorem fl64_int {z : ℤ} (h : |z| < 2 ^ 53) : fl b64 (z : ℚ) = .ok (z : ℚ) :=
  fl_dyadic z 0 (by simp) (by decide) (by exact_mod_cast h) (by decide)

namespace Helper

/-- The integer formula hidden in `julianDay` (day count up to the constant 1524.5). -/
def jdInt (year mon mday : ℤ) : ℤ :=
  let y := if mon ≤ 2 then year - 1 else year
  let m := if mon ≤ 2 then mon + 12 else mon
  1461 * (y + 4716) / 4 + 306001 * (m + 1) / 10000 + mday + (2 - y / 100 + y / 100 / 4)

theorem jdInt_eq (year mon mday : ℤ) : jdInt year mon mday =
    (365 * (if mon ≤ 2 then year - 1 else year) + (if mon ≤ 2 then year - 1 else year) / 4 -
      (if mon ≤ 2 then year - 1 else year) / 100 + (if mon ≤ 2 then year - 1 else year) / 400 + 1722521) +
    306001 * ((if mon ≤ 2 then mon + 12 else mon) + 1) / 10000 + mday := by
  unfold jdInt
  simp only
  generalize (if mon ≤ 2 then year - 1 else year) = y
  generalize 306001 * ((if mon ≤ 2 then mon + 12 else mon) + 1) / 10000 = m
  have h1 : 1461 * (y + 4716) / 4 = 365 * y + y / 4 + 1722519 := by omega
  have h2 : y / 100 / 4 = y / 400 := by omega
  simp only [h1, h2]; omega

theorem floor_century {y : ℤ} (h0 : 0 ≤ y) (h1 : y ≤ 6767) : fl b32 ((y : ℚ) / 100) = .ok (rnd b32 ((y : ℚ) / 100)) ∧
    ⌊rnd b32 ((y : ℚ) / 100)⌋ = y / 100 := by
  have hy0 : (0 : ℚ) ≤ y := by exact_mod_cast h0
  have hy1 : (y : ℚ) ≤ 6767 := by exact_mod_cast h1
  have herr := rnd_error_lt (F := b32) (q := (y : ℚ) / 100) (k := 7) (by rw [abs_of_nonneg (by positivity)]; norm_num; linarith)
    (by decide)
  have hz : (((y / 100 : ℤ)) : ℚ) ≤ (y : ℚ) / 100 := by
    rw [le_div_iff₀ (by norm_num)]; exact_mod_cast (by omega : y / 100 * 100 ≤ y)
  have hz2 : (y : ℚ) / 100 ≤ ((y / 100 : ℤ) : ℚ) + 99 / 100 := by
    rw [div_le_iff₀ (by norm_num)]
    have : (y : ℚ) ≤ ((y / 100 * 100 + 99 : ℤ) : ℚ) := by exact_mod_cast (by omega : y ≤ y / 100 * 100 + 99)
    push_cast at this; linarith
  have hlow : (((y / 100 : ℤ)) : ℚ) ≤ rnd b32 ((y : ℚ) / 100) := by
    have := rnd_mono (F := b32) (by decide) hz
    rwa [rnd_of_representable (representable_int (F := b32) (z := y / 100) (by rw [abs_le]; simp [b32]; omega) (by decide) (by decide))] at this
  have he : (2 : ℚ) ^ ((7 : ℤ) - (b32.prec : ℤ) - 1) < 1 / 100 := by norm_num [b32]
  rw [abs_le] at herr
  constructor
  · apply fl_ok'
    rw [abs_of_nonneg (le_trans (by exact_mod_cast (by omega : (0 : ℤ) ≤ y / 100)) hlow)]
    have : (100 : ℚ) < (2 : ℚ) ^ b32.emax := by norm_num [b32]
    linarith
  · rw [Int.floor_eq_iff]
    refine ⟨hlow, ?_⟩
    linarith [herr.2]

theorem floor_month {m : ℤ} (h0 : 1 ≤ m) (h1 : m ≤ 14) :
    ∃ q, fl b64 (rnd b64 30.6001 * (m + 1 : ℤ)) = .ok q ∧ ⌊q⌋ = 306001 * (m + 1) / 10000 := by
  refine ⟨rnd b64 (rnd b64 30.6001 * (m + 1 : ℤ)), ?_, ?_⟩ <;> interval_cases m <;> decide +kernel

/-- In the years 0 … 6766 the floating-point computation of `julianDay` is exact. -/
theorem julianDay_eq (t : Tm) (hy0 : 1 ≤ t.year) (hy1 : t.year ≤ 6766) (hm0 : 1 ≤ t.mon) (hm1 : t.mon ≤ 12)
    (hd0 : 0 ≤ t.mday) (hd1 : t.mday ≤ 31) :
    julianDay t = .ok ((jdInt t.year t.mon t.mday : ℚ) - 1524.5) := by
  obtain ⟨y, hy⟩ : ∃ y, y = if t.mon ≤ 2 then t.year - 1 else t.year := ⟨_, rfl⟩
  obtain ⟨m, hm⟩ : ∃ m, m = if t.mon ≤ 2 then t.mon + 12 else t.mon := ⟨_, rfl⟩
  have hyb : 0 ≤ y ∧ y ≤ 6766 := by rw [hy]; split <;> omega
  have hmb : 3 ≤ m ∧ m ≤ 14 := by rw [hm]; split <;> omega
  have hp : (if t.mon ≤ 2 then (t.year - 1, t.mon + 12) else (t.year, t.mon)) = (y, m) := by
    rw [hy, hm]; split <;> rfl
  have hj : jdInt t.year t.mon t.mday =
      1461 * (y + 4716) / 4 + 306001 * (m + 1) / 10000 + t.mday + (2 - y / 100 + y / 100 / 4) := by
    rw [hy, hm]; rfl
  obtain ⟨c1, c2⟩ := floor_century hyb.1 (by omega)
  obtain ⟨q, q1, q2⟩ := floor_month (m := m) (by omega) (by omega)
  have hab : ∀ a b : ℤ, -b < a → a < b → |a| < b := fun a b h1 h2 => abs_lt.2 ⟨h1, h2⟩
  unfold julianDay
  simp only [hp]
  rw [fl32_int (hab _ _ (by omega) (by omega))]
  simp only [bind, Except.bind]
  rw [c1]; simp only [c2]
  have e1 : fl b32 (2 - ((y / 100 : ℤ) : ℚ)) = .ok (((2 - y / 100 : ℤ)) : ℚ) := by
    have := fl32_int (z := 2 - y / 100) (hab _ _ (by omega) (by omega)); push_cast at this ⊢; exact this
  rw [e1]; simp only
  have e2 : fl b32 (((y / 100 : ℤ) : ℚ) / 4) = .ok (((y / 100 : ℤ) : ℚ) / 4) :=
    fl_dyadic (y / 100) (-2) (by norm_num [div_eq_mul_inv]) (by decide) (hab _ _ (by simp [b32]; omega) (by simp [b32]; omega)) (by decide)
  rw [e2]; simp only
  have e3 : ⌊((y / 100 : ℤ) : ℚ) / 4⌋ = y / 100 / 4 := by
    have := Rat.floor_intCast_div_natCast (y / 100) 4
    push_cast at this ⊢; exact this
  rw [e3]
  have e4 : fl b32 (((2 - y / 100 : ℤ) : ℚ) + ((y / 100 / 4 : ℤ) : ℚ)) = .ok (((2 - y / 100 + y / 100 / 4 : ℤ)) : ℚ) := by
    have := fl32_int (z := 2 - y / 100 + y / 100 / 4) (hab _ _ (by omega) (by omega)); push_cast at this ⊢; exact this
  rw [e4]; simp only
  rw [fl32_int (hab _ _ (by omega) (by omega))]; simp only
  have e5 : fl b32 (365.25 * ((y + 4716 : ℤ) : ℚ)) = .ok (365.25 * ((y + 4716 : ℤ) : ℚ)) :=
    fl_dyadic (1461 * (y + 4716)) (-2) (by push_cast; norm_num; ring) (by decide)
      (hab _ _ (by simp [b32]; omega) (by simp [b32]; omega)) (by decide)
  rw [e5]; simp only
  have e6 : ⌊(365.25 * ((y + 4716 : ℤ) : ℚ) : ℚ)⌋ = 1461 * (y + 4716) / 4 := by
    have := Rat.floor_intCast_div_natCast (1461 * (y + 4716)) 4
    have e : (365.25 * ((y + 4716 : ℤ) : ℚ) : ℚ) = ((1461 * (y + 4716) : ℤ) : ℚ) / ((4 : ℕ) : ℚ) := by
      push_cast; ring
    rw [e, this]; rfl
  rw [e6, q1]; simp only [q2]
  have e7 : ∀ a b : ℤ, -2 ^ 40 < a → a < 2 ^ 40 → -2 ^ 40 < b → b < 2 ^ 40 →
      fl b64 ((a : ℚ) + (b : ℚ)) = .ok ((a + b : ℤ) : ℚ) := by
    intro a b _ _ _ _
    have := fl64_int (z := a + b) (hab _ _ (by omega) (by omega)); push_cast at this ⊢; exact this
  rw [e7 _ _ (by omega) (by omega) (by omega) (by omega)]; simp only
  rw [e7 _ _ (by omega) (by omega) (by omega) (by omega)]; simp only
  rw [e7 _ _ (by omega) (by omega) (by omega) (by omega)]; simp only
  rw [← hj]
  have hJ : -3049 < 2 * jdInt t.year t.mon t.mday - 3049 ∧ 2 * jdInt t.year t.mon t.mday - 3049 < 2 ^ 24 := by
    rw [hj]; constructor <;> omega
  have e8 : ∀ F : Fmt, F.emin ≤ -1 → 24 ≤ F.prec → (F.prec : ℤ) + (-1) ≤ F.emax →
      fl F ((jdInt t.year t.mon t.mday : ℚ) - 1524.5) = .ok ((jdInt t.year t.mon t.mday : ℚ) - 1524.5) := by
    intro F h1 h2 h3
    refine fl_dyadic (2 * jdInt t.year t.mon t.mday - 3049) (-1) (by push_cast; norm_num; ring) h1 ?_ h3
    have : (2 : ℤ) ^ 24 ≤ 2 ^ F.prec := by exact_mod_cast Nat.pow_le_pow_right (by norm_num) h2
    exact lt_of_lt_of_le (hab _ _ (by omega) (by omega)) this
  rw [e8 b64 (by decide) (by decide) (by decide)]; simp only
  rw [e8 b32 (by decide) (by decide) (by decide)]

end Helper
end Verif
