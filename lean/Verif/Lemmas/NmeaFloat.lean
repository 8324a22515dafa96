import Verif.Model.Gnss
import Verif.Lemmas.Float
import Verif.Lemmas.Helper
import Verif.Lemmas.Strto

/-!
# Rounding lemmas for the NMEA parser (helpers, not claims)
-/

namespace Verif.Nmea
open Verif Verif.Spec

theorem rnd_error_le {F : Fmt} {q : ℚ} {k : ℤ} (h : |q| ≤ (2 : ℚ) ^ k) (hk : F.emin ≤ k - F.prec) (hp : 0 < F.prec) :
    |rnd F q - q| ≤ (2 : ℚ) ^ (k - F.prec - 1) := by
  rcases h.lt_or_eq with h | h
  · exact rnd_error_lt h hk
  · have hr : Representable F q := by
      rcases le_or_gt 0 q with hq | hq
      · rw [abs_of_nonneg hq] at h; rw [h]; exact representable_two_zpow (by omega) hp
      · rw [abs_of_neg hq] at h
        obtain ⟨m, e, h1, h2, h3⟩ := representable_two_zpow (F := F) (e := k) (by omega) hp
        exact ⟨-m, e, h1, by simpa using h2, by push_cast; linarith⟩
    rw [rnd_of_representable hr]; simp; positivity

/-- Rounding done by `strtof`. -/
def rt (P : Platform) (q : ℚ) : ℚ := if P.arduino then rnd b32 (rnd b64 q) else rnd b32 q

theorem rt_mono (P : Platform) {a b : ℚ} (h : a ≤ b) : rt P a ≤ rt P b := by
  unfold rt
  split
  · exact rnd_mono (by decide) (rnd_mono (by decide) h)
  · exact rnd_mono (by decide) h

theorem rep_b64_of_b32 {q : ℚ} (h : Representable b32 q) : Representable b64 q := by
  obtain ⟨m, e, h1, h2, h3⟩ := h
  refine ⟨m, e, ?_, ?_, h3⟩
  · have e1 : b32.emin = -149 := rfl
    have e2 : b64.emin = -1074 := rfl
    omega
  · have e1 : b32.prec = 24 := rfl
    have e2 : b64.prec = 53 := rfl
    rw [e1] at h2; rw [e2]; omega

theorem rt_exact (P : Platform) {q : ℚ} (h : Representable b32 q) : rt P q = q := by
  unfold rt
  split
  · rw [rnd_of_representable (rep_b64_of_b32 h), rnd_of_representable h]
  · rw [rnd_of_representable h]

theorem rep_int {z : ℤ} (h : |z| ≤ 2 ^ 24) : Representable b32 (z : ℚ) :=
  representable_int (by exact_mod_cast h) (by decide) (by decide)

theorem rt_int (P : Platform) {z : ℤ} (h : |z| ≤ 2 ^ 24) : rt P (z : ℚ) = z := rt_exact P (rep_int h)

theorem abs_rnd_le {F : Fmt} (hp : 0 < F.prec) {q : ℚ} {k : ℤ} (h : |q| ≤ (2 : ℚ) ^ k) (hk : F.emin ≤ k) :
    |rnd F q| ≤ (2 : ℚ) ^ k := by
  have hr := rnd_of_representable (representable_two_zpow (F := F) hk hp)
  rw [abs_le] at h ⊢
  constructor
  · have := rnd_mono hp h.1
    rw [rnd_neg, hr] at this; exact this
  · have := rnd_mono hp h.2
    rwa [hr] at this

theorem rt_error (P : Platform) {q : ℚ} {k : ℤ} (h : |q| ≤ (2 : ℚ) ^ k) (hk : -100 ≤ k) :
    |rt P q - q| ≤ (2 : ℚ) ^ (k - 25) + (2 : ℚ) ^ (k - 54) := by
  have p32 : (b32.prec : ℤ) = 24 := rfl
  have p64 : (b64.prec : ℤ) = 53 := rfl
  have m32 : b32.emin = -149 := rfl
  have m64 : b64.emin = -1074 := rfl
  have pos : (0 : ℚ) < (2 : ℚ) ^ (k - 54) := by positivity
  unfold rt
  split
  · have h1 := rnd_error_le (F := b64) h (by omega) (by decide)
    have h2 := rnd_error_le (F := b32) (abs_rnd_le (F := b64) (by decide) h (by omega)) (by omega) (by decide)
    rw [p64, show k - 53 - 1 = k - 54 by ring] at h1
    rw [p32, show k - 24 - 1 = k - 25 by ring] at h2
    have := abs_add_le (rnd b32 (rnd b64 q) - rnd b64 q) (rnd b64 q - q)
    rw [show rnd b32 (rnd b64 q) - rnd b64 q + (rnd b64 q - q) = rnd b32 (rnd b64 q) - q by ring] at this
    linarith
  · have h2 := rnd_error_le (F := b32) h (by omega) (by decide)
    rw [p32, show k - 24 - 1 = k - 25 by ring] at h2
    linarith

theorem abs_rt_le (P : Platform) {q : ℚ} {k : ℤ} (h : |q| ≤ (2 : ℚ) ^ k) (hk : -100 ≤ k) : |rt P q| ≤ (2 : ℚ) ^ k := by
  have m32 : b32.emin = -149 := rfl
  have m64 : b64.emin = -1074 := rfl
  unfold rt
  split
  · exact abs_rnd_le (by decide) (abs_rnd_le (by decide) h (by omega)) (by omega)
  · exact abs_rnd_le (by decide) h (by omega)

/-- Below `2^100` nothing overflows. -/
theorem fl_small {F : Fmt} (hF : F = b32 ∨ F = b64) {q : ℚ} (h : |q| ≤ (2 : ℚ) ^ (100 : ℤ)) : fl F q = .ok (rnd F q) := by
  apply fl_ok'
  have hp : 0 < F.prec := by rcases hF with rfl | rfl <;> decide
  have he : F.emin ≤ 100 := by rcases hF with rfl | rfl <;> decide
  refine lt_of_le_of_lt (abs_rnd_le hp h he) ?_
  apply zpow_lt_zpow_right₀ (by norm_num)
  rcases hF with rfl | rfl <;> decide

theorem fl32_small {q : ℚ} (h : |q| ≤ (2 : ℚ) ^ (100 : ℤ)) : fl b32 q = .ok (rnd b32 q) := fl_small (Or.inl rfl) h

theorem toFloat_small (P : Platform) {q : ℚ} (h : |q| ≤ (2 : ℚ) ^ (100 : ℤ)) : toFloat P q = .ok (rt P q) := by
  unfold toFloat rt
  split
  · rw [fl_small (Or.inr rfl) h, bind_ok, fl_small (Or.inl rfl) (abs_rnd_le (by decide) h (by decide))]
  · exact fl32_small h

theorem le_pow100 {q B : ℚ} (h : |q| ≤ B) (hB : B ≤ 10 ^ 30) : |q| ≤ (2 : ℚ) ^ (100 : ℤ) := by
  have : (10 ^ 30 : ℚ) ≤ (2 : ℚ) ^ (100 : ℤ) := by norm_num
  linarith

theorem castInt_int {z : ℤ} (h : |z| < 2 ^ 31) : castInt ((z : ℚ)) = .ok z := by
  unfold castInt truncZ
  rw [abs_lt] at h
  have : (if (0 : ℚ) ≤ (z : ℚ) then ⌊(z : ℚ)⌋ else ⌈(z : ℚ)⌉) = z := by split <;> simp
  simp only [this]
  rw [if_pos ⟨by omega, by omega⟩]

theorem fl32_int_sub {a b : ℤ} (h : |a - b| < 2 ^ 24) : fl b32 ((a : ℚ) - (b : ℚ)) = .ok ((a - b : ℤ) : ℚ) := by
  have := fl32_int h; push_cast at this ⊢; exact this

theorem fl32_int_mul {a b : ℤ} (h : |a * b| < 2 ^ 24) : fl b32 ((a : ℚ) * (b : ℚ)) = .ok ((a * b : ℤ) : ℚ) := by
  have := fl32_int h; push_cast at this ⊢; exact this

/-- Floor of a rounded quotient when the exact quotient stays clear of the next integer. -/
theorem floor_rnd {q : ℚ} {z : ℤ} (h0 : 0 ≤ z) (h1 : z ≤ 4000) (hl : (z : ℚ) ≤ q) (hu : q ≤ z + 0.7) : ⌊rnd b32 q⌋ = z := by
  have hz0 : (0 : ℚ) ≤ z := by exact_mod_cast h0
  have hz1 : (z : ℚ) ≤ 4000 := by exact_mod_cast h1
  have herr := rnd_error_le (F := b32) (q := q) (k := 12) (by rw [abs_of_nonneg (by linarith)]; norm_num at hu ⊢; linarith)
    (by decide) (by decide)
  have hlow := rnd_mono (F := b32) (by decide) hl
  rw [rnd_of_representable (rep_int (abs_le.2 ⟨by omega, by omega⟩))] at hlow
  have he : (2 : ℚ) ^ ((12 : ℤ) - (b32.prec : ℤ) - 1) < 1 / 100 := by norm_num [b32]
  rw [abs_le] at herr
  rw [Int.floor_eq_iff]
  norm_num at hu
  exact ⟨hlow, by linarith [herr.2]⟩

/-- `splitTime` decomposes the integer part of the raw number. -/
theorem splitTime_eq {raw : ℚ} {N : ℤ} (h0 : 0 ≤ N) (h1 : N ≤ 236000) (hN : N % 10000 ≤ 6000) (hN2 : N % 100 ≤ 60) (hf : ⌊raw⌋ = N) :
    splitTime raw = .ok (N / 10000, N / 100 % 100, N % 100) := by
  obtain ⟨hl, hu⟩ := Int.floor_eq_iff.1 hf
  have hN0 : (0 : ℚ) ≤ N := by exact_mod_cast h0
  have hN1 : (N : ℚ) ≤ 236000 := by exact_mod_cast h1
  have dh : (N : ℚ) = 10000 * (N / 10000 : ℤ) + (N % 10000 : ℤ) := by exact_mod_cast (Int.mul_ediv_add_emod N 10000).symm
  have dm : (N : ℚ) = 100 * (N / 100 : ℤ) + (N % 100 : ℤ) := by exact_mod_cast (Int.mul_ediv_add_emod N 100).symm
  have b1 : (0 : ℚ) ≤ (N % 10000 : ℤ) := by exact_mod_cast (by omega : (0 : ℤ) ≤ N % 10000)
  have b2 : ((N % 10000 : ℤ) : ℚ) ≤ 6000 := by exact_mod_cast hN
  have b3 : (0 : ℚ) ≤ (N % 100 : ℤ) := by exact_mod_cast (by omega : (0 : ℤ) ≤ N % 100)
  have b4 : ((N % 100 : ℤ) : ℚ) ≤ 60 := by exact_mod_cast hN2
  have f1 : ⌊rnd b32 (raw / 10000)⌋ = N / 10000 := by
    apply floor_rnd (by omega) (by omega)
    · rw [le_div_iff₀ (by norm_num)]; linarith
    · rw [div_le_iff₀ (by norm_num)]; norm_num; linarith
  have f2 : ⌊rnd b32 (raw / 100)⌋ = N / 100 := by
    apply floor_rnd (by omega) (by omega)
    · rw [le_div_iff₀ (by norm_num)]; linarith
    · rw [div_le_iff₀ (by norm_num)]; norm_num; linarith
  have a1 : |raw / 10000| ≤ 1000 := by
    rw [abs_of_nonneg (by apply div_nonneg <;> linarith), div_le_iff₀ (by norm_num)]; linarith
  have a2 : |raw / 100| ≤ 10000 := by
    rw [abs_of_nonneg (by apply div_nonneg <;> linarith), div_le_iff₀ (by norm_num)]; linarith
  have hab : ∀ a b : ℤ, -b < a → a < b → |a| < b := fun a b h1 h2 => abs_lt.2 ⟨h1, h2⟩
  unfold splitTime ffloor
  rw [fl32_small (le_pow100 a1 (by norm_num)), bind_ok, f1, castInt_int (hab _ _ (by omega) (by omega)), bind_ok,
    fl32_small (le_pow100 a2 (by norm_num)), bind_ok, f2, fl32_int (hab _ _ (by omega) (by omega)), bind_ok]
  have m1 := fl32_int_mul (a := N / 10000) (b := 100) (hab _ _ (by omega) (by omega))
  have m2 := fl32_int_mul (a := N / 10000) (b := 10000) (hab _ _ (by omega) (by omega))
  push_cast at m1 m2
  rw [m1, bind_ok, hf]
  have s1 := fl32_int_sub (a := N / 100) (b := N / 10000 * 100) (hab _ _ (by omega) (by omega))
  push_cast at s1
  rw [s1, bind_ok]
  have e1 : ((N / 100 : ℤ) : ℚ) - ((N / 10000 : ℤ) : ℚ) * 100 = ((N / 100 % 100 : ℤ) : ℚ) := by
    rw [show N / 100 % 100 = N / 100 - N / 10000 * 100 by omega]; push_cast; ring
  rw [e1, castInt_int (hab _ _ (by omega) (by omega)), bind_ok, m2, bind_ok]
  have s2 := fl32_int_sub (a := N) (b := N / 10000 * 10000) (hab _ _ (by omega) (by omega))
  push_cast at s2
  rw [s2, bind_ok, fl32_int (hab _ _ (by omega) (by omega)), bind_ok]
  have m3 := fl32_int_mul (a := N / 100 % 100) (b := 100) (hab _ _ (by omega) (by omega))
  push_cast at m3
  rw [m3, bind_ok]
  have s3 := fl32_int_sub (a := N - N / 10000 * 10000) (b := N / 100 % 100 * 100) (hab _ _ (by omega) (by omega))
  push_cast at s3
  rw [s3, bind_ok]
  have e2 : (N : ℚ) - ((N / 10000 : ℤ) : ℚ) * 10000 - ((N / 100 % 100 : ℤ) : ℚ) * 100 = ((N % 100 : ℤ) : ℚ) := by
    have : N % 100 = N - N / 10000 * 10000 - N / 100 % 100 * 100 := by omega
    rw [this]; push_cast; ring
  rw [e2, castInt_int (hab _ _ (by omega) (by omega)), bind_ok]
  rfl

/-- Error of the degree conversion: `D` degrees, `x` the exact raw number `100 D + minutes`. -/
theorem toDegrees_error (P : Platform) {D : ℤ} {mm : ℚ} {kx kd : ℤ} (h0 : 0 ≤ D) (h1 : D ≤ 180) (hm0 : 0 ≤ mm) (hm1 : mm ≤ 60)
    (hkx : (D : ℚ) * 100 + 60 ≤ (2 : ℚ) ^ kx) (hkd : (D : ℚ) + 1 ≤ (2 : ℚ) ^ kd) (hkx' : 0 ≤ kx) (hkd' : 0 ≤ kd) :
    ∃ v, toDegrees (rt P ((D : ℚ) * 100 + mm)) = .ok v ∧
      |v - ((D : ℚ) + mm / 60)| ≤
        ((2 : ℚ) ^ (kx - 25) + (2 : ℚ) ^ (kx - 54)) / 60 + (2 : ℚ) ^ (kd - 25) + 1 / 10 ^ 7 := by
  have hD0 : (0 : ℚ) ≤ D := by exact_mod_cast h0
  have hD1 : (D : ℚ) ≤ 180 := by exact_mod_cast h1
  obtain ⟨raw, hraw⟩ : ∃ raw, raw = rt P ((D : ℚ) * 100 + mm) := ⟨_, rfl⟩
  have e0 : |raw - ((D : ℚ) * 100 + mm)| ≤ (2 : ℚ) ^ (kx - 25) + (2 : ℚ) ^ (kx - 54) := by
    rw [hraw]; exact rt_error P (by rw [abs_of_nonneg (by positivity)]; linarith) (by omega)
  have r1 : (D : ℚ) * 100 ≤ raw := by
    have := rt_mono P (show ((D * 100 : ℤ) : ℚ) ≤ (D : ℚ) * 100 + mm by push_cast; linarith)
    rw [rt_int P (abs_le.2 ⟨by omega, by omega⟩)] at this
    rw [hraw]; push_cast at this; exact this
  have r2 : raw ≤ (D : ℚ) * 100 + 60 := by
    have := rt_mono P (show (D : ℚ) * 100 + mm ≤ ((D * 100 + 60 : ℤ) : ℚ) by push_cast; linarith)
    rw [rt_int P (abs_le.2 ⟨by omega, by omega⟩)] at this
    rw [hraw]; push_cast at this; exact this
  have f1 : ⌊rnd b32 (raw / 100)⌋ = D := by
    apply floor_rnd h0 (by omega)
    · rw [le_div_iff₀ (by norm_num)]; linarith
    · rw [div_le_iff₀ (by norm_num)]; norm_num; linarith
  have a1 : |raw / 100| ≤ 1000 := by
    rw [abs_of_nonneg (by apply div_nonneg <;> linarith), div_le_iff₀ (by norm_num)]; linarith
  have hab : ∀ a b : ℤ, -b < a → a < b → |a| < b := fun a b h1 h2 => abs_lt.2 ⟨h1, h2⟩
  have m1 := fl32_int_mul (a := D) (b := 100) (hab _ _ (by omega) (by omega))
  push_cast at m1
  have a2 : |raw - (D : ℚ) * 100| ≤ 60 := by rw [abs_le]; constructor <;> linarith
  -- minutes
  obtain ⟨m, hm⟩ : ∃ m, m = rnd b32 (raw - (D : ℚ) * 100) := ⟨_, rfl⟩
  have e1 : |m - (raw - (D : ℚ) * 100)| ≤ (2 : ℚ) ^ (-19 : ℤ) := by
    rw [hm]
    have := rnd_error_le (F := b32) (q := raw - (D : ℚ) * 100) (k := 6) (by norm_num; linarith) (by decide) (by decide)
    exact this
  have m0 : 0 ≤ m := by rw [hm]; exact rnd_nonneg (by linarith)
  have m60 : m ≤ 60 := by
    have := rnd_mono (F := b32) (by decide) (show raw - (D : ℚ) * 100 ≤ ((60 : ℤ) : ℚ) by push_cast; linarith)
    rw [rnd_of_representable (rep_int (by norm_num))] at this
    rw [hm]; push_cast at this; exact this
  have a3 : |m / 60| ≤ 1 := by rw [abs_of_nonneg (by positivity), div_le_one (by norm_num)]; exact m60
  obtain ⟨m6, hm6⟩ : ∃ m6, m6 = rnd b32 (m / 60) := ⟨_, rfl⟩
  have e2 : |m6 - m / 60| ≤ (2 : ℚ) ^ (-25 : ℤ) := by
    rw [hm6]
    have := rnd_error_le (F := b32) (q := m / 60) (k := 0) (by simpa using a3) (by decide) (by decide)
    exact this
  have m6b : |m6| ≤ 1 := by
    have := abs_rnd_le (F := b32) (q := m / 60) (k := 0) (by decide) (by simpa using a3) (by decide)
    rw [hm6]; simpa using this
  have m60' : 0 ≤ m6 := by rw [hm6]; exact rnd_nonneg (by positivity)
  have a4 : |(D : ℚ) + m6| ≤ (2 : ℚ) ^ kd := by
    rw [abs_of_nonneg (by positivity)]; rw [abs_of_nonneg m60'] at m6b; linarith
  have e3 : |rnd b32 ((D : ℚ) + m6) - ((D : ℚ) + m6)| ≤ (2 : ℚ) ^ (kd - 25) := by
    have p32 : (b32.prec : ℤ) = 24 := rfl
    have m32 : b32.emin = -149 := rfl
    have := rnd_error_le (F := b32) a4 (by omega) (by decide)
    rwa [p32, show kd - 24 - 1 = kd - 25 by ring] at this
  have a5 : |(D : ℚ) + m6| ≤ 1000 := by
    rw [abs_of_nonneg (by positivity)]; rw [abs_of_nonneg m60'] at m6b; linarith
  refine ⟨rnd b32 ((D : ℚ) + m6), ?_, ?_⟩
  · rw [← hraw]
    unfold toDegrees ffloor
    rw [fl32_small (le_pow100 a1 (by norm_num)), bind_ok]
    simp only [f1]
    rw [m1, bind_ok, fl32_small (le_pow100 a2 (by norm_num)), bind_ok, ← hm,
      fl32_small (le_pow100 a3 (by norm_num)), bind_ok, ← hm6, fl32_small (le_pow100 a5 (by norm_num))]
  · have c1 : (2 : ℚ) ^ (-19 : ℤ) / 60 + (2 : ℚ) ^ (-25 : ℤ) ≤ 1 / 10 ^ 7 := by norm_num
    generalize (2 : ℚ) ^ (-19 : ℤ) = p19 at *
    generalize (2 : ℚ) ^ (-25 : ℤ) = p25 at *
    generalize (2 : ℚ) ^ (kx - 25) = px at *
    generalize (2 : ℚ) ^ (kx - 54) = py at *
    generalize (2 : ℚ) ^ (kd - 25) = pd at *
    generalize (1 : ℚ) / 10 ^ 7 = tiny at *
    generalize rnd b32 ((D : ℚ) + m6) = w at *
    rw [abs_le] at e0 e1 e2 e3 ⊢
    constructor <;> linarith [e0.1, e0.2, e1.1, e1.2, e2.1, e2.2, e3.1, e3.2]

end Verif.Nmea
