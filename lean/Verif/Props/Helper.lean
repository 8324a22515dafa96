import Verif.Lemmas.Helper

/-!
# Properties C23-C26: `lib/helper/src/helper.cpp`
-/

set_option linter.unusedSectionVars false

namespace Verif.Helper
open Verif Verif.Spec

section FMod
variable {K : Type} [Field K] [LinearOrder K] [IsStrictOrderedRing K] [FloorRing K]

/-! ### C23 floored modulus -/

/-- **C23** For every positive modulus the result lies in `[0, n)` and differs from the argument by a multiple of `n`. -/
theorem C23_fmod_range (a n : K) (hn : 0 < n) :
    0 ≤ fMod a n ∧ fMod a n < n ∧ ∃ k : ℤ, a = fMod a n + k * n := by
  unfold fMod
  have h1 := Int.floor_le (a / n)
  have h2 := Int.lt_floor_add_one (a / n)
  rw [le_div_iff₀ hn] at h1
  rw [div_lt_iff₀ hn] at h2
  refine ⟨by linarith, by linarith, ⌊a / n⌋, by ring⟩

/-- **C23** These two conditions determine the result. -/
theorem C23_fmod_unique (a n r : K) (hn : 0 < n) (h0 : 0 ≤ r) (h1 : r < n) (k : ℤ) (h : a = r + k * n) :
    fMod a n = r := by
  unfold fMod
  have : ⌊a / n⌋ = k := by
    rw [Int.floor_eq_iff, h, le_div_iff₀ hn, div_lt_iff₀ hn]
    constructor <;> linarith
  rw [this, h]; ring

/-- **C23** Identity on `[0, n)`. -/
theorem C23_fmod_id (a n : K) (h0 : 0 ≤ a) (h1 : a < n) : fMod a n = a :=
  C23_fmod_unique a n a (lt_of_le_of_lt h0 h1) h0 h1 0 (by simp)

/-- **C23** Periodicity. -/
theorem C23_fmod_periodic (a n : K) (hn : 0 < n) (k : ℤ) : fMod (a + k * n) n = fMod a n := by
  obtain ⟨h0, h1, j, hj⟩ := C23_fmod_range a n hn
  exact C23_fmod_unique _ _ _ hn h0 h1 (j + k) (by push_cast; linarith)

end FMod

/-- **C23** (defect) In IEEE double arithmetic the upper bound is not strict: for the tiny negative double `-2^-70`
the result is the modulus itself. -/
theorem C23_fmod_ieee_reaches_modulus : fModIEEE (-1 / 2 ^ 70) 360 = .ok 360 := by decide +kernel

example : fMod (-725 : ℚ) 360 = 355 := by decide +kernel

/-! ### C24 julianDay counts civil days -/

/-- A `tm` whose date part is `d` (time of day arbitrary). -/
def Tm.IsDate (t : Tm) (d : Date) : Prop := t.year = d.year ∧ t.mon = d.month ∧ t.mday = d.day

/-- **C24** Advancing the calendar by one day advances the result by exactly one — over month ends, leap days and
century rules, in the actual float/double arithmetic of the code, for every date of the years 1 to 6765. -/
theorem C24_julianDay_next (t t' : Tm) (d : Date) (hd : d.Valid) (hy0 : 1 ≤ d.year) (hy1 : d.year ≤ 6765)
    (ht : Tm.IsDate t d) (ht' : Tm.IsDate t' d.next) :
    ∃ j, julianDay t = .ok j ∧ julianDay t' = .ok (j + 1) := by
  obtain ⟨a1, a2, a3⟩ := ht
  obtain ⟨b1, b2, b3⟩ := ht'
  obtain ⟨y, m, dd⟩ := d
  obtain ⟨v1, v2, v3, v4⟩ := hd
  simp only at *
  have hdm : daysInMonth y m ≤ 31 := by unfold daysInMonth; split_ifs <;> omega
  have hn : 1 ≤ t'.year ∧ t'.year ≤ 6766 ∧ 1 ≤ t'.mon ∧ t'.mon ≤ 12 ∧ 0 ≤ t'.mday ∧ t'.mday ≤ 31 ∧
      jdInt t'.year t'.mon t'.mday = jdInt t.year t.mon t.mday + 1 := by
    rw [b1, b2, b3, a1, a2, a3]
    unfold Date.next
    simp only
    have hml : daysInMonth y m = if m = 2 then (if y % 4 = 0 ∧ (y % 100 ≠ 0 ∨ y % 400 = 0) then 29 else 28)
        else if m = 4 ∨ m = 6 ∨ m = 9 ∨ m = 11 then 30 else 31 := by
      unfold daysInMonth isLeap; simp
    split
    · refine ⟨by simp; omega, by simp; omega, by simp; omega, by simp; omega, by simp; omega, by simp; omega, ?_⟩
      simp only [jdInt_eq]; omega
    · rename_i hlast
      have hdd : dd = daysInMonth y m := by omega
      rw [hml] at hdd
      split
      · refine ⟨by simp; omega, by simp; omega, by simp; omega, by simp; omega, by simp, by simp, ?_⟩
        have hm : m = 1 ∨ m = 2 ∨ m = 3 ∨ m = 4 ∨ m = 5 ∨ m = 6 ∨ m = 7 ∨ m = 8 ∨ m = 9 ∨ m = 10 ∨ m = 11 := by omega
        simp only [jdInt_eq]
        rcases hm with rfl | rfl | rfl | rfl | rfl | rfl | rfl | rfl | rfl | rfl | rfl <;> norm_num at hdd ⊢ <;>
          (try split at hdd) <;> omega
      · have hm : m = 12 := by omega
        subst hm
        refine ⟨by simp; omega, by simp; omega, by simp, by simp, by simp, by simp, ?_⟩
        rw [jdInt_eq, jdInt_eq]; norm_num at hdd ⊢; omega
  obtain ⟨n1, n2, n3, n4, n5, n6, n7⟩ := hn
  refine ⟨_, julianDay_eq t (by omega) (by omega) (by omega) (by omega) (by omega) (by omega), ?_⟩
  rw [julianDay_eq t' n1 n2 n3 n4 n5 n6, n7]
  congr 1; push_cast; ring

/-- **C24** Epoch: 1 January 2000 is Julian day 2451544.5. -/
theorem C24_julianDay_epoch (t : Tm) (ht : Tm.IsDate t ⟨2000, 1, 1⟩) : julianDay t = .ok 2451544.5 := by
  obtain ⟨a1, a2, a3⟩ := ht
  simp only at a1 a2 a3
  rw [julianDay_eq t (by omega) (by omega) (by omega) (by omega) (by omega) (by omega), a1, a2, a3]
  congr 1
  norm_num [jdInt]

theorem Date.next_valid {d : Date} (h : d.Valid) : d.next.Valid := by
  obtain ⟨v1, v2, v3, v4⟩ := h
  unfold Date.next
  split
  · exact ⟨v1, v2, by simp; omega, by simp; omega⟩
  · split
    · refine ⟨by simp; omega, by simp; omega, by simp, ?_⟩
      unfold daysInMonth; simp only; split_ifs <;> omega
    · refine ⟨by simp, by simp, by simp, ?_⟩
      unfold daysInMonth; norm_num

theorem Date.year_le_next (d : Date) : d.year ≤ d.next.year ∧ d.next.year ≤ d.year + 1 := by
  unfold Date.next; split_ifs <;> simp

/-- **C24** Combined: stepping the calendar `n` times from any valid date advances the result by exactly `n`. -/
theorem C24_julianDay_steps (n : Nat) (d : Date) (hd : d.Valid) (h1 : 1 ≤ d.year) (t t' : Tm) (ht : Tm.IsDate t d)
    (ht' : Tm.IsDate t' (Date.next^[n] d)) (hy : (Date.next^[n] d).year ≤ 6765) :
    ∃ j, julianDay t = .ok j ∧ julianDay t' = .ok (j + n) := by
  have hv : ∀ n, (Date.next^[n] d).Valid ∧ d.year ≤ (Date.next^[n] d).year := by
    intro n
    induction n with
    | zero => exact ⟨hd, le_rfl⟩
    | succ n ih =>
      rw [Function.iterate_succ_apply']
      exact ⟨Date.next_valid ih.1, le_trans ih.2 (Date.year_le_next _).1⟩
  induction n generalizing t' with
  | zero =>
    obtain ⟨a1, a2, a3⟩ := ht
    obtain ⟨b1, b2, b3⟩ := ht'
    simp only [Function.iterate_zero, id_eq] at b1 b2 b3 hy
    obtain ⟨v1, v2, v3, v4⟩ := hd
    have hdm : daysInMonth d.year d.month ≤ 31 := by unfold daysInMonth; split_ifs <;> omega
    refine ⟨_, julianDay_eq t (by omega) (by omega) (by omega) (by omega) (by omega) (by omega), ?_⟩
    rw [julianDay_eq t' (by omega) (by omega) (by omega) (by omega) (by omega) (by omega), a1, a2, a3, b1, b2, b3]
    simp
  | succ n ih =>
    rw [Function.iterate_succ_apply'] at ht' hy
    have hy' := (Date.year_le_next (Date.next^[n] d)).1
    obtain ⟨dn, hdn⟩ : ∃ dn, dn = Date.next^[n] d := ⟨_, rfl⟩
    rw [← hdn] at ht' hy hy' ih
    have hvn := hv n
    rw [← hdn] at hvn
    obtain ⟨j, hj, hj'⟩ := ih ⟨0, 0, 0, dn.day, dn.month, dn.year⟩ ⟨rfl, rfl, rfl⟩ (by omega)
    obtain ⟨i, hi, hi'⟩ := C24_julianDay_next ⟨0, 0, 0, dn.day, dn.month, dn.year⟩ t' dn hvn.1 (by omega) (by omega)
      ⟨rfl, rfl, rfl⟩ ht'
    refine ⟨j, hj, ?_⟩
    rw [hi'] ; rw [hi] at hj'; cases hj'
    congr 1; push_cast; ring

/-- `d` is `k` days after 1 January 2000 (before, if `k` is negative), counted by stepping the calendar. -/
def DaysFrom2000 (d : Date) (k : ℤ) : Prop :=
  ∃ n : Nat, (k = n ∧ Date.next^[n] ⟨2000, 1, 1⟩ = d) ∨ (k = -n ∧ Date.next^[n] d = ⟨2000, 1, 1⟩)

/-- **C24** The date `k` days after 1 January 2000 has Julian day `2451544.5 + k`, for every date of the years 1 to
6765. -/
theorem C24_julianDay_count (t : Tm) (d : Date) (k : ℤ) (hv : d.Valid) (ht : Tm.IsDate t d) (hk : DaysFrom2000 d k)
    (h1 : 1 ≤ d.year) (hy : d.year ≤ 6765) : julianDay t = .ok (2451544.5 + k) := by
  obtain ⟨n, ⟨rfl, rfl⟩ | ⟨rfl, hn⟩⟩ := hk
  · obtain ⟨j, hj, hj'⟩ := C24_julianDay_steps n ⟨2000, 1, 1⟩ (by decide) (by decide) ⟨0, 0, 0, 1, 1, 2000⟩ t
      ⟨rfl, rfl, rfl⟩ ht hy
    rw [C24_julianDay_epoch _ ⟨rfl, rfl, rfl⟩] at hj
    rw [hj']; cases hj; rfl
  · obtain ⟨j, hj, hj'⟩ := C24_julianDay_steps n d hv h1 t ⟨0, 0, 0, 1, 1, 2000⟩
      ht (by rw [hn]; exact ⟨rfl, rfl, rfl⟩) (by rw [hn]; decide)
    rw [C24_julianDay_epoch _ ⟨rfl, rfl, rfl⟩] at hj'
    rw [hj]
    have : (2451544.5 : ℚ) = j + n := Except.ok.inj hj'
    congr 1; push_cast; linarith

/-- A leap-day step, and a date before the epoch (the unit test's 10 August 1998 is 509 days before 2000). -/
example : julianDay ⟨0, 0, 0, 29, 2, 2024⟩ = .ok 2460369.5 ∧ (⟨2024, 2, 28⟩ : Date).next = ⟨2024, 2, 29⟩ ∧
    DaysFrom2000 ⟨1998, 8, 10⟩ (-509) :=
  ⟨by decide +kernel, by decide +kernel, 509, Or.inr ⟨by decide, by decide +kernel⟩⟩

/-! ### C25 local sidereal time -/

section LST
variable {K : Type} [Field K] [LinearOrder K] [IsStrictOrderedRing K] [FloorRing K]

/-- `x` and `y` denote the same direction: they differ by full turns. -/
def SameAngle (x y : K) : Prop := ∃ k : ℤ, x = y + 360 * k

/-- Days since the epoch J2000.0 (1 January 2000, 12:00) of the instant `n` days and `h:m:s` after the start of
1 January 2000. -/
def daysSinceJ2000 (n : ℤ) (t : Tm) : K := n + (3600 * t.hour + 60 * t.min + t.sec) / 86400 - 1 / 2

/-- Mean sidereal time polynomial (Meeus, Astronomical Algorithms, 12.4, without the cubic term). -/
def meanSidereal (d : K) : K := 280.46061837 + 360.98564736629 * d + 0.000388 * (d / 36525) ^ 2

/-- **C25** For every instant and longitude the result lies in `[0, 360)` and equals, up to full turns, the mean sidereal
time polynomial at the number of days since J2000.0 plus the longitude. -/
theorem C25_lst (n : ℤ) (d : Date) (t : Tm) (lon : K) (hv : d.Valid) (ht : Tm.IsDate t d) (hn : DaysFrom2000 d n)
    (h1 : 1 ≤ d.year) (hy : d.year ≤ 6765) :
    ∃ r : K, localSiderealTime t lon = .ok r ∧ 0 ≤ r ∧ r < 360 ∧
      SameAngle r (meanSidereal (daysSinceJ2000 n t) + lon) := by
  have hj := C24_julianDay_count t d n hv ht hn h1 hy
  unfold localSiderealTime
  rw [hj]
  refine ⟨_, rfl, ?_⟩
  obtain ⟨h0, h1, k, hk⟩ := C23_fmod_range (280.46061837 + 360.98564736629 * deltaJulian (2451544.5 + n) t +
    0.000388 * (deltaJulian (2451544.5 + n) t / 36525) * (deltaJulian (2451544.5 + n) t / 36525) + lon) (360 : K)
    (by norm_num)
  have hd : (deltaJulian (2451544.5 + n) t : K) = daysSinceJ2000 n t := by
    unfold deltaJulian daysSinceJ2000; push_cast; ring
  refine ⟨h0, h1, -k, ?_⟩
  rw [hd] at hk ⊢
  unfold meanSidereal
  push_cast
  linarith [hk]

/-- **C25** Longitude shifts the result one-to-one: east by `δ` degrees adds `δ` (up to full turns); no other effect. -/
theorem C25_lst_longitude (t : Tm) (lon δ : K) (r r' : K) (h : localSiderealTime t lon = .ok r)
    (h' : localSiderealTime t (lon + δ) = .ok r') : SameAngle r' (r + δ) := by
  unfold localSiderealTime at h h'
  cases hj : julianDay t with
  | error e => rw [hj] at h; cases h
  | ok j =>
    rw [hj] at h h'
    cases h; cases h'
    obtain ⟨-, -, k, hk⟩ := C23_fmod_range (280.46061837 + 360.98564736629 * deltaJulian j t +
      0.000388 * (deltaJulian j t / 36525) * (deltaJulian j t / 36525) + lon) (360 : K) (by norm_num)
    obtain ⟨-, -, k', hk'⟩ := C23_fmod_range (280.46061837 + 360.98564736629 * deltaJulian j t +
      0.000388 * (deltaJulian j t / 36525) * (deltaJulian j t / 36525) + (lon + δ)) (360 : K) (by norm_num)
    refine ⟨k - k', ?_⟩
    push_cast
    linarith [hk, hk']

/-- **C25** One civil day later at the same time of day the sidereal time has advanced by 360.98564736629° plus the change
of the quadratic term, which stays below 0.000001° for two millennia around 2000. -/
theorem C25_lst_next_day (n : ℤ) (d : Date) (t t' : Tm) (lon : K) (hv : d.Valid) (ht : Tm.IsDate t d)
    (ht' : Tm.IsDate t' d.next) (hn : DaysFrom2000 d n) (hn' : DaysFrom2000 d.next (n + 1))
    (hc : t'.hour = t.hour ∧ t'.min = t.min ∧ t'.sec = t.sec)
    (hh : 0 ≤ t.hour ∧ t.hour ≤ 23 ∧ 0 ≤ t.min ∧ t.min ≤ 59 ∧ 0 ≤ t.sec ∧ t.sec ≤ 60) (hnb : |n| ≤ 730000)
    (h1 : 1 ≤ d.year) (hy : d.year ≤ 6764) :
    ∃ r r' ε : K, localSiderealTime t lon = .ok r ∧ localSiderealTime t' lon = .ok r' ∧
      SameAngle r' (r + 360.98564736629 + ε) ∧ |ε| < 0.000001 := by
  have hyn := Date.year_le_next d
  obtain ⟨r, hr, -, -, k, hk⟩ := C25_lst n d t lon hv ht hn h1 (by omega)
  obtain ⟨r', hr', -, -, k', hk'⟩ := C25_lst (n + 1) d.next t' lon (Date.next_valid hv) ht' hn' (by omega) (by omega)
  have hd : (daysSinceJ2000 (n + 1) t' : K) = daysSinceJ2000 n t + 1 := by
    unfold daysSinceJ2000; rw [hc.1, hc.2.1, hc.2.2]; push_cast; ring
  obtain ⟨x, hx⟩ : ∃ x : K, x = daysSinceJ2000 n t := ⟨_, rfl⟩
  have hb : -730001 ≤ x ∧ x ≤ 730001 := by
    obtain ⟨a1, a2, a3, a4, a5, a6⟩ := hh
    rw [abs_le] at hnb
    have hn1 : (n : K) ≤ 730000 := by exact_mod_cast hnb.2
    have hn0 : (-730000 : K) ≤ n := by exact_mod_cast hnb.1
    have b1 : (0 : K) ≤ 3600 * t.hour + 60 * t.min + t.sec := by
      have : (0 : ℤ) ≤ 3600 * t.hour + 60 * t.min + t.sec := by omega
      exact_mod_cast this
    have b2 : (3600 * t.hour + 60 * t.min + t.sec : K) ≤ 86400 := by
      have : (3600 * t.hour + 60 * t.min + t.sec : ℤ) ≤ 86400 := by omega
      exact_mod_cast this
    rw [hx]; unfold daysSinceJ2000
    constructor
    · have : (0 : K) ≤ (3600 * t.hour + 60 * t.min + t.sec) / 86400 := by positivity
      linarith
    · have : (3600 * t.hour + 60 * t.min + t.sec : K) / 86400 ≤ 1 := by rw [div_le_one (by norm_num)]; exact b2
      linarith
  refine ⟨r, r', 0.000388 * (2 * x + 1) / 36525 ^ 2, hr, hr', ⟨k' - k, ?_⟩, ?_⟩
  · rw [hk, hk', hd, ← hx]; unfold meanSidereal; push_cast; ring
  · rw [abs_lt]
    have := hb.1
    have := hb.2
    constructor
    · rw [lt_div_iff₀ (by norm_num)]
      norm_num
      linarith
    · rw [div_lt_iff₀ (by norm_num)]
      norm_num
      linarith

end LST

/-- At J2000.0 the sidereal time is the constant of the polynomial, and the unit test's instant of 10 August 1998 gives
its expected 304.808° (test tolerance), shifted by the longitude. -/
example : localSiderealTime (K := ℚ) ⟨0, 0, 12, 1, 1, 2000⟩ 0 = .ok 280.46061837 ∧
    ∃ r, localSiderealTime (K := ℚ) ⟨0, 10, 23, 10, 8, 1998⟩ (-1.9166667) = .ok r ∧ |r - 304.808| < 0.0001 :=
  ⟨by decide +kernel, (localSiderealTime (K := ℚ) ⟨0, 10, 23, 10, 8, 1998⟩ (-1.9166667)).toOption.getD 0,
    by decide +kernel, by decide +kernel⟩

/-! ### C26 AMT22 check bits -/

/-- Number of ones among the bits of `w` at the given positions. -/
def ones (w : UInt32) (ps : List Nat) : Nat := ps.countP (fun i => w.toNat.testBit i)

def evenBits : List Nat := [0, 2, 4, 6, 8, 10, 12, 14]
def oddBits : List Nat := [1, 3, 5, 7, 9, 11, 13, 15]

theorem toNat_bitAt (x k : UInt32) (hk : k.toNat < 32) : bitAt x k = if x.toNat.testBit k.toNat then 1 else 0 := by
  apply UInt32.toNat_inj.1
  unfold bitAt
  simp only [UInt32.toNat_and, UInt32.toNat_shiftRight, Nat.mod_eq_of_lt hk]
  rw [show (1 : UInt32).toNat = 1 from rfl, Nat.and_one_is_mod, Nat.testBit, Nat.and_comm, Nat.and_one_is_mod]
  rcases Nat.mod_two_eq_zero_or_one (x.toNat >>> k.toNat) with h | h <;> rw [h] <;> rfl

theorem bitAt_mask (x m k : UInt32) (hk : k.toNat < 32) (hm : m.toNat.testBit k.toNat = true) :
    bitAt (x &&& m) k = if x.toNat.testBit k.toNat then 1 else 0 := by
  rw [toNat_bitAt _ _ hk, UInt32.toNat_and, Nat.testBit_and, hm, Bool.and_true]

theorem parity7 (a b c d e f g h : Bool) :
    (lnot ((if a then (1 : UInt32) else 0) ^^^ (if b then 1 else 0) ^^^ (if c then 1 else 0) ^^^ (if d then 1 else 0) ^^^
      (if e then 1 else 0) ^^^ (if f then 1 else 0) ^^^ (if g then 1 else 0)) == (if h then 1 else 0)) =
    decide (List.countP id [g, f, e, d, c, b, a, h] % 2 = 1) := by
  revert a b c d e f g h; decide +kernel

/-- **C26** A word is accepted exactly when its even bits 0,2,…,14 and its odd bits 1,3,…,15 each contain an odd
number of ones. -/
theorem C26_checkbits (w : UInt32) :
    verifyAmtCheckbits w = true ↔ ones w evenBits % 2 = 1 ∧ ones w oddBits % 2 = 1 := by
  unfold verifyAmtCheckbits
  simp only
  rw [bitAt_mask w 0x5555 12 (by decide) (by decide), bitAt_mask w 0x5555 10 (by decide) (by decide),
    bitAt_mask w 0x5555 8 (by decide) (by decide), bitAt_mask w 0x5555 6 (by decide) (by decide),
    bitAt_mask w 0x5555 4 (by decide) (by decide), bitAt_mask w 0x5555 2 (by decide) (by decide),
    bitAt_mask w 0x5555 0 (by decide) (by decide),
    bitAt_mask w 0xAAAA 13 (by decide) (by decide), bitAt_mask w 0xAAAA 11 (by decide) (by decide),
    bitAt_mask w 0xAAAA 9 (by decide) (by decide), bitAt_mask w 0xAAAA 7 (by decide) (by decide),
    bitAt_mask w 0xAAAA 5 (by decide) (by decide), bitAt_mask w 0xAAAA 3 (by decide) (by decide),
    bitAt_mask w 0xAAAA 1 (by decide) (by decide),
    toNat_bitAt w 15 (by decide), toNat_bitAt w 14 (by decide)]
  rw [parity7, parity7]
  simp only [Bool.and_eq_true, decide_eq_true_eq, ones, evenBits, oddBits, List.countP_cons, List.countP_nil]
  rfl

/-- **C26** Bits above 15 are ignored. -/
theorem C26_upper_bits_ignored (w w' : UInt32) (h : ∀ i < 16, w.toNat.testBit i = w'.toNat.testBit i) :
    verifyAmtCheckbits w = verifyAmtCheckbits w' := by
  have he : ones w evenBits = ones w' evenBits := by
    unfold ones; apply List.countP_congr; intro i hi
    rw [h i (by simp [evenBits] at hi; omega)]
  have ho : ones w oddBits = ones w' oddBits := by
    unfold ones; apply List.countP_congr; intro i hi
    rw [h i (by simp [oddBits] at hi; omega)]
  rw [Bool.eq_iff_iff, C26_checkbits, C26_checkbits, he, ho]

theorem ones_xor (w e : UInt32) (ps : List Nat) : (ones (w ^^^ e) ps) % 2 = (ones w ps + ones e ps) % 2 := by
  unfold ones
  induction ps with
  | nil => rfl
  | cons p ps ih =>
    simp only [List.countP_cons, UInt32.toNat_xor, Nat.testBit_xor] at ih ⊢
    cases w.toNat.testBit p <;> cases e.toNat.testBit p <;> simp <;> omega

/-- **C26** Error detection: if an accepted word is hit by an error pattern `e` that flips an odd number of even bits or
an odd number of odd bits, the result is rejected. -/
theorem C26_detects (w e : UInt32) (hw : verifyAmtCheckbits w = true)
    (he : ones e evenBits % 2 = 1 ∨ ones e oddBits % 2 = 1) : verifyAmtCheckbits (w ^^^ e) = false := by
  rw [C26_checkbits] at hw
  rw [← Bool.not_eq_true, C26_checkbits, ones_xor, ones_xor]
  omega

/-- **C26** In particular every single-bit error in bits 0..15 is detected. -/
theorem C26_detects_single (w : UInt32) (i : Nat) (hi : i < 16) (hw : verifyAmtCheckbits w = true) :
    verifyAmtCheckbits (w ^^^ UInt32.ofNat (2 ^ i)) = false := by
  apply C26_detects w _ hw
  interval_cases i <;> decide

/-- **C26** A frame accepted after an error with an even number of flips in both classes stays accepted: the check
detects nothing else. -/
theorem C26_undetected_iff (w e : UInt32) (hw : verifyAmtCheckbits w = true) :
    verifyAmtCheckbits (w ^^^ e) = true ↔ ones e evenBits % 2 = 0 ∧ ones e oddBits % 2 = 0 := by
  rw [C26_checkbits] at hw ⊢
  rw [ones_xor, ones_xor]
  omega

/-- The data-sheet example of the repository's unit test. -/
example : verifyAmtCheckbits 0x61AB = true ∧ verifyAmtCheckbits 0x61AA = false := by decide

end Verif.Helper
