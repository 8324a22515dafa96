import Verif.Model.Node
import Verif.Spec.Node
import Verif.Lemmas.Codec
import Verif.Lemmas.FloatRep
import Verif.Lemmas.NmeaFloat
import Mathlib.Tactic.Linarith
import Mathlib.Tactic.NormNum
import Mathlib.Tactic.Positivity
import Mathlib.Tactic.FieldSimp
import Mathlib.Tactic.Ring

/-!
# Rounding and byte lemmas for the TypeScript server (helpers, not claims)
-/

namespace Verif.Node
open Verif

theorem roundEven_of_even {q : ℚ} {k : ℤ} (h : |q - (2 * k : ℤ)| ≤ 1 / 2) : roundEven q = 2 * k := by
  rw [abs_le] at h
  push_cast at h
  obtain ⟨h1, h2⟩ := h
  unfold roundEven
  by_cases hq : (2 * k : ℚ) ≤ q
  · have hf : ⌊q⌋ = 2 * k := by
      rw [Int.floor_eq_iff]; push_cast; constructor <;> linarith
    simp only [hf]
    push_cast
    split
    · rfl
    · split
      · linarith
      · simp
  · push Not at hq
    have hf : ⌊q⌋ = 2 * k - 1 := by
      rw [Int.floor_eq_iff]; push_cast; constructor <;> linarith
    simp only [hf]
    push_cast
    split
    · linarith
    · split
      · ring
      · split
        · omega
        · ring

/-- Rounding to a neighbour with an even significand, ties included. -/
theorem rnd_eq_even {F : Fmt} {q r : ℚ} {k : ℤ} (hr : r = (2 * k : ℤ) * (2 : ℚ) ^ ulpExp F q)
    (h : |q - r| ≤ (2 : ℚ) ^ ulpExp F q / 2) : rnd F q = r := by
  have hp := two_zpow_pos (ulpExp F q)
  have : |q / (2 : ℚ) ^ ulpExp F q - (2 * k : ℤ)| ≤ 1 / 2 := by
    have e : q / (2 : ℚ) ^ ulpExp F q - (2 * k : ℤ) = (q - r) / (2 : ℚ) ^ ulpExp F q := by
      rw [hr]; field_simp
    rw [e, abs_div, abs_of_pos hp, div_le_iff₀ hp]
    linarith
  unfold rnd
  rw [roundEven_of_even this, ← hr]

/-- A multiple of `2^-29` is an even multiple of every finer power of two. -/
theorem even_grid {z u : ℤ} (hu : u ≤ -30) : ∃ k : ℤ, (z : ℚ) / 2 ^ 29 = (2 * k : ℤ) * (2 : ℚ) ^ u := by
  refine ⟨z * 2 ^ (-30 - u).toNat, ?_⟩
  have h : ((-30 - u).toNat : ℤ) = -30 - u := Int.toNat_of_nonneg (by omega)
  have e : (2 : ℚ) ^ (-30 - u).toNat = (2 : ℚ) ^ (-30 - u) := by
    rw [← zpow_natCast, h]
  push_cast
  rw [e, zpow_sub₀ (by norm_num)]
  have hp := two_zpow_pos u
  field_simp

theorem even_grid_int {z u : ℤ} (hu : u ≤ -1) : ∃ k : ℤ, (z : ℚ) = (2 * k : ℤ) * (2 : ℚ) ^ u := by
  refine ⟨z * 2 ^ (-1 - u).toNat, ?_⟩
  have h : ((-1 - u).toNat : ℤ) = -1 - u := Int.toNat_of_nonneg (by omega)
  have e : (2 : ℚ) ^ (-1 - u).toNat = (2 : ℚ) ^ (-1 - u) := by
    rw [← zpow_natCast, h]
  push_cast
  rw [e, zpow_sub₀ (by norm_num)]
  have hp := two_zpow_pos u
  field_simp

theorem log_lt_of {q : ℚ} {k : ℤ} (h0 : q ≠ 0) (h : |q| < (2 : ℚ) ^ k) : Int.log 2 |q| < k := by
  have := (Int.lt_zpow_iff_log_lt (b := 2) (by norm_num) (abs_pos.2 h0) (x := k)).1 (by exact_mod_cast h)
  exact this

theorem zpow_log_le {q : ℚ} (h0 : q ≠ 0) : (2 : ℚ) ^ Int.log 2 |q| ≤ |q| := by
  have := Int.zpow_log_le_self (b := 2) (by norm_num) (abs_pos.2 h0)
  exact_mod_cast this

theorem lt_zpow_log (q : ℚ) : |q| < (2 : ℚ) ^ (Int.log 2 |q| + 1) := by
  have := Int.lt_zpow_succ_log_self (b := 2) (by norm_num) |q|
  exact_mod_cast this

theorem ulpExp_b64_ge (q : ℚ) : Int.log 2 |q| - 52 ≤ ulpExp b64 q := le_max_left _ _

theorem ulpExp_b64_le {q : ℚ} {k : ℤ} (h0 : q ≠ 0) (h : |q| < (2 : ℚ) ^ k) (hk : -1000 ≤ k) : ulpExp b64 q ≤ k - 53 := by
  have := log_lt_of h0 h
  unfold ulpExp
  simp only [b64]
  omega

theorem raScale_eq : raScale = 6004799503160661 / 33554432 := by
  decide +kernel

theorem decScale_eq : decScale = 6405119470038039 / 536870912 := by
  decide +kernel

/-- The right ascension of a goto is decoded exactly. -/
theorem decode_ra {n : ℤ} (h0 : 0 ≤ n) (h1 : n < 2 ^ 32) : num ((n : ℚ) / raScale) = ((3 * n : ℤ) : ℚ) / 2 ^ 29 := by
  rcases h0.eq_or_lt with rfl | hn
  · simp [num, rnd_zero]
  have hnq : (0 : ℚ) < n := by exact_mod_cast hn
  have hnu : (n : ℚ) < 2 ^ 32 := by exact_mod_cast h1
  rw [raScale_eq]
  set q : ℚ := (n : ℚ) / (6004799503160661 / 33554432) with hq
  have hq' : q = n * 33554432 / 6004799503160661 := by rw [hq]; field_simp
  have hqpos : 0 < q := by rw [hq']; positivity
  have hqne : q ≠ 0 := hqpos.ne'
  have hql : |q| < (2 : ℚ) ^ (6 : ℤ) := by
    rw [abs_of_pos hqpos, hq', div_lt_iff₀ (by norm_num)]
    norm_num
    linarith
  have hu : ulpExp b64 q ≤ -30 := by
    have := ulpExp_b64_le hqne hql (by norm_num)
    omega
  obtain ⟨k, hk⟩ := even_grid (z := 3 * n) hu
  refine rnd_eq_even hk ?_
  have h3 : (2 : ℚ) ^ (Int.log 2 |q| - 52) ≤ (2 : ℚ) ^ ulpExp b64 q := zpow_le_zpow_right₀ (by norm_num) (ulpExp_b64_ge q)
  have h4 := lt_zpow_log q
  rw [zpow_add₀ (by norm_num), abs_of_pos hqpos] at h4
  rw [zpow_sub₀ (by norm_num), abs_of_pos hqpos] at h3
  have h5 : |q - ((3 * n : ℤ) : ℚ) / 2 ^ 29| ≤ q / 2 ^ 54 := by
    push_cast
    rw [hq', abs_le]
    constructor <;> (field_simp; norm_num; try linarith)
  refine h5.trans ?_
  norm_num at h3 h4 ⊢
  linarith

/-- Encoding the exactly decoded right ascension gives the integer back. -/
theorem encode_ra {n : ℤ} (h0 : 0 ≤ n) (h1 : n < 2 ^ 32) : num ((((3 * n : ℤ) : ℚ) / 2 ^ 29) * raScale) = n := by
  rcases h0.eq_or_lt with rfl | hn
  · simp [num, rnd_zero]
  have hnq : (1 : ℚ) ≤ n := by exact_mod_cast hn
  have hnu : (n : ℚ) < 2 ^ 32 := by exact_mod_cast h1
  rw [raScale_eq]
  set q : ℚ := ((3 * n : ℤ) : ℚ) / 2 ^ 29 * (6004799503160661 / 33554432) with hq
  have hq' : q = n - n / 2 ^ 54 := by rw [hq]; push_cast; ring
  have hqpos : 0 < q := by rw [hq']; norm_num; linarith
  have hqne : q ≠ 0 := hqpos.ne'
  have hql : |q| < (2 : ℚ) ^ (32 : ℤ) := by
    rw [abs_of_pos hqpos, hq']
    norm_num at hnu ⊢
    linarith
  have hu : ulpExp b64 q ≤ -1 := by
    have := ulpExp_b64_le hqne hql (by norm_num)
    omega
  obtain ⟨k, hk⟩ := even_grid_int (z := n) hu
  refine rnd_eq_even hk ?_
  have h3 : (2 : ℚ) ^ (Int.log 2 |q| - 52) ≤ (2 : ℚ) ^ ulpExp b64 q := zpow_le_zpow_right₀ (by norm_num) (ulpExp_b64_ge q)
  have h4 := lt_zpow_log q
  rw [abs_of_pos hqpos] at h3 h4
  have h5 : |q - n| = n / 2 ^ 54 := by
    rw [hq', show (n : ℚ) - n / 2 ^ 54 - n = -(n / 2 ^ 54) by ring, abs_neg, abs_of_pos (by positivity)]
  rw [h5]
  -- `n ≤ 2 ^ (log q + 1)`
  have hlog : -1 ≤ Int.log 2 q := by
    have : ((2 : ℕ) : ℚ) ^ (-1 : ℤ) ≤ q := by rw [hq']; norm_num; linarith
    exact (Int.zpow_le_iff_le_log (b := 2) (by norm_num) hqpos).1 this
  have h6 : (n : ℚ) ≤ (2 : ℚ) ^ (Int.log 2 q + 1) := by
    obtain ⟨j, hj⟩ := Int.eq_ofNat_of_zero_le (show 0 ≤ Int.log 2 q + 1 by omega)
    rw [hj] at h4 ⊢
    rw [zpow_natCast] at h4 ⊢
    by_contra hc
    push Not at hc
    have hc' : (2 : ℤ) ^ j < n := by exact_mod_cast hc
    have hc2 : ((2 : ℚ) ^ j) + 1 ≤ n := by exact_mod_cast hc'
    rw [hq'] at h4
    norm_num at hnu h4
    linarith
  rw [zpow_add₀ (by norm_num)] at h6
  rw [zpow_sub₀ (by norm_num)] at h3
  norm_num at h3 h6 ⊢
  linarith

/-- Adding back the offset taken from a position gives the reference exactly, for a reference on the grid `2^-29`. -/
theorem offset_exact {z : ℤ} {pos : ℚ} (hz0 : 0 ≤ z) (hz1 : (z : ℚ) / 2 ^ 29 < 32) (hp0 : 0 ≤ pos) (hp1 : pos < 32)
    (hrep : Representable b64 pos) :
    num (pos + num ((z : ℚ) / 2 ^ 29 - pos)) = (z : ℚ) / 2 ^ 29 := by
  set x : ℚ := (z : ℚ) / 2 ^ 29 with hx
  have hx0 : 0 ≤ x := by rw [hx]; have : (0 : ℚ) ≤ z := by exact_mod_cast hz0
                         positivity
  have hxrep : Representable b64 x := by
    refine ⟨z, -29, by norm_num [b64], ?_, ?_⟩
    · rw [abs_of_nonneg hz0]
      have : (z : ℚ) < 2 ^ 53 := by
        rw [hx, div_lt_iff₀ (by norm_num)] at hz1; norm_num at hz1 ⊢; linarith
      exact_mod_cast this
    · rw [hx, zpow_neg, div_eq_mul_inv]; norm_cast
  rcases le_or_gt x pos with hle | hlt
  · -- exact difference
    have hd : Representable b64 (x - pos) := by
      rcases hp0.eq_or_lt with h0 | hpos
      · have hx' : x = 0 := le_antisymm (by rw [← h0] at hle; exact hle) hx0
        rw [← h0, hx', sub_zero]; exact ⟨0, 0, by norm_num [b64], by norm_num [b64], by simp⟩
      · have hpne : pos ≠ 0 := hpos.ne'
        obtain ⟨m, hm⟩ := grid_of_representable (q := pos) hrep le_rfl hpne
        have hu : ulpExp b64 pos ≤ -30 := by
          have := ulpExp_b64_le (k := 5) hpne (by rw [abs_of_pos hpos]; norm_num; exact hp1) (by norm_num)
          omega
        obtain ⟨k, hk⟩ := even_grid (z := z) hu
        have hpu := two_zpow_pos (ulpExp b64 pos)
        have e : x - pos = ((2 * k - m : ℤ) : ℚ) * (2 : ℚ) ^ ulpExp b64 pos := by
          rw [div_eq_iff hpu.ne'] at hm
          rw [hx, hk]; push_cast; linarith
        refine ⟨2 * k - m, ulpExp b64 pos, ulpExp_ge _, ?_, e⟩
        have h1 : |x - pos| ≤ |pos| := by
          rw [abs_of_nonpos (by linarith), abs_of_pos hpos]; linarith
        have h2 := lt_zpow_log pos
        have h3 : (2 : ℚ) ^ (Int.log 2 |pos| + 1) ≤ 2 ^ 53 * (2 : ℚ) ^ ulpExp b64 pos := by
          have : (2 : ℚ) ^ (Int.log 2 |pos| + 1) ≤ (2 : ℚ) ^ (53 + ulpExp b64 pos) := by
            apply zpow_le_zpow_right₀ (by norm_num)
            have := ulpExp_b64_ge pos
            omega
          rw [zpow_add₀ (by norm_num) 53] at this
          exact_mod_cast this
        rw [e, abs_mul, abs_of_pos hpu] at h1
        have h4 : |((2 * k - m : ℤ) : ℚ)| * (2 : ℚ) ^ ulpExp b64 pos < 2 ^ 53 * (2 : ℚ) ^ ulpExp b64 pos := by linarith
        have h5 := lt_of_mul_lt_mul_right h4 hpu.le
        show |2 * k - m| < 2 ^ 53
        exact_mod_cast h5
    unfold num
    rw [rnd_of_representable hd, show pos + (x - pos) = x by ring, rnd_of_representable hxrep]
  · set d : ℚ := x - pos with hd
    have hd0 : 0 < d := by rw [hd]; linarith
    have hdne := hd0.ne'
    set off : ℚ := num d with hoff
    have herr : |off - d| ≤ (2 : ℚ) ^ ulpExp b64 d / 2 := rnd_error (F := b64) d
    have hoff0 : 0 ≤ off := rnd_nonneg hd0.le
    have hoffle : off ≤ x := rnd_le_of_representable_pos hd0 hxrep (by rw [hd]; linarith)
    by_cases hs0 : pos + off = 0
    · have h1 : pos = 0 := by linarith
      have h2 : off = x := by
        rw [hoff, hd, h1, sub_zero]; exact rnd_of_representable hxrep
      rw [h1, h2, zero_add]; exact rnd_of_representable hxrep
    have hspos : 0 < pos + off := lt_of_le_of_ne (by linarith) (Ne.symm hs0)
    have hu : ulpExp b64 (pos + off) ≤ -30 := by
      have := ulpExp_b64_le (k := 6) hs0 (by rw [abs_of_pos hspos]; norm_num; linarith) (by norm_num)
      omega
    obtain ⟨k, hk⟩ := even_grid (z := z) hu
    refine rnd_eq_even hk ?_
    have hle : ulpExp b64 d ≤ ulpExp b64 (pos + off) := by
      by_cases hc : Int.log 2 |d| - 52 ≤ -1074
      · have : ulpExp b64 d = -1074 := by unfold ulpExp; simp only [b64]; omega
        rw [this]; exact ulpExp_ge (F := b64) _
      · push Not at hc
        have hrep2 : Representable b64 ((2 : ℚ) ^ Int.log 2 |d|) :=
          representable_two_zpow (by simp only [b64]; omega) (by norm_num [b64])
        have h1 : (2 : ℚ) ^ Int.log 2 |d| ≤ off := by
          have h2 := zpow_log_le hdne
          rw [abs_of_pos hd0] at h2
          have h3 := rnd_mono (F := b64) (by norm_num [b64]) h2
          rw [abs_of_pos hd0] at hrep2 ⊢
          rwa [rnd_of_representable hrep2] at h3
        have h4 : Int.log 2 |d| ≤ Int.log 2 |pos + off| := by
          rw [abs_of_pos hspos]
          apply (Int.zpow_le_iff_le_log (b := 2) (by norm_num) hspos).1
          push_cast; linarith
        unfold ulpExp
        simp only [b64]
        omega
    have h6 : (2 : ℚ) ^ ulpExp b64 d ≤ (2 : ℚ) ^ ulpExp b64 (pos + off) := zpow_le_zpow_right₀ (by norm_num) hle
    have h7 : pos + off - (z : ℚ) / 2 ^ 29 = off - d := by rw [hd, hx]; ring
    rw [h7]
    linarith

theorem truncZ_near {v : ℚ} {m : ℤ} (h0 : m = 0 → v = 0) (h : |v - m| < 1) : Spec.Node.TowardZero m (truncZ v) := by
  rw [abs_lt] at h
  obtain ⟨h1, h2⟩ := h
  rcases lt_trichotomy m 0 with hm | hm | hm
  · have hm' : (m : ℚ) ≤ -1 := by exact_mod_cast (show m ≤ -1 by omega)
    have hs : m.sign = -1 := Int.sign_eq_neg_one_of_neg hm
    unfold Spec.Node.TowardZero
    rw [hs]
    unfold truncZ
    by_cases hv : 0 ≤ v
    · exfalso; linarith
    rw [if_neg hv]
    have a1 : ⌈v⌉ ≤ m + 1 := Int.ceil_le.2 (by push_cast; linarith)
    have a2 : m - 1 < ⌈v⌉ := Int.lt_ceil.2 (by push_cast; linarith)
    omega
  · left
    rw [h0 hm, hm]; simp [truncZ]
  · have hm' : (1 : ℚ) ≤ m := by exact_mod_cast hm
    have hs : m.sign = 1 := Int.sign_eq_one_of_pos hm
    unfold Spec.Node.TowardZero
    rw [hs]
    unfold truncZ
    by_cases hv : 0 ≤ v
    · rw [if_pos hv]
      have a1 : m - 1 ≤ ⌊v⌋ := Int.le_floor.2 (by push_cast; linarith)
      have a2 : ⌊v⌋ < m + 1 := Int.floor_lt.2 (by push_cast; linarith)
      omega
    · exfalso; linarith

theorem num_error {q : ℚ} {k : ℤ} (h : |q| < (2 : ℚ) ^ k) (hk : -1000 ≤ k) : |num q - q| ≤ (2 : ℚ) ^ (k - 53) / 2 := by
  have := rnd_error_lt (F := b64) h (by simp only [b64]; omega)
  have e : (2 : ℚ) ^ (k - 53) / 2 = (2 : ℚ) ^ (k - (b64.prec : ℤ) - 1) := by
    rw [show k - (b64.prec : ℤ) - 1 = (k - 53) - 1 by simp only [b64]; omega, zpow_sub_one₀ (by norm_num)]
    ring
  rw [e]; exact this

/-- The declination number handed to the encoder is within 1/1000 of the received integer. -/
theorem dec_near {m : ℤ} {pos : ℚ} (hm0 : -2 ^ 31 ≤ m) (hm1 : m < 2 ^ 31) (hp : |pos| ≤ 90) :
    |num (num (pos + num (num ((m : ℚ) / decScale) - pos)) * decScale) - m| ≤ 1 / 1000 := by
  have hml : (-2 ^ 31 : ℚ) ≤ m := by exact_mod_cast hm0
  have hmu : (m : ℚ) < 2 ^ 31 := by exact_mod_cast hm1
  rw [decScale_eq]
  have hp' := abs_le.1 hp
  set x : ℚ := (m : ℚ) / (6405119470038039 / 536870912) with hx
  have hxm : x * (6405119470038039 / 536870912) = m := by rw [hx]; field_simp
  have hx1 : |x| ≤ 181 := by rw [abs_le]; constructor <;> (norm_num at hml hmu; linarith)
  have e1 := num_error (q := x) (k := 8) (by norm_num; linarith) (by norm_num)
  set D := num x with hD
  norm_num at e1
  have hx1' := abs_le.1 hx1
  have e1' := abs_le.1 e1
  have e2 := num_error (q := D - pos) (k := 9) (by rw [abs_lt]; constructor <;> (norm_num; linarith)) (by norm_num)
  set off := num (D - pos) with hoff
  norm_num at e2
  have e2' := abs_le.1 e2
  have e3 := num_error (q := pos + off) (k := 9) (by rw [abs_lt]; constructor <;> (norm_num; linarith)) (by norm_num)
  set sm := num (pos + off) with hsm
  norm_num at e3
  have e3' := abs_le.1 e3
  have e4 := num_error (q := sm * (6405119470038039 / 536870912)) (k := 32)
    (by rw [abs_lt]; constructor <;> (norm_num; linarith)) (by norm_num)
  norm_num at e4
  have e4' := abs_le.1 e4
  rw [abs_le]
  norm_num
  constructor <;> linarith

theorem dec_zero {pos : ℚ} (hrep : Representable b64 pos) :
    num (num (pos + num (num (((0 : ℤ) : ℚ) / decScale) - pos)) * decScale) = 0 := by
  have h : num (-pos) = -pos := by
    unfold num; rw [rnd_neg, rnd_of_representable hrep]
  have h0 : num 0 = 0 := rnd_zero
  simp only [Int.cast_zero, zero_div, h0, zero_sub, h, add_neg_cancel, zero_mul]

theorem bytesLE_eq (k n : Nat) : bytesLE k (n : ℤ) = Spec.le k n := by
  induction k generalizing n with
  | zero => rfl
  | succ k ih =>
    unfold bytesLE at ih ⊢
    rw [List.range_succ_eq_map, List.map_cons, List.map_map, Spec.le, ← ih]
    congr 1
    · simp only [pow_zero, Int.ediv_one]; congr 1
    · apply List.map_congr_left
      intro i _
      simp only [Function.comp]
      congr 2
      rw [pow_succ', ← Int.ediv_ediv_of_nonneg (by norm_num)]
      norm_cast

theorem bytesLE_mod4 (z : ℤ) : bytesLE 4 z = Spec.le 4 (z % 2 ^ 32).toNat := by
  rw [← bytesLE_eq, Int.toNat_of_nonneg (Int.emod_nonneg _ (by norm_num))]
  unfold bytesLE
  apply List.map_congr_left
  intro i hi
  congr 2
  have hi4 : i < 4 := List.mem_range.1 hi
  interval_cases i <;> omega

theorem signed32_mod {z : ℤ} (h0 : -2 ^ 31 ≤ z) (h1 : z < 2 ^ 31) : Spec.Node.signed32 (z % 2 ^ 32).toNat = z := by
  unfold Spec.Node.signed32
  have h2 : ((z % 2 ^ 32).toNat : ℤ) = z % 2 ^ 32 := Int.toNat_of_nonneg (Int.emod_nonneg _ (by norm_num))
  split <;> omega

theorem byteAt_ok {b : List UInt8} {i : Nat} (h : i < b.length) : byteAt b i = .ok (b[i].toNat : ℤ) := by
  unfold byteAt; rw [List.getElem?_eq_getElem h]

theorem slice4 {b : List UInt8} {i : Nat} (h : i + 3 < b.length) : Spec.slice b i 4 = [b[i], b[i + 1], b[i + 2], b[i + 3]] := by
  rw [Codec.slice_cons (by omega), Codec.slice_cons (by omega), Codec.slice_cons (by omega), Codec.slice_cons (by omega),
    Codec.slice_zero]

theorem readUInt32LE_ok {b : List UInt8} {i : Nat} (h : i + 3 < b.length) :
    readUInt32LE b i = .ok (Spec.leVal (Spec.slice b i 4) : ℤ) := by
  unfold readUInt32LE
  rw [byteAt_ok (by omega), byteAt_ok (by omega), byteAt_ok (by omega), byteAt_ok h, slice4 h]
  refine congrArg Except.ok ?_
  simp only [Spec.leVal]
  push_cast
  ring

theorem signed_bytes {x0 x1 x2 x3 : Nat} (a0 : x0 < 2 ^ 8) (a1 : x1 < 2 ^ 8) (a2 : x2 < 2 ^ 8) (a3 : x3 < 2 ^ 8) :
    (x0 : ℤ) + x1 * 2 ^ 8 + x2 * 2 ^ 16 + (if (x3 : ℤ) < 128 then (x3 : ℤ) else x3 - 256) * 2 ^ 24 =
      Spec.Node.signed32 (x0 + 256 * (x1 + 256 * (x2 + 256 * (x3 + 256 * 0)))) := by
  unfold Spec.Node.signed32
  by_cases h3 : x3 < 128
  · rw [if_pos (by exact_mod_cast h3), if_pos (by omega)]; push_cast; ring
  · rw [if_neg (by exact_mod_cast h3), if_neg (by omega)]; push_cast; ring

theorem readInt32LE_ok {b : List UInt8} {i : Nat} (h : i + 3 < b.length) :
    readInt32LE b i = .ok (Spec.Node.signed32 (Spec.leVal (Spec.slice b i 4))) := by
  unfold readInt32LE
  rw [byteAt_ok (by omega), byteAt_ok (by omega), byteAt_ok (by omega), byteAt_ok h, slice4 h]
  exact congrArg Except.ok (signed_bytes b[i].toNat_lt b[i + 1].toNat_lt b[i + 2].toNat_lt b[i + 3].toNat_lt)

end Verif.Node
