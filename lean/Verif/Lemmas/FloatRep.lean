import Verif.Lemmas.Float

/-! # More about IEEE rounding: results are representable, small results do not overflow -/

namespace Verif

variable {F : Fmt}

theorem representable_rnd (hp : 0 < F.prec) (q : ℚ) : Representable F (rnd F q) := by
  by_cases h0 : q = 0
  · subst h0; rw [rnd_zero]; exact ⟨0, F.emin, le_rfl, by simp, by simp⟩
  have hq : 0 < |q| := abs_pos.2 h0
  have hpos := two_zpow_pos (ulpExp F q)
  have hlog : |q| < (2 : ℚ) ^ (Int.log 2 |q| + 1) := by exact_mod_cast Int.lt_zpow_succ_log_self Nat.one_lt_two |q|
  have hb : |q / (2 : ℚ) ^ ulpExp F q| ≤ ((2 ^ F.prec : ℤ) : ℚ) := by
    rw [abs_div, abs_of_pos hpos, div_le_iff₀ hpos]
    refine hlog.le.trans ?_
    push_cast
    rw [← zpow_natCast, ← zpow_add₀ (by norm_num)]
    apply zpow_le_zpow_right₀ (by norm_num)
    have : Int.log 2 |q| - (F.prec - 1) ≤ ulpExp F q := le_max_left _ _
    omega
  have hm : |roundEven (q / (2 : ℚ) ^ ulpExp F q)| ≤ 2 ^ F.prec := by
    rw [abs_le] at hb ⊢
    refine ⟨int_le_roundEven (by push_cast at hb ⊢; linarith [hb.1]), roundEven_le_int hb.2⟩
  rcases hm.lt_or_eq with h | h
  · exact ⟨_, _, ulpExp_ge q, h, rfl⟩
  · set z := roundEven (q / (2 : ℚ) ^ ulpExp F q) with hz
    have h2 : (1 : ℤ) < 2 ^ F.prec := by exact_mod_cast Nat.one_lt_two_pow hp.ne'
    refine ⟨z.sign, ulpExp F q + F.prec, by have := ulpExp_ge (F := F) q; omega, ?_, ?_⟩
    · have : |z.sign| ≤ 1 := by
        rcases lt_trichotomy z 0 with hz | hz | hz
        · simp [Int.sign_eq_neg_one_of_neg hz]
        · simp [hz]
        · simp [Int.sign_eq_one_of_pos hz]
      omega
    · have e : (z : ℚ) = ((z.sign * |z| : ℤ) : ℚ) := by rw [Int.sign_mul_abs]
      unfold rnd
      rw [← hz, e, h, zpow_add₀ (by norm_num)]; push_cast; rw [zpow_natCast]; ring

theorem rnd_abs_le (hp : 0 < F.prec) {q r : ℚ} (hr : Representable F r) (h : |q| ≤ r) : |rnd F q| ≤ r := by
  have h1 := rnd_mono hp (abs_le.1 h).1
  have h2 := rnd_mono hp (abs_le.1 h).2
  rw [rnd_neg, rnd_of_representable hr] at h1
  rw [rnd_of_representable hr] at h2
  exact abs_le.2 ⟨h1, h2⟩

theorem representable_b32_b64 {q : ℚ} (h : Representable b32 q) : Representable b64 q := by
  obtain ⟨m, e, he, hm, rfl⟩ := h
  refine ⟨m, e, le_trans (by decide) he, hm.trans (by norm_num [b32, b64]), rfl⟩

theorem fl_eq_rnd_32 {q : ℚ} (h : |q| ≤ 1000000) : fl b32 q = .ok (rnd b32 q) := by
  have := rnd_abs_le (F := b32) (q := q) (by decide) (representable_int (z := 1000000) (by decide) (by decide) (by decide)) h
  unfold fl
  rw [if_pos (lt_of_le_of_lt this (by norm_num [b32]))]

theorem fl_eq_rnd_64 {q : ℚ} (h : |q| ≤ 10000000) : fl b64 q = .ok (rnd b64 q) := by
  have := rnd_abs_le (F := b64) (q := q) (by decide) (representable_int (z := 10000000) (by decide) (by decide) (by decide)) h
  unfold fl
  rw [if_pos (lt_of_le_of_lt this (by 
    rw [show b64.emax = ((1024 : ℕ) : ℤ) from rfl, zpow_natCast]
    exact (by norm_num : ((10000000 : ℤ) : ℚ) < 2 ^ 24).trans_le (pow_le_pow_right₀ (by norm_num) (by norm_num))))]

end Verif
