import Verif.C.Float
import Mathlib.Tactic.Ring
import Mathlib.Tactic.Linarith
import Mathlib.Tactic.Positivity
import Mathlib.Tactic.NormNum
import Mathlib.Tactic.FieldSimp
import Mathlib.Algebra.Order.Field.Power

/-!
# Lemmas about IEEE rounding (helpers, not claims)
-/

namespace Verif

theorem roundEven_near (q : ℚ) : |(roundEven q : ℚ) - q| ≤ 1 / 2 := by
  unfold roundEven
  have h1 := Int.floor_le q
  have h2 := Int.lt_floor_add_one q
  simp only
  rw [abs_le]
  split_ifs <;> push_cast <;> constructor <;> linarith

theorem roundEven_int (z : ℤ) : roundEven (z : ℚ) = z := by
  simp [roundEven]

theorem roundEven_le_int {q : ℚ} {z : ℤ} (h : q ≤ z) : roundEven q ≤ z := by
  have h1 := Int.floor_le q
  have h2 := Int.lt_floor_add_one q
  have h3 : ⌊q⌋ ≤ z := by exact_mod_cast (le_trans h1 h : ((⌊q⌋ : ℤ) : ℚ) ≤ z)
  by_cases hz : ⌊q⌋ = z
  · have : q = z := by rw [← hz]; rw [hz]; rw [hz] at h1; linarith
    rw [this, roundEven_int]
  · have : ⌊q⌋ + 1 ≤ z := by omega
    unfold roundEven; simp only
    split_ifs <;> omega

theorem int_le_roundEven {q : ℚ} {z : ℤ} (h : (z : ℚ) ≤ q) : z ≤ roundEven q := by
  have h3 : z ≤ ⌊q⌋ := Int.le_floor.2 h
  unfold roundEven; simp only
  split_ifs <;> omega

theorem roundEven_mono {a b : ℚ} (h : a ≤ b) : roundEven a ≤ roundEven b := by
  rcases lt_or_ge ⌊a⌋ ⌊b⌋ with hf | hf
  · have h1 : roundEven a ≤ ⌊a⌋ + 1 := roundEven_le_int (by push_cast; exact (Int.lt_floor_add_one a).le)
    have h2 : ⌊b⌋ ≤ roundEven b := int_le_roundEven (Int.floor_le b)
    omega
  · have hf' : ⌊a⌋ = ⌊b⌋ := le_antisymm (Int.floor_le_floor h) hf
    unfold roundEven
    simp only [hf']
    split_ifs <;> first | omega | (exfalso; linarith)

theorem roundEven_neg (q : ℚ) : roundEven (-q) = -roundEven q := by
  by_cases hq : (⌊q⌋ : ℚ) = q
  · rw [← hq, ← Int.cast_neg, roundEven_int, roundEven_int]
  · have h1 := Int.floor_le q
    have h2 := Int.lt_floor_add_one q
    have h1' : (⌊q⌋ : ℚ) < q := lt_of_le_of_ne h1 hq
    have hf : ⌊-q⌋ = -⌊q⌋ - 1 := by
      rw [Int.floor_eq_iff]; push_cast; constructor <;> linarith
    unfold roundEven
    simp only [hf]
    push_cast
    split_ifs <;> first | omega | (exfalso; linarith)

section
variable {F : Fmt}

theorem two_zpow_pos (e : ℤ) : (0 : ℚ) < (2 : ℚ) ^ e := by positivity

theorem rnd_zero : rnd F 0 = 0 := by
  unfold rnd; simp [show roundEven 0 = 0 by decide +kernel]

theorem ulpExp_neg (q : ℚ) : ulpExp F (-q) = ulpExp F q := by simp [ulpExp]

theorem rnd_neg (q : ℚ) : rnd F (-q) = -rnd F q := by
  unfold rnd
  rw [ulpExp_neg, neg_div, roundEven_neg]; push_cast; ring

theorem ulpExp_ge (q : ℚ) : F.emin ≤ ulpExp F q := le_max_right _ _

/-- Absolute rounding error: at most half a unit in the last place. -/
theorem rnd_error (q : ℚ) : |rnd F q - q| ≤ (2 : ℚ) ^ ulpExp F q / 2 := by
  have hp := two_zpow_pos (ulpExp F q)
  have h := roundEven_near (q / (2 : ℚ) ^ ulpExp F q)
  unfold rnd
  have : (roundEven (q / (2 : ℚ) ^ ulpExp F q) : ℚ) * (2 : ℚ) ^ ulpExp F q - q =
      ((roundEven (q / (2 : ℚ) ^ ulpExp F q) : ℚ) - q / (2 : ℚ) ^ ulpExp F q) * (2 : ℚ) ^ ulpExp F q := by
    field_simp
  rw [this, abs_mul, abs_of_pos hp]
  nlinarith

/-- Error bound from a bound on the magnitude: `|q| < 2^k` rounds with error at most `2^(k-prec-1)`
(if that is above the subnormal grid). -/
theorem rnd_error_lt {q : ℚ} {k : ℤ} (h : |q| < (2 : ℚ) ^ k) (hk : F.emin ≤ k - F.prec) :
    |rnd F q - q| ≤ (2 : ℚ) ^ (k - F.prec - 1) := by
  by_cases h0 : q = 0
  · subst h0; rw [rnd_zero]; simp; positivity
  refine (rnd_error q).trans ?_
  have hl : Int.log 2 |q| < k := (Int.lt_zpow_iff_log_lt Nat.one_lt_two (abs_pos.2 h0)).1 (by exact_mod_cast h)
  have : ulpExp F q ≤ k - F.prec := by
    unfold ulpExp; apply max_le _ hk; omega
  rw [zpow_sub_one₀ (by norm_num : (2 : ℚ) ≠ 0)]
  have := zpow_le_zpow_right₀ (by norm_num : (1 : ℚ) ≤ 2) this
  rw [div_eq_mul_inv]; linarith

/-- Relative rounding error for normal numbers. -/
theorem rnd_rel {q : ℚ} (h : (2 : ℚ) ^ (F.emin + F.prec - 1) ≤ |q|) :
    |rnd F q - q| ≤ |q| * (2 : ℚ) ^ (-(F.prec : ℤ)) := by
  have hq : 0 < |q| := lt_of_lt_of_le (by positivity) h
  refine (rnd_error q).trans ?_
  have hl : F.emin + F.prec - 1 ≤ Int.log 2 |q| :=
    (Int.zpow_le_iff_le_log Nat.one_lt_two hq).1 (by exact_mod_cast h)
  have e : ulpExp F q = Int.log 2 |q| - (F.prec - 1) := by unfold ulpExp; apply max_eq_left; omega
  have hle : (2 : ℚ) ^ Int.log 2 |q| ≤ |q| := by exact_mod_cast Int.zpow_log_le_self Nat.one_lt_two hq
  rw [e, show Int.log 2 |q| - ((F.prec : ℤ) - 1) = Int.log 2 |q| + -(F.prec : ℤ) + 1 by ring,
    zpow_add_one₀ (by norm_num : (2 : ℚ) ≠ 0), zpow_add₀ (by norm_num : (2 : ℚ) ≠ 0)]
  have hp : (0 : ℚ) < (2 : ℚ) ^ (-(F.prec : ℤ)) := by positivity
  nlinarith

/-- A representable value is on the grid that is used to round any value not larger in magnitude, within the same
binade or below. -/
theorem grid_of_representable {r q : ℚ} (hr : Representable F r) (hlog : Int.log 2 |q| ≤ Int.log 2 |r|) (h0 : r ≠ 0) :
    ∃ z : ℤ, r / (2 : ℚ) ^ ulpExp F q = z := by
  obtain ⟨m, e, he, hm, rfl⟩ := hr
  have hm0 : m ≠ 0 := by rintro rfl; simp at h0
  have key : ulpExp F q ≤ e := by
    unfold ulpExp
    apply max_le _ he
    have h1 : |(m : ℚ) * (2 : ℚ) ^ e| < (2 : ℚ) ^ ((F.prec : ℤ) + e) := by
      rw [abs_mul, abs_of_pos (two_zpow_pos e), zpow_add₀ (by norm_num)]
      apply mul_lt_mul_of_pos_right _ (two_zpow_pos e)
      rw [zpow_natCast]
      exact_mod_cast hm
    have h2 := (Int.lt_zpow_iff_log_lt (b := 2) (r := |(m : ℚ) * (2 : ℚ) ^ e|) Nat.one_lt_two (abs_pos.2 h0)).1 (by exact_mod_cast h1)
    omega
  refine ⟨m * 2 ^ (e - ulpExp F q).toNat, ?_⟩
  push_cast
  rw [mul_div_assoc, ← zpow_sub₀ (by norm_num), ← zpow_natCast, Int.toNat_of_nonneg (by omega)]

/-- Representable values are not changed by rounding. -/
theorem rnd_of_representable {q : ℚ} (h : Representable F q) : rnd F q = q := by
  by_cases h0 : q = 0
  · rw [h0, rnd_zero]
  obtain ⟨z, hz⟩ := grid_of_representable h le_rfl h0
  unfold rnd
  rw [hz, roundEven_int, ← hz]
  have := (two_zpow_pos (ulpExp F q)).ne'
  field_simp

theorem log_mono_abs {a b : ℚ} (ha : 0 < a) (h : a ≤ b) : Int.log 2 |a| ≤ Int.log 2 |b| := by
  rw [abs_of_pos ha, abs_of_pos (lt_of_lt_of_le ha h)]
  exact Int.log_mono_right ha h

theorem representable_two_zpow {e : ℤ} (he : F.emin ≤ e) (hp : 0 < F.prec) : Representable F ((2 : ℚ) ^ e) :=
  ⟨1, e, he, by rw [abs_one]; exact_mod_cast Nat.one_lt_two_pow hp.ne', by simp⟩

theorem rnd_nonneg {q : ℚ} (h : 0 ≤ q) : 0 ≤ rnd F q := by
  unfold rnd
  have : 0 ≤ roundEven (q / (2 : ℚ) ^ ulpExp F q) := int_le_roundEven (by simp; positivity)
  have h2 : (0 : ℚ) ≤ (roundEven (q / (2 : ℚ) ^ ulpExp F q) : ℚ) := by exact_mod_cast this
  have := two_zpow_pos (ulpExp F q)
  positivity

theorem rnd_le_of_representable_pos {q r : ℚ} (hq : 0 < q) (hr : Representable F r) (h : q ≤ r) : rnd F q ≤ r := by
  have hr0 : r ≠ 0 := by linarith
  obtain ⟨z, hz⟩ := grid_of_representable hr (log_mono_abs hq h) hr0
  have hp := two_zpow_pos (ulpExp F q)
  have : roundEven (q / (2 : ℚ) ^ ulpExp F q) ≤ z := by
    apply roundEven_le_int; rw [← hz]; gcongr
  have h2 : (roundEven (q / (2 : ℚ) ^ ulpExp F q) : ℚ) ≤ r / (2 : ℚ) ^ ulpExp F q := by
    rw [hz]; exact_mod_cast this
  unfold rnd
  rwa [le_div_iff₀ hp] at h2

theorem ulpExp_mono {a b : ℚ} (ha : 0 < a) (h : a ≤ b) : ulpExp F a ≤ ulpExp F b := by
  have := log_mono_abs ha h
  unfold ulpExp
  apply max_le_max _ le_rfl
  omega

theorem rnd_mono_pos (hp : 0 < F.prec) {a b : ℚ} (ha : 0 < a) (h : a ≤ b) : rnd F a ≤ rnd F b := by
  rcases (ulpExp_mono (F := F) ha h).lt_or_eq with hlt | heq
  · -- the binade boundary of `b` separates the two results
    have hb : 0 < b := lt_of_lt_of_le ha h
    have hle : (2 : ℚ) ^ Int.log 2 |b| ≤ |b| := by
      exact_mod_cast Int.zpow_log_le_self Nat.one_lt_two (abs_pos.2 hb.ne')
    have hle : (2 : ℚ) ^ Int.log 2 |b| ≤ b := hle.trans (abs_of_pos hb).le
    have hgb : Int.log 2 |b| - (F.prec - 1) > ulpExp F a := by
      unfold ulpExp at hlt ⊢
      by_contra hc
      rw [not_lt] at hc
      have : max (Int.log 2 |b| - (F.prec - 1)) F.emin ≤ max (Int.log 2 |a| - (F.prec - 1)) F.emin :=
        max_le hc (le_max_right _ _)
      omega
    have hea := ulpExp_ge (F := F) a
    have hrep : Representable F ((2 : ℚ) ^ Int.log 2 |b|) := representable_two_zpow (by omega) hp
    have hlab : Int.log 2 |a| < Int.log 2 |b| := by
      unfold ulpExp at hgb; have := le_max_left (Int.log 2 |a| - ((F.prec : ℤ) - 1)) F.emin; omega
    have h1 : rnd F a ≤ (2 : ℚ) ^ Int.log 2 |b| := by
      apply rnd_le_of_representable_pos ha hrep
      have := (Int.lt_zpow_iff_log_lt (b := 2) Nat.one_lt_two (abs_pos.2 ha.ne')).2 hlab
      rw [abs_of_pos ha] at this
      have h' : a < (2 : ℚ) ^ Int.log 2 |b| := by exact_mod_cast this
      exact h'.le
    have h2 : (2 : ℚ) ^ Int.log 2 |b| ≤ rnd F b := by
      have hlog : Int.log 2 |b| ≤ Int.log 2 (abs ((2 : ℚ) ^ Int.log 2 |b|)) := by
        rw [abs_of_pos (two_zpow_pos (Int.log 2 |b|))]
        have := Int.log_zpow (R := ℚ) (b := 2) Nat.one_lt_two (Int.log 2 |b|)
        have e : ((2 : ℕ) : ℚ) = 2 := by norm_num
        rw [e] at this; rw [this]
      obtain ⟨z, hz⟩ := grid_of_representable (q := b) hrep hlog (by positivity)
      have hpb := two_zpow_pos (ulpExp F b)
      have : z ≤ roundEven (b / (2 : ℚ) ^ ulpExp F b) := by
        apply int_le_roundEven; rw [← hz]; gcongr
      have h3 : (2 : ℚ) ^ Int.log 2 |b| / (2 : ℚ) ^ ulpExp F b ≤ (roundEven (b / (2 : ℚ) ^ ulpExp F b) : ℚ) := by
        rw [hz]; exact_mod_cast this
      unfold rnd
      rwa [div_le_iff₀ hpb] at h3
    linarith
  · unfold rnd
    rw [heq]
    have hpb := two_zpow_pos (ulpExp F b)
    have : roundEven (a / (2 : ℚ) ^ ulpExp F b) ≤ roundEven (b / (2 : ℚ) ^ ulpExp F b) :=
      roundEven_mono (by gcongr)
    have h' : (roundEven (a / (2 : ℚ) ^ ulpExp F b) : ℚ) ≤ (roundEven (b / (2 : ℚ) ^ ulpExp F b) : ℚ) := by
      exact_mod_cast this
    gcongr

/-- Rounding is monotone. -/
theorem rnd_mono (hp : 0 < F.prec) {a b : ℚ} (h : a ≤ b) : rnd F a ≤ rnd F b := by
  rcases lt_trichotomy a 0 with ha | ha | ha
  · rcases lt_or_ge b 0 with hb | hb
    · have := rnd_mono_pos (F := F) hp (neg_pos.2 hb) (neg_le_neg h)
      rw [rnd_neg, rnd_neg] at this; linarith
    · have h1 := rnd_nonneg (F := F) hb
      have h2 := rnd_nonneg (F := F) (neg_pos.2 ha).le
      rw [rnd_neg] at h2; linarith
  · subst ha; rw [rnd_zero]; exact rnd_nonneg h
  · exact rnd_mono_pos hp ha h

/-- Integers up to `2^prec` in magnitude are representable. -/
theorem representable_int {z : ℤ} (h : |z| ≤ 2 ^ F.prec) (he : F.emin ≤ 0) (hp : 0 < F.prec) :
    Representable F (z : ℚ) := by
  rcases h.lt_or_eq with h | h
  · exact ⟨z, 0, he, h, by simp⟩
  · refine ⟨z.sign, F.prec, by omega, ?_, ?_⟩
    · have : |z.sign| ≤ 1 := by
        rcases lt_trichotomy z 0 with hz | hz | hz
        · simp [Int.sign_eq_neg_one_of_neg hz]
        · simp [hz]
        · simp [Int.sign_eq_one_of_pos hz]
      have h2 : (1 : ℤ) < 2 ^ F.prec := by exact_mod_cast Nat.one_lt_two_pow hp.ne'
      omega
    · have e : (z : ℚ) = ((z.sign * |z| : ℤ) : ℚ) := by rw [Int.sign_mul_abs]
      rw [e, h]; push_cast; rw [zpow_natCast]

end

end Verif
