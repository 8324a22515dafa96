import Verif.Model.Sidereal64
import Verif.Props.Helper
import Verif.Props.Codec64

/-!
# C70 Local sidereal time in IEEE arithmetic
-/

namespace Verif.Helper

open Verif.NexStar Verif.Spec

/-- Half a unit in the last place of numbers in `[1, 2)`. -/
@[irreducible] def eps : ℚ := 2⁻¹ ^ 53

theorem eps_pos : 0 < eps := by unfold eps; positivity
theorem eps_small : eps ≤ 1 / 10 ^ 15 := by unfold eps; norm_num

theorem wide_fl_rnd {L : Fmt} (hL : Wide L) {q : ℚ} (h : |q| ≤ 2 ^ 60) : fl L q = .ok (rnd L q) := by
  obtain ⟨h1, h2, h3, h4, h5⟩ := hL
  have hr : Representable L ((2 : ℚ) ^ (60 : ℤ)) := representable_two_zpow (by omega) (by omega)
  have := rnd_abs_le (F := L) (q := q) (by omega) hr (by exact_mod_cast h)
  unfold fl
  rw [if_pos (lt_of_le_of_lt this (zpow_lt_zpow_right₀ (by norm_num) (by omega)))]

/-- Rounding a number below `2^k`. -/
theorem wide_fl_near {L : Fmt} (hL : Wide L) (k : ℕ) (hk : k ≤ 60) (q : ℚ) (h : |q| < 2 ^ k) :
    ∃ q', fl L q = .ok q' ∧ |q' - q| ≤ 2 ^ k / 2 * eps := by
  refine ⟨rnd L q, wide_fl_rnd hL (h.le.trans (pow_le_pow_right₀ (by norm_num) hk)), ?_⟩
  obtain ⟨h1, h2, h3, h4, h5⟩ := hL
  refine (rnd_error_lt (k := k) (by rw [zpow_natCast]; exact h) (by omega)).trans ?_
  have : (2 : ℚ) ^ ((k : ℤ) - L.prec - 1) ≤ 2 ^ ((k : ℤ) - 54) := zpow_le_zpow_right₀ (by norm_num) (by omega)
  refine this.trans (le_of_eq ?_)
  rw [zpow_sub₀ (by norm_num), zpow_natCast]
  unfold eps; norm_num; ring

theorem wide_rnd_near {L : Fmt} (hL : Wide L) (k : ℕ) (hk : k ≤ 60) (q : ℚ) (h : |q| < 2 ^ k) : |rnd L q - q| ≤ 2 ^ k / 2 * eps := by
  obtain ⟨q', h1, h2⟩ := wide_fl_near hL k hk q h
  rw [wide_fl_rnd hL (h.le.trans (pow_le_pow_right₀ (by norm_num) hk))] at h1
  rw [Except.ok.inj h1]; exact h2

/-! ### The remainder -/

/-- A `double` below a multiple of 360 is below it by at least a unit in the last place of that multiple. -/
theorem gap360 {a : ℚ} (ha : Representable b64 a) {k e : ℤ} (he0 : e ≤ 0) (h1 : (2 : ℚ) ^ (e + 52) ≤ |360 * (k : ℚ)|)
    (hlt : a < 360 * (k : ℚ)) : a ≤ 360 * (k : ℚ) - 2 ^ e := by
  have pe := two_zpow_pos e
  obtain ⟨n, hn⟩ : ∃ n : ℕ, e = -(n : ℤ) := ⟨e.natAbs, by omega⟩
  have mulE : ∀ z : ℤ, ∃ w : ℤ, (z : ℚ) = w * 2 ^ e := fun z => ⟨z * 2 ^ n, by
    rw [hn, zpow_neg, zpow_natCast]; push_cast
    rw [mul_assoc, mul_inv_cancel₀ (by positivity), mul_one]⟩
  obtain ⟨w, hw⟩ := mulE (360 * k)
  push_cast at hw
  have below : ∀ v : ℤ, (v : ℚ) * 2 ^ e < 360 * (k : ℚ) → (v : ℚ) * 2 ^ e ≤ 360 * (k : ℚ) - 2 ^ e := by
    intro v hv
    rw [hw] at hv ⊢
    have : v < w := by exact_mod_cast lt_of_mul_lt_mul_right hv pe.le
    have : (v : ℚ) + 1 ≤ w := by exact_mod_cast this
    have := mul_le_mul_of_nonneg_right this pe.le
    linarith
  obtain ⟨m, f, hf, hm, rfl⟩ := ha
  by_cases hfe : e ≤ f
  · obtain ⟨j, hj⟩ := Int.eq_ofNat_of_zero_le (show 0 ≤ f - e by omega)
    have e1 : (m : ℚ) * 2 ^ f = ((m * 2 ^ j : ℤ) : ℚ) * 2 ^ e := by
      rw [show f = (j : ℤ) + e by push_cast at hj; omega, zpow_add₀ (by norm_num), zpow_natCast]
      push_cast; ring
    rw [e1] at hlt ⊢
    exact below _ hlt
  · have hm' : |(m : ℚ)| < 2 ^ 53 := by
      have : |m| < 2 ^ 53 := hm
      rw [← Int.cast_abs]; exact_mod_cast this
    have hb : |(m : ℚ) * 2 ^ f| < 2 ^ (e + 52) := by
      rw [abs_mul, abs_of_pos (two_zpow_pos f)]
      have g1 : (2 : ℚ) ^ f ≤ 2 ^ (e - 1) := zpow_le_zpow_right₀ (by norm_num) (by omega)
      have g2 := mul_le_mul_of_nonneg_left g1 (abs_nonneg (m : ℚ))
      have g3 := mul_lt_mul_of_pos_right hm' (two_zpow_pos (e - 1))
      refine g2.trans_lt (g3.trans_eq ?_)
      rw [show (2 : ℚ) ^ 53 = 2 ^ (53 : ℤ) by norm_num, ← zpow_add₀ (by norm_num)]
      congr 1; ring
    obtain ⟨c1, c2⟩ := abs_lt.1 hb
    rcases le_or_gt 0 k with hk | hk
    · have hk' : (0 : ℚ) ≤ 360 * (k : ℚ) := by
        have : (0 : ℚ) ≤ k := by exact_mod_cast hk
        linarith
      rw [abs_of_nonneg hk'] at h1
      refine c2.le.trans ?_
      have e2 : (2 : ℚ) ^ (e + 52) = ((2 ^ 52 : ℤ) : ℚ) * 2 ^ e := by
        rw [zpow_add₀ (by norm_num)]; push_cast; norm_num; ring
      rw [e2] at h1 ⊢
      refine below _ (lt_of_le_of_ne h1 ?_)
      intro heq
      -- 360 k would be a power of two
      have h3 : (3 : ℤ) ∣ 2 ^ 52 := by
        rw [hn, zpow_neg, zpow_natCast] at heq
        have h4 : ((2 ^ 52 : ℤ) : ℚ) = ((360 * k * 2 ^ n : ℤ) : ℚ) := by
          push_cast at heq ⊢
          field_simp at heq; linarith
        have h5 : (2 ^ 52 : ℤ) = 360 * k * 2 ^ n := by exact_mod_cast h4
        rw [h5]; exact ⟨120 * k * 2 ^ n, by ring⟩
      norm_num at h3
    · have hk' : 360 * (k : ℚ) < 0 := by
        have : (k : ℚ) < 0 := by exact_mod_cast hk
        linarith
      rw [abs_of_neg hk'] at h1
      linarith

/-- What `f_mod(a, 360)` returns. -/
theorem fmod360_eq {a : ℚ} (h : |a| ≤ 2 ^ 40) : |⌊rnd b64 (a / 360)⌋| ≤ 2 ^ 40 ∧
    fModIEEE a 360 = .ok (rnd b64 (a - 360 * (⌊rnd b64 (a / 360)⌋ : ℚ))) := by
  have repInt : ∀ z : ℤ, |z| ≤ 2 ^ 53 → rnd b64 (z : ℚ) = z := fun z hz =>
    rnd_of_representable (representable_int (F := b64) hz (by decide) (by decide))
  have mono : ∀ x y : ℚ, x ≤ y → rnd b64 x ≤ rnd b64 y := fun x y h => rnd_mono (by decide) h
  have b1 : |a / 360| ≤ 2 ^ 40 := by
    rw [abs_div, abs_of_pos (by norm_num : (0 : ℚ) < 360), div_le_iff₀ (by norm_num)]; linarith
  have b1' := abs_le.1 b1
  set q := rnd b64 (a / 360) with hq
  have q2 : q ≤ 2 ^ 40 := by
    have := mono _ ((2 ^ 40 : ℤ) : ℚ) (by push_cast; exact b1'.2)
    rw [repInt _ (by decide)] at this
    exact_mod_cast this
  have q3 : -2 ^ 40 ≤ q := by
    have := mono ((-2 ^ 40 : ℤ) : ℚ) _ (by push_cast; exact b1'.1)
    rw [repInt _ (by decide)] at this
    exact_mod_cast this
  have kb : |⌊q⌋| ≤ 2 ^ 40 := by
    have k1 : ((⌊q⌋ : ℤ) : ℚ) ≤ ((2 ^ 40 : ℤ) : ℚ) := by push_cast; exact (Int.floor_le q).trans q2
    have k2 : (-2 ^ 40 : ℤ) ≤ ⌊q⌋ := Int.le_floor.2 (by push_cast; exact q3)
    exact abs_le.2 ⟨k2, by exact_mod_cast k1⟩
  have kb2 : |360 * ⌊q⌋| ≤ 2 ^ 49 := by
    rw [abs_mul]
    have : |(360 : ℤ)| = 360 := rfl
    rw [this]; omega
  have hz := repInt (360 * ⌊q⌋) (kb2.trans (by decide))
  push_cast at hz
  have kb' : |(360 * (⌊q⌋ : ℚ))| ≤ 2 ^ 49 := by
    have : |((360 * ⌊q⌋ : ℤ) : ℚ)| ≤ ((2 ^ 49 : ℤ) : ℚ) := by rw [← Int.cast_abs]; exact_mod_cast kb2
    push_cast at this; exact this
  have b3 : |a - 360 * (⌊q⌋ : ℚ)| ≤ 2 ^ 60 := (abs_sub _ _).trans (by linarith)
  refine ⟨kb, ?_⟩
  unfold fModIEEE
  rw [wide_fl_rnd wide_b64 (b1.trans (by norm_num))]
  simp only [bind, Except.bind]
  rw [← hq, wide_fl_rnd wide_b64 (kb'.trans (by norm_num)), hz]
  simp only
  rw [wide_fl_rnd wide_b64 b3]

theorem fmod360_ok {a : ℚ} (h : |a| ≤ 2 ^ 40) : ∃ r, fModIEEE a 360 = .ok r := ⟨_, (fmod360_eq h).2⟩

theorem fmod360_rep {a r : ℚ} (h : |a| ≤ 2 ^ 40) (hr : fModIEEE a 360 = .ok r) : Representable b64 r := by
  rw [(fmod360_eq h).2] at hr
  rw [← Except.ok.inj hr]; exact representable_rnd (by decide) _

/-- The result of `f_mod(a, 360)` is in the circle (it may be `360`; for denormal numbers it may be the negative argument). -/
theorem fmod360_range {a r : ℚ} (ha : Representable b64 a) (h : |a| ≤ 2 ^ 40) (hr : fModIEEE a 360 = .ok r) :
    -2⁻¹ ^ 1000 ≤ r ∧ r ≤ 360 ∧ ((a ≤ -2⁻¹ ^ 1000 ∨ 0 ≤ a) → 0 ≤ r) ∧ ∃ k : ℤ, |r - (a - 360 * k)| ≤ 256 * eps := by
  have hl := abs_le.1 h
  have mono : ∀ x y : ℚ, x ≤ y → rnd b64 x ≤ rnd b64 y := fun x y h => rnd_mono (by decide) h
  have repInt : ∀ z : ℤ, |z| ≤ 2 ^ 53 → rnd b64 (z : ℚ) = z := fun z hz =>
    rnd_of_representable (representable_int (F := b64) hz (by decide) (by decide))
  have b1 : |a / 360| ≤ 2 ^ 40 := by
    rw [abs_div, abs_of_pos (by norm_num : (0 : ℚ) < 360), div_le_iff₀ (by norm_num)]; linarith
  have b1' := abs_le.1 b1
  obtain ⟨kb, hfm⟩ := fmod360_eq h
  have hre : r = rnd b64 (a - 360 * (⌊rnd b64 (a / 360)⌋ : ℚ)) := by rw [hfm] at hr; exact (Except.ok.inj hr).symm
  set q := rnd b64 (a / 360) with hq
  have kb' : |(360 * (⌊q⌋ : ℚ))| ≤ 2 ^ 49 := by
    have : |((⌊q⌋ : ℤ) : ℚ)| ≤ ((2 ^ 40 : ℤ) : ℚ) := by rw [← Int.cast_abs]; exact_mod_cast kb
    rw [abs_mul, abs_of_pos (by norm_num : (0 : ℚ) < 360)]
    push_cast at this; norm_num at this ⊢; linarith
  have upper : a - 360 * (⌊q⌋ : ℚ) < 360 := by
    have f1 : ⌊a / 360⌋ ≤ ⌊q⌋ := by
      refine Int.le_floor.2 ?_
      have hk : |⌊a / 360⌋| ≤ 2 ^ 53 := by
        have k1 : ((⌊a / 360⌋ : ℤ) : ℚ) ≤ ((2 ^ 53 : ℤ) : ℚ) := (Int.floor_le _).trans (b1'.2.trans (by norm_num))
        have k2 : (-2 ^ 53 : ℤ) ≤ ⌊a / 360⌋ := Int.le_floor.2 (le_trans (by norm_num) b1'.1)
        exact abs_le.2 ⟨k2, by exact_mod_cast k1⟩
      rw [← repInt _ hk]
      exact mono _ _ (Int.floor_le _)
    have f2 : (⌊a / 360⌋ : ℚ) ≤ ⌊q⌋ := by exact_mod_cast f1
    have f3 := Int.lt_floor_add_one (a / 360)
    rw [div_lt_iff₀ (by norm_num)] at f3
    linarith
  have fq := Int.floor_le q
  have lower : 0 ≤ a - 360 * (⌊q⌋ : ℚ) ∨ (⌊q⌋ = 0 ∧ -2⁻¹ ^ 1000 < a ∧ a < 0) := by
    by_contra hc
    rw [not_or] at hc
    obtain ⟨hc1, hc2⟩ := hc
    have hlt : a < 360 * (⌊q⌋ : ℚ) := by linarith
    by_cases hk : ⌊q⌋ = 0
    · refine hc2 ⟨hk, ?_, by rw [hk] at hlt; simpa using hlt⟩
      by_contra hn
      rw [hk] at fq
      have : q ≤ rnd b64 (-2⁻¹ ^ 1000 / 360) := mono _ _ (by rw [div_le_div_iff_of_pos_right (by norm_num)]; linarith)
      have h2 : rnd b64 (-2⁻¹ ^ 1000 / 360) < 0 := by decide +kernel
      simp only [Int.cast_zero] at fq
      linarith
    · set k := ⌊q⌋ with hkd
      have kpos : (360 : ℚ) ≤ |360 * (k : ℚ)| := by
        rw [abs_mul, abs_of_pos (by norm_num : (0 : ℚ) < 360)]
        have : (1 : ℚ) ≤ |(k : ℚ)| := by rw [← Int.cast_abs]; exact_mod_cast Int.one_le_abs hk
        linarith
      have l1 := Int.zpow_log_le_self (b := 2) (by norm_num) (r := |360 * (k : ℚ)|) (by linarith)
      have l2 := Int.lt_zpow_succ_log_self (b := 2) (by norm_num) |360 * (k : ℚ)|
      push_cast at l1 l2
      set g := Int.log 2 |360 * (k : ℚ)| with hg
      have g8 : 8 ≤ g := by
        by_contra hn
        have : (2 : ℚ) ^ (g + 1) ≤ 2 ^ (8 : ℤ) := zpow_le_zpow_right₀ (by norm_num) (by omega)
        norm_num at this; linarith
      have g50 : g ≤ 50 := by
        by_contra hn
        have : (2 : ℚ) ^ (51 : ℤ) ≤ 2 ^ g := zpow_le_zpow_right₀ (by norm_num) (by omega)
        have h49 : (2 : ℚ) ^ 49 < 2 ^ (51 : ℤ) := by norm_num
        linarith
      have gp := gap360 ha (k := k) (e := g - 52) (by omega) (by rw [sub_add_cancel]; exact l1) hlt
      have pe := two_zpow_pos (g - 52)
      have l3 : |360 * (k : ℚ)| < 2 ^ 53 * 2 ^ (g - 52) := by
        refine l2.trans_eq ?_
        rw [show (2 : ℚ) ^ 53 = 2 ^ (53 : ℤ) by norm_num, ← zpow_add₀ (by norm_num)]; congr 1; ring
      have q4 : q ≤ rnd b64 (k - 2 ^ (g - 52) / 360) := mono _ _ (by rw [div_le_iff₀ (by norm_num)]; linarith)
      have e45 : (2 : ℚ) ^ (g - 52 + 45) = 2 ^ 45 * 2 ^ (g - 52) := by rw [zpow_add₀ (by norm_num)]; norm_num; ring
      have hb : |(k : ℚ) - 2 ^ (g - 52) / 360| < 2 ^ (g - 52 + 45) := by
        rw [e45]
        refine (abs_sub _ _).trans_lt ?_
        rw [abs_mul, abs_of_pos (by norm_num : (0 : ℚ) < 360)] at l3
        rw [abs_of_pos (by positivity : (0 : ℚ) < 2 ^ (g - 52) / 360)]
        linarith
      have er := rnd_error_lt (F := b64) hb (by simp only [b64]; omega)
      have e9 : (2 : ℚ) ^ (g - 52 + 45 - (b64.prec : ℤ) - 1) = 2 ^ (g - 52) / 512 := by
        rw [show g - 52 + 45 - (b64.prec : ℤ) - 1 = (g - 52) + (-9) by simp only [b64]; ring, zpow_add₀ (by norm_num)]; norm_num; ring
      rw [e9] at er
      have := (abs_le.1 er).2
      linarith
  have hb' : |a - 360 * (⌊q⌋ : ℚ)| < 2 ^ 9 := by
    rw [abs_lt]
    rcases lower with h0 | ⟨hk, h0, -⟩
    · constructor <;> linarith
    · have : (-1 : ℚ) < -2⁻¹ ^ 1000 := by
        have : (2⁻¹ : ℚ) ^ 1000 < 1 := pow_lt_one₀ (by norm_num) (by norm_num) (by norm_num)
        linarith
      rw [hk] at upper ⊢
      simp only [Int.cast_zero, mul_zero, sub_zero] at upper ⊢
      constructor <;> linarith
  have near := wide_rnd_near wide_b64 9 (by norm_num) _ hb'
  rw [← hre] at near
  have r0 : 0 ≤ a - 360 * (⌊q⌋ : ℚ) → 0 ≤ r := fun h0 => by rw [hre]; exact rnd_nonneg h0
  refine ⟨?_, ?_, ?_, ⌊q⌋, near.trans (by norm_num)⟩
  · rcases lower with h0 | ⟨hk, h0, -⟩
    · exact (neg_nonpos.2 (by positivity) : (-2⁻¹ ^ 1000 : ℚ) ≤ 0).trans (r0 h0)
    · rw [hre, hk]
      simp only [Int.cast_zero, mul_zero, sub_zero]
      rw [rnd_of_representable ha]; exact h0.le
  · rw [hre]
    have := mono _ ((360 : ℤ) : ℚ) (by push_cast; exact upper.le)
    rw [repInt _ (by decide)] at this
    exact_mod_cast this
  · rintro hcase
    rcases lower with h0 | ⟨hk, h0, h1⟩
    · exact r0 h0
    · exfalso
      rcases hcase with hcase | hcase <;> linarith

/-! ### The sidereal time -/

/-- The fraction of the day and the day number. -/
theorem deltaJulian64_near {L : Fmt} (hL : Wide L) (n : ℤ) (t : Tm) (hn : |n| ≤ 130000) (h1 : 0 ≤ t.hour) (h2 : t.hour ≤ 23)
    (m1 : 0 ≤ t.min) (m2 : t.min ≤ 59) (s1 : 0 ≤ t.sec) (s2 : t.sec ≤ 60) :
    ∃ d, deltaJulian64 L (2451544.5 + n) t = .ok d ∧ |d - daysSinceJ2000 n t| ≤ 2 ^ 20 * eps := by
  have he := eps_pos
  have hs := eps_small
  obtain ⟨n1, n2⟩ := abs_le.1 hn
  have n1' : (-130000 : ℚ) ≤ n := by exact_mod_cast n1
  have n2' : (n : ℚ) ≤ 130000 := by exact_mod_cast n2
  have h1' : (0 : ℚ) ≤ t.hour := by exact_mod_cast h1
  have h2' : (t.hour : ℚ) ≤ 23 := by exact_mod_cast h2
  have m1' : (0 : ℚ) ≤ t.min := by exact_mod_cast m1
  have m2' : (t.min : ℚ) ≤ 59 := by exact_mod_cast m2
  have s1' : (0 : ℚ) ≤ t.sec := by exact_mod_cast s1
  have s2' : (t.sec : ℚ) ≤ 60 := by exact_mod_cast s2
  have ha : fl b32 (2451544.5 + (n : ℚ) - 2451545) = .ok ((n : ℚ) - 1 / 2) := by
    have e : 2451544.5 + (n : ℚ) - 2451545 = (n : ℚ) - 1 / 2 := by ring
    rw [e, fl_eq_rnd_32 (by rw [abs_le]; constructor <;> linarith)]
    rw [rnd_of_representable]
    refine ⟨2 * n - 1, -1, by decide, ?_, by push_cast; norm_num; ring⟩
    rw [abs_lt]; simp only [b32]; constructor <;> omega
  obtain ⟨x1, hx1, e1⟩ := wide_fl_near hL 0 (by norm_num) ((t.hour : ℚ) / 24) (by rw [abs_lt]; constructor <;> linarith)
  have e1' := abs_le.1 e1
  obtain ⟨x2, hx2, e2⟩ := wide_fl_near hL 18 (by norm_num) ((n : ℚ) - 1 / 2 + x1) (by rw [abs_lt]; norm_num at e1' hs ⊢; constructor <;> linarith)
  have e2' := abs_le.1 e2
  obtain ⟨x3, hx3, e3⟩ := wide_fl_near hL 0 (by norm_num) ((t.min : ℚ) / 60) (by rw [abs_lt]; constructor <;> linarith)
  have e3' := abs_le.1 e3
  obtain ⟨x4, hx4, e4⟩ := wide_fl_near hL 0 (by norm_num) (x3 / 24) (by rw [abs_lt]; norm_num at e3' hs ⊢; constructor <;> linarith)
  have e4' := abs_le.1 e4
  obtain ⟨x5, hx5, e5⟩ := wide_fl_near hL 18 (by norm_num) (x2 + x4) (by rw [abs_lt]; norm_num at e1' e2' e3' e4' hs ⊢; constructor <;> linarith)
  have e5' := abs_le.1 e5
  obtain ⟨x6, hx6, e6⟩ := wide_fl_near hL 0 (by norm_num) ((t.sec : ℚ) / 3600) (by rw [abs_lt]; constructor <;> linarith)
  have e6' := abs_le.1 e6
  obtain ⟨x7, hx7, e7⟩ := wide_fl_near hL 0 (by norm_num) (x6 / 24) (by rw [abs_lt]; norm_num at e6' hs ⊢; constructor <;> linarith)
  have e7' := abs_le.1 e7
  obtain ⟨x8, hx8, e8⟩ := wide_fl_near hL 18 (by norm_num) (x5 + x7) (by
    rw [abs_lt]; norm_num at e1' e2' e3' e4' e5' e6' e7' hs ⊢; constructor <;> linarith)
  have e8' := abs_le.1 e8
  obtain ⟨x9, hx9, e9⟩ := wide_fl_near wide_b64 18 (by norm_num) x8 (by
    rw [abs_lt]; norm_num at e1' e2' e3' e4' e5' e6' e7' e8' hs ⊢; constructor <;> linarith)
  have e9' := abs_le.1 e9
  refine ⟨x9, ?_, ?_⟩
  · unfold deltaJulian64
    rw [ha]; simp only [bind, Except.bind]
    rw [hx1]; simp only
    rw [hx2]; simp only
    rw [hx3]; simp only
    rw [hx4]; simp only
    rw [hx5]; simp only
    rw [hx6]; simp only
    rw [hx7]; simp only
    rw [hx8]; exact hx9
  · unfold daysSinceJ2000
    rw [abs_le]
    norm_num at e1' e2' e3' e4' e5' e6' e7' e8' e9' ⊢
    constructor <;> linarith

/-- **C70.** Local sidereal time in double and long double arithmetic: for all instants within 130000 days (355 years) of the year 2000
and all longitudes the result is a finite number in `[0, 360]` (up to one denormal number) and within `2^-22` degrees (0.001 arc
seconds) of the mean sidereal time plus the longitude, up to full turns. -/
theorem C70_lst (L : Fmt) (hL : Wide L) (n : ℤ) (d : Date) (t : Tm) (lon : ℚ) (hv : d.Valid) (ht : Tm.IsDate t d) (hn : DaysFrom2000 d n)
    (hn' : |n| ≤ 130000) (hy0 : 1 ≤ d.year) (hy : d.year ≤ 6765) (h1 : 0 ≤ t.hour) (h2 : t.hour ≤ 23) (m1 : 0 ≤ t.min) (m2 : t.min ≤ 59)
    (s1 : 0 ≤ t.sec) (s2 : t.sec ≤ 60) (hlon : |lon| ≤ 360) :
    ∃ r, localSiderealTime64 L t lon = .ok r ∧ -2⁻¹ ^ 1000 ≤ r ∧ r ≤ 360 ∧ Representable b64 r ∧
      ∃ k : ℤ, |r - (meanSidereal (daysSinceJ2000 n t) + lon + 360 * k)| ≤ 2⁻¹ ^ 22 := by
  have he := eps_pos
  have hs := eps_small
  have hj := C24_julianDay_count t d n hv ht hn hy0 hy
  obtain ⟨x, hx, ex⟩ := deltaJulian64_near hL n t hn' h1 h2 m1 m2 s1 s2
  set D : ℚ := daysSinceJ2000 n t with hD
  have bD : |D| ≤ 130002 := by
    obtain ⟨n1, n2⟩ := abs_le.1 hn'
    have n1' : (-130000 : ℚ) ≤ n := by exact_mod_cast n1
    have n2' : (n : ℚ) ≤ 130000 := by exact_mod_cast n2
    have h1' : (0 : ℚ) ≤ t.hour := by exact_mod_cast h1
    have h2' : (t.hour : ℚ) ≤ 23 := by exact_mod_cast h2
    have m1' : (0 : ℚ) ≤ t.min := by exact_mod_cast m1
    have m2' : (t.min : ℚ) ≤ 59 := by exact_mod_cast m2
    have s1' : (0 : ℚ) ≤ t.sec := by exact_mod_cast s1
    have s2' : (t.sec : ℚ) ≤ 60 := by exact_mod_cast s2
    rw [hD]; unfold daysSinceJ2000
    rw [abs_le]; constructor <;> linarith
  have bx : |x| ≤ 130003 := by
    have := abs_sub_abs_le_abs_sub x D
    norm_num at hs ex; linarith
  obtain ⟨D1, D2⟩ := abs_le.1 bD
  obtain ⟨x1, x2⟩ := abs_le.1 bx
  -- the small quadratic term
  obtain ⟨T, hT, eT⟩ := wide_fl_near hL 2 (by norm_num) (x / 36525) (by rw [abs_lt]; norm_num; constructor <;> linarith)
  obtain ⟨T', hT', eT'⟩ := wide_fl_near wide_b64 2 (by norm_num) T (by
    have := abs_le.1 eT
    rw [abs_lt]; norm_num at this hs ⊢; constructor <;> linarith)
  have dT : |T' - D / 36525| ≤ 33 * eps := by
    have t1 := abs_sub_le T' T (D / 36525)
    have t2 := abs_sub_le T (x / 36525) (D / 36525)
    have t3 : |x / 36525 - D / 36525| ≤ 29 * eps := by
      rw [← sub_div, abs_div, abs_of_pos (by norm_num : (0 : ℚ) < 36525), div_le_iff₀ (by norm_num)]
      norm_num at ex; linarith
    norm_num at eT eT'; linarith
  have bT : |T'| ≤ 4 := by
    have t1 := abs_sub_abs_le_abs_sub T' (D / 36525)
    have t2 : |D / 36525| ≤ 3.6 := by
      rw [abs_div, abs_of_pos (by norm_num : (0 : ℚ) < 36525), div_le_iff₀ (by norm_num)]; norm_num; linarith
    norm_num at hs t2; linarith
  have bT2 : |D / 36525| ≤ 4 := by
    rw [abs_div, abs_of_pos (by norm_num : (0 : ℚ) < 36525), div_le_iff₀ (by norm_num)]; linarith
  have ec := wide_rnd_near hL 0 (by norm_num) 0.000388 (by rw [abs_of_pos] <;> norm_num)
  set c := rnd L 0.000388 with hc
  have bc : |c| ≤ 1 / 1000 := by
    have := abs_sub_abs_le_abs_sub c 0.000388
    rw [abs_of_pos (by norm_num : (0 : ℚ) < 0.000388)] at this
    norm_num at hs ec this; linarith
  have b5 : |c * T'| ≤ 1 / 250 := by
    rw [abs_mul]; calc |c| * |T'| ≤ 1 / 1000 * 4 := mul_le_mul bc bT (abs_nonneg _) (by norm_num)
      _ = 1 / 250 := by norm_num
  obtain ⟨u, hu, eu⟩ := wide_fl_near hL 0 (by norm_num) (c * T') (b5.trans_lt (by norm_num))
  have bu : |u| ≤ 1 / 200 := by
    have := abs_sub_abs_le_abs_sub u (c * T')
    norm_num at hs eu; linarith
  have b6 : |u * T'| ≤ 1 / 50 := by
    rw [abs_mul]; calc |u| * |T'| ≤ 1 / 200 * 4 := mul_le_mul bu bT (abs_nonneg _) (by norm_num)
      _ = 1 / 50 := by norm_num
  obtain ⟨v, hv', ev⟩ := wide_fl_near hL 0 (by norm_num) (u * T') (b6.trans_lt (by norm_num))
  have dv : |v - 0.000388 * (D / 36525) ^ 2| ≤ 100 * eps := by
    have e : v - 0.000388 * (D / 36525) ^ 2 = (v - u * T') + (u - c * T') * T' + (c - 0.000388) * (T' * T') +
        0.000388 * ((T' - D / 36525) * (T' + D / 36525)) := by ring
    have k1 : |(u - c * T') * T'| ≤ (2 ^ 0 / 2 * eps) * 4 := by rw [abs_mul]; exact mul_le_mul eu bT (abs_nonneg _) (by positivity)
    have k2 : |(c - 0.000388) * (T' * T')| ≤ (2 ^ 0 / 2 * eps) * (4 * 4) := by
      rw [abs_mul, abs_mul]
      exact mul_le_mul ec (mul_le_mul bT bT (abs_nonneg _) (by norm_num)) (by positivity) (by positivity)
    have k3 : |0.000388 * ((T' - D / 36525) * (T' + D / 36525))| ≤ 0.000388 * ((33 * eps) * 8) := by
      rw [abs_mul, abs_mul, abs_of_pos (by norm_num : (0 : ℚ) < 0.000388)]
      refine mul_le_mul_of_nonneg_left (mul_le_mul dT ((abs_add_le _ _).trans (by linarith)) (abs_nonneg _) (by positivity)) (by norm_num)
    rw [e]
    have k4 := abs_add_le ((v - u * T') + (u - c * T') * T' + (c - 0.000388) * (T' * T')) (0.000388 * ((T' - D / 36525) * (T' + D / 36525)))
    have k5 := abs_add_three (v - u * T') ((u - c * T') * T') ((c - 0.000388) * (T' * T'))
    norm_num at ev k1 k2 k3 k4 k5 ⊢
    linarith
  have bv : |v| ≤ 1 := by
    have := abs_sub_abs_le_abs_sub v (u * T')
    norm_num at hs ev; linarith
  -- the linear term
  have eg := wide_rnd_near hL 9 (by norm_num) 360.98564736629 (by rw [abs_of_pos] <;> norm_num)
  set g := rnd L 360.98564736629 with hg
  have bg : |g| ≤ 361 := by
    have := abs_sub_abs_le_abs_sub g 360.98564736629
    rw [abs_of_pos (by norm_num : (0 : ℚ) < 360.98564736629)] at this
    norm_num at hs eg this; linarith
  have bgx : |g * x| ≤ 361 * 130003 := by rw [abs_mul]; exact mul_le_mul bg bx (abs_nonneg _) (by norm_num)
  obtain ⟨p, hp, ep⟩ := wide_fl_near hL 26 (by norm_num) (g * x) (bgx.trans_lt (by norm_num))
  have dp : |p - 360.98564736629 * D| ≤ 450000000 * eps := by
    have e : p - 360.98564736629 * D = (p - g * x) + (g - 360.98564736629) * x + 360.98564736629 * (x - D) := by ring
    have k1 : |(g - 360.98564736629) * x| ≤ (2 ^ 9 / 2 * eps) * 130003 := by
      rw [abs_mul]; exact mul_le_mul eg bx (abs_nonneg _) (by positivity)
    have k2 : |360.98564736629 * (x - D)| ≤ 360.98564736629 * (2 ^ 20 * eps) := by
      rw [abs_mul, abs_of_pos (by norm_num : (0 : ℚ) < 360.98564736629)]
      exact mul_le_mul_of_nonneg_left ex (by norm_num)
    rw [e]
    have k3 := abs_add_three (p - g * x) ((g - 360.98564736629) * x) (360.98564736629 * (x - D))
    norm_num at ep k1 k2 k3 ⊢
    linarith
  have bp : |p| ≤ 361 * 130004 := by
    have := abs_sub_abs_le_abs_sub p (g * x)
    norm_num at hs ep ⊢; linarith
  -- the sum
  have ek := wide_rnd_near hL 9 (by norm_num) 280.46061837 (by rw [abs_of_pos] <;> norm_num)
  set k0 := rnd L 280.46061837 with hk0
  obtain ⟨w1, w2⟩ := abs_le.1 ek
  obtain ⟨p1, p2⟩ := abs_le.1 bp
  obtain ⟨v1, v2⟩ := abs_le.1 bv
  obtain ⟨l1, l2⟩ := abs_le.1 hlon
  norm_num at w1 w2 p1 p2 hs
  obtain ⟨y1, hy1, f1⟩ := wide_fl_near hL 26 (by norm_num) (k0 + p) (by rw [abs_lt]; norm_num; constructor <;> linarith)
  obtain ⟨f1a, f1b⟩ := abs_le.1 f1
  norm_num at f1a f1b
  obtain ⟨y2, hy2, f2⟩ := wide_fl_near hL 26 (by norm_num) (y1 + v) (by rw [abs_lt]; norm_num; constructor <;> linarith)
  obtain ⟨f2a, f2b⟩ := abs_le.1 f2
  norm_num at f2a f2b
  obtain ⟨y3, hy3, f3⟩ := wide_fl_near hL 26 (by norm_num) (y2 + lon) (by rw [abs_lt]; norm_num; constructor <;> linarith)
  obtain ⟨f3a, f3b⟩ := abs_le.1 f3
  norm_num at f3a f3b
  have b64y : |y3| < 2 ^ 26 := by rw [abs_lt]; norm_num; constructor <;> linarith
  obtain ⟨a, haa, f4⟩ := wide_fl_near wide_b64 26 (by norm_num) y3 b64y
  obtain ⟨f4a, f4b⟩ := abs_le.1 f4
  norm_num at f4a f4b
  have hrep : Representable b64 a := by
    rw [wide_fl_rnd wide_b64 (b64y.le.trans (by norm_num))] at haa
    rw [← Except.ok.inj haa]; exact representable_rnd (by decide) _
  have ba : |a| ≤ 2 ^ 40 := by
    rw [abs_le]
    have := abs_lt.1 b64y
    norm_num at this ⊢; constructor <;> linarith
  obtain ⟨r, hr⟩ := fmod360_ok ba
  obtain ⟨r1, r2, -, k, rk⟩ := fmod360_range hrep ba hr
  refine ⟨r, ?_, r1, r2, fmod360_rep ba hr, -k, ?_⟩
  · unfold localSiderealTime64
    rw [hj]; simp only [bind, Except.bind]
    rw [hx]; simp only
    rw [hT]; simp only
    rw [hT']; simp only
    rw [← hg, hp]; simp only
    rw [← hk0, hy1]; simp only
    rw [← hc, hu]; simp only
    rw [hv']; simp only
    rw [hy2]; simp only
    rw [hy3]; simp only
    rw [haa]; exact hr
  · have e22 : (2⁻¹ : ℚ) ^ 22 = 2 ^ 31 * eps := by unfold eps; norm_num
    rw [e22]
    unfold meanSidereal
    obtain ⟨d1, d2⟩ := abs_le.1 dp
    obtain ⟨d3, d4⟩ := abs_le.1 dv
    obtain ⟨d5, d6⟩ := abs_le.1 rk
    rw [abs_le]
    push_cast
    norm_num at d1 d2 d3 d4 d5 d6 ⊢
    constructor <;> linarith

/-- **C70.** `f_mod(a, 360)` for all `double` numbers up to `2^40`: the same angle up to `2^-45` degrees, in `[0, 360]`; only a negative
number above `-2^-1000` can come back negative. -/
theorem C70_fmod (a : ℚ) (ha : Representable b64 a) (h : |a| ≤ 2 ^ 40) :
    ∃ r, fModIEEE a 360 = .ok r ∧ Representable b64 r ∧ r ≤ 360 ∧ -2⁻¹ ^ 1000 ≤ r ∧ ((a ≤ -2⁻¹ ^ 1000 ∨ 0 ≤ a) → 0 ≤ r) ∧
      ∃ k : ℤ, |r - (a + 360 * k)| ≤ 2⁻¹ ^ 45 := by
  obtain ⟨r, hr⟩ := fmod360_ok h
  obtain ⟨r1, r2, r3, k, rk⟩ := fmod360_range ha h hr
  refine ⟨r, hr, fmod360_rep h hr, r2, r1, r3, -k, ?_⟩
  have e : (2⁻¹ : ℚ) ^ 45 = 256 * eps := by unfold eps; norm_num
  rw [e]; push_cast
  rw [show a + 360 * (-(k : ℚ)) = a - 360 * k by ring]; exact rk

/-- The theorem applies to the example of the Julian day, 10 August 1998, 23:10, on the ESP32 and on the test host. -/
example (L : Fmt) (hL : L = b64 ∨ L = x87) : ∃ r, localSiderealTime64 L ⟨0, 10, 23, 10, 8, 1998⟩ (-23 / 12) = .ok r ∧
    ∃ k : ℤ, |r - (meanSidereal (daysSinceJ2000 (-509) ⟨0, 10, 23, 10, 8, 1998⟩) + (-23 / 12) + 360 * k)| ≤ 2⁻¹ ^ 22 := by
  obtain ⟨r, h1, -, -, -, h2⟩ := C70_lst L (by rcases hL with rfl | rfl; exacts [wide_b64, wide_x87]) (-509) ⟨1998, 8, 10⟩
    ⟨0, 10, 23, 10, 8, 1998⟩ (-23 / 12) (by decide) ⟨rfl, rfl, rfl⟩ ⟨509, Or.inr ⟨by decide, by decide +kernel⟩⟩ (by decide) (by decide)
    (by decide) (by decide) (by decide) (by decide) (by decide) (by decide) (by decide) (by rw [abs_le]; constructor <;> norm_num)
  exact ⟨r, h1, h2⟩

/-- The bound of `2^-1000` is needed: the smallest negative number comes back unchanged. -/
example : fModIEEE (-2⁻¹ ^ 1074) 360 = .ok (-2⁻¹ ^ 1074) := by decide +kernel

end Verif.Helper
