import Verif.Model.Heading
import Verif.Lemmas.FloatRep
import Verif.Lemmas.Strto
import Verif.Props.Helper

/-!
# C27: heading filter
-/

namespace Verif.Main

/-- Position of the encoder in an encoder word: the low 14 bits. -/
def position (w : UInt16) : Nat := w.toNat % 16384

/-- The check bits of an encoder word are right: the even bits and the odd bits each contain an odd number of ones. -/
def FrameOk (w : UInt16) : Prop := Helper.ones w.toUInt32 Helper.evenBits % 2 = 1 ∧ Helper.ones w.toUInt32 Helper.oddBits % 2 = 1

/-- A heading the firmware can hold: a `float` in `[0, 360)`. -/
def IsHeading (h : ℚ) : Prop := Representable b32 h ∧ 0 ≤ h ∧ h < 360

/-- The target angle of an encoder position as the firmware scales it (16385 instead of 16384 steps per turn), in `double`. -/
def target (w : UInt16) : ℚ := rnd b64 (position w * 360 / 16385)

theorem and_mask (w : UInt16) : (w &&& 0x3fff).toNat = position w := by
  rw [UInt16.toNat_and, show (0x3fff : UInt16).toNat = 2 ^ 14 - 1 from rfl, Nat.and_two_pow_sub_one_eq_mod]; rfl

theorem position_lt (w : UInt16) : position w < 16384 := Nat.mod_lt _ (by norm_num)

/-- `0.3f` -/
theorem rnd_alpha : rnd b32 0.3 = 10066330 / 2 ^ 25 := by decide +kernel

theorem target_nonneg (w : UInt16) : 0 ≤ target w := rnd_nonneg (by positivity)

theorem target_le (w : UInt16) : target w ≤ 11519 / 32 := by
  have h : (position w * 360 / 16385 : ℚ) ≤ 11519 / 32 := by
    have : (position w : ℚ) ≤ 16383 := by exact_mod_cast Nat.le_of_lt_succ (position_lt w)
    rw [div_le_div_iff₀ (by norm_num) (by norm_num)]; linarith
  have := rnd_mono (F := b64) (by decide) h
  rwa [rnd_of_representable (⟨11519, -5, by decide, by decide, by norm_num⟩ : Representable b64 (11519 / 32))] at this

/-- What one accepted frame computes; no operation overflows. -/
theorem step_ok (h : ℚ) (w : UInt16) (h0 : 0 ≤ h) (h1 : h < 360) (hw : Helper.verifyAmtCheckbits w.toUInt32 = true) :
    headingStep (fl b32) (fl b64) h w =
      .ok (rnd b32 (rnd b64 (h + rnd b64 (rnd b32 0.3 * rnd b64 (target w - h))))) := by
  have hN : (position w : ℚ) ≤ 16383 := by exact_mod_cast Nat.le_of_lt_succ (position_lt w)
  have hN0 : (0 : ℚ) ≤ position w := by positivity
  have t0 := target_nonneg w
  have t1 := target_le w
  unfold headingStep
  rw [if_pos hw, and_mask]
  rw [fl_eq_rnd_32 (q := 0.3) (by norm_num [abs_le]), bind_ok]
  rw [fl_eq_rnd_32 (q := (position w : ℚ)) (by rw [abs_of_nonneg hN0]; linarith), bind_ok]
  rw [show rnd b32 (position w : ℚ) = position w from by
    apply rnd_of_representable
    have := representable_int (F := b32) (z := (position w : ℤ)) (by
      have := position_lt w
      rw [abs_of_nonneg (by positivity)]; norm_num [b32]; omega) (by decide) (by decide)
    exact_mod_cast this]
  rw [fl_eq_rnd_64 (q := (position w : ℚ) * 360) (by rw [abs_of_nonneg (by positivity)]; linarith), bind_ok]
  rw [show rnd b64 ((position w : ℚ) * 360) = position w * 360 from by
    apply rnd_of_representable
    have := representable_int (F := b64) (z := (position w * 360 : ℤ)) (by
      have := position_lt w
      rw [abs_of_nonneg (by positivity)]; norm_num [b64]; omega) (by decide) (by decide)
    exact_mod_cast this]
  rw [fl_eq_rnd_64 (q := (position w : ℚ) * 360 / 16385) (by
    rw [abs_of_nonneg (by positivity), div_le_iff₀ (by norm_num)]; linarith), bind_ok]
  change (fl b64 (target w - h)).bind _ = _
  have hd : |target w - h| ≤ 1000 := by rw [abs_le]; constructor <;> linarith
  rw [fl_eq_rnd_64 (hd.trans (by norm_num))]
  simp only [Except.bind]
  have hd' : |rnd b64 (target w - h)| ≤ 1000 :=
    rnd_abs_le (by decide) (representable_int (F := b64) (z := 1000) (by decide) (by decide) (by decide)) hd
  have hp : |rnd b32 0.3 * rnd b64 (target w - h)| ≤ 1000 := by
    rw [rnd_alpha, abs_mul, abs_of_pos (by norm_num : (0 : ℚ) < 10066330 / 2 ^ 25)]
    have : (10066330 / 2 ^ 25 : ℚ) ≤ 1 := by norm_num
    nlinarith [abs_nonneg (rnd b64 (target w - h))]
  rw [fl_eq_rnd_64 (hp.trans (by norm_num)), bind_ok]
  have hp' : |rnd b64 (rnd b32 0.3 * rnd b64 (target w - h))| ≤ 1000 :=
    rnd_abs_le (by decide) (representable_int (F := b64) (z := 1000) (by decide) (by decide) (by decide)) hp
  have hs : |h + rnd b64 (rnd b32 0.3 * rnd b64 (target w - h))| ≤ 2000 := by
    rw [abs_le] at *; constructor <;> linarith
  rw [fl_eq_rnd_64 (hs.trans (by norm_num)), bind_ok]
  have hs' : |rnd b64 (h + rnd b64 (rnd b32 0.3 * rnd b64 (target w - h)))| ≤ 2000 :=
    rnd_abs_le (by decide) (representable_int (F := b64) (z := 2000) (by decide) (by decide) (by decide)) hs
  rw [fl_eq_rnd_32 (hs'.trans (by norm_num))]

/-- The difference between target and heading is zero or at least `2^-149` in magnitude. -/
theorem diff_grid (h : ℚ) (w : UInt16) (hr : Representable b32 h) (hne : target w - h ≠ 0) :
    (2 : ℚ) ^ (-149 : ℤ) ≤ |target w - h| := by
  obtain ⟨m, e, he, -, rfl⟩ := hr
  have ht : ∃ z : ℤ, target w = z * (2 : ℚ) ^ (-149 : ℤ) := by
    by_cases h0 : position w = 0
    · exact ⟨0, by simp [target, h0, rnd_zero]⟩
    · set q : ℚ := (position w * 360 / 16385 : ℚ) with hq
      have hge : (2 : ℚ) ^ (-6 : ℤ) ≤ q := by
        have : (1 : ℚ) ≤ position w := by exact_mod_cast Nat.one_le_iff_ne_zero.2 h0
        rw [hq, le_div_iff₀ (by norm_num)]; norm_num; linarith
      have hpos : 0 < q := lt_of_lt_of_le (by positivity) hge
      have hl : -6 ≤ Int.log 2 |q| :=
        (Int.zpow_le_iff_le_log Nat.one_lt_two (abs_pos.2 hpos.ne')).1 (by rw [abs_of_pos hpos]; exact_mod_cast hge)
      have hu : -58 ≤ ulpExp b64 q := le_trans (by simp only [b64]; omega) (le_max_left _ _)
      refine ⟨roundEven (q / (2 : ℚ) ^ ulpExp b64 q) * 2 ^ (ulpExp b64 q + 149).toNat, ?_⟩
      unfold target rnd
      rw [← hq]
      push_cast
      rw [mul_assoc, ← zpow_natCast, Int.toNat_of_nonneg (by omega), ← zpow_add₀ (by norm_num)]
      congr 2; ring
  obtain ⟨z, hz⟩ := ht
  have hh : (m : ℚ) * (2 : ℚ) ^ e = (m * 2 ^ (e + 149).toNat : ℤ) * (2 : ℚ) ^ (-149 : ℤ) := by
    push_cast
    have he' : -149 ≤ e := he
    rw [mul_assoc, ← zpow_natCast, Int.toNat_of_nonneg (by omega), ← zpow_add₀ (by norm_num)]
    congr 2; ring
  rw [hz, hh, ← sub_mul] at hne ⊢
  rw [abs_mul, abs_of_pos (two_zpow_pos _)]
  have hne' : (z - m * 2 ^ (e + 149).toNat : ℤ) ≠ 0 := by
    intro h0
    apply hne
    have : ((z : ℚ) - ((m * 2 ^ (e + 149).toNat : ℤ) : ℚ)) = 0 := by exact_mod_cast h0
    rw [this, zero_mul]
  have h1 : (1 : ℤ) ≤ |z - m * 2 ^ (e + 149).toNat| := Int.one_le_abs hne'
  have h2 : (1 : ℚ) ≤ |(z : ℚ) - ((m * 2 ^ (e + 149).toNat : ℤ) : ℚ)| := by exact_mod_cast h1
  nlinarith [two_zpow_pos (-149)]

/-- The correction is a fraction of the difference: same sign, between 0.29 and 0.31 of it. -/
theorem correction (h : ℚ) (w : UInt16) (hr : Representable b32 h) :
    |rnd b64 (rnd b32 0.3 * rnd b64 (target w - h)) - rnd b32 0.3 * (target w - h)| ≤ |target w - h| * 2 ^ (-53 : ℤ) := by
  by_cases h0 : target w - h = 0
  · simp [h0, rnd_zero]
  set d := target w - h with hd
  have hg := diff_grid h w hr h0
  rw [← hd] at hg
  have n1 : (2 : ℚ) ^ (b64.emin + b64.prec - 1) ≤ |d| := le_trans (zpow_le_zpow_right₀ (by norm_num) (by decide)) hg
  have r1 := rnd_rel n1
  have hhalf : |d| / 2 ≤ |rnd b64 d| := by
    have := abs_sub_abs_le_abs_sub d (rnd b64 d)
    rw [abs_sub_comm d (rnd b64 d)] at this
    have e2 : (2 : ℚ) ^ (-(b64.prec : ℤ)) ≤ 1 / 2 := by norm_num [b64]
    nlinarith [abs_nonneg d]
  have e2 : |rnd b64 d - d| ≤ |d| * 2 ^ (-53 : ℤ) := r1
  rw [rnd_alpha] at *
  set a : ℚ := 10066330 / 2 ^ 25 with ha
  have ha0 : (0.3 : ℚ) < a ∧ a < 0.301 := by rw [ha]; constructor <;> norm_num
  have hap : 0 < a := lt_trans (by norm_num) ha0.1
  clear_value a
  have n2 : (2 : ℚ) ^ (b64.emin + b64.prec - 1) ≤ |a * rnd b64 d| := by
    rw [abs_mul, abs_of_pos hap]
    have : (2 : ℚ) ^ (b64.emin + b64.prec - 1) ≤ (2 : ℚ) ^ (-149 : ℤ) / 8 := by
      rw [show ((2 : ℚ) ^ (-149 : ℤ)) / 8 = (2 : ℚ) ^ (-152 : ℤ) by norm_num]
      exact zpow_le_zpow_right₀ (by norm_num) (by decide)
    generalize (2 : ℚ) ^ (-149 : ℤ) = ε at hg this
    generalize (2 : ℚ) ^ (b64.emin + b64.prec - 1) = δ at this ⊢
    have h8 : ε / 8 ≤ |rnd b64 d| / 4 := by linarith
    have h4 : |rnd b64 d| / 4 ≤ a * |rnd b64 d| := by
      have : (1 / 4 : ℚ) ≤ a := le_trans (by norm_num) ha0.1.le
      have := mul_le_mul_of_nonneg_right this (abs_nonneg (rnd b64 d))
      linarith
    linarith
  have r2 : |rnd b64 (a * rnd b64 d) - a * rnd b64 d| ≤ |a * rnd b64 d| * 2 ^ (-53 : ℤ) := rnd_rel n2
  have hub : |rnd b64 d| ≤ |d| * (1 + 2 ^ (-53 : ℤ)) := by
    have := abs_sub_abs_le_abs_sub (rnd b64 d) d
    linarith
  rw [abs_mul, abs_of_pos hap] at r2
  have key : |rnd b64 (a * rnd b64 d) - a * d| ≤ |rnd b64 (a * rnd b64 d) - a * rnd b64 d| + a * |rnd b64 d - d| := by
    have := abs_add_le (rnd b64 (a * rnd b64 d) - a * rnd b64 d) (a * (rnd b64 d - d))
    rw [abs_mul, abs_of_pos hap] at this
    rwa [show rnd b64 (a * rnd b64 d) - a * rnd b64 d + a * (rnd b64 d - d) = rnd b64 (a * rnd b64 d) - a * d by ring] at this
  have hd0 := abs_nonneg d
  have e53 : (2 : ℚ) ^ (-53 : ℤ) = 1 / 2 ^ 53 := by norm_num
  rw [e53] at r2 hub e2 ⊢
  have s1 : a * |rnd b64 d| * (1 / 2 ^ 53) ≤ 0.301 * (|d| * (1 + 1 / 2 ^ 53)) * (1 / 2 ^ 53) := by
    apply mul_le_mul_of_nonneg_right _ (by norm_num)
    exact mul_le_mul ha0.2.le hub (abs_nonneg _) (by norm_num)
  have s2 : a * |rnd b64 d - d| ≤ 0.301 * (|d| * (1 / 2 ^ 53)) := mul_le_mul ha0.2.le e2 (abs_nonneg _) (by norm_num)
  have : 0.301 * (|d| * (1 + 1 / 2 ^ 53)) * (1 / 2 ^ 53) + 0.301 * (|d| * (1 / 2 ^ 53)) ≤ |d| * (1 / 2 ^ 53) := by
    rw [show 0.301 * (|d| * (1 + 1 / 2 ^ 53)) * (1 / 2 ^ 53) + 0.301 * (|d| * (1 / 2 ^ 53)) =
      |d| * (0.301 * ((1 + 1 / 2 ^ 53) * (1 / 2 ^ 53)) + 0.301 * (1 / 2 ^ 53)) by ring]
    apply mul_le_mul_of_nonneg_left _ hd0
    norm_num
  linarith

/-- **C27** One frame never overshoots: the new heading lies between the old heading and the target (rounded to `float`), and is
again a heading. -/
theorem C27_step (h : ℚ) (w : UInt16) (hh : IsHeading h) :
    ∃ h', heading [w] h = .ok h' ∧ IsHeading h' ∧ min h (rnd b32 (target w)) ≤ h' ∧ h' ≤ max h (rnd b32 (target w)) ∧
      (¬ FrameOk w → h' = h) ∧ (FrameOk w → |h' - target w| ≤ 0.7 * |h - target w| + 1 / 2 ^ 15) := by
  obtain ⟨hr, h0, h1⟩ := hh
  by_cases hw : Helper.verifyAmtCheckbits w.toUInt32 = true
  · have hs := step_ok h w h0 h1 hw
    have ht32 : rnd b32 (target w) ≤ 11519 / 32 := by
      have := rnd_mono (F := b32) (by decide) (target_le w)
      rwa [rnd_of_representable (⟨11519, -5, by decide, by decide, by norm_num⟩ : Representable b32 (11519 / 32))] at this
    have ht0 : 0 ≤ rnd b32 (target w) := rnd_nonneg (target_nonneg w)
    have hc := correction h w hr
    set d := target w - h with hd
    set p := rnd b64 (rnd b32 0.3 * rnd b64 d) with hp
    have hh64 := rnd_of_representable (representable_b32_b64 hr)
    have hh32 := rnd_of_representable hr
    have htrep : rnd b64 (target w) = target w := rnd_of_representable (representable_rnd (by decide) _)
    have hal : rnd b32 0.3 = 10066330 / 2 ^ 25 := rnd_alpha
    have e53 : (2 : ℚ) ^ (-53 : ℤ) = 1 / 2 ^ 53 := by norm_num
    rw [hal, e53] at hc
    have hb : min h (rnd b32 (target w)) ≤ rnd b32 (rnd b64 (h + p)) ∧ rnd b32 (rnd b64 (h + p)) ≤ max h (rnd b32 (target w)) := by
      rcases le_total 0 d with hdn | hdn
      · rw [abs_of_nonneg hdn, abs_le] at hc
        have p0 : h ≤ h + p := by nlinarith [hc.1]
        have p1 : h + p ≤ target w := by nlinarith [hc.2]
        have a1 := rnd_mono (F := b32) (by decide) (rnd_mono (F := b64) (by decide) p0)
        have a2 := rnd_mono (F := b32) (by decide) (rnd_mono (F := b64) (by decide) p1)
        rw [hh64, hh32] at a1; rw [htrep] at a2
        exact ⟨(min_le_left _ _).trans a1, a2.trans (le_max_right _ _)⟩
      · rw [abs_of_nonpos hdn, abs_le] at hc
        have p0 : h + p ≤ h := by nlinarith [hc.2]
        have p1 : target w ≤ h + p := by nlinarith [hc.1]
        have a1 := rnd_mono (F := b32) (by decide) (rnd_mono (F := b64) (by decide) p0)
        have a2 := rnd_mono (F := b32) (by decide) (rnd_mono (F := b64) (by decide) p1)
        rw [hh64, hh32] at a1; rw [htrep] at a2
        exact ⟨(min_le_right _ _).trans a2, a1.trans (le_max_left _ _)⟩
    refine ⟨rnd b32 (rnd b64 (h + p)), ?_, ⟨representable_rnd (by decide) _, ?_, ?_⟩, hb.1, hb.2, ?_, ?_⟩
    · show (headingStep (fl b32) (fl b64) h w).bind _ = _
      rw [hs]; rfl
    · exact (le_min h0 ht0).trans hb.1
    · exact lt_of_le_of_lt hb.2 (max_lt h1 (by linarith))
    · intro hn; exact absurd ((Helper.C26_checkbits _).1 hw) hn
    · intro _
      have t0 := target_nonneg w
      have t1 := target_le w
      have hdb : |d| ≤ 360 := by rw [abs_le]; constructor <;> linarith
      have hpe : |p| ≤ 360 := by
        have h1 : |10066330 / 2 ^ 25 * d| ≤ 0.301 * |d| := by
          rw [abs_mul, abs_of_pos (by norm_num : (0 : ℚ) < 10066330 / 2 ^ 25)]
          exact mul_le_mul_of_nonneg_right (by norm_num) (abs_nonneg _)
        have := abs_sub_abs_le_abs_sub p (10066330 / 2 ^ 25 * d)
        linarith [abs_nonneg d]
      have hsum : |h + p| < (2 : ℚ) ^ (10 : ℤ) := by
        rw [abs_lt]; rw [abs_le] at hpe; norm_num; constructor <;> linarith
      have r1 := rnd_error_lt (F := b64) (k := 10) hsum (by decide)
      have hsum' : |rnd b64 (h + p)| < (2 : ℚ) ^ (9 : ℤ) := by
        have q0 : |h + p| ≤ 361 := by
          have e : h + p = (h + 10066330 / 2 ^ 25 * d) + (p - 10066330 / 2 ^ 25 * d) := by ring
          have e2 : h + 10066330 / 2 ^ 25 * d = (1 - 10066330 / 2 ^ 25) * h + 10066330 / 2 ^ 25 * target w := by rw [hd]; ring
          rw [e, abs_le]; rw [abs_le] at hc
          have : |d| * (1 / 2 ^ 53) ≤ 1 := by linarith
          have u1 : (1 - 10066330 / 2 ^ 25) * h + 10066330 / 2 ^ 25 * target w ≤ 360 := by linarith
          have u0 : 0 ≤ (1 - 10066330 / 2 ^ 25) * h + 10066330 / 2 ^ 25 * target w := by linarith
          constructor <;> linarith
        have := rnd_abs_le (F := b64) (by decide) (representable_int (F := b64) (z := 361) (by decide) (by decide) (by decide)) q0
        refine lt_of_le_of_lt this (by norm_num)
      have r2 := rnd_error_lt (F := b32) (k := 9) hsum' (by decide)
      rw [show (10 : ℤ) - b64.prec - 1 = -44 from rfl] at r1
      rw [show (9 : ℤ) - b32.prec - 1 = -16 from rfl] at r2
      have e44 : (2 : ℚ) ^ (-44 : ℤ) = 1 / 2 ^ 44 := by norm_num
      have e16 : (2 : ℚ) ^ (-16 : ℤ) = 1 / 2 ^ 16 := by norm_num
      rw [e44] at r1; rw [e16] at r2
      have dec : rnd b32 (rnd b64 (h + p)) - target w = (rnd b32 (rnd b64 (h + p)) - rnd b64 (h + p)) +
          (rnd b64 (h + p) - (h + p)) + (p - 10066330 / 2 ^ 25 * d) + (1 - 10066330 / 2 ^ 25) * (h - target w) := by
        rw [hd]; ring
      rw [dec]
      have tri : ∀ a b c e : ℚ, |a + b + c + e| ≤ |a| + |b| + |c| + |e| := by
        intro a b c e
        have := abs_add_le (a + b + c) e
        have := abs_add_le (a + b) c
        have := abs_add_le a b
        linarith
      refine (tri _ _ _ _).trans ?_
      rw [abs_mul, abs_of_pos (by norm_num : (0 : ℚ) < 1 - 10066330 / 2 ^ 25)]
      have : (1 - 10066330 / 2 ^ 25) * |h - target w| ≤ 0.7 * |h - target w| :=
        mul_le_mul_of_nonneg_right (by norm_num) (abs_nonneg _)
      have : |d| * (1 / 2 ^ 53) ≤ 360 * (1 / 2 ^ 53) := mul_le_mul_of_nonneg_right hdb (by norm_num)
      norm_num at *
      linarith
  · refine ⟨h, ?_, ⟨hr, h0, h1⟩, min_le_left _ _, le_max_left _ _, fun _ => rfl, ?_⟩
    · show (headingStep (fl b32) (fl b64) h w).bind _ = _
      unfold headingStep; rw [if_neg hw]; rfl
    · intro hf; exact absurd ((Helper.C26_checkbits _).2 hf) hw

theorem headingRun_cons (r32 r64 : ℚ → C ℚ) (w : UInt16) (ws : List UInt16) (h h' : ℚ) (hs : headingRun r32 r64 [w] h = .ok h') :
    headingRun r32 r64 (w :: ws) h = headingRun r32 r64 ws h' := by
  have hs' : headingStep r32 r64 h w = .ok h' := by
    cases hx : headingStep r32 r64 h w with
    | error e => simp [headingRun, hx] at hs
    | ok x => simp [headingRun, hx, bind_ok, pure_ok] at hs; rw [hs]
  show (headingStep r32 r64 h w).bind _ = _
  rw [hs']; rfl

/-- **C27** For every sequence of encoder words the heading stays a `float` in `[0, 360)`: no overflow, no wrap-around needed. -/
theorem C27_range (ws : List UInt16) (h : ℚ) (hh : IsHeading h) : ∃ h', heading ws h = .ok h' ∧ IsHeading h' := by
  induction ws generalizing h with
  | nil => exact ⟨h, rfl, hh⟩
  | cons w ws ih =>
    obtain ⟨h1, e, hh1, -⟩ := C27_step h w hh
    obtain ⟨h2, e2, hh2⟩ := ih h1 hh1
    exact ⟨h2, (headingRun_cons _ _ w ws h h1 e).trans e2, hh2⟩

/-- The power-up heading 180 is one, and the theorem's conclusion is not empty: a frame at 46 steps moves it towards 1 degree. -/
example : IsHeading 180 ∧ ∃ h, heading [46] 180 = .ok h ∧ 126 < h ∧ h < 127 :=
  ⟨⟨⟨180, 0, by decide, by decide, by norm_num⟩, by norm_num, by norm_num⟩,
    (heading [46] 180).toOption.getD 0, by decide +kernel, by decide +kernel, by decide +kernel⟩

/-- **C27** Frames with wrong check bits change nothing, wherever they occur in the sequence. -/
theorem C27_bad_frames (ws vs : List UInt16) (w : UInt16) (h : ℚ) (hw : ¬ FrameOk w) :
    heading (ws ++ w :: vs) h = heading (ws ++ vs) h := by
  have hv : Helper.verifyAmtCheckbits w.toUInt32 = false := by
    rw [← Bool.not_eq_true]; intro hf; exact hw ((Helper.C26_checkbits _).1 hf)
  have key : ∀ h, heading (w :: vs) h = heading vs h := by
    intro h
    show (headingStep (fl b32) (fl b64) h w).bind _ = _
    unfold headingStep; rw [if_neg (by rw [hv]; decide)]; rfl
  induction ws generalizing h with
  | nil => exact key h
  | cons u us ih =>
    simp only [List.cons_append]
    show (headingStep (fl b32) (fl b64) h u).bind _ = (headingStep (fl b32) (fl b64) h u).bind _
    cases headingStep (fl b32) (fl b64) h u with
    | error e => rfl
    | ok x => exact ih x

/-- A frame with wrong check bits (and one with right ones): -/
example : ¬ FrameOk 47 ∧ FrameOk 46 := by unfold FrameOk; decide

/-- **C27** In exact arithmetic `n` accepted frames at the same position shrink the distance to the target by exactly `0.7 ^ n`. -/
theorem C27_exact_contraction (w : UInt16) (hw : FrameOk w) (n : Nat) (h : ℚ) :
    ∃ h', headingExact (List.replicate n w) h = .ok h' ∧
      h' - position w * 360 / 16385 = 0.7 ^ n * (h - position w * 360 / 16385) := by
  induction n generalizing h with
  | zero => exact ⟨h, rfl, by simp⟩
  | succ n ih =>
    obtain ⟨h', e, hc⟩ := ih (h + 0.3 * (position w * 360 / 16385 - h))
    refine ⟨h', ?_, ?_⟩
    · rw [List.replicate_succ]
      refine (headingRun_cons _ _ _ _ h (h + 0.3 * (position w * 360 / 16385 - h)) ?_).trans e
      show (headingStep .ok .ok h w).bind _ = _
      unfold headingStep
      rw [if_pos ((Helper.C26_checkbits _).2 hw), and_mask]
      rfl
    · rw [hc, pow_succ]; ring

/-- **C27** In the firmware's arithmetic `n` accepted frames at the same position bring the heading within `0.7 ^ n` of the initial
distance plus 0.00011 degrees (rounding), so a resting telescope is reported right. -/
theorem C27_converges (w : UInt16) (hw : FrameOk w) (n : Nat) (h : ℚ) (hh : IsHeading h) :
    ∃ h', heading (List.replicate n w) h = .ok h' ∧ |h' - target w| ≤ 0.7 ^ n * |h - target w| + 0.00011 := by
  suffices H : ∃ h', heading (List.replicate n w) h = .ok h' ∧
      |h' - target w| ≤ 0.7 ^ n * |h - target w| + (1 - 0.7 ^ n) * (10 / 3 / 2 ^ 15) by
    obtain ⟨h', e, hb⟩ := H
    refine ⟨h', e, hb.trans ?_⟩
    have : (0 : ℚ) ≤ 0.7 ^ n := by positivity
    have : (1 - 0.7 ^ n) * (10 / 3 / 2 ^ 15) ≤ 1 * (10 / 3 / 2 ^ 15 : ℚ) := mul_le_mul_of_nonneg_right (by linarith) (by norm_num)
    have : (10 / 3 / 2 ^ 15 : ℚ) ≤ 0.00011 := by norm_num
    linarith
  induction n generalizing h with
  | zero => exact ⟨h, rfl, by simp⟩
  | succ n ih =>
    obtain ⟨h1, e1, hh1, -, -, -, hc⟩ := C27_step h w hh
    obtain ⟨h2, e2, hb⟩ := ih h1 hh1
    refine ⟨h2, by rw [List.replicate_succ]; exact (headingRun_cons _ _ _ _ h h1 e1).trans e2, hb.trans ?_⟩
    have h7 : (0 : ℚ) ≤ 0.7 ^ n := by positivity
    have := mul_le_mul_of_nonneg_left (hc hw) h7
    rw [show (0.7 : ℚ) ^ (n + 1) = 0.7 ^ n * 0.7 from pow_succ _ _]
    have e : (0.7 : ℚ) ^ n * (0.7 * |h - target w| + 1 / 2 ^ 15) + (1 - 0.7 ^ n) * (10 / 3 / 2 ^ 15) =
      0.7 ^ n * 0.7 * |h - target w| + (1 - 0.7 ^ n * 0.7) * (10 / 3 / 2 ^ 15) := by ring
    linarith

/-- **C27** The firmware divides by 16385 instead of 16384 steps per turn: the target deviates from the true angle of the encoder by
less than 0.022 degrees, and the deviation is the largest at the end of the turn. -/
theorem C27_scaling (w : UInt16) : |target w - position w * 360 / 16384| < 0.022 ∧
    (position w = 16383 → 0.0219 < |target w - position w * 360 / 16384|) := by
  have hN : (position w : ℚ) ≤ 16383 := by exact_mod_cast Nat.le_of_lt_succ (position_lt w)
  have hN0 : (0 : ℚ) ≤ position w := by positivity
  have hq : |(position w * 360 / 16385 : ℚ)| < (2 : ℚ) ^ (9 : ℤ) := by
    rw [abs_of_nonneg (by positivity), div_lt_iff₀ (by norm_num)]; norm_num; linarith
  have r := rnd_error_lt (F := b64) (k := 9) hq (by decide)
  rw [show (9 : ℤ) - b64.prec - 1 = -45 from rfl, show (2 : ℚ) ^ (-45 : ℤ) = 1 / 2 ^ 45 by norm_num] at r
  have hdiff : (position w * 360 / 16385 : ℚ) - position w * 360 / 16384 = - (position w * (360 / (16385 * 16384))) := by ring
  have e : target w - position w * 360 / 16384 = (rnd b64 (position w * 360 / 16385) - position w * 360 / 16385) -
      position w * (360 / (16385 * 16384)) := by unfold target; linarith
  rw [e]
  have hb := mul_le_mul_of_nonneg_right hN (by norm_num : (0 : ℚ) ≤ 360 / (16385 * 16384))
  have hb0 : 0 ≤ (position w : ℚ) * (360 / (16385 * 16384)) := by positivity
  rw [abs_le] at r
  constructor
  · rw [abs_lt]; norm_num at *; constructor <;> linarith
  · intro h16
    have hx : (position w : ℚ) * (360 / (16385 * 16384)) = 16383 * (360 / (16385 * 16384)) := by rw [h16]; norm_num
    have hlow : 16383 * (360 / (16385 * 16384)) - 1 / 2 ^ 45 > (0.0219 : ℚ) := by norm_num
    rw [hx]
    generalize rnd b64 (position w * 360 / 16385) - position w * 360 / 16385 = x at r ⊢
    have h2 : x - 16383 * (360 / (16385 * 16384)) < -0.0219 := by
      have := r.2
      norm_num at *
      linarith
    rw [abs_of_neg (h2.trans (by norm_num))]
    linarith

/-- **C27** (finding) The filter works on the number, not on the angle: crossing north from 359° to 1° it sweeps through south, 251.6°
being the first value reported. -/
theorem C27_long_way : ∃ h, heading [46] 359 = .ok h ∧ |h - 251.6| < 0.01 ∧ |target 46 - 1.01| < 0.01 :=
  ⟨(heading [46] 359).toOption.getD 0, by decide +kernel, by decide +kernel, by decide +kernel⟩

end Verif.Main
