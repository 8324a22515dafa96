import Verif.Model.Imu32
import Verif.Props.Imu
import Verif.Lemmas.Coord64

/-!
# C73: the pitch in IEEE arithmetic
-/

namespace Verif.Imu32

open Verif.Imu Verif.Spec Real

/-- A C library whose `atan2` is accurate to two units in the last place of a `float` (`2^-21` for angles up to `π`); a `double`
`atan2` is far more accurate. -/
def AccurateAtan2 (A : ℚ → ℚ → ℚ) : Prop :=
  ∀ y x : ℚ, (x ≠ 0 ∨ y ≠ 0) → ∃ θ : ℝ, IsAngle y x θ ∧ |(A y x : ℝ) - θ| ≤ 2⁻¹ ^ 21

/-- All readings are in the range of the sensor (±2 g, `lsm6wrapper.cpp:19`). -/
def InRange (h : List (ℚ × ℚ × ℚ)) : Prop := ∀ v ∈ h, |v.1| ≤ 20 ∧ |v.2.1| ≤ 20 ∧ |v.2.2| ≤ 20

/-! ### Rounding -/

theorem fl32_err (k : ℤ) (hk : k ≤ 19) (hk' : -100 ≤ k) (q : ℚ) (h : |q| < (2 : ℚ) ^ k) :
    ∃ q', fl b32 q = .ok q' ∧ |q' - q| ≤ (2 : ℚ) ^ (k - 25) := by
  have hb : |q| ≤ 1000000 := by
    refine h.le.trans ((zpow_le_zpow_right₀ (by norm_num) hk).trans (by norm_num))
  refine ⟨rnd b32 q, fl_eq_rnd_32 hb, ?_⟩
  have he := rnd_error_lt (F := b32) h (by simp only [b32]; omega)
  have hz : k - (b32.prec : ℤ) - 1 = k - 25 := by simp only [b32]; ring
  rwa [hz] at he

theorem fl32_add {s S x : ℚ} {n : Nat} (hn : n < 50) (hx : |x| ≤ 20) (hS : |S| ≤ 20 * n) (he : |s - S| ≤ n * (1 / 2 ^ 15)) :
    ∃ s', fl b32 (s + x) = .ok s' ∧ |s' - (S + x)| ≤ (n + 1 : ℕ) * (1 / 2 ^ 15) ∧ |S + x| ≤ 20 * (n + 1 : ℕ) := by
  have hn' : (n : ℚ) ≤ 49 := by exact_mod_cast Nat.le_of_lt_succ hn
  have h1 : |s + x| < (2 : ℚ) ^ (10 : ℤ) := by
    rw [show s + x = (s - S) + S + x by ring]
    refine (abs_add_three (s - S) S x).trans_lt ?_
    norm_num at he ⊢
    linarith
  obtain ⟨s', e, h2⟩ := fl32_err 10 (by norm_num) (by norm_num) _ h1
  refine ⟨s', e, ?_, ?_⟩
  · rw [show s' - (S + x) = (s' - (s + x)) + (s - S) by ring]
    refine (abs_add_le (s' - (s + x)) (s - S)).trans ?_
    push_cast
    norm_num at h2 he ⊢
    linarith
  · have := abs_add_le S x
    push_cast
    linarith

/-! ### The mean -/

/-- The sums in `float` stay within `2^-15` per added sample of the exact ones. -/
theorem sumLoop_err (m : Imu ℚ) (f : Nat → ℚ × ℚ × ℚ) (hf : ∀ j, |(f j).1| ≤ 20 ∧ |(f j).2.1| ≤ 20 ∧ |(f j).2.2| ≤ 20) (k : Nat) :
    ∀ (i : Nat) (acc ex : ℚ × ℚ × ℚ), i + k ≤ 50 → (∀ j, i ≤ j → j < i + k → Slot m j (f j)) →
    |ex.1| ≤ 20 * i → |ex.2.1| ≤ 20 * i → |ex.2.2| ≤ 20 * i →
    |acc.1 - ex.1| ≤ i * (1 / 2 ^ 15) → |acc.2.1 - ex.2.1| ≤ i * (1 / 2 ^ 15) → |acc.2.2 - ex.2.2| ≤ i * (1 / 2 ^ 15) →
    ∃ r e, sumLoop m.samples i k acc = .ok r ∧ Imu.sumLoop m.samples i k ex = .ok e ∧
      |e.1| ≤ 20 * (i + k : ℕ) ∧ |e.2.1| ≤ 20 * (i + k : ℕ) ∧ |e.2.2| ≤ 20 * (i + k : ℕ) ∧
      |r.1 - e.1| ≤ (i + k : ℕ) * (1 / 2 ^ 15) ∧ |r.2.1 - e.2.1| ≤ (i + k : ℕ) * (1 / 2 ^ 15) ∧
      |r.2.2 - e.2.2| ≤ (i + k : ℕ) * (1 / 2 ^ 15) := by
  induction k with
  | zero => intro i acc ex _ _ h1 h2 h3 h4 h5 h6; exact ⟨acc, ex, rfl, rfl, h1, h2, h3, h4, h5, h6⟩
  | succ k ih =>
    intro i acc ex hik hs h1 h2 h3 h4 h5 h6
    have h0 := hs i le_rfl (by omega)
    have get_of : ∀ {n : Nat} {x : ℚ}, m.samples[n]? = some x → Imu.get m.samples n = .ok x := by
      intro n x hx
      obtain ⟨hn, hx⟩ := List.getElem?_eq_some_iff.1 hx
      unfold Imu.get; rw [dif_pos hn, hx]
    obtain ⟨sx, ex1, ex2, ex3⟩ := fl32_add (by omega : i < 50) (hf i).1 h1 h4
    obtain ⟨sy, ey1, ey2, ey3⟩ := fl32_add (by omega : i < 50) (hf i).2.1 h2 h5
    obtain ⟨sz, ez1, ez2, ez3⟩ := fl32_add (by omega : i < 50) (hf i).2.2 h3 h6
    obtain ⟨r, e, g1, g2, g3⟩ := ih (i + 1) (sx, sy, sz) (ex.1 + (f i).1, ex.2.1 + (f i).2.1, ex.2.2 + (f i).2.2) (by omega)
      (fun j a b => hs j (by omega) (by omega)) ex3 ey3 ez3 ex2 ey2 ez2
    refine ⟨r, e, ?_, ?_, by rw [show i + (k + 1) = i + 1 + k by omega]; exact g3⟩
    · unfold sumLoop
      rw [get_of h0.1, bind_ok, ex1, bind_ok, get_of h0.2.1, bind_ok, ey1, bind_ok, get_of h0.2.2, bind_ok, ez1, bind_ok, g1]
    · unfold Imu.sumLoop
      rw [get_of h0.1, bind_ok, get_of h0.2.1, bind_ok, get_of h0.2.2, bind_ok, g2]

theorem div_err {r e : ℚ} (he : |e| ≤ 20 * (50 : ℕ)) (h : |r - e| ≤ (50 : ℕ) * (1 / 2 ^ 15)) :
    ∃ q, fl b32 (r / 50) = .ok q ∧ |q - e / 50| ≤ 1 / 2 ^ 15 + 1 / 2 ^ 20 ∧ |e / 50| ≤ 20 := by
  have h50 : |e / 50| ≤ 20 := by rw [abs_div, div_le_iff₀ (by norm_num)]; norm_num at he ⊢; linarith
  have hd : |r / 50 - e / 50| ≤ 1 / 2 ^ 15 := by
    rw [← sub_div, abs_div, div_le_iff₀ (by norm_num)]; norm_num at h ⊢; linarith
  have hb : |r / 50| < (2 : ℚ) ^ (5 : ℤ) := by
    rw [show r / 50 = (r / 50 - e / 50) + e / 50 by ring]
    refine (abs_add_le (r / 50 - e / 50) (e / 50)).trans_lt ?_
    norm_num at hd ⊢; linarith
  obtain ⟨q, e1, e2⟩ := fl32_err 5 (by norm_num) (by norm_num) _ hb
  refine ⟨q, e1, ?_, h50⟩
  rw [show q - e / 50 = (q - r / 50) + (r / 50 - e / 50) by ring]
  refine (abs_add_le (q - r / 50) (r / 50 - e / 50)).trans ?_
  norm_num at e2 hd ⊢; linarith

theorem mean_err {h : List (ℚ × ℚ × ℚ)} {m : Imu ℚ} (r : Ring h m) (hr : InRange (lastN 50 0 h)) :
    ∃ a e, getMeanAcc m = .ok a ∧ Imu.getMeanAcc m = .ok e ∧ |e.1| ≤ 20 ∧ |e.2.1| ≤ 20 ∧ |e.2.2| ≤ 20 ∧
      |a.1 - e.1| ≤ 1 / 2 ^ 15 + 1 / 2 ^ 20 ∧ |a.2.1 - e.2.1| ≤ 1 / 2 ^ 15 + 1 / 2 ^ 20 ∧ |a.2.2 - e.2.2| ≤ 1 / 2 ^ 15 + 1 / 2 ^ 20 := by
  let f : Nat → ℚ × ℚ × ℚ := fun j =>
    if j < 50 then (m.samples.getD (3 * j) 0, m.samples.getD (3 * j + 1) 0, m.samples.getD (3 * j + 2) 0) else 0
  have hslot : ∀ j, 0 ≤ j → j < 0 + 50 → Slot m j (f j) := by
    intro j _ hj
    have g : ∀ n, n < 150 → m.samples[n]? = some (m.samples.getD n 0) := by
      intro n hn
      rw [List.getD_eq_getElem?_getD, List.getElem?_eq_getElem (by rw [r.len]; exact hn), Option.getD_some]
    have : f j = (m.samples.getD (3 * j) 0, m.samples.getD (3 * j + 1) 0, m.samples.getD (3 * j + 2) 0) := if_pos (by omega)
    rw [this]
    exact ⟨g _ (by omega), g _ (by omega), g _ (by omega)⟩
  have hf : ∀ j, |(f j).1| ≤ 20 ∧ |(f j).2.1| ≤ 20 ∧ |(f j).2.2| ≤ 20 := by
    intro j
    by_cases hj : j < 50
    · obtain ⟨i, hi, hji⟩ : ∃ i, i < 50 ∧ (h.length + i) % 50 = j := ⟨(j + 50 - h.length % 50) % 50, Nat.mod_lt _ (by norm_num), by omega⟩
      have hlen : h.length + i < (List.replicate 50 (0 : ℚ × ℚ × ℚ) ++ h).length := by simp; omega
      have hs := r.slots i hi _ (List.getElem?_eq_getElem hlen)
      rw [hji] at hs
      have hs' := hslot j (Nat.zero_le _) (by omega)
      have hmem : (List.replicate 50 (0 : ℚ × ℚ × ℚ) ++ h)[h.length + i] ∈ lastN 50 0 h := by
        unfold lastN
        rw [List.mem_iff_getElem?]
        exact ⟨i, by rw [List.getElem?_drop, List.getElem?_eq_getElem hlen]⟩
      have q := hr _ hmem
      obtain ⟨a1, a2, a3⟩ := hs
      obtain ⟨b1, b2, b3⟩ := hs'
      rw [a1] at b1; rw [a2] at b2; rw [a3] at b3
      injection b1 with b1; injection b2 with b2; injection b3 with b3
      rw [← b1, ← b2, ← b3]; exact q
    · have : f j = 0 := if_neg hj
      rw [this]; norm_num
  obtain ⟨s, e, g1, g2, g3, g4, g5, g6, g7, g8⟩ := sumLoop_err m f hf 50 0 (0, 0, 0) (0, 0, 0) (by norm_num) hslot
    (by norm_num) (by norm_num) (by norm_num) (by norm_num) (by norm_num) (by norm_num)
  rw [Nat.zero_add] at g3 g4 g5 g6 g7 g8
  obtain ⟨x, x1, x2, x3⟩ := div_err g3 g6
  obtain ⟨y, y1, y2, y3⟩ := div_err g4 g7
  obtain ⟨z, z1, z2, z3⟩ := div_err g5 g8
  have hn : fl b32 ((50 : ℕ) : ℚ) = .ok 50 := by decide +kernel
  refine ⟨(x, y, z), (e.1 / 50, e.2.1 / 50, e.2.2 / 50), ?_, ?_, x3, y3, z3, x2, y2, z2⟩
  · unfold getMeanAcc meanVec3
    rw [show ACC_FILTER_SAMPLES = 50 from rfl, g1, bind_ok, hn, bind_ok, x1, bind_ok, y1, bind_ok, z1, bind_ok, pure_ok]
  · unfold Imu.getMeanAcc Imu.meanVec3
    rw [show ACC_FILTER_SAMPLES = 50 from rfl, g2, bind_ok, pure_ok]
    norm_num

/-- **C73** For every sequence of samples since power-up of which the last 50 are in range, the filtered acceleration the firmware
computes in `float` is within 0.00004 m/s² of the mean of the last 50 samples, missing ones counting as zero. -/
theorem C73_mean (h : List (ℚ × ℚ × ℚ)) (hr : InRange (lastN 50 0 h)) : ∃ m a, sampleAll h init = .ok m ∧ getMeanAcc m = .ok a ∧
    |a.1 - (vsum (lastN 50 0 h)).1 / 50| ≤ 0.00004 ∧ |a.2.1 - (vsum (lastN 50 0 h)).2.1 / 50| ≤ 0.00004 ∧
    |a.2.2 - (vsum (lastN 50 0 h)).2.2 / 50| ≤ 0.00004 := by
  obtain ⟨m, e, r, -⟩ := ring_all h (ring_init (K := ℚ))
  obtain ⟨a, ex, g1, g2, -, -, -, g3, g4, g5⟩ := mean_err r hr
  refine ⟨m, a, e, g1, ?_⟩
  rw [List.nil_append] at r
  rw [mean_of_ring r] at g2
  injection g2 with g2
  subst g2
  norm_num at g3 g4 g5 ⊢
  exact ⟨by linarith, by linarith, by linarith⟩

/-! ### The pitch -/

theorem fl32_err_real (k : ℕ) (hk : k ≤ 19) (q : ℚ) (h : |(q : ℝ)| < 2 ^ k) :
    ∃ q', fl b32 q = .ok q' ∧ |(q' : ℝ) - q| ≤ 2 ^ k / 2 ^ 25 := by
  have hq : |q| < (2 : ℚ) ^ (k : ℤ) := by rw [zpow_natCast]; exact_mod_cast h
  obtain ⟨q', e, he⟩ := fl32_err k (by exact_mod_cast hk) (by omega) q hq
  refine ⟨q', e, ?_⟩
  have : |((q' - q : ℚ) : ℝ)| ≤ (((2 : ℚ) ^ ((k : ℤ) - 25) : ℚ) : ℝ) := by exact_mod_cast he
  push_cast at this
  rw [zpow_sub₀ (by norm_num), zpow_natCast] at this
  exact_mod_cast this

/-- The error of the product with 180, in either format. -/
theorem prod180_err {F : Fmt} (hF : F = b32 ∨ F = b64) (t : ℚ) (ht : |(t : ℝ)| ≤ 3.15) :
    ∃ p, fl F (t * 180) = .ok p ∧ |(p : ℝ) - t * 180| ≤ 1 / 2 ^ 15 := by
  have b : |((t * 180 : ℚ) : ℝ)| < 2 ^ 10 := by
    push_cast
    rw [abs_mul, abs_of_pos (by norm_num : (0 : ℝ) < 180)]
    norm_num at ht ⊢
    linarith
  rcases hF with rfl | rfl
  · obtain ⟨p, e, h⟩ := fl32_err_real 10 (by norm_num) _ b
    refine ⟨p, e, ?_⟩
    push_cast at h
    norm_num at h ⊢; exact h
  · obtain ⟨p, e, h⟩ := Coord64.fl_err 10 (by norm_num) _ b
    refine ⟨p, e, ?_⟩
    push_cast at h
    have := Coord64.eps_small
    norm_num at h this ⊢; linarith

/-- The pitch is the angle of the calibrated vector, up to `0.000002` radians. -/
theorem pitch_err {F : Fmt} (hF : F = b32 ∨ F = b64) {A : ℚ → ℚ → ℚ} (hA : AccurateAtan2 A) (a : ℚ × ℚ × ℚ) (h0 : a.2.1 ≠ 0 ∨ a.1 ≠ 0) :
    ∃ q θ, pitch F A a = .ok q ∧ IsAngle a.1 a.2.1 θ ∧ |(q : ℝ) * π / 180 - θ| ≤ 0.000002 ∧ |(q : ℝ)| ≤ 180.001 := by
  obtain ⟨θ, hθ, ht⟩ := hA a.1 a.2.1 h0
  have hs := Coord64.eps_small
  have hpos := Coord64.eps_pos
  have hpi := Coord64.pi_err
  obtain ⟨p1, p2⟩ := Coord64.pi_bounds
  have q1 := Real.pi_gt_d6
  have q2 := Real.pi_lt_d6
  have hr := Coord64.isAngle_range hθ
  set t := A a.1 a.2.1 with htdef
  norm_num at ht hs
  have bt : |(t : ℝ)| ≤ 3.1416 := by
    have := abs_sub_abs_le_abs_sub (t : ℝ) θ
    norm_num at q2 ⊢; linarith
  obtain ⟨p, hp, ep⟩ := prod180_err hF t (bt.trans (by norm_num))
  norm_num at ep
  have hp0 : (0 : ℝ) < Coord64.PI := by linarith
  have bp : |(p : ℝ)| ≤ 566 := by
    have := abs_sub_abs_le_abs_sub (p : ℝ) (t * 180)
    rw [abs_mul, abs_of_pos (by norm_num : (0 : ℝ) < 180)] at this
    norm_num at bt; linarith
  have bd : |((p / Coord64.PI : ℚ) : ℝ)| < 2 ^ 8 := by
    push_cast
    rw [abs_div, abs_of_pos hp0, div_lt_iff₀ hp0]
    nlinarith
  obtain ⟨d, hd, ed⟩ := Coord64.fl_err 8 (by norm_num) (p / Coord64.PI) bd
  push_cast at ed
  have e3 : |(p : ℝ) / Coord64.PI - p / π| ≤ 200 * Coord64.eps := by
    have : (p : ℝ) / Coord64.PI - p / π = p * (π - Coord64.PI) / (Coord64.PI * π) := by field_simp
    have hpp : (0 : ℝ) < Coord64.PI * π := by positivity
    rw [this, abs_div, abs_mul, abs_of_pos hpp, div_le_iff₀ hpp, abs_sub_comm]
    have : |(p : ℝ)| * |(Coord64.PI : ℝ) - π| ≤ 566 * (2 * Coord64.eps) := mul_le_mul bp hpi (abs_nonneg _) (by norm_num)
    have : (9.8 : ℝ) ≤ Coord64.PI * π := by nlinarith
    nlinarith
  have e4 : |(p : ℝ) / π - θ * 180 / π| ≤ 0.00004 := by
    rw [← sub_div, abs_div, abs_of_pos Real.pi_pos, div_le_iff₀ Real.pi_pos]
    have h1 := abs_sub_le (p : ℝ) (t * 180) (θ * 180)
    have h2 : |(t : ℝ) * 180 - θ * 180| = |(t : ℝ) - θ| * 180 := by
      rw [← sub_mul, abs_mul, abs_of_pos (by norm_num : (0 : ℝ) < 180)]
    rw [h2] at h1
    norm_num at q1 ⊢
    linarith
  have e5 : |(d : ℝ) - θ * 180 / π| ≤ 0.000041 := by
    have t1 := abs_sub_le (d : ℝ) (p / Coord64.PI) (θ * 180 / π)
    have t2 := abs_sub_le ((p : ℝ) / Coord64.PI) (p / π) (θ * 180 / π)
    norm_num at ed e4 ⊢
    linarith
  have bθ : |θ * 180 / π| ≤ 180 := by
    rw [abs_div, abs_mul, abs_of_pos Real.pi_pos, abs_of_pos (by norm_num : (0 : ℝ) < 180), div_le_iff₀ Real.pi_pos]
    linarith
  have bd' : |(d : ℝ)| < 2 ^ 8 := by
    have := abs_sub_abs_le_abs_sub (d : ℝ) (θ * 180 / π)
    norm_num at e5 ⊢; linarith
  obtain ⟨q, hq, eq⟩ := fl32_err_real 8 (by norm_num) d bd'
  norm_num at eq
  have e6 : |(q : ℝ) - θ * 180 / π| ≤ 0.00005 := by
    have t1 := abs_sub_le (q : ℝ) d (θ * 180 / π)
    norm_num at e5 ⊢
    linarith
  refine ⟨q, θ, ?_, hθ, ?_, ?_⟩
  · unfold pitch; rw [← htdef, hp, bind_ok, hd, bind_ok, hq]
  · have : (q : ℝ) * π / 180 - θ = (q - θ * 180 / π) * (π / 180) := by field_simp
    rw [this, abs_mul, abs_of_pos (by positivity : (0 : ℝ) < π / 180)]
    norm_num at e6 q2 ⊢
    have : π / 180 ≤ 0.0175 := by norm_num; linarith
    nlinarith [abs_nonneg ((q : ℝ) - θ * 180 / π)]
  · have := abs_sub_abs_le_abs_sub (q : ℝ) (θ * 180 / π)
    norm_num at e6 ⊢; linarith

/-- How the angle of a vector depends on the vector. -/
theorem angle_err {x y X Y E θ : ℝ} (h : IsAngle x y θ) (hx : |x - X| ≤ E) (hy : |y - Y| ≤ E) (hR : 0 < √(Y * Y + X * X)) :
    |sin θ - X / √(Y * Y + X * X)| ≤ 3 * E / √(Y * Y + X * X) ∧ |cos θ - Y / √(Y * Y + X * X)| ≤ 3 * E / √(Y * Y + X * X) := by
  obtain ⟨hc, hsn⟩ := Coord64.isAngle_cos h
  have hn := Coord64.norm_sub_le y x Y X
  set R := √(Y * Y + X * X)
  set r := √(y * y + x * x)
  have hb : |R - r| ≤ 2 * E := by rw [abs_sub_comm]; linarith
  have key : ∀ s v V : ℝ, |s| ≤ 1 → r * s = v → |v - V| ≤ E → |s - V / R| ≤ 3 * E / R := by
    intro s v V hs hv hV
    have : s - V / R = ((R - r) * s + (v - V)) / R := by rw [← hv]; field_simp; ring
    rw [this, abs_div, abs_of_pos hR]
    apply div_le_div_of_nonneg_right _ hR.le
    refine (abs_add_le _ _).trans ?_
    rw [abs_mul]
    have : |R - r| * |s| ≤ |R - r| * 1 := mul_le_mul_of_nonneg_left hs (abs_nonneg _)
    linarith
  exact ⟨key _ x X (abs_sin_le_one θ) hsn hx, key _ y Y (abs_cos_le_one θ) hc hy⟩

theorem sub_err {a e o O : ℚ} (he : |e| ≤ 20) (ha : |a - e| ≤ 1 / 2 ^ 15 + 1 / 2 ^ 20) (hO : |O| ≤ 1) (ho : |o - O| ≤ 1 / 2 ^ 26) :
    ∃ q, fl b32 (a - o) = .ok q ∧ |q - (e - O)| ≤ 0.000033 := by
  have hb : |a - o| < (2 : ℚ) ^ (5 : ℤ) := by
    have h1 := abs_sub_le a e o
    have h2 := abs_sub_le e O o
    have h3 : |e - O| ≤ |e| + |O| := abs_sub e O
    rw [abs_sub_comm O o] at h2
    norm_num at ha ho ⊢; linarith
  obtain ⟨q, e1, e2⟩ := fl32_err 5 (by norm_num) (by norm_num) _ hb
  refine ⟨q, e1, ?_⟩
  rw [show q - (e - O) = (q - (a - o)) + (a - e) + -(o - O) by ring]
  refine (abs_add_three _ _ _).trans ?_
  rw [abs_neg]
  norm_num at e2 ha ho ⊢; linarith

theorem cast_033 {q : ℚ} (h : |q| ≤ 0.000033) : |(q : ℝ)| ≤ 0.000033 := by
  have : ((|q| : ℚ) : ℝ) ≤ ((0.000033 : ℚ) : ℝ) := Rat.cast_le.2 h
  push_cast at this
  norm_num at this ⊢; exact this

/-- **C73** For every sequence of samples since power-up of which the last 50 are in range, let `(X, Y)` be the mean of the last 50
samples (missing ones counting as zero), less the offset of the sensor, and let it be at least 1 m/s² long.  Then the firmware computes
a pitch, and its sine and cosine are those of the direction of `(X, Y)` up to `0.0001 / length + 0.000002`. -/
theorem C73_pitch {F : Fmt} (hF : F = b32 ∨ F = b64) {A : ℚ → ℚ → ℚ} (hA : AccurateAtan2 A) (h : List (ℚ × ℚ × ℚ))
    (hr : InRange (lastN 50 0 h)) (X Y : ℝ) (hX : X = ((vsum (lastN 50 0 h)).1 / 50 : ℚ)) (hY : Y = ((vsum (lastN 50 0 h)).2.1 / 50 - 0.19 : ℚ))
    (hR : 1 ≤ √(Y * Y + X * X)) :
    ∃ m0 m q, setCalibration init = .ok m0 ∧ sampleAll h m0 = .ok m ∧ measure F A m = .ok q ∧ |(q : ℝ)| ≤ 180.001 ∧
      |sind q - X / √(Y * Y + X * X)| ≤ 0.0001 / √(Y * Y + X * X) + 0.000002 ∧
      |cosd q - Y / √(Y * Y + X * X)| ≤ 0.0001 / √(Y * Y + X * X) + 0.000002 := by
  obtain ⟨oy, hoy, eoy⟩ := fl32_err (-2) (by norm_num) (by norm_num) 0.19 (by norm_num)
  obtain ⟨oz, hoz, eoz⟩ := fl32_err (-2) (by norm_num) (by norm_num) (-0.18) (by norm_num)
  have r0 : Ring [] ({ (init : Imu ℚ) with offset := (0, oy, oz) }) := ⟨ring_init.len, ring_init.cnt, ring_init.slots⟩
  obtain ⟨m, e, r, ho⟩ := ring_all h r0
  rw [List.nil_append] at r
  obtain ⟨a, ex, g1, g2, b1, b2, b3, g3, g4, g5⟩ := mean_err r hr
  rw [mean_of_ring r] at g2
  injection g2 with g2
  subst g2
  obtain ⟨x, x1, x2⟩ := sub_err (o := 0) (O := 0) b1 g3 (by norm_num) (by norm_num)
  obtain ⟨y, y1, y2⟩ := sub_err (o := oy) (O := 0.19) b2 g4 (by norm_num) (by norm_num at eoy ⊢; linarith)
  obtain ⟨z, z1, z2⟩ := sub_err (o := oz) (O := -0.18) b3 g5 (by norm_num) (by norm_num at eoz ⊢; linarith)
  have x2' : |(x : ℝ) - X| ≤ 0.000033 := by
    rw [hX, ← Rat.cast_sub]
    exact cast_033 (by rwa [sub_zero] at x2)
  have y2' : |(y : ℝ) - Y| ≤ 0.000033 := by
    rw [hY, ← Rat.cast_sub]
    exact cast_033 y2
  have hne : y ≠ 0 ∨ x ≠ 0 := by
    by_contra hc
    push Not at hc
    rw [hc.1] at y2'
    rw [hc.2] at x2'
    have := Coord64.norm_sub_le Y X 0 0
    simp only [mul_zero, add_zero, Real.sqrt_zero, sub_zero] at this
    rw [abs_of_nonneg (Real.sqrt_nonneg _)] at this
    rw [Rat.cast_zero, zero_sub, abs_neg] at x2' y2'
    norm_num at x2' y2'; linarith
  obtain ⟨q, θ, hq, hθ, hqθ, bq⟩ := pitch_err hF hA (x, y, z) hne
  obtain ⟨s1, s2⟩ := angle_err hθ x2' y2' (by linarith)
  have hRp : (0 : ℝ) < √(Y * Y + X * X) := by linarith
  have h3 : 3 * 0.000033 / √(Y * Y + X * X) ≤ 0.0001 / √(Y * Y + X * X) := div_le_div_of_nonneg_right (by norm_num) hRp.le
  refine ⟨_, m, q, ?_, e, ?_, bq, ?_, ?_⟩
  · unfold setCalibration; rw [hoy, bind_ok, hoz, bind_ok, pure_ok]
  · unfold measure calibrate
    rw [g1, bind_ok, ho]
    simp only
    rw [x1, bind_ok, y1, bind_ok, z1, bind_ok, pure_ok, bind_ok, hq]
  · unfold sind
    have := Coord64.sin_sub_le ((q : ℝ) * π / 180) θ
    have := abs_sub_le (sin ((q : ℝ) * π / 180)) (sin θ) (X / √(Y * Y + X * X))
    linarith
  · unfold cosd
    have := Coord64.cos_sub_le ((q : ℝ) * π / 180) θ
    have := abs_sub_le (cos ((q : ℝ) * π / 180)) (cos θ) (Y / √(Y * Y + X * X))
    linarith

/-! ### A telescope at rest -/

/-- Two angles with nearly the same sine and cosine are nearly the same, unless they differ by almost a full turn. -/
theorem near_angle {α β T : ℝ} (hT : T ≤ 0.003) (hs : |sin α - sin β| ≤ T) (hc : |cos α - cos β| ≤ T) (hd : |α - β| ≤ 2 * π - 0.01) :
    |α - β| ≤ 2.3 * T := by
  have hT0 : 0 ≤ T := (abs_nonneg _).trans hs
  have h1 : 4 * sin ((α - β) / 2) ^ 2 ≤ 2 * T ^ 2 := by
    have e : 4 * sin ((α - β) / 2) ^ 2 = (sin α - sin β) ^ 2 + (cos α - cos β) ^ 2 := by
      have e1 := Real.cos_sq ((α - β) / 2)
      rw [mul_div_cancel₀ _ (by norm_num : (2 : ℝ) ≠ 0)] at e1
      have e2 := Real.sin_sq_add_cos_sq ((α - β) / 2)
      have e3 := Real.cos_sub α β
      have e4 := Real.sin_sq_add_cos_sq α
      have e5 := Real.sin_sq_add_cos_sq β
      nlinarith
    rw [e]
    have a1 := sq_le_sq' (abs_le.1 hs).1 (abs_le.1 hs).2
    have a2 := sq_le_sq' (abs_le.1 hc).1 (abs_le.1 hc).2
    linarith
  set x := |α - β| / 2 with hx
  have hx0 : 0 ≤ x := by positivity
  have hsx : sin x ^ 2 ≤ T ^ 2 / 2 := by
    have : sin x ^ 2 = sin ((α - β) / 2) ^ 2 := by
      rw [hx]
      rcases abs_choice (α - β) with h | h <;> rw [h]
      rw [neg_div, Real.sin_neg, neg_sq]
    rw [this]; linarith
  have hpi := Real.pi_pos
  have q2 := Real.pi_lt_d2
  have q1 := Real.pi_gt_d2
  have hsx' : sin x ≤ 0.7072 * T := by
    have : sin x ^ 2 ≤ (0.7072 * T) ^ 2 := by
      refine hsx.trans ?_
      rw [mul_pow]; nlinarith [sq_nonneg T]
    exact le_of_sq_le_sq this (by positivity)
  have hxT : x ≤ 1.15 * T := by
    by_cases hle : x ≤ π / 2
    · have := Real.mul_le_sin hx0 hle
      have h2 : 2 * x ≤ 0.7072 * T * π := by
        have : 2 / π * x ≤ 0.7072 * T := this.trans hsx'
        rw [div_mul_eq_mul_div, div_le_iff₀ hpi] at this
        exact this
      norm_num at q2 h2 ⊢
      nlinarith
    · have hx2 : x ≤ π - 0.005 := by rw [hx]; norm_num at hd ⊢; linarith
      have h0 : 0 ≤ π - x := by norm_num at hx2; linarith
      have := Real.mul_le_sin h0 (by linarith)
      rw [Real.sin_pi_sub] at this
      have h3 : 2 / π * (π - x) ≤ 0.7072 * T := this.trans hsx'
      rw [div_mul_eq_mul_div, div_le_iff₀ hpi] at h3
      exfalso
      norm_num at hT hx2 q2 h3
      nlinarith
  have : |α - β| = 2 * x := by rw [hx]; ring
  norm_num at hxT ⊢
  linarith

theorem sum_near (p : ℚ × ℚ × ℚ → ℚ) (c ε : ℝ) (l : List (ℚ × ℚ × ℚ)) (hl : ∀ v ∈ l, |((p v : ℚ) : ℝ) - c| ≤ ε) :
    |(((l.map p).sum : ℚ) : ℝ) - l.length * c| ≤ l.length * ε := by
  induction l with
  | nil => simp
  | cons v l ih =>
    have h1 := hl v (by simp)
    have h2 := ih (fun u hu => hl u (by simp [hu]))
    rw [List.map_cons, List.sum_cons, List.length_cons]
    rw [Rat.cast_add, Nat.cast_add, Nat.cast_one]
    have : (p v : ℝ) + ((l.map p).sum : ℚ) - ((l.length : ℝ) + 1) * c = ((p v : ℝ) - c) + (((l.map p).sum : ℚ) - l.length * c) := by ring
    rw [this]
    refine (abs_add_le _ _).trans ?_
    linarith

set_option maxHeartbeats 1000000 in
/-- **C73** If the telescope rests at pitch `p` (not within a degree of ±180) and each of the last 50 samples is gravity `g` between 5
and 15 m/s², seen at that pitch with the offset of the sensor, up to `ε` per component (noise and resolution of the sensor), then the
pitch the firmware computes in `float` and `double` arithmetic is `p` up to `400 (ε + 0.00004) / g + 0.0003` degrees, whatever was
measured before. -/
theorem C73_rest {F : Fmt} (hF : F = b32 ∨ F = b64) {A : ℚ → ℚ → ℚ} (hA : AccurateAtan2 A) (before l : List (ℚ × ℚ × ℚ))
    (hl : l.length = 50) (g p ε : ℝ) (hg : 5 ≤ g ∧ g ≤ 15) (hp : |p| ≤ 179) (hε : 0 ≤ ε ∧ ε ≤ 0.004)
    (hs : ∀ v ∈ l, |(v.1 : ℝ) - g * sind p| ≤ ε ∧ |(v.2.1 : ℝ) - (g * cosd p + 0.19)| ≤ ε ∧ |v.2.2| ≤ 20) :
    ∃ m0 m q, setCalibration init = .ok m0 ∧ sampleAll (before ++ l) m0 = .ok m ∧ measure F A m = .ok q ∧
      |(q : ℝ) - p| ≤ 400 * (ε + 0.00004) / g + 0.0003 := by
  have hlast : lastN 50 0 (before ++ l) = l := by
    rw [lastN_full _ _ _ (by simp; omega), List.length_append, hl, List.drop_append, List.drop_of_length_le (by omega)]
    simp
  have hsin := abs_le.1 (abs_sin_le_one (p * π / 180))
  have hcos := abs_le.1 (abs_cos_le_one (p * π / 180))
  have hg0 : 0 < g := by linarith [hg.1]
  have hrange : InRange (lastN 50 0 (before ++ l)) := by
    rw [hlast]
    intro v hv
    obtain ⟨h1, h2, h3⟩ := hs v hv
    unfold sind at h1
    unfold cosd at h2
    have h1' := abs_le.1 h1
    have h2' := abs_le.1 h2
    have k1 : |(v.1 : ℝ)| ≤ 20 := by rw [abs_le]; constructor <;> norm_num at * <;> nlinarith [hg.1, hg.2]
    have k2 : |(v.2.1 : ℝ)| ≤ 20 := by rw [abs_le]; constructor <;> norm_num at * <;> nlinarith [hg.1, hg.2]
    exact ⟨by exact_mod_cast k1, by exact_mod_cast k2, h3⟩
  have sx := sum_near (·.1) (g * sind p) ε l (fun v hv => (hs v hv).1)
  have sy := sum_near (·.2.1) (g * cosd p + 0.19) ε l (fun v hv => (hs v hv).2.1)
  rw [hl] at sx sy
  obtain ⟨X, hX⟩ : ∃ X : ℝ, X = ((vsum (lastN 50 0 (before ++ l))).1 / 50 : ℚ) := ⟨_, rfl⟩
  obtain ⟨Y, hY⟩ : ∃ Y : ℝ, Y = ((vsum (lastN 50 0 (before ++ l))).2.1 / 50 - 0.19 : ℚ) := ⟨_, rfl⟩
  have dX : |X - g * sind p| ≤ ε := by
    rw [hX, hlast]
    simp only [vsum]
    push_cast at sx ⊢
    rw [show ∀ a : ℝ, a / 50 - g * sind p = (a - 50 * (g * sind p)) / 50 by intro a; ring, abs_div, abs_of_pos (by norm_num : (0 : ℝ) < 50),
      div_le_iff₀ (by norm_num)]
    linarith
  have dY : |Y - g * cosd p| ≤ ε := by
    rw [hY, hlast]
    simp only [vsum]
    push_cast at sy ⊢
    rw [show ∀ a : ℝ, a / 50 - 0.19 - g * cosd p = (a - 50 * (g * cosd p + 0.19)) / 50 by intro a; ring, abs_div,
      abs_of_pos (by norm_num : (0 : ℝ) < 50), div_le_iff₀ (by norm_num)]
    linarith
  have hnorm : √(g * cosd p * (g * cosd p) + g * sind p * (g * sind p)) = g := by
    have : g * cosd p * (g * cosd p) + g * sind p * (g * sind p) = g ^ 2 := by
      have := Real.sin_sq_add_cos_sq (p * π / 180)
      unfold sind cosd; nlinarith
    rw [this, Real.sqrt_sq hg0.le]
  have hn := Coord64.norm_sub_le Y X (g * cosd p) (g * sind p)
  rw [hnorm] at hn
  have hRg : |√(Y * Y + X * X) - g| ≤ 2 * ε := by linarith
  have hR := abs_le.1 hRg
  have hR1 : 1 ≤ √(Y * Y + X * X) := by norm_num at hε; linarith [hg.1]
  obtain ⟨m0, m, q, e1, e2, e3, bq, es, ec⟩ := C73_pitch hF hA (before ++ l) hrange X Y hX hY hR1
  refine ⟨m0, m, q, e1, e2, e3, ?_⟩
  set R := √(Y * Y + X * X) with hRdef
  have hR0 : 0 < R := by linarith
  -- the direction of the mean against the true direction
  have dir : ∀ V v : ℝ, |V - g * v| ≤ ε → |v| ≤ 1 → |V / R - v| ≤ 3 * ε / R := by
    intro V v hV hv
    have : V / R - v = ((V - g * v) + (g - R) * v) / R := by field_simp; ring
    rw [this, abs_div, abs_of_pos hR0]
    apply div_le_div_of_nonneg_right _ hR0.le
    refine (abs_add_le _ _).trans ?_
    rw [abs_mul, abs_sub_comm g R]
    have : |R - g| * |v| ≤ |R - g| * 1 := mul_le_mul_of_nonneg_left hv (abs_nonneg _)
    linarith
  have d1 := dir X (sind p) dX (abs_sin_le_one _)
  have d2 := dir Y (cosd p) dY (abs_cos_le_one _)
  have hT : 0.0001 / R + 0.000002 + 3 * ε / R ≤ 3.01 * (ε + 0.00004) / g + 0.000002 := by
    have : 0.0001 / R + 3 * ε / R ≤ 3.01 * (ε + 0.00004) / g := by
      rw [← add_div, div_le_div_iff₀ hR0 hg0]
      norm_num at hε ⊢
      nlinarith [hg.1, hg.2]
    linarith
  set T := 3.01 * (ε + 0.00004) / g + 0.000002 with hTdef
  have t1 : |sin ((q : ℝ) * π / 180) - sin (p * π / 180)| ≤ T := by
    have := abs_sub_le (sind q) (X / R) (sind p)
    unfold sind at *
    linarith
  have t2 : |cos ((q : ℝ) * π / 180) - cos (p * π / 180)| ≤ T := by
    have := abs_sub_le (cosd q) (Y / R) (cosd p)
    unfold cosd at *
    linarith
  have hTs : T ≤ 0.003 := by
    rw [hTdef]
    have : 3.01 * (ε + 0.00004) / g ≤ 0.0029 := by
      rw [div_le_iff₀ hg0]; norm_num at hε ⊢; linarith [hg.1]
    norm_num at this ⊢; linarith
  have q1 := Real.pi_gt_d6
  have q2 := Real.pi_lt_d6
  have hd : (q : ℝ) * π / 180 - p * π / 180 = (q - p) * (π / 180) := by ring
  have hqp : |(q : ℝ) - p| ≤ 359.001 := by
    refine (abs_sub _ _).trans ?_
    norm_num at bq ⊢; linarith
  have fin := near_angle hTs t1 t2 (by
    rw [hd, abs_mul, abs_of_pos (by positivity : (0 : ℝ) < π / 180)]
    norm_num at hqp q1 q2 ⊢
    nlinarith)
  rw [hd, abs_mul, abs_of_pos (by positivity : (0 : ℝ) < π / 180)] at fin
  have hfin : |(q : ℝ) - p| ≤ 131.8 * T := by
    have h180 : 0.017453 ≤ π / 180 := by norm_num at q1 ⊢; linarith
    have hm := mul_le_mul_of_nonneg_left h180 (abs_nonneg ((q : ℝ) - p))
    have hT0 : 0 ≤ T := (abs_nonneg _).trans t1
    clear_value T
    norm_num at fin hm ⊢
    linarith
  refine hfin.trans ?_
  rw [hTdef]
  have : 131.8 * (3.01 * (ε + 0.00004) / g) ≤ 400 * (ε + 0.00004) / g := by
    rw [← mul_div_assoc]
    apply div_le_div_of_nonneg_right _ hg0.le
    norm_num at hε ⊢; linarith
  norm_num at this ⊢; linarith

/-! ### The hypotheses are met -/

/-- There is an accurate `atan2`. -/
theorem exists_accurate : ∃ A, AccurateAtan2 A := by
  have h : ∀ y x : ℚ, ∃ r : ℚ, |(r : ℝ) - Complex.arg ⟨x, y⟩| ≤ 2⁻¹ ^ 21 := by
    intro y x
    obtain ⟨r, h1, h2⟩ := exists_rat_btwn (show Complex.arg ⟨x, y⟩ < Complex.arg ⟨x, y⟩ + 2⁻¹ ^ 21 by norm_num)
    exact ⟨r, by rw [abs_le]; constructor <;> norm_num at * <;> linarith⟩
  choose A hA using h
  exact ⟨A, fun y x _ => ⟨_, Or.inl rfl, hA y x⟩⟩

/-- A telescope at 30 degrees, after two other samples; the readings are rounded to 0.001 m/s². -/
example {A : ℚ → ℚ → ℚ} (hA : AccurateAtan2 A) :
    ∃ m0 m q, setCalibration init = .ok m0 ∧ sampleAll ([(1, 2, 3), (4, 5, 6)] ++ List.replicate 50 (5, 8.85, 1 / 8)) m0 = .ok m ∧
      measure b32 A m = .ok q ∧ |(q : ℝ) - 30| ≤ 0.05 := by
  have h30 : (30 : ℝ) * π / 180 = π / 6 := by ring
  obtain ⟨m0, m, q, h1, h2, h3, h4⟩ := C73_rest (Or.inl rfl) hA [(1, 2, 3), (4, 5, 6)] (List.replicate 50 (5, 8.85, 1 / 8)) (by simp) 10 30 0.001
    (by norm_num) (by norm_num) (by norm_num) (by
      intro v hv
      rw [List.eq_of_mem_replicate hv]
      unfold sind cosd
      rw [h30, Real.sin_pi_div_six, Real.cos_pi_div_six]
      have s1 : (1.732 : ℝ) < √3 := Real.lt_sqrt_of_sq_lt (by norm_num)
      have s2 : √3 < (1.7321 : ℝ) := (Real.sqrt_lt' (by norm_num)).2 (by norm_num)
      refine ⟨by norm_num, ?_, by norm_num⟩
      rw [abs_le]
      push_cast
      constructor <;> norm_num at s1 s2 ⊢ <;> linarith)
  exact ⟨m0, m, q, h1, h2, h3, h4.trans (by norm_num)⟩

/-- After only ten samples of a telescope at rest the mean is a fifth of gravity, so the offset of the sensor weighs five times as much:
the hypotheses of `C73_pitch` are met there as well. -/
example : InRange (lastN 50 0 (List.replicate 10 (5, 8.85, 1 / 8))) ∧
    (vsum (lastN 50 0 (List.replicate 10 ((5 : ℚ), (8.85 : ℚ), (1 / 8 : ℚ))))).1 / 50 = 1 ∧
    (vsum (lastN 50 0 (List.replicate 10 ((5 : ℚ), (8.85 : ℚ), (1 / 8 : ℚ))))).2.1 / 50 = 1.77 := by
  refine ⟨?_, by decide +kernel, by decide +kernel⟩
  intro v hv
  unfold lastN at hv
  have := List.mem_of_mem_drop hv
  rcases List.mem_append.1 this with h | h <;> rw [List.eq_of_mem_replicate h] <;> norm_num

end Verif.Imu32
