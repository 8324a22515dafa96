import Verif.Lemmas.Linalg64
import Verif.Lemmas.Circum
import Verif.Model.Telescope64
import Verif.Spec.Delaunay

/-!
# Error analysis of `CircumCircle` in double arithmetic
-/

namespace Verif.Align64

open Verif Verif.Align Verif.Linalg Verif.Linalg64

/-! ### Operations on approximations -/

theorem add_near {x y X Y e f B : ℚ} (hB : Mag 1000 B) (hx : |x - X| ≤ e) (hy : |y - Y| ≤ f) (hb : |X + Y| + e + f ≤ B) :
    ∃ z, add (.ok x) (.ok y) = .ok z ∧ |z - (X + Y)| ≤ e + f + u * B := by
  have h1 : |x + y - (X + Y)| ≤ e + f := by
    rw [show x + y - (X + Y) = (x - X) + (y - Y) by ring]
    exact (abs_add_le _ _).trans (add_le_add hx hy)
  have h2 : |x + y| ≤ B := by
    have := abs_sub_abs_le_abs_sub (x + y) (X + Y)
    linarith
  obtain ⟨z, h3, -, h4⟩ := fl_bound hB h2
  refine ⟨z, ?_, ?_⟩
  · unfold add; rw [bind_ok, bind_ok, h3]
  · have := abs_sub_le z (x + y) (X + Y)
    linarith

theorem sub_near {x y X Y e f B : ℚ} (hB : Mag 1000 B) (hx : |x - X| ≤ e) (hy : |y - Y| ≤ f) (hb : |X - Y| + e + f ≤ B) :
    ∃ z, sub (.ok x) (.ok y) = .ok z ∧ |z - (X - Y)| ≤ e + f + u * B := by
  have h1 : |x - y - (X - Y)| ≤ e + f := by
    rw [show x - y - (X - Y) = (x - X) - (y - Y) by ring]
    exact (abs_sub _ _).trans (add_le_add hx hy)
  have h2 : |x - y| ≤ B := by
    have := abs_sub_abs_le_abs_sub (x - y) (X - Y)
    linarith
  obtain ⟨z, h3, -, h4⟩ := fl_bound hB h2
  refine ⟨z, ?_, ?_⟩
  · unfold sub; rw [bind_ok, bind_ok, h3]
  · have := abs_sub_le z (x - y) (X - Y)
    linarith

theorem prod_near {x y X Y e f p q : ℚ} (hx : |x - X| ≤ e) (hy : |y - Y| ≤ f) (hp : |X| ≤ p) (hq : |Y| ≤ q) :
    |x * y - X * Y| ≤ p * f + q * e + e * f := by
  have he : 0 ≤ e := (abs_nonneg _).trans hx
  rw [show x * y - X * Y = X * (y - Y) + Y * (x - X) + (x - X) * (y - Y) by ring]
  refine (abs_add_three _ _ _).trans ?_
  rw [abs_mul, abs_mul, abs_mul]
  exact add_le_add (add_le_add (mul_le_mul hp hy (abs_nonneg _) ((abs_nonneg _).trans hp)) (mul_le_mul hq hx (abs_nonneg _) ((abs_nonneg _).trans hq)))
    (mul_le_mul hx hy (abs_nonneg _) he)

theorem mul_near {x y X Y e f p q B : ℚ} (hB : Mag 1000 B) (hx : |x - X| ≤ e) (hy : |y - Y| ≤ f) (hp : |X| ≤ p) (hq : |Y| ≤ q)
    (hb : |X * Y| + (p * f + q * e + e * f) ≤ B) :
    ∃ z, mulD (.ok x) (.ok y) = .ok z ∧ |z - X * Y| ≤ p * f + q * e + e * f + u * B := by
  have h1 := prod_near hx hy hp hq
  have h2 : |x * y| ≤ B := by
    have := abs_sub_abs_le_abs_sub (x * y) (X * Y)
    linarith
  obtain ⟨z, h3, -, h4⟩ := fl_bound hB h2
  refine ⟨z, ?_, ?_⟩
  · unfold mulD; rw [bind_ok, bind_ok, h3]
  · have := abs_sub_le z (x * y) (X * Y)
    linarith

theorem div_near {x y X Y Q e f q h B : ℚ} (hB : Mag 1000 B) (hQ : X = Q * Y) (hx : |x - X| ≤ e) (hy : |y - Y| ≤ f) (hq : |Q| ≤ q)
    (h0 : 0 ≤ h) (hh : 1 ≤ h * |Y|) (hf : f * h ≤ 1 / 10) (hb : q + (e + q * f) * h * (10 / 9) ≤ B) :
    ∃ z, divD (.ok x) (.ok y) = .ok z ∧ |z - Q| ≤ (e + q * f) * h * (10 / 9) + u * B := by
  have hy1 : 9 / 10 ≤ h * |y| := by
    have h1 : |Y| - |y| ≤ f := by
      have := abs_sub_abs_le_abs_sub Y y
      rw [abs_sub_comm] at this
      linarith
    have := mul_le_mul_of_nonneg_left h1 h0
    linarith [mul_sub h |Y| |y|]
  have hy0 : y ≠ 0 := by
    intro h0
    rw [h0, abs_zero, mul_zero] at hy1
    norm_num at hy1
  have hyp : 0 < |y| := abs_pos.2 hy0
  have q0 : 0 ≤ q := (abs_nonneg _).trans hq
  have hnum : |x - Q * y| ≤ e + q * f := by
    rw [show x - Q * y = (x - X) - Q * (y - Y) by rw [hQ]; ring]
    refine (abs_sub _ _).trans (add_le_add hx ?_)
    rw [abs_mul]
    exact mul_le_mul hq hy (abs_nonneg _) q0
  have h1 : |x / y - Q| ≤ (e + q * f) * h * (10 / 9) := by
    rw [show x / y - Q = (x - Q * y) / y by field_simp, abs_div, div_le_iff₀ hyp]
    refine hnum.trans ?_
    have hn : 0 ≤ e + q * f := (abs_nonneg _).trans hnum
    have := mul_le_mul_of_nonneg_left hy1 hn
    nlinarith [this]
  have h2 : |x / y| ≤ B := by
    have := abs_sub_abs_le_abs_sub (x / y) Q
    linarith
  obtain ⟨z, h3, -, h4⟩ := fl_bound hB h2
  refine ⟨z, ?_, ?_⟩
  · unfold divD; rw [bind_ok, bind_ok, if_neg hy0, h3]
  · have := abs_sub_le z (x / y) Q
    linarith

theorem mag_one : Mag 1000 1 := Mag.mono (n := 0) ⟨by norm_num, by norm_num⟩ (by norm_num)

theorem self_near (x : ℚ) : |x - x| ≤ (0 : ℚ) := by simp

theorem mag_of {x : ℚ} (h1 : 1 / 2 ^ 1000 ≤ x) (h2 : x ≤ 2 ^ 1000) : Mag 1000 x := ⟨h1, h2⟩

theorem mag_le {x k : ℚ} {n : ℕ} (h1 : 1 ≤ x) (h2 : x ≤ 2 ^ n) (hk1 : 1 / 16 ≤ k) (hk : k ≤ 16) (hn : n ≤ 900) : Mag 1000 (k * x) :=
  (Mag.smul k ⟨(one_div_le_one_div_of_le one_pos (one_le_pow₀ (by norm_num))).trans (by simpa using h1), h2⟩ hk1 hk).mono (by omega)

/-- `(x + y) / 2`. -/
theorem half_near {x y R : ℚ} (hR : 1 ≤ R) (hR' : R ≤ 2 ^ 300) (hx : |x| ≤ R) (hy : |y| ≤ R) :
    ∃ z, divD (add (.ok x) (.ok y)) (.ok 2) = .ok z ∧ |z - (x + y) / 2| ≤ 3 * u * R := by
  have hu := u_le
  have hu0 := u_pos
  have uR : u * R ≤ R / 1000 := by nlinarith
  have uR0 : 0 ≤ u * R := by positivity
  have hs : |x + y| ≤ 2 * R := (abs_add_le _ _).trans (by linarith)
  obtain ⟨s, s1, s2⟩ := add_near (B := 2 * R) (mag_le hR hR' (by norm_num) (by norm_num) (by norm_num)) (self_near x) (self_near y) (by linarith)
  have hh : |(x + y) / 2| ≤ R := by rw [abs_div, abs_two]; linarith
  obtain ⟨z, z1, z2⟩ := div_near (x := s) (y := 2) (X := x + y) (Y := 2) (Q := (x + y) / 2) (e := 2 * (u * R)) (f := 0) (q := R) (h := 1 / 2) (B := 1.5 * R)
    (mag_le hR hR' (by norm_num) (by norm_num) (by norm_num)) (by ring) (by linarith) (self_near 2) hh (by norm_num) (by norm_num) (by norm_num) (by linarith)
  refine ⟨z, ?_, ?_⟩
  · rw [s1]; exact z1
  · linarith

/-- `-(x - x') / (y - y')`. -/
theorem slope_near {x x' y y' m G : ℚ} (hG : 1 ≤ G) (hG' : G ≤ 2 ^ 100) (hy1 : 1 / 2 ^ 100 ≤ |y - y'|) (hy2 : |y - y'| ≤ 2 ^ 100)
    (hm : -(x - x') = m * (y - y')) (hmG : |m| ≤ G) :
    ∃ z, divD (do return -(← sub (.ok x) (.ok x'))) (sub (.ok y) (.ok y')) = .ok z ∧ |z - m| ≤ 4 * u * G := by
  have hu := u_le
  have hu0 := u_pos
  set w := |y - y'| with hw
  have w0 : 0 < w := lt_of_lt_of_le (by positivity) hy1
  have mw : Mag 100 w := ⟨hy1, hy2⟩
  have mG : Mag 100 G := ⟨(one_div_le_one_div_of_le one_pos (one_le_pow₀ (by norm_num))).trans (by simpa using hG), hG'⟩
  have hx : |x - x'| ≤ G * w := by
    rw [← abs_neg, hm, abs_mul]
    exact mul_le_mul_of_nonneg_right hmG (abs_nonneg _)
  obtain ⟨s, s1, s2⟩ := sub_near (B := G * w) ((mG.mul mw).mono (by norm_num)) (self_near x) (self_near x') (by linarith)
  obtain ⟨t, t1, t2⟩ := sub_near (B := w) (mw.mono (by norm_num)) (self_near y) (self_near y') (by linarith)
  have hs : |-s - -(x - x')| ≤ u * (G * w) := by
    rw [show -s - -(x - x') = -(s - (x - x')) by ring, abs_neg]; linarith
  have e0 : u * w * (1 / w) = u := by field_simp
  have e1 : (u * (G * w) + G * (u * w)) * (1 / w) * (10 / 9) = u * G * (20 / 9) := by field_simp; norm_num
  have uG : u * G ≤ G / 1000 := by nlinarith
  obtain ⟨z, z1, z2⟩ := div_near (x := -s) (y := t) (X := -(x - x')) (Y := y - y') (Q := m) (e := u * (G * w)) (f := u * w) (q := G) (h := 1 / w) (B := 1.1 * G)
    (mag_le hG hG' (by norm_num) (by norm_num) (by norm_num)) hm hs (by linarith) hmG (by positivity) (by rw [← hw]; field_simp; exact le_rfl)
    (by rw [e0]; linarith) (by rw [e1]; linarith)
  rw [e1] at z2
  have uG0 : 0 ≤ u * G := by positivity
  refine ⟨z, ?_, by linarith⟩
  rw [s1, t1]
  exact z1

/-- Bounds for three points `a`, `b`, `c` and their circumcentre `m`: the steepness `G`, the condition `H`, the size `R`. -/
structure Frame (a b c m : Pt ℚ) (G H R : ℚ) : Prop where
  G1 : 1 ≤ G
  H1 : 1 ≤ H
  R1 : 1 ≤ R
  G2 : G ≤ 2 ^ 100
  H2 : H ≤ 2 ^ 100
  R2 : R ≤ 2 ^ 300
  small : u * G ^ 2 * H ≤ 1 / 1000
  ha : |a.x| ≤ R ∧ |a.y| ≤ R
  hb : |b.x| ≤ R ∧ |b.y| ≤ R
  hc : |c.x| ≤ R ∧ |c.y| ≤ R
  hm : |m.x| ≤ R ∧ |m.y| ≤ R
  alt1 : a.y = b.y ∨ 2 / 1000000 ≤ |b.y - a.y| ∧ |b.y - a.y| ≤ 2 ^ 100
  alt2 : b.y = c.y ∨ 2 / 1000000 ≤ |c.y - b.y| ∧ |c.y - b.y| ≤ 2 ^ 100
  steep1 : a.y ≠ b.y → |b.x - a.x| ≤ G * |b.y - a.y|
  steep2 : b.y ≠ c.y → |c.x - b.x| ≤ G * |c.y - b.y|
  cond : a.y ≠ b.y → b.y ≠ c.y → |b.y - a.y| * |c.y - b.y| ≤ H * |orient a b c|
  proper : orient a b c ≠ 0
  circ : Circumcentre m a b c

section Scales
variable {a b c m : Pt ℚ} {G H R : ℚ}

/-- The scales of the errors. -/
theorem Frame.scales (F : Frame a b c m G H R) :
    0 < u * R ∧ u * R ≤ u * G * R ∧ u * G * R ≤ u * G * H * R ∧ u * G * H * R ≤ u * G ^ 2 * H * R ∧ u * G ^ 2 * H * R ≤ R / 1000 ∧
      u * G ≤ 1 / 1000 ∧ u * G * H ≤ 1 / 1000 ∧ u * R ≤ R / 10 ^ 15 := by
  have hu0 := u_pos
  have g := F.G1
  have h := F.H1
  have r := F.R1
  have uG0 : 0 < u * G := by positivity
  have k1 : u ≤ u * G := le_mul_of_one_le_right hu0.le g
  have k2 : u * G ≤ u * G * H := le_mul_of_one_le_right uG0.le h
  have k3 : u * G * H ≤ u * G ^ 2 * H := by
    rw [show u * G ^ 2 * H = u * G * H * G by ring]
    exact le_mul_of_one_le_right (by positivity) g
  refine ⟨by positivity, mul_le_mul_of_nonneg_right k1 (by linarith), mul_le_mul_of_nonneg_right k2 (by linarith), mul_le_mul_of_nonneg_right k3 (by linarith), ?_,
    by linarith [F.small], by linarith [F.small], ?_⟩
  · have := mul_le_mul_of_nonneg_right F.small (by linarith : (0 : ℚ) ≤ R)
    linarith
  · have := mul_le_mul_of_nonneg_right u_small (by linarith : (0 : ℚ) ≤ R)
    linarith

/-- A point on the perpendicular bisector: `μ * (x - h) + k`. -/
theorem Frame.along (F : Frame a b c m G H R) {mu μ x X h' h k' k Y : ℚ} (h1 : |mu - μ| ≤ 4 * u * G) (h2 : |μ| ≤ G) (h3 : |x - X| ≤ 100 * (u * G * H * R))
    (h4 : |h' - h| ≤ 3 * u * R) (h5 : |k' - k| ≤ 3 * u * R) (hX : |X| ≤ R) (hh : |h| ≤ R) (hk : |k| ≤ R) (hY : |Y| ≤ R) (e : Y = μ * (X - h) + k) :
    ∃ z, add (mulD (.ok mu) (sub (.ok x) (.ok h'))) (.ok k') = .ok z ∧ |z - Y| ≤ 128 * (u * G ^ 2 * H * R) := by
  obtain ⟨s0, s1, s2, s3, s4, s5, s6, s7⟩ := F.scales
  have g := F.G1
  have hu0 := u_pos
  have q1 : |X - h| ≤ 2 * R := (abs_sub _ _).trans (by linarith)
  have q2 : |μ * (X - h)| ≤ 2 * R := by
    rw [show μ * (X - h) = Y - k by rw [e]; ring]
    exact (abs_sub _ _).trans (by linarith)
  obtain ⟨d, d1, d2⟩ := sub_near (B := 2.5 * R) (mag_le F.R1 F.R2 (by norm_num) (by norm_num) (by norm_num)) h3 h4 (by linarith)
  have d3 : |d - (X - h)| ≤ 106 * (u * G * H * R) := by linarith
  have k1 : G * (106 * (u * G * H * R)) = 106 * (u * G ^ 2 * H * R) := by ring
  have k2 : 2 * R * (4 * u * G) = 8 * (u * G * R) := by ring
  have k3 : 4 * u * G * (106 * (u * G * H * R)) ≤ u * G * H * R := by
    have := mul_le_mul_of_nonneg_right s5 (by linarith : (0 : ℚ) ≤ u * G * H * R)
    nlinarith
  obtain ⟨p, p1, p2⟩ := mul_near (B := 2.5 * R) (mag_le F.R1 F.R2 (by norm_num) (by norm_num) (by norm_num)) h1 d3 h2 q1 (by linarith)
  have p3 : |p - μ * (X - h)| ≤ 119 * (u * G ^ 2 * H * R) := by linarith
  obtain ⟨z, z1, z2⟩ := add_near (B := 1.5 * R) (mag_le F.R1 F.R2 (by norm_num) (by norm_num) (by norm_num)) p3 h5 (by rw [← e]; linarith)
  refine ⟨z, ?_, ?_⟩
  · rw [d1, p1, z1]
  · rw [e]; linarith

theorem slope_of {x x' y y' G : ℚ} (hy : y - y' ≠ 0) (h : |x - x'| ≤ G * |y - y'|) : -(x - x') = -(x - x') / (y - y') * (y - y') ∧ |-(x - x') / (y - y')| ≤ G := by
  refine ⟨by field_simp, ?_⟩
  rw [abs_div, abs_neg, div_le_iff₀ (abs_pos.2 hy)]
  exact h

theorem bisector {m a b : Pt ℚ} (h : dist2 m a = dist2 m b) {μ : ℚ} (hμ : -(b.x - a.x) = μ * (b.y - a.y)) (hd : b.y - a.y ≠ 0) :
    m.y = μ * (m.x - (a.x + b.x) / 2) + (a.y + b.y) / 2 := by
  unfold dist2 at h
  have : (b.y - a.y) * (m.y - (μ * (m.x - (a.x + b.x) / 2) + (a.y + b.y) / 2)) = 0 := by
    linear_combination (1 / 2) * h + (m.x - (a.x + b.x) / 2) * hμ
  have := (mul_eq_zero.1 this).resolve_left hd
  linarith

theorem vertical {m a b : Pt ℚ} (h : dist2 m a = dist2 m b) (hy : a.y = b.y) (hx : a.x ≠ b.x) : m.x = (a.x + b.x) / 2 := by
  unfold dist2 at h
  rw [hy] at h
  have : (b.x - a.x) * (m.x - (a.x + b.x) / 2) = 0 := by linear_combination (1 / 2) * h
  have := (mul_eq_zero.1 this).resolve_left (by intro h0; apply hx; linarith)
  linarith

/-- `1e-6` as a double. -/
theorem eps_ok : ∃ ε, fl b64 (1 / 1000000) = .ok ε ∧ 0 < ε ∧ ε ≤ 1.5 / 1000000 := by
  obtain ⟨ε, h1, -, h2⟩ := fl_bound (q := 1 / 1000000) (B := 1) mag_one (by rw [abs_of_nonneg] <;> norm_num)
  have := u_small
  rw [abs_le] at h2
  refine ⟨ε, h1, ?_, ?_⟩ <;> norm_num at * <;> linarith

/-- The altitudes are compared right. -/
theorem alt_ok {y y' : ℚ} (h : y' = y ∨ 2 / 1000000 ≤ |y - y'| ∧ |y - y'| ≤ 2 ^ 100) :
    ∃ d, sub (.ok y) (.ok y') = .ok d ∧ ∀ ε : ℚ, 0 < ε → ε ≤ 1.5 / 1000000 → (|d| < ε ↔ y' = y) := by
  rcases h with rfl | ⟨h1, h2⟩
  · refine ⟨0, ?_, ?_⟩
    · unfold sub; rw [bind_ok, bind_ok, sub_self]; exact fl_exact (B := 1) mag_one (by simp) rep_zero
    · intro ε h _; simp [h]
  · have hm : Mag 100 |y - y'| := ⟨(by norm_num : (1 : ℚ) / 2 ^ 100 ≤ 2 / 1000000).trans h1, h2⟩
    obtain ⟨d, d1, -, d2⟩ := fl_bound (hm.mono (by norm_num)) le_rfl
    refine ⟨d, ?_, ?_⟩
    · unfold sub; rw [bind_ok, bind_ok, d1]
    · intro ε _ h
      have h3 := abs_sub_abs_le_abs_sub (y - y') d
      rw [abs_sub_comm (y - y') d] at h3
      have h4 := mul_le_mul_of_nonneg_right u_le hm.pos.le
      constructor
      · intro h5; exfalso; norm_num at h h1; linarith
      · intro h5; exfalso; rw [h5, sub_self, abs_zero] at h1; norm_num at h1

set_option maxHeartbeats 1000000 in
/-- The centre of the circumcircle. -/
theorem Frame.centre (F : Frame a b c m G H R) :
    ∃ o, Align64.centre a b c = .ok o ∧ |o.1 - m.x| ≤ 128 * (u * G ^ 2 * H * R) ∧ |o.2 - m.y| ≤ 128 * (u * G ^ 2 * H * R) := by
  obtain ⟨s0, s1, s2, s3, s4, s5, s6, s7⟩ := F.scales
  have g := F.G1
  have hu0 := u_pos
  obtain ⟨ε, ε1, ε2, ε3⟩ := eps_ok
  obtain ⟨e21, f1, f2⟩ := alt_ok F.alt1
  obtain ⟨e32, f3, f4⟩ := alt_ok F.alt2
  replace f2 := f2 ε ε2 ε3
  replace f4 := f4 ε ε2 ε3
  obtain ⟨hab, hbc⟩ := F.circ
  have avg : ∀ x y : ℚ, |x| ≤ R → |y| ≤ R → |(x + y) / 2| ≤ R := by
    intro x y hx hy
    rw [abs_div, abs_two]
    have := abs_add_le x y
    linarith
  unfold Align64.centre
  simp only [ε1, f1, f3, bind_ok]
  by_cases k1 : a.y = b.y
  · rw [if_pos (f2.2 k1)]
    have k2 : b.y ≠ c.y := by
      intro h; apply F.proper; unfold orient; rw [k1, h]; ring
    have hd : c.y - b.y ≠ 0 := fun h => k2 (by linarith)
    have hx : a.x ≠ b.x := by
      intro h; apply F.proper; unfold orient; rw [k1, h]; ring
    obtain ⟨m2, m3⟩ := slope_of hd (F.steep2 k2)
    have w := F.alt2.resolve_left k2
    obtain ⟨z, z1, z2⟩ := slope_near F.G1 F.G2 ((by norm_num : (1 : ℚ) / 2 ^ 100 ≤ 2 / 1000000).trans w.1) w.2 m2 m3
    obtain ⟨p, p1, p2⟩ := half_near F.R1 F.R2 F.hb.1 F.ha.1
    obtain ⟨q, q1, q2⟩ := half_near F.R1 F.R2 F.hb.1 F.hc.1
    obtain ⟨r, r1, r2⟩ := half_near F.R1 F.R2 F.hb.2 F.hc.2
    have mx : m.x = (b.x + a.x) / 2 := by rw [vertical hab k1 hx]; ring
    obtain ⟨v, v1, v2⟩ := F.along z2 m3 (x := p) (X := m.x) (by rw [mx]; linarith) q2 r2 F.hm.1 (avg _ _ F.hb.1 F.hc.1) (avg _ _ F.hb.2 F.hc.2) F.hm.2
      (bisector hbc m2 hd)
    rw [f3] at z1
    refine ⟨(p, v), ?_, ?_, v2⟩
    · simp only [p1, q1, r1, z1, v1, bind_ok]; rfl
    · rw [mx]; show |p - _| ≤ _; linarith
  · rw [if_neg (fun h => k1 (f2.1 h))]
    have hd1 : b.y - a.y ≠ 0 := fun h => k1 (by linarith)
    obtain ⟨m2, m3⟩ := slope_of hd1 (F.steep1 k1)
    have w := F.alt1.resolve_left k1
    obtain ⟨z, z1, z2⟩ := slope_near F.G1 F.G2 ((by norm_num : (1 : ℚ) / 2 ^ 100 ≤ 2 / 1000000).trans w.1) w.2 m2 m3
    rw [f1] at z1
    obtain ⟨q, q1, q2⟩ := half_near F.R1 F.R2 F.ha.1 F.hb.1
    obtain ⟨r, r1, r2⟩ := half_near F.R1 F.R2 F.ha.2 F.hb.2
    by_cases k2 : b.y = c.y
    · rw [if_pos (f4.2 k2)]
      have hx : b.x ≠ c.x := by
        intro h; apply F.proper; unfold orient; rw [k2, h]; ring
      obtain ⟨p, p1, p2⟩ := half_near F.R1 F.R2 F.hc.1 F.hb.1
      have mx : m.x = (c.x + b.x) / 2 := by rw [vertical hbc k2 hx]; ring
      obtain ⟨v, v1, v2⟩ := F.along z2 m3 (x := p) (X := m.x) (by rw [mx]; linarith) q2 r2 F.hm.1 (avg _ _ F.ha.1 F.hb.1) (avg _ _ F.ha.2 F.hb.2) F.hm.2
        (bisector hab m2 hd1)
      refine ⟨(p, v), ?_, ?_, v2⟩
      · simp only [p1, q1, r1, z1, v1, bind_ok]; rfl
      · rw [mx]; show |p - _| ≤ _; linarith
    · rw [if_neg (fun h => k2 (f4.1 h))]
      have hd2 : c.y - b.y ≠ 0 := fun h => k2 (by linarith)
      obtain ⟨n2, n3⟩ := slope_of hd2 (F.steep2 k2)
      have w' := F.alt2.resolve_left k2
      obtain ⟨y, y1, y2⟩ := slope_near F.G1 F.G2 ((by norm_num : (1 : ℚ) / 2 ^ 100 ≤ 2 / 1000000).trans w'.1) w'.2 n2 n3
      rw [f3] at y1
      obtain ⟨q', q1', q2'⟩ := half_near F.R1 F.R2 F.hb.1 F.hc.1
      obtain ⟨r', r1', r2'⟩ := half_near F.R1 F.R2 F.hb.2 F.hc.2
      have b1 := bisector hab m2 hd1
      have b2 := bisector hbc n2 hd2
      have hdet : (-(b.x - a.x) / (b.y - a.y) - -(c.x - b.x) / (c.y - b.y)) * ((b.y - a.y) * (c.y - b.y)) = -orient a b c := by
        unfold orient; field_simp; ring
      generalize -(b.x - a.x) / (b.y - a.y) = μ at *
      generalize -(c.x - b.x) / (c.y - b.y) = ν at *
      have hD : 1 ≤ H * |μ - ν| := by
        have h1 := F.cond k1 k2
        rw [← abs_neg (orient a b c), ← hdet, abs_mul, abs_mul] at h1
        have h2 : 0 < |b.y - a.y| * |c.y - b.y| := mul_pos (abs_pos.2 hd1) (abs_pos.2 hd2)
        by_contra hcon
        rw [not_le] at hcon
        have := mul_lt_mul_of_pos_right hcon h2
        linarith
      have GR : G * R ≤ 2 ^ 400 := by
        have := mul_le_mul F.G2 F.R2 (by linarith [F.R1]) (by positivity)
        rwa [← pow_add] at this
      have GR1 : 1 ≤ G * R := one_le_mul_of_one_le_of_one_le F.G1 F.R1
      have RGR : R ≤ G * R := le_mul_of_one_le_left (by linarith [F.R1]) F.G1
      have prods : ∀ μ h : ℚ, |μ| ≤ G → |h| ≤ R → |μ * h| ≤ G * R := by
        intro μ h h1 h2
        rw [abs_mul]; exact mul_le_mul h1 h2 (abs_nonneg _) (by linarith)
      have c1 : G * (3 * u * R) + R * (4 * u * G) + 4 * u * G * (3 * u * R) ≤ 7.1 * (u * G * R) := by
        have := mul_le_mul_of_nonneg_right s5 (by linarith : (0 : ℚ) ≤ u * R)
        nlinarith
      have uGR : u * G * R = u * (G * R) := by ring
      have tiny : u * (G * R) ≤ G * R / 1000 := by nlinarith [u_le]
      have h1 := avg _ _ F.ha.1 F.hb.1
      have h2 := avg _ _ F.hb.1 F.hc.1
      have h3 := avg _ _ F.ha.2 F.hb.2
      have h4 := avg _ _ F.hb.2 F.hc.2
      obtain ⟨t1, t1', t1''⟩ := mul_near (B := 1.1 * (G * R)) (mag_le GR1 GR (by norm_num) (by norm_num) (by norm_num)) z2 q2 m3 h1
        (by linarith [prods _ _ m3 h1])
      obtain ⟨t2, t2', t2''⟩ := mul_near (B := 1.1 * (G * R)) (mag_le GR1 GR (by norm_num) (by norm_num) (by norm_num)) y2 q2' n3 h2
        (by linarith [prods _ _ n3 h2])
      have d12 : |μ * ((a.x + b.x) / 2) - ν * ((b.x + c.x) / 2)| ≤ 2 * (G * R) := (abs_sub _ _).trans (by linarith [prods _ _ m3 h1, prods _ _ n3 h2])
      obtain ⟨t3, t3', t3''⟩ := sub_near (B := 2.1 * (G * R)) (e := 9 * (u * G * R)) (f := 9 * (u * G * R))
        (mag_le GR1 GR (by norm_num) (by norm_num) (by norm_num)) (by linarith : |t1 - _| ≤ _) (by linarith : |t2 - _| ≤ _) (by linarith)
      have d3 : |μ * ((a.x + b.x) / 2) - ν * ((b.x + c.x) / 2) + (b.y + c.y) / 2| ≤ 3 * (G * R) := (abs_add_le _ _).trans (by linarith)
      obtain ⟨t4, t4', t4''⟩ := add_near (B := 3.1 * (G * R)) (e := 21 * (u * G * R)) (f := 3 * (u * G * R))
        (mag_le GR1 GR (by norm_num) (by norm_num) (by norm_num)) (by linarith : |t3 - _| ≤ _) (by linarith : |r' - _| ≤ _) (by linarith)
      have d4 : |μ * ((a.x + b.x) / 2) - ν * ((b.x + c.x) / 2) + (b.y + c.y) / 2 - (a.y + b.y) / 2| ≤ 4 * (G * R) := (abs_sub _ _).trans (by linarith)
      obtain ⟨t5, t5', t5''⟩ := sub_near (B := 4.1 * (G * R)) (e := 28 * (u * G * R)) (f := 3 * (u * G * R))
        (mag_le GR1 GR (by norm_num) (by norm_num) (by norm_num)) (by linarith : |t4 - _| ≤ _) (by linarith : |r - _| ≤ _) (by linarith)
      have d5 : |μ - ν| ≤ 2 * G := (abs_sub _ _).trans (by linarith)
      have uG : u * G ≤ G / 1000 := by nlinarith [u_le]
      have uG0 : 0 ≤ u * G := by positivity
      obtain ⟨t6, t6', t6''⟩ := sub_near (B := 2.1 * G) (mag_le F.G1 F.G2 (by norm_num) (by norm_num) (by norm_num)) z2 y2 (by linarith)
      have x1 : (36 * (u * G * R) + R * (11 * (u * G))) * H * (10 / 9) = 470 / 9 * (u * G * H * R) := by ring
      obtain ⟨x, x', x''⟩ := div_near (B := 1.1 * R) (X := μ * ((a.x + b.x) / 2) - ν * ((b.x + c.x) / 2) + (b.y + c.y) / 2 - (a.y + b.y) / 2) (Y := μ - ν) (Q := m.x)
        (e := 36 * (u * G * R)) (f := 11 * (u * G)) (q := R) (h := H)
        (mag_le F.R1 F.R2 (by norm_num) (by norm_num) (by norm_num)) (by linear_combination b1 - b2) (by linarith : |t5 - _| ≤ _) (by linarith : |t6 - _| ≤ _) F.hm.1
        (by linarith [F.H1]) hD (by linarith) (by rw [x1]; linarith)
      rw [x1] at x''
      obtain ⟨v, v1, v2⟩ := F.along z2 m3 (x := x) (X := m.x) (by linarith) q2 r2 F.hm.1 h1 h3 F.hm.2 b1
      refine ⟨(x, v), ?_, ?_, v2⟩
      · simp only [q1, r1, q1', r1', z1, y1, t1', t2', t3', t4', t5', t6', x', v1, bind_ok]; rfl
      · show |x - _| ≤ _; linarith

end Scales

end Verif.Align64
