import Verif.Lemmas.Circum64
import Verif.Spec.Coord64

/-!
# The geometric tests of the triangulation in double arithmetic
-/

namespace Verif.Align64

open Verif Verif.Align Verif.Linalg Verif.Linalg64 Verif.Coord64 Verif.Spec

variable {a b c m : Pt ℚ} {G H R : ℚ}

theorem Frame.sq_size (F : Frame a b c m G H R) : 1 ≤ R * R ∧ R * R ≤ 2 ^ 600 := by
  refine ⟨one_le_mul_of_one_le_of_one_le F.R1 F.R1, ?_⟩
  have := mul_le_mul F.R2 F.R2 (by linarith [F.R1]) (by positivity)
  rwa [← pow_add] at this

/-- One of the two squares. -/
theorem Frame.square (F : Frame a b c m G H R) {x o X : ℚ} (hx : |x| ≤ R) (hX : |X| ≤ R) (ho : |o - X| ≤ 128 * (u * G ^ 2 * H * R)) :
    ∃ z, mulD (sub (.ok x) (.ok o)) (sub (.ok x) (.ok o)) = .ok z ∧ |z - (x - X) * (x - X)| ≤ 547 * (u * G ^ 2 * H * R * R) := by
  obtain ⟨s0, s1, s2, s3, s4, s5, s6, s7⟩ := F.scales
  obtain ⟨r1, r2⟩ := F.sq_size
  have hR := F.R1
  have q1 : |x - X| ≤ 2 * R := (abs_sub _ _).trans (by linarith)
  obtain ⟨d, d1, d2⟩ := sub_near (B := 2.2 * R) (mag_le F.R1 F.R2 (by norm_num) (by norm_num) (by norm_num)) (self_near x) ho (by linarith)
  have d3 : |d - (x - X)| ≤ 131 * (u * G ^ 2 * H * R) := by linarith
  have q2 : |(x - X) * (x - X)| ≤ 4 * (R * R) := by
    rw [abs_mul]
    have := mul_le_mul q1 q1 (abs_nonneg _) (by linarith)
    linarith
  generalize hW : u * G ^ 2 * H * R = W at *
  have w0 : 0 ≤ W := by linarith
  have w1 : W * W ≤ W * (R / 1000) := mul_le_mul_of_nonneg_left s4 w0
  have w2 : W * R ≤ R / 1000 * R := mul_le_mul_of_nonneg_right s4 (by linarith)
  have w3 : u * R * R ≤ W * R := mul_le_mul_of_nonneg_right (by linarith) (by linarith)
  obtain ⟨z, z1, z2⟩ := mul_near (B := 5 * (R * R)) (mag_le r1 r2 (by norm_num) (by norm_num) (by norm_num)) d3 d3 q1 q1 (by nlinarith)
  refine ⟨z, ?_, ?_⟩
  · rw [d1, z1]
  · nlinarith

/-- The squared distance of a point and the centre. -/
theorem Frame.sqr (F : Frame a b c m G H R) {p : Pt ℚ} {o : ℚ × ℚ} (hp : |p.x| ≤ R ∧ |p.y| ≤ R) (ho : |o.1 - m.x| ≤ 128 * (u * G ^ 2 * H * R))
    (ho' : |o.2 - m.y| ≤ 128 * (u * G ^ 2 * H * R)) :
    ∃ z, Align64.sqr p o = .ok z ∧ |z - dist2 m p| ≤ 1200 * (u * G ^ 2 * H * R * R) := by
  obtain ⟨s0, s1, s2, s3, s4, s5, s6, s7⟩ := F.scales
  obtain ⟨r1, r2⟩ := F.sq_size
  have hR := F.R1
  obtain ⟨x, x1, x2⟩ := F.square hp.1 F.hm.1 ho
  obtain ⟨y, y1, y2⟩ := F.square hp.2 F.hm.2 ho'
  have sq : ∀ t M : ℚ, |t| ≤ R → |M| ≤ R → |(t - M) * (t - M)| ≤ 4 * (R * R) := by
    intro t M h1 h2
    have q1 : |t - M| ≤ 2 * R := (abs_sub _ _).trans (by linarith)
    rw [abs_mul]
    have := mul_le_mul q1 q1 (abs_nonneg _) (by linarith)
    linarith
  have q2 : |(p.x - m.x) * (p.x - m.x) + (p.y - m.y) * (p.y - m.y)| ≤ 8 * (R * R) := (abs_add_le _ _).trans (by linarith [sq _ _ hp.1 F.hm.1, sq _ _ hp.2 F.hm.2])
  generalize hW : u * G ^ 2 * H * R = W at *
  have w2 : W * R ≤ R / 1000 * R := mul_le_mul_of_nonneg_right s4 (by linarith)
  have w3 : u * R * R ≤ W * R := mul_le_mul_of_nonneg_right (by linarith) (by linarith)
  obtain ⟨z, z1, z2⟩ := add_near (B := 10 * (R * R)) (mag_le r1 r2 (by norm_num) (by norm_num) (by norm_num)) x2 y2 (by linarith)
  refine ⟨z, ?_, ?_⟩
  · unfold Align64.sqr; rw [x1, y1, z1]
  · have e : dist2 m p = (p.x - m.x) * (p.x - m.x) + (p.y - m.y) * (p.y - m.y) := by unfold dist2; ring
    rw [e]
    have w4 : 0 ≤ W * R := mul_nonneg (by linarith) (by linarith)
    linarith

theorem fl_rnd {q r : ℚ} (h : fl b64 q = .ok r) : r = rnd b64 q := by
  unfold fl at h
  split at h
  · exact (Except.ok.inj h).symm
  · cases h

theorem sqr_nonneg {p : Pt ℚ} {o : ℚ × ℚ} {z : ℚ} (h : Align64.sqr p o = .ok z) : 0 ≤ z := by
  have hm : ∀ d s : ℚ, mulD (.ok d) (.ok d) = .ok s → 0 ≤ s := by
    intro d s hs
    unfold mulD at hs
    rw [bind_ok, bind_ok] at hs
    rw [fl_rnd hs]
    exact rnd_nonneg (mul_self_nonneg d)
  unfold Align64.sqr at h
  unfold add at h
  obtain ⟨x, hx, h⟩ := bind_eq_ok.1 h
  obtain ⟨y, hy, h⟩ := bind_eq_ok.1 h
  have sq : ∀ (D : Linalg64.D) (s : ℚ), mulD D D = .ok s → 0 ≤ s := by
    intro D s hs
    cases D with
    | error e => unfold mulD at hs; rw [bind_error] at hs; cases hs
    | ok d => exact hm d s hs
  rw [fl_rnd h]
  exact rnd_nonneg (add_nonneg (sq _ _ hx) (sq _ _ hy))

/-- The library's square root, squared. -/
theorem sqrt_sq {M : Libm} (hM : Accurate M) {x : ℚ} (hx : 0 ≤ x) : 0 ≤ M.sqrt x ∧ |M.sqrt x ^ 2 - x| ≤ 8 * u * x := by
  have h := hM.sqrt x hx
  set s : ℝ := √(x : ℝ) with hs
  have s0 : 0 ≤ s := Real.sqrt_nonneg _
  have s2 : s ^ 2 = (x : ℝ) := Real.sq_sqrt (by exact_mod_cast hx)
  rw [abs_le] at h
  have hε : (2⁻¹ : ℝ) ^ 52 ≤ 1 / 10 := by norm_num
  constructor
  · have : (0 : ℝ) ≤ M.sqrt x := by nlinarith [h.1]
    exact_mod_cast this
  · have key : |(M.sqrt x : ℝ) ^ 2 - x| ≤ 8 * (1 / 2 ^ 53) * x := by
      rw [← s2, abs_le]
      have e : (2⁻¹ : ℝ) ^ 52 = 2 * (1 / 2 ^ 53) := by norm_num
      rw [e] at h
      have hv : (0 : ℝ) < 1 / 2 ^ 53 := by positivity
      have hv1 : (1 : ℝ) / 2 ^ 53 ≤ 1 / 10 := by norm_num
      generalize (1 : ℝ) / 2 ^ 53 = v at *
      generalize (M.sqrt x : ℝ) = r at *
      have hvs : 0 ≤ v * s := by positivity
      have hvss : v * s * (v * s) ≤ 1 / 10 * (v * s ^ 2) := by nlinarith [mul_nonneg hvs s0, sq_nonneg s]
      have k : |r - s| ≤ 2 * v * s := abs_le.2 h
      have k2 : (r - s) * (r - s) ≤ 2 * v * s * (2 * v * s) := by
        have := mul_le_mul k k (abs_nonneg _) (by linarith)
        rwa [abs_mul_abs_self] at this
      have k3 : s * (r - s) ≤ s * (2 * v * s) := mul_le_mul_of_nonneg_left h.2 s0
      have k4 : s * (-(2 * v * s)) ≤ s * (r - s) := mul_le_mul_of_nonneg_left h.1 s0
      have k5 : 0 ≤ v * s ^ 2 := by positivity
      constructor
      · nlinarith [mul_self_nonneg (r - s)]
      · nlinarith
    have h' : ((|M.sqrt x ^ 2 - x| : ℚ) : ℝ) ≤ ((8 * (1 / 2 ^ 53) * x : ℚ) : ℝ) := by push_cast; exact key
    unfold u
    exact Rat.cast_le.1 h'

/-- A point to the right of the computed circle is not inside the circumcircle by more than the error. -/
theorem Frame.far (F : Frame a b c m G H R) {q : Pt ℚ} (hq : |q.x| ≤ R ∧ |q.y| ≤ R) {o r ρ : ℚ} (ho : |o - m.x| ≤ 128 * (u * G ^ 2 * H * R))
    (hρ : |ρ - dist2 m b| ≤ 1200 * (u * G ^ 2 * H * R * R)) (r0 : 0 ≤ r) (hr : |r ^ 2 - ρ| ≤ 8 * u * ρ) (hx : o + r < q.x)
    (hmq : 8192 * (u * G ^ 2 * H * R * R) < -(dist2 m q - dist2 m b)) : False := by
  obtain ⟨s0, s1, s2, s3, s4, s5, s6, s7⟩ := F.scales
  have hR := F.R1
  have hw0 : 0 ≤ u * G ^ 2 * H * R := by linarith
  have uw : u * R * R ≤ u * G ^ 2 * H * R * R := mul_le_mul_of_nonneg_right (by linarith) (by linarith)
  have hRR : u * G ^ 2 * H * R * R ≤ R / 1000 * R := mul_le_mul_of_nonneg_right s4 (by linarith)
  have hx' : |q.x - m.x| ≤ 2 * R := (abs_sub _ _).trans (by linarith [hq.1, F.hm.1])
  have hx0 : r < q.x - o := by linarith
  have hsq : r ^ 2 < (q.x - o) * (q.x - o) := by rw [sq]; exact mul_self_lt_mul_self r0 hx0
  have hxx : |q.x - o - (q.x - m.x)| ≤ 128 * (u * G ^ 2 * H * R) := by
    rw [show q.x - o - (q.x - m.x) = -(o - m.x) by ring, abs_neg]; exact ho
  have hd := prod_near hxx hxx hx' hx'
  have hb : dist2 m b ≤ 8 * (R * R) := by
    have sq : ∀ x X : ℚ, |x| ≤ R → |X| ≤ R → (x - X) ^ 2 ≤ 4 * (R * R) := by
      intro x X h1 h2
      have q1 : |x - X| ≤ 2 * R := (abs_sub _ _).trans (by linarith)
      have := mul_le_mul q1 q1 (abs_nonneg _) (by linarith)
      rw [abs_mul_abs_self] at this
      linarith
    unfold dist2
    linarith [sq _ _ F.hb.1 F.hm.1, sq _ _ F.hb.2 F.hm.2]
  have hWW : u * G ^ 2 * H * R * (u * G ^ 2 * H * R) ≤ u * G ^ 2 * H * R * (R / 1000) := mul_le_mul_of_nonneg_left s4 hw0
  have hdist : (q.x - m.x) * (q.x - m.x) ≤ dist2 m q := by unfold dist2; linarith [sq_nonneg (q.y - m.y), sq (q.x - m.x)]
  have hWR : 0 ≤ u * G ^ 2 * H * R * R := mul_nonneg hw0 (by linarith)
  have hd' := (abs_le.1 hd).2
  have hr' := (abs_le.1 hr).1
  have hρ1 := (abs_le.1 hρ).1
  have hρ' : ρ ≤ 10 * (R * R) := by linarith [(abs_le.1 hρ).2]
  have hρu : 8 * u * ρ ≤ 8 * u * (10 * (R * R)) := mul_le_mul_of_nonneg_left hρ' (by linarith [u_pos])
  have hρu' : 8 * u * (10 * (R * R)) = 80 * (u * R * R) := by ring
  clear hd hr hρ hxx ho s0 s1 s2 s3 s5 s6 s7 hx hx0 hx'
  generalize u * G ^ 2 * H * R = W at *
  have e : 2 * R * (128 * W) + 2 * R * (128 * W) + 128 * W * (128 * W) ≤ 529 * (W * R) := by linarith
  linarith

/-- The tests of the code answer right: the point is in the circumcircle, and a triangle is called complete only if no point further right is. -/
theorem Frame.test (F : Frame a b c m G H R) {M : Libm} (hM : Accurate M) (guess : Pt ℚ → Pt ℚ → Pt ℚ → Pt ℚ → Bool × Bool) (st : Option (ℚ × ℚ)) {p : Pt ℚ}
    (hp : |p.x| ≤ R ∧ |p.y| ≤ R) (hpx : Representable b64 p.x) (hmargin : 8192 * (u * G ^ 2 * H * R * R) < |dist2 m p - dist2 m a|) :
    ∃ ans, ieeeTest (fun x => .ok (M.sqrt x)) guess st p a b c = .ok ans ∧ (ans.inside = true ↔ dist2 m p ≤ dist2 m a) ∧
      (ans.completes = true → ∀ (q : Pt ℚ) (G' H' R' : ℚ), Frame a b c m G' H' R' → |q.x| ≤ R' ∧ |q.y| ≤ R' →
        8192 * (u * G' ^ 2 * H' * R' * R') < |dist2 m q - dist2 m a| → p.x ≤ q.x → dist2 m a < dist2 m q) := by
  obtain ⟨s0, s1, s2, s3, s4, s5, s6, s7⟩ := F.scales
  have hR := F.R1
  have hab := F.circ.1
  obtain ⟨ε, ε1, ε2, ε3⟩ := eps_ok
  obtain ⟨e12, f1, f2⟩ := alt_ok (y := a.y) (y' := b.y) (F.alt1.imp Eq.symm (fun h => by rw [abs_sub_comm]; exact h))
  obtain ⟨e23, f3, f4⟩ := alt_ok (y := b.y) (y' := c.y) (F.alt2.imp Eq.symm (fun h => by rw [abs_sub_comm]; exact h))
  have hflat : ¬ (|e12| < ε ∧ |e23| < ε) := by
    rintro ⟨h1, h2⟩
    have h1 := (f2 ε ε2 ε3).1 h1
    have h2 := (f4 ε ε2 ε3).1 h2
    apply F.proper; unfold orient; rw [h2, h1]; ring
  obtain ⟨o, o1, o2, o3⟩ := F.centre
  obtain ⟨ρ, ρ1, ρ2⟩ := F.sqr F.hb o2 o3
  obtain ⟨δ, δ1, δ2⟩ := F.sqr hp o2 o3
  have ρ0 := sqr_nonneg ρ1
  obtain ⟨t0, t1⟩ := sqrt_sq hM ρ0
  set r := M.sqrt ρ with hr
  have hcirc : circumCircle (fun x => .ok (M.sqrt x)) p a b c = .ok (some (decide (δ ≤ ρ), o.1, r)) := by
    unfold circumCircle
    simp only [ε1, f1, f3, bind_ok]
    rw [if_neg hflat, o1, bind_ok, ρ1, bind_ok, δ1, bind_ok]
    rfl
  -- the sum does not overflow
  have hsz : ∀ (t : Pt ℚ), |t.x| ≤ R ∧ |t.y| ≤ R → dist2 m t ≤ 8 * (R * R) := by
    intro t ht
    have sq : ∀ x X : ℚ, |x| ≤ R → |X| ≤ R → (x - X) ^ 2 ≤ 4 * (R * R) := by
      intro x X h1 h2
      have q1 : |x - X| ≤ 2 * R := (abs_sub _ _).trans (by linarith)
      have := mul_le_mul q1 q1 (abs_nonneg _) (by linarith)
      rw [abs_mul_abs_self] at this
      nlinarith
    unfold dist2
    linarith [sq _ _ ht.1 F.hm.1, sq _ _ ht.2 F.hm.2]
  have hRR : u * G ^ 2 * H * R * R ≤ R / 1000 * R := mul_le_mul_of_nonneg_right s4 (by linarith)
  have hρ : ρ ≤ 10 * (R * R) := by
    have := hsz b F.hb
    rw [abs_le] at ρ2
    linarith
  have hr4 : |r| ≤ 4 * R := by
    apply abs_le_of_sq_le_sq _ (by linarith)
    rw [abs_le] at t1
    have : 8 * u * ρ ≤ 1 / 10 * ρ := mul_le_mul_of_nonneg_right (by linarith [u_le]) ρ0
    nlinarith
  have ho : |o.1| ≤ 2 * R := by
    have := abs_sub_abs_le_abs_sub o.1 m.x
    linarith [F.hm.1]
  obtain ⟨w, w1, -, -⟩ := fl_bound (q := o.1 + r) (B := 8 * R) (mag_le F.R1 F.R2 (by norm_num) (by norm_num) (by norm_num)) ((abs_add_le _ _).trans (by linarith))
  refine ⟨⟨decide (δ ≤ ρ), decide (w < p.x), some (o.1, r)⟩, ?_, ?_, ?_⟩
  · unfold ieeeTest
    simp only [hcirc, w1, bind_ok]
    rfl
  · simp only [decide_eq_true_eq]
    rw [abs_le] at ρ2 δ2
    rw [hab] at hmargin ⊢
    constructor
    · intro h
      by_contra hcon
      rw [not_le] at hcon
      rw [abs_of_pos (by linarith)] at hmargin
      linarith
    · intro h
      rw [abs_of_nonpos (by linarith)] at hmargin
      linarith
  · simp only [decide_eq_true_eq]
    intro h q G' H' R' F' hq hmq hpq
    obtain ⟨s0', s1', s2', s3', s4', s5', s6', s7'⟩ := F'.scales
    have hR' := F'.R1
    have hx : o.1 + r < p.x := by
      by_contra hcon
      rw [not_lt] at hcon
      have := rnd_mono (F := b64) (by decide) hcon
      rw [rnd_of_representable hpx, ← fl_rnd w1] at this
      linarith
    obtain ⟨o', o1', o2', -⟩ := F'.centre
    rw [o1] at o1'
    cases o1'
    obtain ⟨ρ', ρ1', ρ2'⟩ := F'.sqr F'.hb o2' (by obtain ⟨o', o1', -, o3'⟩ := F'.centre; rw [o1] at o1'; cases o1'; exact o3')
    rw [ρ1] at ρ1'
    cases ρ1'
    rw [hab] at hmq ⊢
    by_contra hcon
    rw [not_lt] at hcon
    rw [abs_of_nonpos (by linarith)] at hmq
    exact F'.far hq o2' ρ2' t0 t1 (by linarith) hmq

end Verif.Align64
