import Verif.Lemmas.Linalg64Line
import Verif.Props.Sidereal64

/-!
# C78 The plane maps of the alignment in double arithmetic
-/

namespace Verif.Linalg64

open Verif Verif.Linalg Verif.Align

/-- **C78.** Three stars.  The inversion by elimination, the matrix product and its application to a pointing direction, every operation rounded,
never leave the finite numbers, and the result differs from the affine map that takes the three measured positions to the three reference
positions by at most `3200 (1 + S₂) R S² / h² · 2^-53` in each coordinate.  `S` bounds the measured coordinates, `R` the reference coordinates,
`h` the heights of the triangle of measured positions from below, `S₂` the number in memory behind the matrix (which the code reads). -/
theorem C78_triangle (h S S2 R stray : ℚ) (p q r p' q' r' : Pt ℚ) (H : Tall h p q r) (hS : 1 ≤ S) (hS' : S ≤ 2 ^ 20)
    (hp : Within S p) (hq : Within S q) (hr : Within S r) (dp : IsDouble p) (dq : IsDouble q) (dr : IsDouble r)
    (h1 : 1 ≤ S2) (h2 : |stray| ≤ S2) (h3 : S2 ≤ 2 ^ 20) (hh : S * (1 + S2) ≤ 2 ^ 20 * h)
    (hR : 1 ≤ R) (hR' : R ≤ 2 ^ 20) (hp' : Within R p') (hq' : Within R q') (hr' : Within R r') :
    ∃ f : Pt ℚ → Pt ℚ, (IsAffine f ∧ f p = p' ∧ f q = q' ∧ f r = r') ∧
      ∃ M, solveMatrix (.ok stray) (triCorners p' q' r') (triCorners p q r) = .ok M ∧
        ∀ z, Within S z → ∃ z', apply M z = .ok z' ∧ Near (3200 * (1 + S2) * R * S ^ 2 / h ^ 2 / 2 ^ 53) z' (f z) := by
  obtain ⟨m, em, am⟩ := triangle H hS hS' hp hq hr dp dq dr h1 h2 h3 hh hR hR' hp' hq' hr'
  refine ⟨through p q r p' q' r', ⟨through_affine _ _ _ _ _ _, through_corners H.2.1 _ _ _⟩, _, em, ?_⟩
  intro z hz
  obtain ⟨z', a1, -, a3, a4⟩ := am z hz
  have e : 3200 * (1 + S2) * u * R * S ^ 2 / h ^ 2 = 3200 * (1 + S2) * R * S ^ 2 / h ^ 2 / 2 ^ 53 := by unfold u; ring
  rw [e] at a3 a4
  exact ⟨z', a1, a3, a4⟩

/-- **C78.** Two stars.  The same for the similarity that takes the two measured positions to the two reference positions, `d` being a lower
bound of the distance of the measured positions. -/
theorem C78_line (d S S2 R stray : ℚ) (p q p' q' : Pt ℚ) (hd : 0 < d) (hpq : d ^ 2 ≤ dist2 p q) (hS : 1 ≤ S) (hS' : S ≤ 2 ^ 18)
    (hp : Within S p) (hq : Within S q) (dp : IsDouble p) (dq : IsDouble q) (h1 : 1 ≤ S2) (h2 : |stray| ≤ S2) (h3 : S2 ≤ 2 ^ 20)
    (hh : S * (1 + S2) ≤ 2 ^ 17 * d) (hR : 1 ≤ R) (hR' : R ≤ 2 ^ 18) (hp' : Within R p') (hq' : Within R q') :
    ∃ f : Pt ℚ → Pt ℚ, (IsDirectSimilarity f ∧ f p = p' ∧ f q = q') ∧
      ∃ M, solveMatrix (.ok stray) (lineCorners p' q') (lineCorners p q) = .ok M ∧
        ∀ z, Within S z → ∃ z', apply M z = .ok z' ∧ Near (200000 * (1 + S2) * R * S ^ 2 / d ^ 2 / 2 ^ 53) z' (f z) := by
  have w : 0 < dist2 p q := lt_of_lt_of_le (by positivity) hpq
  obtain ⟨D, hD⟩ : ∃ D, D = dist2 p q := ⟨_, rfl⟩
  have hD' := hD
  unfold dist2 at hD'
  rw [← hD] at w
  have wn := w.ne'
  -- the similarity
  obtain ⟨f, hf, f1, f2⟩ : ∃ f : Pt ℚ → Pt ℚ, IsDirectSimilarity f ∧ f p = p' ∧ f q = q' := by
    set a := ((q'.x - p'.x) * (q.x - p.x) + (q'.y - p'.y) * (q.y - p.y)) / D with ha
    set b := ((q'.y - p'.y) * (q.x - p.x) - (q'.x - p'.x) * (q.y - p.y)) / D with hb
    have k1 : a * (q.x - p.x) - b * (q.y - p.y) = q'.x - p'.x := by
      rw [ha, hb, div_mul_eq_mul_div, div_mul_eq_mul_div, ← sub_div, div_eq_iff wn, hD']; ring
    have k2 : b * (q.x - p.x) + a * (q.y - p.y) = q'.y - p'.y := by
      rw [ha, hb, div_mul_eq_mul_div, div_mul_eq_mul_div, ← add_div, div_eq_iff wn, hD']; ring
    refine ⟨fun z => ⟨a * z.x - b * z.y + (p'.x - (a * p.x - b * p.y)), b * z.x + a * z.y + (p'.y - (b * p.x + a * p.y))⟩,
      ⟨a, b, _, _, fun z => rfl⟩, ?_, ?_⟩
    · ext <;> simp only <;> ring
    · ext <;> simp only <;> linarith
  obtain ⟨m, em, am⟩ := line hd hpq hS hS' hp hq dp dq h1 h2 h3 hh hR hR' hp' hq' hf f1 f2
  refine ⟨f, ⟨hf, f1, f2⟩, _, em, ?_⟩
  intro z hz
  obtain ⟨z', a1, -, a3⟩ := am z hz
  have e : 200000 * (1 + S2) * u * R * S ^ 2 / d ^ 2 = 200000 * (1 + S2) * R * S ^ 2 / d ^ 2 / 2 ^ 53 := by unfold u; ring
  rw [e] at a3
  exact ⟨z', a1, a3⟩

/-! ### What the telescope reports -/

/-- The reduction of the azimuth of a finite reading. -/
theorem calibrate_near {M : Mat3 D} {z z' v : Pt ℚ} {e : ℚ} (h : apply M z = .ok z') (hd : IsDouble z') (hz : |z'.x| ≤ 2 ^ 40) (hn : Near e z' v) :
    ∃ o, calibrate M z = .ok o ∧ o.x ≤ 360 ∧ -2⁻¹ ^ 1000 ≤ o.x ∧ NearTurn (e + 1 / 2 ^ 45) o v := by
  obtain ⟨r, r1, -, r2, r3, -, k, r4⟩ := Helper.C70_fmod z'.x hd.1 hz
  refine ⟨⟨r, z'.y⟩, ?_, r2, r3, ⟨k, ?_⟩, ?_⟩
  · unfold calibrate
    rw [h]
    simp only [bind_ok]
    rw [r1]
    rfl
  · have e1 : r - v.x - 360 * k = (r - (z'.x + 360 * k)) + (z'.x - v.x) := by ring
    rw [e1]
    refine (abs_add_le _ _).trans ?_
    have := hn.1
    norm_num at r4 ⊢
    linarith
  · refine hn.2.trans ?_
    have : (0 : ℚ) ≤ 1 / 2 ^ 45 := by positivity
    linarith

/-- An affine image of a point of the box. -/
theorem through_le {h S R : ℚ} {p q r p' q' r' z : Pt ℚ} (H : Tall h p q r) (hS : 0 ≤ S) (hp : Within S p) (hq : Within S q) (hr : Within S r)
    (hR : 1 ≤ R) (hp' : Within R p') (hq' : Within R q') (hr' : Within R r') (hz : Within S z) :
    |image (cols p' q' r') (bary p q r) (pt z) 0| ≤ 8 * R * S / h := by
  obtain ⟨n0, n1, n2⟩ := norm1_bary H hS hp hq hr
  have h0 := H.1
  unfold image
  refine (abs_add_three _ _ _).trans ?_
  rw [abs_mul, abs_mul, abs_mul]
  have row : ∀ i, |bary p q r i 0 * pt z 0 + bary p q r i 1 * pt z 1 + bary p q r i 2 * pt z 2| ≤ |bary p q r i 0| * S + |bary p q r i 1| * S + |bary p q r i 2| := by
    intro i
    refine (abs_add_three _ _ _).trans ?_
    rw [abs_mul, abs_mul, abs_mul]
    have e0 : pt z 0 = z.x := rfl
    have e1 : pt z 1 = z.y := rfl
    have e2 : |pt z 2| = 1 := abs_one
    rw [e0, e1, e2, mul_one]
    have := mul_le_mul_of_nonneg_left hz.1 (abs_nonneg (bary p q r i 0))
    have := mul_le_mul_of_nonneg_left hz.2 (abs_nonneg (bary p q r i 1))
    linarith
  have cc := cols_le hR hp' hq' hr' 0
  have t := fun i => mul_le_mul (cc i) (row i) (abs_nonneg _) (by linarith)
  have t0 := t 0; have t1 := t 1; have t2 := t 2
  have m0 := mul_le_mul_of_nonneg_left (mul_le_mul_of_nonneg_right n0 hS) (by linarith : 0 ≤ R)
  have m1 := mul_le_mul_of_nonneg_left (mul_le_mul_of_nonneg_right n1 hS) (by linarith : 0 ≤ R)
  have m2 := mul_le_mul_of_nonneg_left n2 (by linarith : 0 ≤ R)
  unfold norm1 at m0 m1 m2
  have e : 8 * R * S / h = R * (2 / h * S) + R * (2 / h * S) + R * (4 * S / h) := by ring
  rw [e]
  linarith

/-- **C78.** In degrees: with three stars (measured coordinates up to 360, reference coordinates up to 720, the number behind the matrix at most 1,
every height of the triangle at least a thousandth of a degree) the reported direction of every pointing direction differs from the exact one by
at most `1/(10000 h²)` degrees, the azimuth up to full turns, and the reported azimuth is at most 360 and not below `-2^-1000`. -/
theorem C78_degrees (h stray : ℚ) (p q r p' q' r' : Pt ℚ) (H : Tall h p q r) (hh : 1 / 1000 ≤ h) (hp : Within 360 p) (hq : Within 360 q) (hr : Within 360 r)
    (dp : IsDouble p) (dq : IsDouble q) (dr : IsDouble r) (hs : |stray| ≤ 1) (hp' : Within 720 p') (hq' : Within 720 q') (hr' : Within 720 r') :
    ∃ f : Pt ℚ → Pt ℚ, (IsAffine f ∧ f p = p' ∧ f q = q' ∧ f r = r') ∧
      ∃ M, solveMatrix (.ok stray) (triCorners p' q' r') (triCorners p q r) = .ok M ∧
        ∀ z, Within 360 z → ∃ o, calibrate M z = .ok o ∧ o.x ≤ 360 ∧ -2⁻¹ ^ 1000 ≤ o.x ∧ NearTurn (1 / (10000 * h ^ 2)) o (f z) := by
  have h0 := H.1
  have dlow := area_low H
  obtain ⟨m, em, am⟩ := triangle (S := 360) (S2 := 1) (R := 720) (stray := stray) H (by norm_num) (by norm_num) hp hq hr dp dq dr le_rfl hs (by norm_num)
    (by norm_num; linarith) (by norm_num) (by norm_num) hp' hq' hr'
  refine ⟨through p q r p' q' r', ⟨through_affine _ _ _ _ _ _, through_corners H.2.1 _ _ _⟩, _, em, ?_⟩
  intro z hz
  obtain ⟨z', a1, a2, a3, a4⟩ := am z hz
  have hle : h ≤ 1440 := by
    have s := sides H
    have k1 : |p.x - q.x| ≤ 720 := (abs_sub _ _).trans (by linarith [hp.1, hq.1])
    have k2 : |p.y - q.y| ≤ 720 := (abs_sub _ _).trans (by linarith [hp.2, hq.2])
    have k3 : |r.x - p.x| ≤ 720 := (abs_sub _ _).trans (by linarith [hr.1, hp.1])
    have k4 : |r.y - p.y| ≤ 720 := (abs_sub _ _).trans (by linarith [hr.2, hp.2])
    have e : orient p q r = (q.x - p.x) * (r.y - p.y) - (q.y - p.y) * (r.x - p.x) := rfl
    have k := abs_sub ((q.x - p.x) * (r.y - p.y)) ((q.y - p.y) * (r.x - p.x))
    rw [← e, abs_mul, abs_mul, abs_sub_comm q.x, abs_sub_comm q.y] at k
    have l1 := mul_le_mul k1 k4 (abs_nonneg _) (by norm_num)
    have l2 := mul_le_mul k2 k3 (abs_nonneg _) (by norm_num)
    refine (abs_le_of_sq_le_sq' (by linarith : h ^ 2 ≤ (1440.0 : ℚ) ^ 2) (by norm_num)).2.trans (by norm_num)
  have E : 3200 * (1 + 1) * u * 720 * 360 ^ 2 / h ^ 2 + 1 / 2 ^ 45 ≤ 1 / (10000 * h ^ 2) := by
    have e1 : 3200 * (1 + 1) * u * 720 * 360 ^ 2 / h ^ 2 + 1 / 2 ^ 45 = (3200 * 2 * u * 720 * 360 ^ 2 + h ^ 2 / 2 ^ 45) / h ^ 2 := by field_simp; ring
    have e2 : 1 / (10000 * h ^ 2) = 1 / 10000 / h ^ 2 := by field_simp
    rw [e1, e2]
    refine div_le_div_of_nonneg_right ?_ (sq_nonneg h)
    have : h ^ 2 ≤ 1440 ^ 2 := pow_le_pow_left₀ h0.le hle 2
    unfold u
    norm_num
    norm_num at this
    linarith
  have hb : |z'.x| ≤ 2 ^ 40 := by
    have k := through_le H (by norm_num) hp hq hr (by norm_num) hp' hq' hr' hz
    have k2 : 8 * 720 * 360 / h ≤ 8 * 720 * 360 * 1000 := by
      rw [div_le_iff₀ h0]; linarith
    have k3 : (1 : ℚ) / (10000 * h ^ 2) ≤ 100 := by
      rw [div_le_iff₀ (by positivity)]
      have := pow_le_pow_left₀ (by norm_num) hh 2
      norm_num at this
      linarith
    have k4 := abs_sub_abs_le_abs_sub z'.x (image (cols p' q' r') (bary p q r) (pt z) 0)
    have k5 : (0 : ℚ) ≤ 1 / 2 ^ 45 := by positivity
    norm_num at k2 ⊢
    linarith
  obtain ⟨o, o1, o2, o3, ⟨k, o4⟩, o5⟩ := calibrate_near (v := through p q r p' q' r' z) a1 a2 hb ⟨a3, a4⟩
  exact ⟨o, o1, o2, o3, ⟨k, o4.trans E⟩, o5.trans E⟩

/-- **C78.** Pointing at one of the three alignment stars reports its reference position: within a ten-thousandth of a degree over the square of the
least height of the triangle, the azimuth up to full turns. -/
theorem C78_star (h stray : ℚ) (p q r p' q' r' : Pt ℚ) (H : Tall h p q r) (hh : 1 / 1000 ≤ h) (hp : Within 360 p) (hq : Within 360 q) (hr : Within 360 r)
    (dp : IsDouble p) (dq : IsDouble q) (dr : IsDouble r) (hs : |stray| ≤ 1) (hp' : Within 720 p') (hq' : Within 720 q') (hr' : Within 720 r') :
    ∃ M, solveMatrix (.ok stray) (triCorners p' q' r') (triCorners p q r) = .ok M ∧
      ∀ s ∈ [(p, p'), (q, q'), (r, r')], ∃ o, calibrate M s.1 = .ok o ∧ NearTurn (1 / (10000 * h ^ 2)) o s.2 := by
  obtain ⟨f, ⟨-, f1, f2, f3⟩, M, hM, hz⟩ := C78_degrees h stray p q r p' q' r' H hh hp hq hr dp dq dr hs hp' hq' hr'
  refine ⟨M, hM, ?_⟩
  intro s hs
  simp only [List.mem_cons, List.not_mem_nil, or_false] at hs
  rcases hs with rfl | rfl | rfl
  · obtain ⟨o, o1, -, -, o2⟩ := hz p hp
    exact ⟨o, o1, f1 ▸ o2⟩
  · obtain ⟨o, o1, -, -, o2⟩ := hz q hq
    exact ⟨o, o1, f2 ▸ o2⟩
  · obtain ⟨o, o1, -, -, o2⟩ := hz r hr
    exact ⟨o, o1, f3 ▸ o2⟩

/-- **C78.** In degrees, two stars at least a hundredth of a degree apart: the reported direction of every pointing direction differs from the image under
the similarity by at most `1/(200 d²)` degrees, the azimuth up to full turns. -/
theorem C78_line_degrees (d stray : ℚ) (p q p' q' : Pt ℚ) (hd : 1 / 100 ≤ d) (hpq : d ^ 2 ≤ dist2 p q) (hp : Within 360 p) (hq : Within 360 q)
    (dp : IsDouble p) (dq : IsDouble q) (hs : |stray| ≤ 1) (hp' : Within 720 p') (hq' : Within 720 q') :
    ∃ f : Pt ℚ → Pt ℚ, (IsDirectSimilarity f ∧ f p = p' ∧ f q = q') ∧
      ∃ M, solveMatrix (.ok stray) (lineCorners p' q') (lineCorners p q) = .ok M ∧
        ∀ z, Within 360 z → ∃ o, calibrate M z = .ok o ∧ o.x ≤ 360 ∧ -2⁻¹ ^ 1000 ≤ o.x ∧ NearTurn (1 / (200 * d ^ 2)) o (f z) := by
  have d0 : 0 < d := lt_of_lt_of_le (by norm_num) hd
  obtain ⟨f, ⟨hf, f1, f2⟩, -⟩ := C78_line d 360 1 720 stray p q p' q' d0 hpq (by norm_num) (by norm_num) hp hq dp dq le_rfl hs (by norm_num)
    (by norm_num; linarith) (by norm_num) (by norm_num) hp' hq'
  obtain ⟨m, em, am⟩ := line (S := 360) (S2 := 1) (R := 720) (stray := stray) d0 hpq (by norm_num) (by norm_num) hp hq dp dq le_rfl hs (by norm_num)
    (by norm_num; linarith) (by norm_num) (by norm_num) hp' hq' hf f1 f2
  refine ⟨f, ⟨hf, f1, f2⟩, _, em, ?_⟩
  intro z hz
  obtain ⟨z', a1, a2, a3⟩ := am z hz
  have k1 : |p.x - q.x| ≤ 720 := (abs_sub _ _).trans (by linarith [hp.1, hq.1])
  have k2 : |p.y - q.y| ≤ 720 := (abs_sub _ _).trans (by linarith [hp.2, hq.2])
  have d2 : d ^ 2 ≤ 1040000 := by
    refine hpq.trans ?_
    unfold dist2
    have := sq_le_sq' (by linarith [(abs_le.1 k1).1] : -(720 : ℚ) ≤ p.x - q.x) (abs_le.1 k1).2
    have := sq_le_sq' (by linarith [(abs_le.1 k2).1] : -(720 : ℚ) ≤ p.y - q.y) (abs_le.1 k2).2
    linarith
  have E : 200000 * (1 + 1) * u * 720 * 360 ^ 2 / d ^ 2 + 1 / 2 ^ 45 ≤ 1 / (200 * d ^ 2) := by
    have e1 : 200000 * (1 + 1) * u * 720 * 360 ^ 2 / d ^ 2 + 1 / 2 ^ 45 = (200000 * 2 * u * 720 * 360 ^ 2 + d ^ 2 / 2 ^ 45) / d ^ 2 := by field_simp; ring
    have e2 : 1 / (200 * d ^ 2) = 1 / 200 / d ^ 2 := by field_simp
    rw [e1, e2]
    refine div_le_div_of_nonneg_right ?_ (sq_nonneg d)
    unfold u
    norm_num
    linarith
  have hb : |z'.x| ≤ 2 ^ 40 := by
    obtain ⟨a, b, c, e, hf'⟩ := hf
    have rat := ratio_le hpq hp' hq' (by norm_num) (by rw [← f1, hf']) (by rw [← f2, hf'])
    have ab : |a| + |b| ≤ 288000 := by
      have h1 : (|a| + |b|) * (1 / 100) ≤ (|a| + |b|) * d := mul_le_mul_of_nonneg_left hd (by positivity)
      linarith
    have z1 : |z.x - p.x| ≤ 720 := (abs_sub _ _).trans (by linarith [hz.1, hp.1])
    have z2 : |z.y - p.y| ≤ 720 := (abs_sub _ _).trans (by linarith [hz.2, hp.2])
    have n1 := mul_le_mul_of_nonneg_left z1 (abs_nonneg a)
    have n2 := mul_le_mul_of_nonneg_left z2 (abs_nonneg b)
    have ez : (f z).x = p'.x + (a * (z.x - p.x) - b * (z.y - p.y)) := by rw [← f1, hf', hf']; ring
    have fz : |(f z).x| ≤ 720 + 288000 * 720 := by
      rw [ez]
      refine (abs_add_le _ _).trans ?_
      have := abs_sub (a * (z.x - p.x)) (b * (z.y - p.y))
      rw [abs_mul, abs_mul] at this
      linarith [hp'.1]
    have k3 : (1 : ℚ) / (200 * d ^ 2) ≤ 100 := by
      rw [div_le_iff₀ (by positivity)]
      have := pow_le_pow_left₀ (by norm_num) hd 2
      norm_num at this
      linarith
    have k4 := abs_sub_abs_le_abs_sub z'.x (f z).x
    have k5 : (0 : ℚ) ≤ 1 / 2 ^ 45 := by positivity
    have k6 := a3.1
    norm_num at fz ⊢
    linarith
  obtain ⟨o, o1, o2, o3, ⟨k, o4⟩, o5⟩ := calibrate_near a1 a2 hb a3
  exact ⟨o, o1, o2, o3, ⟨k, o4.trans E⟩, o5.trans E⟩

/-! ### The hypotheses are met, and needed -/

/-- Two stars fifty degrees apart: two millionths of a degree. -/
example (stray : ℚ) (hs : |stray| ≤ 1) : ∃ f : Pt ℚ → Pt ℚ, (IsDirectSimilarity f ∧ f ⟨100, 20⟩ = ⟨355, 21⟩ ∧ f ⟨140, 50⟩ = ⟨396, 50⟩) ∧
    ∃ M, solveMatrix (.ok stray) (lineCorners ⟨355, 21⟩ ⟨396, 50⟩) (lineCorners ⟨100, 20⟩ ⟨140, 50⟩) = .ok M ∧
      ∀ z, Within 360 z → ∃ o, calibrate M z = .ok o ∧ NearTurn (1 / 500000) o (f z) := by
  have rp : ∀ z : ℤ, |z| ≤ 2 ^ 53 → Representable b64 (z : ℚ) := fun z hz => representable_int hz (by decide) (by decide)
  have rd : ∀ a b : ℤ, |a| ≤ 2 ^ 53 → |b| ≤ 2 ^ 53 → IsDouble ⟨(a : ℚ), (b : ℚ)⟩ := fun a b ha hb => ⟨rp a ha, rp b hb⟩
  obtain ⟨f, hf, M, hM, hz⟩ := C78_line_degrees 50 stray ⟨100, 20⟩ ⟨140, 50⟩ ⟨355, 21⟩ ⟨396, 50⟩ (by norm_num) (by unfold dist2; norm_num)
    (by unfold Within; norm_num) (by unfold Within; norm_num) (by exact_mod_cast rd 100 20 (by norm_num) (by norm_num))
    (by exact_mod_cast rd 140 50 (by norm_num) (by norm_num)) hs (by unfold Within; norm_num) (by unfold Within; norm_num)
  refine ⟨f, hf, M, hM, fun z h => ?_⟩
  obtain ⟨o, o1, -, -, ⟨k, o2⟩, o3⟩ := hz z h
  exact ⟨o, o1, ⟨k, o2.trans (by norm_num)⟩, o3.trans (by norm_num)⟩

/-- Three stars of an evening, forty to sixty degrees apart: every height is above 40 degrees, the reported positions are accurate to `10^-7` degrees. -/
example (stray : ℚ) (hs : |stray| ≤ 1) : ∃ M, solveMatrix (.ok stray) (triCorners ⟨101, 21⟩ ⟨141, 71⟩ ⟨201, 36⟩) (triCorners ⟨100, 20⟩ ⟨140, 70⟩ ⟨200, 35⟩) = .ok M ∧
    ∃ o, calibrate M ⟨100, 20⟩ = .ok o ∧ NearTurn (1 / 10 ^ 7) o ⟨101, 21⟩ := by
  have T : Tall 40 ⟨100, 20⟩ ⟨140, 70⟩ ⟨200, 35⟩ := by
    unfold Tall orient dist2; norm_num
  have rp : ∀ z : ℤ, |z| ≤ 2 ^ 53 → Representable b64 (z : ℚ) := fun z hz => representable_int hz (by decide) (by decide)
  have rd : ∀ a b : ℤ, |a| ≤ 2 ^ 53 → |b| ≤ 2 ^ 53 → IsDouble ⟨(a : ℚ), (b : ℚ)⟩ := fun a b ha hb => ⟨rp a ha, rp b hb⟩
  obtain ⟨M, hM, hz⟩ := C78_star 40 stray ⟨100, 20⟩ ⟨140, 70⟩ ⟨200, 35⟩ ⟨101, 21⟩ ⟨141, 71⟩ ⟨201, 36⟩ T (by norm_num)
    (by unfold Within; norm_num) (by unfold Within; norm_num) (by unfold Within; norm_num)
    (by exact_mod_cast rd 100 20 (by norm_num) (by norm_num)) (by exact_mod_cast rd 140 70 (by norm_num) (by norm_num)) (by exact_mod_cast rd 200 35 (by norm_num) (by norm_num))
    hs (by unfold Within; norm_num) (by unfold Within; norm_num) (by unfold Within; norm_num)
  obtain ⟨o, o1, ⟨k, o2⟩, o3⟩ := hz (⟨100, 20⟩, ⟨101, 21⟩) (by simp)
  exact ⟨M, hM, o, o1, ⟨k, o2.trans (by norm_num)⟩, o3.trans (by norm_num)⟩

/-- The result of the evening above for a pointing direction between the stars, computed. -/
example : (solveMatrix (.ok 0) (triCorners ⟨100, 20⟩ ⟨140, 70⟩ ⟨200, 35⟩) (triCorners ⟨100, 20⟩ ⟨140, 70⟩ ⟨200, 35⟩) >>= fun M => calibrate M ⟨150, 40⟩) =
    .ok ⟨150 + 2 / 2 ^ 45, 40 + 1 / 2 ^ 47⟩ := by
  decide +kernel

/-- **C78** (defect) Heights matter: three stars that are nearly in a line (the third one `2^-44` degrees off) pass for a triangle, the matrix is
not the identity although the reference positions are the measured ones, and pointing at the second star reports an altitude more than six degrees
away from it. -/
theorem C78_needle : ∃ M o, solveMatrix (.ok 0) (triCorners ⟨100, 20⟩ ⟨200, 40⟩ ⟨300, 60 + 1 / 2 ^ 44⟩) (triCorners ⟨100, 20⟩ ⟨200, 40⟩ ⟨300, 60 + 1 / 2 ^ 44⟩) = .ok M ∧
    calibrate M ⟨200, 40⟩ = .ok o ∧ o.y = 33.75 := by
  have h : (solveMatrix (.ok 0) (triCorners ⟨100, 20⟩ ⟨200, 40⟩ ⟨300, 60 + 1 / 2 ^ 44⟩) (triCorners ⟨100, 20⟩ ⟨200, 40⟩ ⟨300, 60 + 1 / 2 ^ 44⟩) >>=
      fun M => calibrate M ⟨200, 40⟩) = .ok ⟨200, 33.75⟩ := by decide +kernel
  rw [bind_eq_ok] at h
  obtain ⟨M, h1, h2⟩ := h
  exact ⟨M, _, h1, h2, rfl⟩

end Verif.Linalg64
