import Verif.Lemmas.Linalg64Tri

/-!
# The matrix of two stars
-/

namespace Verif.Linalg64

open Verif Verif.Linalg Verif.Align

/-- The map of the plane given by three points and their images. -/
def through (p q r p' q' r' z : Pt ℚ) : Pt ℚ := ⟨image (cols p' q' r') (bary p q r) (pt z) 0, image (cols p' q' r') (bary p q r) (pt z) 1⟩

theorem through_affine (p q r p' q' r' : Pt ℚ) : IsAffine (through p q r p' q' r') := by
  refine ⟨p'.x * bary p q r 0 0 + q'.x * bary p q r 1 0 + r'.x * bary p q r 2 0, p'.x * bary p q r 0 1 + q'.x * bary p q r 1 1 + r'.x * bary p q r 2 1,
    p'.x * bary p q r 0 2 + q'.x * bary p q r 1 2 + r'.x * bary p q r 2 2, p'.y * bary p q r 0 0 + q'.y * bary p q r 1 0 + r'.y * bary p q r 2 0,
    p'.y * bary p q r 0 1 + q'.y * bary p q r 1 1 + r'.y * bary p q r 2 1, p'.y * bary p q r 0 2 + q'.y * bary p q r 1 2 + r'.y * bary p q r 2 2, ?_⟩
  intro z
  unfold through image
  simp only [cols, pt]
  ext <;> simp only <;> ring

theorem through_corners {p q r : Pt ℚ} (hd : orient p q r ≠ 0) (p' q' r' : Pt ℚ) :
    through p q r p' q' r' p = p' ∧ through p q r p' q' r' q = q' ∧ through p q r p' q' r' r = r' := by
  have hi := bary_inv hd
  have l := hi.left
  simp only [cols] at l
  have e : ∀ (i : Fin 3) (v : Pt ℚ) (j : Fin 3), (∀ k, pt v k = cols p q r k j) → bary p q r i 0 * pt v 0 + bary p q r i 1 * pt v 1 + bary p q r i 2 * pt v 2 = idn i j := by
    intro i v j h
    rw [h, h, h]; exact hi.left i j
  have P := fun i => e i p 0 (fun k => by fin_cases k <;> rfl)
  have Q := fun i => e i q 1 (fun k => by fin_cases k <;> rfl)
  have R := fun i => e i r 2 (fun k => by fin_cases k <;> rfl)
  unfold through image
  simp only [P, Q, R, cols]
  simp [idn]

theorem fl_diff {a b B : ℚ} (hB : Mag 900 B) (ha : |a| ≤ B) (hb : |b| ≤ B) : ∃ d, sub (.ok a) (.ok b) = .ok d ∧ |d - (a - b)| ≤ 2 * u * B := by
  have h : |a - b| ≤ 2 * B := (abs_sub _ _).trans (by linarith)
  obtain ⟨d, e, -, k⟩ := fl_bound ((hB.smul 2 (by norm_num) (by norm_num)).mono (by norm_num)) h
  exact ⟨d, e, k.trans (by linarith)⟩

/-- The two rounded operations that compute a coordinate of the third corner. -/
theorem third_coord {a b c B : ℚ} (hB : Mag 900 B) (ha : |a| ≤ B) (hb : |b| ≤ B) (hc : |c| ≤ B) :
    (∃ d, add (.ok c) (sub (.ok a) (.ok b)) = .ok d ∧ Representable b64 d ∧ |d - (c + (a - b))| ≤ 5.01 * u * B) ∧
      ∃ d, sub (.ok c) (sub (.ok a) (.ok b)) = .ok d ∧ Representable b64 d ∧ |d - (c - (a - b))| ≤ 5.01 * u * B := by
  obtain ⟨d, e, k⟩ := fl_diff hB ha hb
  have hu := u_pos
  have hus := u_small
  have pB := hB.pos
  have ub : u * B ≤ 0.001 * B := mul_le_mul_of_nonneg_right (by norm_num at hus ⊢; linarith) pB.le
  have uub : u * (u * B) ≤ 0.001 * (u * B) := mul_le_mul_of_nonneg_right (by norm_num at hus ⊢; linarith) (mul_pos hu pB).le
  obtain ⟨a1, a2⟩ := abs_le.1 ha
  obtain ⟨b1, b2⟩ := abs_le.1 hb
  obtain ⟨c1, c2⟩ := abs_le.1 hc
  obtain ⟨k1, k2⟩ := abs_le.1 k
  have M : Mag 1000 (3.01 * B) := (hB.smul 3.01 (by norm_num) (by norm_num)).mono (by norm_num)
  constructor
  · obtain ⟨d', e', -, k'⟩ := fl_bound M (q := c + d) (abs_le.2 ⟨by linarith, by linarith⟩)
    refine ⟨d', by rw [e]; exact e', rep_fl e', ?_⟩
    obtain ⟨k3, k4⟩ := abs_le.1 k'
    exact abs_le.2 ⟨by linarith, by linarith⟩
  · obtain ⟨d', e', -, k'⟩ := fl_bound M (q := c - d) (abs_le.2 ⟨by linarith, by linarith⟩)
    refine ⟨d', by rw [e]; exact e', rep_fl e', ?_⟩
    obtain ⟨k3, k4⟩ := abs_le.1 k'
    exact abs_le.2 ⟨by linarith, by linarith⟩

/-- The exact third corner. -/
def third (p q : Pt ℚ) : Pt ℚ := ⟨q.x + (q.y - p.y), q.y - (q.x - p.x)⟩

/-- The corners of two stars as the program holds them. -/
theorem lineCorners_ok {B : ℚ} {p q : Pt ℚ} (hB : Mag 900 B) (hp : Within B p) (hq : Within B q) :
    ∃ t, lineCorners p q = triCorners p q t ∧ IsDouble t ∧ Near (5.01 * u * B) t (third p q) := by
  obtain ⟨x, x1, x2, x3⟩ := (third_coord hB hq.2 hp.2 hq.1).1
  obtain ⟨y, y1, y2, y3⟩ := (third_coord hB hq.1 hp.1 hq.2).2
  refine ⟨⟨x, y⟩, ?_, ⟨x2, y2⟩, x3, y3⟩
  unfold lineCorners triCorners
  rw [x1, y1]

/-- The computed triangle is nearly right-angled and isosceles. -/
theorem line_tall {p q t : Pt ℚ} {d ρ : ℚ} (hd : 0 < d) (hpq : d ^ 2 ≤ dist2 p q) (ht : Near ρ t (third p q)) (hρ : 100 * ρ ≤ d) : Tall (2 / 3 * d) p q t := by
  obtain ⟨X, hX⟩ : ∃ X, X = q.x - p.x := ⟨_, rfl⟩
  obtain ⟨Y, hY⟩ : ∃ Y, Y = q.y - p.y := ⟨_, rfl⟩
  obtain ⟨a, ha⟩ : ∃ a, a = t.x - (third p q).x := ⟨_, rfl⟩
  obtain ⟨b, hb⟩ : ∃ b, b = t.y - (third p q).y := ⟨_, rfl⟩
  obtain ⟨ta, tb⟩ := ht
  rw [← ha] at ta
  rw [← hb] at tb
  have ρ0 : 0 ≤ ρ := (abs_nonneg a).trans ta
  have tx : t.x - p.x = X + Y + a := by rw [hX, hY, ha]; unfold third; ring
  have ty : t.y - p.y = Y - X + b := by rw [hX, hY, hb]; unfold third; ring
  have tqx : q.x - t.x = -(Y + a) := by rw [hY, ha]; unfold third; ring
  have tqy : q.y - t.y = X - b := by rw [hX, hb]; unfold third; ring
  obtain ⟨w, hw⟩ : ∃ w, w = X ^ 2 + Y ^ 2 := ⟨_, rfl⟩
  have ew : dist2 p q = w := by unfold dist2; rw [hw, hX, hY]; ring
  rw [ew] at hpq
  have hw0 : 0 < w := lt_of_lt_of_le (by positivity) hpq
  have a2 : a ^ 2 ≤ w / 10000 := by
    have : a ^ 2 ≤ ρ ^ 2 := sq_le_sq' (by linarith [(abs_le.1 ta).1]) (abs_le.1 ta).2
    have : (100 * ρ) ^ 2 ≤ d ^ 2 := pow_le_pow_left₀ (by linarith) hρ 2
    linarith
  have b2 : b ^ 2 ≤ w / 10000 := by
    have : b ^ 2 ≤ ρ ^ 2 := sq_le_sq' (by linarith [(abs_le.1 tb).1]) (abs_le.1 tb).2
    have : (100 * ρ) ^ 2 ≤ d ^ 2 := pow_le_pow_left₀ (by linarith) hρ 2
    linarith
  have eD : orient p q t = -w + (X * b - Y * a) := by
    unfold orient; rw [tx, ty, ← hX, ← hY, hw]; ring
  obtain ⟨g, hg⟩ : ∃ g, g = X * b - Y * a := ⟨_, rfl⟩
  rw [← hg] at eD
  have g2 : g ^ 2 ≤ (w / 50) ^ 2 := by
    have e : g ^ 2 + (X * a + Y * b) ^ 2 = w * (a ^ 2 + b ^ 2) := by rw [hg, hw]; ring
    have k := mul_le_mul_of_nonneg_left (add_le_add a2 b2) hw0.le
    have := sq_nonneg (X * a + Y * b)
    have := sq_nonneg w
    linarith
  obtain ⟨g3, g4⟩ := abs_le_of_sq_le_sq' g2 (by linarith)
  have D2 : 0.96 * w ^ 2 ≤ orient p q t ^ 2 := by
    rw [eD]
    have h1 : 0.98 * w ≤ w - g := by linarith
    have h2 : (0.98 * w) ^ 2 ≤ (w - g) ^ 2 := pow_le_pow_left₀ (by linarith) h1 2
    have := sq_nonneg w
    linarith
  have key : ∀ L, L ≤ 2.06 * w → (2 / 3 * d) ^ 2 * L ≤ orient p q t ^ 2 := by
    intro L hL
    have h1 : (2 / 3 * d) ^ 2 * L ≤ (2 / 3 * d) ^ 2 * (2.06 * w) := mul_le_mul_of_nonneg_left hL (sq_nonneg _)
    have h2 : d ^ 2 * w ≤ w * w := mul_le_mul_of_nonneg_right hpq hw0.le
    have : 0 ≤ w ^ 2 := sq_nonneg w
    linarith
  refine ⟨by linarith, ?_, ?_, ?_, ?_⟩
  · intro h0
    rw [h0] at D2
    have : 0 < w ^ 2 := by positivity
    norm_num at D2
    linarith
  · rw [ew]; exact key _ (by linarith)
  · apply key
    unfold dist2
    rw [tqx, tqy]
    have := sq_nonneg (Y / 5 - 5 * a)
    have := sq_nonneg (X / 5 + 5 * b)
    have := sq_nonneg X
    have := sq_nonneg Y
    linarith
  · apply key
    unfold dist2
    rw [tx, ty]
    have := sq_nonneg ((X + Y) / 10 - 10 * a)
    have := sq_nonneg ((Y - X) / 10 - 10 * b)
    linarith

/-- The size of the third barycentric coordinate. -/
theorem bary2_le {h S : ℚ} {p q r z : Pt ℚ} (H : Tall h p q r) (hp : Within S p) (hz : Within S z) :
    |bary p q r 2 0 * z.x + bary p q r 2 1 * z.y + bary p q r 2 2| ≤ 4 * S / h := by
  have s := sides H
  obtain ⟨h0, hd, -⟩ := H
  have dpos : 0 < |orient p q r| := abs_pos.2 hd
  have e : bary p q r 2 0 * z.x + bary p q r 2 1 * z.y + bary p q r 2 2 = ((p.y - q.y) * (z.x - p.x) + -((p.x - q.x) * (z.y - p.y))) / orient p q r := by
    simp only [bary]; ring
  rw [e, abs_div, div_le_iff₀ dpos]
  refine (abs_add_le _ _).trans ?_
  rw [abs_neg, abs_mul, abs_mul]
  have k1 : |z.x - p.x| ≤ 2 * S := (abs_sub _ _).trans (by linarith [hz.1, hp.1])
  have k2 : |z.y - p.y| ≤ 2 * S := (abs_sub _ _).trans (by linarith [hz.2, hp.2])
  have k3 := mul_le_mul s.pqy k1 (abs_nonneg _) (by positivity)
  have k4 := mul_le_mul s.pqx k2 (abs_nonneg _) (by positivity)
  have e2 : 4 * S / h * |orient p q r| = |orient p q r| / h * (2 * S) + |orient p q r| / h * (2 * S) := by ring
  linarith

/-- The map through the rounded third corners differs from the similarity by its value in the third corner. -/
theorem through_diff {p q t t' : Pt ℚ} (hd : orient p q t ≠ 0) {f : Pt ℚ → Pt ℚ} (hf : IsAffine f) (z : Pt ℚ) :
    (through p q t (f p) (f q) t' z).x - (f z).x = (bary p q t 2 0 * z.x + bary p q t 2 1 * z.y + bary p q t 2 2) * (t'.x - (f t).x) ∧
      (through p q t (f p) (f q) t' z).y - (f z).y = (bary p q t 2 0 * z.x + bary p q t 2 1 * z.y + bary p q t 2 2) * (t'.y - (f t).y) := by
  obtain ⟨h1, h2⟩ := image_affine hd hf rfl rfl rfl z
  rw [← h1, ← h2]
  unfold through image
  simp only [cols, pt]
  constructor <;> ring

/-- The factor of a similarity given by two stars. -/
theorem ratio_le {a b c e d R : ℚ} {p q p' q' : Pt ℚ} (hpq : d ^ 2 ≤ dist2 p q) (hp : Within R p') (hq : Within R q') (hR : 0 ≤ R)
    (e1 : (⟨a * p.x - b * p.y + c, b * p.x + a * p.y + e⟩ : Pt ℚ) = p') (e2 : (⟨a * q.x - b * q.y + c, b * q.x + a * q.y + e⟩ : Pt ℚ) = q') :
    (|a| + |b|) * d ≤ 4 * R := by
  have k : (a ^ 2 + b ^ 2) * dist2 p q = dist2 p' q' := by
    rw [← e1, ← e2]; unfold dist2; ring
  have k1 : |p'.x - q'.x| ≤ 2 * R := (abs_sub _ _).trans (by linarith [hp.1, hq.1])
  have k2 : |p'.y - q'.y| ≤ 2 * R := (abs_sub _ _).trans (by linarith [hp.2, hq.2])
  have k3 : dist2 p' q' ≤ 8 * R ^ 2 := by
    unfold dist2
    have := sq_le_sq' (by linarith [(abs_le.1 k1).1] : -(2 * R) ≤ p'.x - q'.x) (abs_le.1 k1).2
    have := sq_le_sq' (by linarith [(abs_le.1 k2).1] : -(2 * R) ≤ p'.y - q'.y) (abs_le.1 k2).2
    linarith
  have k4 : (a ^ 2 + b ^ 2) * d ^ 2 ≤ (a ^ 2 + b ^ 2) * dist2 p q := mul_le_mul_of_nonneg_left hpq (by positivity)
  refine (abs_le_of_sq_le_sq' ?_ (by linarith)).2
  have k5 : (|a| + |b|) ^ 2 ≤ 2 * (a ^ 2 + b ^ 2) := by
    have := sq_nonneg (|a| - |b|)
    have := sq_abs a; have := sq_abs b
    linarith
  have k6 := mul_le_mul_of_nonneg_right k5 (sq_nonneg d)
  rw [mul_pow]
  linarith

theorem line {d S S2 R stray : ℚ} {p q p' q' : Pt ℚ} (hd : 0 < d) (hpq : d ^ 2 ≤ dist2 p q) (hS : 1 ≤ S) (hS' : S ≤ 2 ^ 18) (hp : Within S p) (hq : Within S q)
    (dp : IsDouble p) (dq : IsDouble q) (h1 : 1 ≤ S2) (h2 : |stray| ≤ S2) (h3 : S2 ≤ 2 ^ 20) (hh : S * (1 + S2) ≤ 2 ^ 17 * d)
    (hR : 1 ≤ R) (hR' : R ≤ 2 ^ 18) (hp' : Within R p') (hq' : Within R q') {f : Pt ℚ → Pt ℚ} (hf : IsDirectSimilarity f) (f1 : f p = p') (f2 : f q = q') :
    ∃ m : Fin 3 → Fin 3 → ℚ, solveMatrix (.ok stray) (lineCorners p' q') (lineCorners p q) = .ok (okMat m 0 1 2) ∧
      ∀ z : Pt ℚ, Within S z → ∃ z' : Pt ℚ, apply (okMat m 0 1 2) z = .ok z' ∧ IsDouble z' ∧
        Near (200000 * (1 + S2) * u * R * S ^ 2 / d ^ 2) z' (f z) := by
  have hu := u_pos
  have hus := u_small
  have tiny : (1 : ℚ) / 2 ^ 900 ≤ 1 := by
    rw [div_le_one (by positivity)]; exact one_le_pow₀ (by norm_num)
  have mS : Mag 900 S := ⟨le_trans tiny hS, hS'.trans (pow_le_pow_right₀ (by norm_num) (by norm_num))⟩
  have mR : Mag 900 R := ⟨le_trans tiny hR, hR'.trans (pow_le_pow_right₀ (by norm_num) (by norm_num))⟩
  obtain ⟨t, t1, t2, t3⟩ := lineCorners_ok mS hp hq
  obtain ⟨t', t1', t2', t3'⟩ := lineCorners_ok mR hp' hq'
  have hSd : S ≤ 2 ^ 16 * d := by
    have : S * 2 ≤ S * (1 + S2) := mul_le_mul_of_nonneg_left (by linarith) (by linarith)
    norm_num at hh ⊢; linarith
  have uS : 1000000 * (u * S) ≤ d := by
    have : u * S ≤ 1 / 10 ^ 15 * (2 ^ 16 * d) := mul_le_mul hus hSd (by linarith) (by norm_num)
    norm_num at this
    linarith
  have T := line_tall hd hpq t3 (by norm_num; linarith)
  have wt : ∀ {B : ℚ} {p q t : Pt ℚ}, 1 ≤ B → Within B p → Within B q → Near (5.01 * u * B) t (third p q) → Within (3.01 * B) t := by
    intro B p q t hB hp hq ht
    have uB : u * B ≤ 1 / 10 ^ 15 * B := mul_le_mul_of_nonneg_right hus (by linarith)
    norm_num at uB
    obtain ⟨a1, a2⟩ := abs_le.1 hp.1
    obtain ⟨a3, a4⟩ := abs_le.1 hp.2
    obtain ⟨a5, a6⟩ := abs_le.1 hq.1
    obtain ⟨a7, a8⟩ := abs_le.1 hq.2
    obtain ⟨b1, b2⟩ := abs_le.1 ht.1
    obtain ⟨b3, b4⟩ := abs_le.1 ht.2
    unfold third at b1 b2 b3 b4
    simp only at b1 b2 b3 b4
    exact ⟨abs_le.2 ⟨by linarith, by linarith⟩, abs_le.2 ⟨by linarith, by linarith⟩⟩
  have W := wt hS hp hq t3
  have W' := wt hR hp' hq' t3'
  have up : ∀ {B : ℚ} {v : Pt ℚ}, 1 ≤ B → Within B v → Within (3.01 * B) v := fun hB hv => ⟨hv.1.trans (by linarith), hv.2.trans (by linarith)⟩
  rw [t1, t1']
  obtain ⟨m, em, am⟩ := triangle (S := 3.01 * S) (S2 := S2) (R := 3.01 * R) (stray := stray) T (by linarith) (by norm_num at hS' ⊢; linarith) (up hS hp) (up hS hq) W dp dq t2
    h1 h2 h3 (by norm_num at hh ⊢; nlinarith) (by linarith) (by norm_num at hR' ⊢; linarith) (up hR hp') (up hR hq') W'
  refine ⟨m, em, ?_⟩
  intro z hz
  obtain ⟨z', a1, a2, a3, a4⟩ := am z (up hS hz)
  refine ⟨z', a1, a2, ?_⟩
  have hB := bary2_le T hp hz
  obtain ⟨β, hβ⟩ : ∃ β, β = bary p q t 2 0 * z.x + bary p q t 2 1 * z.y + bary p q t 2 2 := ⟨_, rfl⟩
  rw [← hβ] at hB
  obtain ⟨a, b, c, e, hf⟩ := hf
  have hfa : IsAffine f := ⟨a, -b, c, b, a, e, fun v => by rw [hf, neg_mul, sub_eq_add_neg]⟩
  have rat := ratio_le hpq hp' hq' (by linarith) (by rw [← f1, hf]) (by rw [← f2, hf])
  obtain ⟨D1, D2⟩ := through_diff (t' := t') T.2.1 hfa z
  rw [f1, f2, ← hβ] at D1 D2
  -- the image of the rounded third corner
  have f3 : f (third p q) = third p' q' := by
    rw [← f1, ← f2, hf, hf, hf]; unfold third; ext <;> simp only <;> ring
  have ρ : ∀ g : Pt ℚ → ℚ, (g = Pt.x ∨ g = Pt.y) → |g t' - g (f t)| ≤ 5.01 * u * R + (|a| + |b|) * (5.01 * u * S) := by
    intro g hg
    have split : g t' - g (f t) = (g t' - g (third p' q')) + (g (f (third p q)) - g (f t)) := by rw [f3]; ring
    rw [split]
    refine (abs_add_le _ _).trans (add_le_add ?_ ?_)
    · rcases hg with rfl | rfl
      · exact t3'.1
      · exact t3'.2
    · have n1 : |(third p q).x - t.x| ≤ 5.01 * u * S := by rw [abs_sub_comm]; exact t3.1
      have n2 : |(third p q).y - t.y| ≤ 5.01 * u * S := by rw [abs_sub_comm]; exact t3.2
      rw [hf, hf]
      rcases hg with rfl | rfl
      · have e1 : a * (third p q).x - b * (third p q).y + c - (a * t.x - b * t.y + c) = a * ((third p q).x - t.x) + -(b * ((third p q).y - t.y)) := by ring
        show |a * (third p q).x - b * (third p q).y + c - (a * t.x - b * t.y + c)| ≤ _
        rw [e1]
        refine (abs_add_le _ _).trans ?_
        rw [abs_neg, abs_mul, abs_mul, add_mul]
        exact add_le_add (mul_le_mul_of_nonneg_left n1 (abs_nonneg _)) (mul_le_mul_of_nonneg_left n2 (abs_nonneg _))
      · have e1 : b * (third p q).x + a * (third p q).y + e - (b * t.x + a * t.y + e) = a * ((third p q).y - t.y) + b * ((third p q).x - t.x) := by ring
        show |b * (third p q).x + a * (third p q).y + e - (b * t.x + a * t.y + e)| ≤ _
        rw [e1]
        refine (abs_add_le _ _).trans ?_
        rw [abs_mul, abs_mul, add_mul]
        exact add_le_add (mul_le_mul_of_nonneg_left n2 (abs_nonneg _)) (mul_le_mul_of_nonneg_left n1 (abs_nonneg _))
  have dS : d ≤ 4 * S := by
    have k1 : |p.x - q.x| ≤ 2 * S := (abs_sub _ _).trans (by linarith [hp.1, hq.1])
    have k2 : |p.y - q.y| ≤ 2 * S := (abs_sub _ _).trans (by linarith [hp.2, hq.2])
    refine (abs_le_of_sq_le_sq' ?_ (by linarith)).2
    refine hpq.trans ?_
    unfold dist2
    have := sq_le_sq' (by linarith [(abs_le.1 k1).1] : -(2 * S) ≤ p.x - q.x) (abs_le.1 k1).2
    have := sq_le_sq' (by linarith [(abs_le.1 k2).1] : -(2 * S) ≤ p.y - q.y) (abs_le.1 k2).2
    have := sq_nonneg S
    linarith
  have ρ2 : 5.01 * u * R + (|a| + |b|) * (5.01 * u * S) ≤ 41 * u * R * S / d := by
    rw [le_div_iff₀ hd]
    have n1 : 5.01 * u * R * d ≤ 5.01 * u * R * (4 * S) := mul_le_mul_of_nonneg_left dS (by positivity)
    have n2 : (|a| + |b|) * d * (5.01 * u * S) ≤ 4 * R * (5.01 * u * S) := mul_le_mul_of_nonneg_right rat (by positivity)
    have : 0 ≤ u * R * S := by positivity
    linarith
  have sm : |β| * (41 * u * R * S / d) ≤ 300 * (1 + S2) * u * R * S ^ 2 / d ^ 2 := by
    have n1 : |β| * (41 * u * R * S / d) ≤ 4 * S / (2 / 3 * d) * (41 * u * R * S / d) := mul_le_mul_of_nonneg_right hB (by positivity)
    have e1 : 4 * S / (2 / 3 * d) * (41 * u * R * S / d) = 246 * (u * R * S ^ 2 / d ^ 2) := by field_simp; ring
    have e2 : 300 * (1 + S2) * u * R * S ^ 2 / d ^ 2 = 300 * (1 + S2) * (u * R * S ^ 2 / d ^ 2) := by ring
    rw [e2]
    have : 0 ≤ u * R * S ^ 2 / d ^ 2 := by positivity
    have := mul_le_mul_of_nonneg_right (by linarith : (246 : ℚ) ≤ 300 * (1 + S2)) this
    linarith
  have main : 3200 * (1 + S2) * u * (3.01 * R) * (3.01 * S) ^ 2 / (2 / 3 * d) ^ 2 + 300 * (1 + S2) * u * R * S ^ 2 / d ^ 2 ≤ 200000 * (1 + S2) * u * R * S ^ 2 / d ^ 2 := by
    have e1 : 3200 * (1 + S2) * u * (3.01 * R) * (3.01 * S) ^ 2 / (2 / 3 * d) ^ 2 = 196350.4872 * ((1 + S2) * u * R * S ^ 2 / d ^ 2) := by field_simp; ring
    have e2 : 300 * (1 + S2) * u * R * S ^ 2 / d ^ 2 = 300 * ((1 + S2) * u * R * S ^ 2 / d ^ 2) := by ring
    have e3 : 200000 * (1 + S2) * u * R * S ^ 2 / d ^ 2 = 200000 * ((1 + S2) * u * R * S ^ 2 / d ^ 2) := by ring
    rw [e1, e2, e3]
    have : 0 ≤ (1 + S2) * u * R * S ^ 2 / d ^ 2 := by positivity
    linarith
  have fin : ∀ v w y δ : ℚ, |v - w| ≤ 3200 * (1 + S2) * u * (3.01 * R) * (3.01 * S) ^ 2 / (2 / 3 * d) ^ 2 → w - y = β * δ → |δ| ≤ 41 * u * R * S / d →
      |v - y| ≤ 200000 * (1 + S2) * u * R * S ^ 2 / d ^ 2 := by
    intro v w y δ g1 g2 g3
    have : v - y = (v - w) + β * δ := by rw [← g2]; ring
    rw [this]
    refine (abs_add_le _ _).trans (le_trans ?_ main)
    rw [abs_mul]
    exact add_le_add g1 ((mul_le_mul_of_nonneg_left g3 (abs_nonneg β)).trans sm)
  exact ⟨fin _ _ _ _ a3 D1 ((ρ Pt.x (Or.inl rfl)).trans ρ2), fin _ _ _ _ a4 D2 ((ρ Pt.y (Or.inr rfl)).trans ρ2)⟩

end Verif.Linalg64
