import Verif.Lemmas.Telescope64Use

/-!
# C79 The aligned telescope in double arithmetic
-/

namespace Verif.Telescope64

open Verif Verif.Align Verif.Linalg Verif.Linalg64 Verif.Coord64 Verif.Spec Verif.Align64

variable {σ : Type}

/-- The calls of a history. -/
def calls (hist : List (Libm × Align64.Env σ × Op)) : List Op := hist.map (fun e => e.2.2)

theorem Rep.turn {T : Tel} {k : Knows} (hR : Rep T k) {z : Pt ℚ} (hz : SaneDirection z) : Rep (setOrientation T z) { k with now := z } :=
  ⟨rfl, hz, hR.inv, hR.ready⟩

theorem read_eq {M : Libm} {T : Tel} {z : Pt ℚ} {lat lst : ℚ} {ty : TType} {m : Mat3 D} {o : Pt ℚ} {ra dec : ℚ}
    (h1 : Align64.getTransformationType T.alignment z = .ok ty) (h2 : Align64.getTransformationMatrix T.alignment z = .ok m) (h3 : calibrate m z = .ok o)
    (h4 : horizontalToEquatorial M o.x o.y lat lst = .ok (ra, dec)) :
    getCalibratedOrientation M (setOrientation T z) lat lst = .ok (ty, ra, dec) := by
  unfold getCalibratedOrientation setOrientation Align64.getCalibratedOrientation
  simp only [h1, h2, h3, h4, bind_ok, pure_ok]

theorem no_triangle {s : Align64.State} (hr : Ready s) (h1 : 1 ≤ s.numVertices) (h2 : s.numVertices ≤ 2) : s.triangles = [] := by
  cases ht : s.triangles with
  | nil => rfl
  | cons t ts =>
    obtain ⟨i1, i2, i3, i4, i5, i6⟩ := (hr h1).2 t (by rw [ht]; exact List.mem_cons_self)
    omega

/-- **C79.** Which of the methods is used.  After every history of orientations, syncs and resets (sane arguments, an accurate library) with at least
one known star the reading has a type in every direction: one star gives a shift, two stars give a similarity, more stars a similarity or a triangle. -/
theorem C79_type (hist : List (Libm × Align64.Env σ × Op)) (hF : ∀ e ∈ hist, Fair e) (T : Tel) (hr : run hist new = .ok T)
    (hs : (knows (calls hist)).stars ≠ []) (z : Pt ℚ) (hz : SaneDirection z) :
    ∃ ty, Align64.getTransformationType T.alignment z = .ok ty ∧ (ty = .point ↔ (knows (calls hist)).stars.length = 1) ∧
      ((knows (calls hist)).stars.length = 2 → ty = .line) ∧ (3 ≤ (knows (calls hist)).stars.length → ty = .line ∨ ty = .triangleIn ∨ ty = .triangleOut) := by
  have hR : Rep T (knows (calls hist)) := run_known hF hr
  have hn := hR.inv.num
  have hpos : 0 < (knows (calls hist)).stars.length := List.length_pos_iff.2 hs
  have h1 : 1 ≤ T.alignment.numVertices := by omega
  by_cases ht : T.alignment.triangles = []
  · unfold Align64.getTransformationType
    rw [ht]
    refine ⟨_, rfl, ?_, ?_, ?_⟩
    · rw [← hn]
      constructor
      · intro h
        by_contra hc
        rw [if_neg hc, if_pos (by omega)] at h
        cases h
      · intro h; rw [if_pos h]
    · intro h; rw [if_neg (by omega), if_pos (by omega)]
    · intro h; rw [if_neg (by omega), if_pos (by omega)]; exact Or.inl rfl
  · obtain ⟨i, t, -, -, h⟩ := choice hz.2 (hR.corners h1) ht
    have h3 : 3 ≤ T.alignment.numVertices := by
      by_contra hc
      exact ht (no_triangle hR.ready h1 (by omega))
    rcases h with ⟨h, -⟩ | ⟨h, -⟩
    · exact ⟨_, h, ⟨fun h => (by cases h), fun h => by omega⟩, fun h => by omega, fun _ => Or.inr (Or.inl rfl)⟩
    · exact ⟨_, h, ⟨fun h => (by cases h), fun h => by omega⟩, fun h => by omega, fun _ => Or.inr (Or.inr rfl)⟩

/-- **C79.** One known star.  In double arithmetic throughout (conversion, sync, matrix, calibration, conversion back) the telescope reports, in every
direction `z`, the position of the horizontal direction that is as far from the place `p` where the star stood as `z` is from the orientation of
the sync, up to `2^-42`; when it points as during the sync, the position of the star itself, up to `2^-40`, at any sidereal time. -/
theorem C79_one_star (hist : List (Libm × Align64.Env σ × Op)) (hF : ∀ e ∈ hist, Fair e) (T : Tel) (hr : run hist new = .ok T) (k : Star)
    (hs : (knows (calls hist)).stars = [k]) :
    ∃ p, StoodAt (2⁻¹ ^ 42) k p ∧ ∀ M, Accurate M → ∀ z, SaneDirection z → ∀ lat lst : ℚ, |lat| ≤ 361 → |lst| ≤ 361 →
      ∃ ra dec, getCalibratedOrientation M (setOrientation T z) lat lst = .ok (.point, ra, dec) ∧ -2⁻¹ ^ 1000 ≤ ra ∧ ra ≤ 360 ∧ |dec| ≤ 90 + 2⁻¹ ^ 42 ∧
        NearDirection (2⁻¹ ^ 42) (p.x + (z.x - k.at'.x) : ℚ) (p.y + (z.y - k.at'.y) : ℚ) ra dec lat lst ∧
        (z = k.at' → lat = k.lat → SamePlace (2⁻¹ ^ 40) k ra dec lst) := by
  have hR : Rep T (knows (calls hist)) := run_known hF hr
  have hn : T.alignment.numVertices = 1 := by rw [hR.inv.num, hs]; rfl
  have h1 : 1 ≤ T.alignment.numVertices := by omega
  have ht := no_triangle hR.ready h1 (by omega)
  obtain ⟨v, v1, v2⟩ := (hR.ready h1).1.point ht hn
  obtain ⟨v', w1, w2, k', hk', w3⟩ := hR.inv.index (i := 0) (by omega)
  rw [v1] at w1; cases w1
  rw [hs, List.mem_singleton] at hk'
  subst hk'
  have hx := hR.inv.single (by rw [hs]; rfl) v (List.mem_of_getElem? w2)
  refine ⟨v.reference, w3.place, ?_⟩
  intro M hM z hz lat lst hlat hlst
  obtain ⟨o, o1, o2, o3, o4⟩ := point_near w3.sane.2.1 w3.sane.2.2 hx w3.alt hz.2
  have hy : |v.reference.y + (z.y - v.actual.y)| + 2⁻¹ ^ 41 ≤ 361 := by
    have a1 := abs_add_le v.reference.y (z.y - v.actual.y)
    have a2 := abs_sub z.y v.actual.y
    have := w3.alt; have := hz.2.2; have := w3.sane.2.2
    norm_num; linarith
  obtain ⟨ra, dec, e1, r1, r2, r3, n⟩ := report_near hM o2 o3 o4 hy hlat hlst
  have n' : NearDirection (2⁻¹ ^ 42) (v.reference.x + (z.x - k'.at'.x) : ℚ) (v.reference.y + (z.y - k'.at'.y) : ℚ) ra dec lat lst := by
    rw [← w3.at_eq]
    exact near_mono (by norm_num) n
  refine ⟨ra, dec, read_eq ?_ ?_ o1 e1, r1, r2, r3, n', ?_⟩
  · unfold Align64.getTransformationType; rw [ht]; simp only; rw [if_pos hn]
  · unfold Align64.getTransformationMatrix; rw [ht]; simp only; rw [if_pos h1]; unfold Align64.matrixAt; rw [v2]
  · intro hz' hl
    subst hz' hl
    simp only [sub_self, add_zero] at n'
    have := same_place (by positivity) (by positivity) w3.place n'
    have e : (2 : ℝ) * (2⁻¹ ^ 42 + 2⁻¹ ^ 42) = 2⁻¹ ^ 40 := by norm_num
    rwa [e] at this

theorem line_small {d : ℚ} {p q : Pt ℚ} (hd : 1 / 100 ≤ d) (hpq : d ^ 2 ≤ dist2 p q) (hp : Range p) (hq : Range q) :
    ((2⁻¹ ^ 43 + ((1 / (200 * d ^ 2) : ℚ) + (1 / (200 * d ^ 2) : ℚ)) * (3.15 / 180) : ℝ) ≤ 1 / (5000 * d ^ 2)) ∧
      (2 * (2⁻¹ ^ 42 + 1 / (5000 * d ^ 2)) : ℝ) ≤ 1 / (2000 * d ^ 2) ∧ 1 / (200 * d ^ 2) ≤ (50 : ℚ) := by
  have k1 : |p.x - q.x| ≤ 720 := (abs_sub _ _).trans (by linarith [hp.1, hq.1])
  have k2 : |p.y - q.y| ≤ 182 := (abs_sub _ _).trans (by linarith [hp.2, hq.2])
  have d2 : d ^ 2 ≤ 1040000 := by
    refine hpq.trans ?_
    unfold dist2
    have := sq_le_sq' (by linarith [(abs_le.1 k1).1] : -(720 : ℚ) ≤ p.x - q.x) (abs_le.1 k1).2
    have := sq_le_sq' (by linarith [(abs_le.1 k2).1] : -(182 : ℚ) ≤ p.y - q.y) (abs_le.1 k2).2
    linarith
  have d0 : 0 < d := lt_of_lt_of_le (by norm_num) hd
  have r2 : (d : ℝ) ^ 2 ≤ 1040000 := by exact_mod_cast d2
  have r0 : (0 : ℝ) < (d : ℝ) ^ 2 := by have : (0 : ℝ) < d := by exact_mod_cast d0
                                        positivity
  have key : ∀ c : ℝ, 1 / (c * (d : ℝ) ^ 2) = 1 / c * (1 / (d : ℝ) ^ 2) := fun c => by rw [one_div_mul_one_div]
  have low : 1 / 1040000 ≤ 1 / (d : ℝ) ^ 2 := one_div_le_one_div_of_le r0 r2
  refine ⟨?_, ?_, ?_⟩
  · push_cast
    rw [key, key]; norm_num at low ⊢; linarith
  · rw [key, key]; norm_num at low ⊢; linarith
  · rw [div_le_iff₀ (by positivity)]
    have := pow_le_pow_left₀ (by norm_num) hd 2
    norm_num at this
    linarith

/-- **C79.** Readings of type `line` (always with two stars).  They use the two known stars `a`, `b` that were synced at the lowest azimuths, by one
similarity `f` of the plane of azimuth and altitude, which takes the two orientations to the places where the stars stood (up to `2^-42`).  If the
orientations are at least `d ≥ 1/100` degrees apart, every reading is the position of the horizontal direction `f z`, up to `1/(5000 d²)`. -/
theorem C79_line (hist : List (Libm × Align64.Env σ × Op)) (hF : ∀ e ∈ hist, Fair e) (T : Tel) (hr : run hist new = .ok T) (z0 : Pt ℚ)
    (hty : Align64.getTransformationType T.alignment z0 = .ok .line) :
    ∃ a ∈ (knows (calls hist)).stars, ∃ b ∈ (knows (calls hist)).stars, a.at' ≠ b.at' ∧
      (∀ k ∈ (knows (calls hist)).stars, a.at'.x ≤ k.at'.x ∧ (k.at' ≠ a.at' → b.at'.x ≤ k.at'.x)) ∧
      ∀ d : ℚ, 1 / 100 ≤ d → d ^ 2 ≤ dist2 a.at' b.at' →
        ∃ f : Pt ℚ → Pt ℚ, IsDirectSimilarity f ∧ StoodAt (2⁻¹ ^ 42) a (f a.at') ∧ StoodAt (2⁻¹ ^ 42) b (f b.at') ∧
          (|(f a.at').y| ≤ 91 ∧ |(f b.at').y| ≤ 91) ∧
          ∀ M, Accurate M → ∀ z, SaneDirection z → |(f z).y| ≤ 200 → ∀ lat lst : ℚ, |lat| ≤ 361 → |lst| ≤ 361 →
            ∃ ra dec, getCalibratedOrientation M (setOrientation T z) lat lst = .ok (.line, ra, dec) ∧ -2⁻¹ ^ 1000 ≤ ra ∧ ra ≤ 360 ∧ |dec| ≤ 90 + 2⁻¹ ^ 42 ∧
              NearDirection (1 / (5000 * d ^ 2)) (f z).x (f z).y ra dec lat lst := by
  have hR : Rep T (knows (calls hist)) := run_known hF hr
  have ht : T.alignment.triangles = [] := by
    cases ht : T.alignment.triangles with
    | nil => rfl
    | cons t ts =>
      unfold Align64.getTransformationType at hty
      rw [ht] at hty
      simp only at hty
      obtain ⟨r, -, hty⟩ := bind_eq_ok.1 hty
      cases r <;> cases hty
  have h2 : 2 ≤ T.alignment.numVertices := by
    unfold Align64.getTransformationType at hty
    rw [ht] at hty
    simp only [Except.ok.injEq] at hty
    by_contra hc
    split at hty
    · cases hty
    · cases hty
  obtain ⟨u, w, stray, u1, w1, s1, m1⟩ := (hR.ready (by omega)).1.line ht h2
  obtain ⟨u', u2, u3, a, ha, u4⟩ := hR.inv.index (i := 0) (by omega)
  rw [u1] at u2; cases u2
  obtain ⟨w', w2, w3, b, hb, w4⟩ := hR.inv.index (i := 1) (by omega)
  rw [w1] at w2; cases w2
  refine ⟨a, ha, b, hb, ?_, ?_, ?_⟩
  · rw [← u4.at_eq, ← w4.at_eq]; exact hR.inv.distinct u3 w3 (by omega)
  · intro k hk
    constructor
    · rcases hR.inv.lowest u3 hk with h | ⟨j, hj, -⟩
      · rw [← u4.at_eq]; exact h
      · omega
    · intro hne
      rcases hR.inv.lowest w3 hk with h | ⟨j, hj, x, hx, hx'⟩
      · rw [← w4.at_eq]; exact h
      · have : j = 0 := by omega
        subst this
        rw [u3] at hx; cases hx
        exact absurd (hx'.symm.trans u4.at_eq) hne
  · intro d hd hdd
    rw [← u4.at_eq, ← w4.at_eq] at hdd
    have win : ∀ {p : Pt ℚ}, SaneDirection p → Within 360 p := fun h => ⟨h.2.1, h.2.2.trans (by norm_num)⟩
    obtain ⟨f, ⟨hf, f1, f2⟩, m, em, am⟩ := C78_line_degrees d stray u.actual w.actual u.reference w.reference hd hdd (win u4.sane) (win w4.sane)
      u4.sane.1 w4.sane.1 s1 u4.ref w4.ref
    obtain ⟨t1, -, t3⟩ := line_small hd hdd u4.sane.2 w4.sane.2
    rw [u4.at_eq] at f1
    rw [w4.at_eq] at f2
    refine ⟨f, hf, by rw [f1]; exact u4.place, by rw [f2]; exact w4.place, ⟨by rw [f1]; exact u4.alt, by rw [f2]; exact w4.alt⟩, ?_⟩
    intro M hM z hz hfz lat lst hlat hlst
    obtain ⟨o, o1, o2, o3, o4⟩ := am z (win hz)
    obtain ⟨ra, dec, e1, r1, r2, r3, n⟩ := report_near hM o2 o3 o4 (by linarith) hlat hlst
    refine ⟨ra, dec, read_eq ?_ ?_ o1 e1, r1, r2, r3, near_mono t1 n⟩
    · unfold Align64.getTransformationType; rw [ht]; simp only; rw [if_neg (by omega), if_pos h2]
    · unfold Align64.getTransformationMatrix; rw [ht]; simp only; rw [if_pos (by omega)]; unfold Align64.matrixAt; rw [m1]; exact em

/-- **C79.** Two known stars, synced at orientations at least `d ≥ 1/100` degrees apart: pointing at one of them as during its sync reports its position,
up to `1/(2000 d²)` (radians), at any sidereal time. -/
theorem C79_two_stars (hist : List (Libm × Align64.Env σ × Op)) (hF : ∀ e ∈ hist, Fair e) (T : Tel) (hr : run hist new = .ok T) (a b : Star)
    (hs : (knows (calls hist)).stars = [a, b]) (d : ℚ) (hd : 1 / 100 ≤ d) (hdd : d ^ 2 ≤ dist2 a.at' b.at') (M : Libm) (hM : Accurate M)
    (s : Star) (hk : s ∈ [a, b]) (lst : ℚ) (hlst : |lst| ≤ 361) :
    ∃ ra dec, getCalibratedOrientation M (setOrientation T s.at') s.lat lst = .ok (.line, ra, dec) ∧ -2⁻¹ ^ 1000 ≤ ra ∧ ra ≤ 360 ∧ |dec| ≤ 90 + 2⁻¹ ^ 42 ∧
      SamePlace (1 / (2000 * d ^ 2)) s ra dec lst := by
  have hR : Rep T (knows (calls hist)) := run_known hF hr
  have hn : T.alignment.numVertices = 2 := by rw [hR.inv.num, hs]; rfl
  have ht := no_triangle hR.ready (by omega) (by omega)
  have hty : Align64.getTransformationType T.alignment s.at' = .ok .line := by
    unfold Align64.getTransformationType; rw [ht]; simp only; rw [if_neg (by omega), if_pos (by omega)]
  obtain ⟨a', ha', b', hb', hne, -, h⟩ := C79_line hist hF T hr s.at' hty
  rw [hs] at ha' hb'
  simp only [List.mem_cons, List.not_mem_nil, or_false] at ha' hb' hk
  have hmem : ∀ k ∈ [a, b], k ∈ (knows (calls hist)).stars := by rw [hs]; exact fun _ h => h
  have sane : ∀ k ∈ [a, b], SaneDirection k.at' ∧ |k.lat| ≤ 361 := by
    intro k hk
    obtain ⟨v, -, hv⟩ := hR.inv.stores.mem (hmem k hk)
    exact ⟨hv.at_eq ▸ hv.sane, hv.lat⟩
  have sa := sane a (by simp)
  have sb := sane b (by simp)
  obtain ⟨-, t2, -⟩ := line_small hd hdd sa.1.2 sb.1.2
  have hdd' : d ^ 2 ≤ dist2 a'.at' b'.at' := by
    have sym : dist2 b.at' a.at' = dist2 a.at' b.at' := by unfold dist2; ring
    rcases ha' with rfl | rfl <;> rcases hb' with rfl | rfl
    · exact absurd rfl hne
    · exact hdd
    · rw [sym]; exact hdd
    · exact absurd rfl hne
  obtain ⟨f, -, f1, f2, ⟨g1, g2⟩, hread⟩ := h d hd hdd'
  have fin : ∀ k ∈ [a, b], StoodAt (2⁻¹ ^ 42) k (f k.at') → |(f k.at').y| ≤ 91 →
      ∃ ra dec, getCalibratedOrientation M (setOrientation T k.at') k.lat lst = .ok (.line, ra, dec) ∧ -2⁻¹ ^ 1000 ≤ ra ∧ ra ≤ 360 ∧ |dec| ≤ 90 + 2⁻¹ ^ 42 ∧
        SamePlace (1 / (2000 * d ^ 2)) k ra dec lst := by
    intro k hk st hy
    obtain ⟨ra, dec, e, r1, r2, r3, n⟩ := hread M hM k.at' (sane k hk).1 (by linarith) k.lat lst (sane k hk).2 hlst
    refine ⟨ra, dec, e, r1, r2, r3, ?_⟩
    obtain ⟨m1, m2, m3⟩ := same_place (by positivity) (by positivity) st n
    exact ⟨m1.trans t2, m2.trans t2, m3.trans t2⟩
  have both : ∀ k : Star, k = a' ∨ k = b' → k ∈ [a, b] → ∃ ra dec, getCalibratedOrientation M (setOrientation T k.at') k.lat lst = .ok (.line, ra, dec) ∧ -2⁻¹ ^ 1000 ≤ ra ∧ ra ≤ 360 ∧ |dec| ≤ 90 + 2⁻¹ ^ 42 ∧
      SamePlace (1 / (2000 * d ^ 2)) k ra dec lst := by
    intro k hk hm
    rcases hk with rfl | rfl
    · exact fin _ hm f1 g1
    · exact fin _ hm f2 g2
  refine both s ?_ (by simp only [List.mem_cons, List.not_mem_nil, or_false]; exact hk)
  rcases ha' with rfl | rfl <;> rcases hb' with rfl | rfl
  · exact absurd rfl hne
  · exact hk
  · exact hk.symm
  · exact absurd rfl hne

theorem tri_small {h : ℚ} {p q r : Pt ℚ} (H : Tall h p q r) (hh : 1 / 1000 ≤ h) (hp : Range p) (hq : Range q) (hr : Range r) :
    ((2⁻¹ ^ 43 + ((1 / (10000 * h ^ 2) : ℚ) + (1 / (10000 * h ^ 2) : ℚ)) * (3.15 / 180) : ℝ) ≤ 1 / (250000 * h ^ 2)) ∧
      (2 * (2⁻¹ ^ 42 + 1 / (250000 * h ^ 2)) : ℝ) ≤ 1 / (100000 * h ^ 2) ∧ 1 / (10000 * h ^ 2) ≤ (100 : ℚ) := by
  have h0 := H.1
  have low := area_low H
  have k1 : |q.x - p.x| ≤ 720 := (abs_sub _ _).trans (by linarith [hp.1, hq.1])
  have k2 : |q.y - p.y| ≤ 182 := (abs_sub _ _).trans (by linarith [hp.2, hq.2])
  have k3 : |r.x - p.x| ≤ 720 := (abs_sub _ _).trans (by linarith [hr.1, hp.1])
  have k4 : |r.y - p.y| ≤ 182 := (abs_sub _ _).trans (by linarith [hr.2, hp.2])
  have e : orient p q r = (q.x - p.x) * (r.y - p.y) - (q.y - p.y) * (r.x - p.x) := rfl
  have k := abs_sub ((q.x - p.x) * (r.y - p.y)) ((q.y - p.y) * (r.x - p.x))
  rw [← e, abs_mul, abs_mul] at k
  have l1 := mul_le_mul k1 k4 (abs_nonneg _) (by norm_num)
  have l2 := mul_le_mul k2 k3 (abs_nonneg _) (by norm_num)
  have d2 : h ^ 2 ≤ 530000 := by linarith
  have r2 : (h : ℝ) ^ 2 ≤ 530000 := by exact_mod_cast d2
  have r0 : (0 : ℝ) < (h : ℝ) ^ 2 := by have : (0 : ℝ) < h := by exact_mod_cast h0
                                        positivity
  have key : ∀ c : ℝ, 1 / (c * (h : ℝ) ^ 2) = 1 / c * (1 / (h : ℝ) ^ 2) := fun c => by rw [one_div_mul_one_div]
  have low : 1 / 530000 ≤ 1 / (h : ℝ) ^ 2 := one_div_le_one_div_of_le r0 r2
  refine ⟨?_, ?_, ?_⟩
  · push_cast
    rw [key, key]; norm_num at low ⊢; linarith
  · rw [key, key]; norm_num at low ⊢; linarith
  · rw [div_le_iff₀ (by positivity)]
    have := pow_le_pow_left₀ (by norm_num) hh 2
    norm_num at this
    linarith

/-- C79_triangle, with the triangle that is used. -/
theorem triangle_reading (hist : List (Libm × Align64.Env σ × Op)) (hF : ∀ e ∈ hist, Fair e) (T : Tel) (hr : run hist new = .ok T)
    (hs : (knows (calls hist)).stars ≠ []) (z : Pt ℚ) (hz : SaneDirection z) (ty : TType) (hty : Align64.getTransformationType T.alignment z = .ok ty)
    (hty' : ty = .triangleIn ∨ ty = .triangleOut) :
    ∃ a ∈ (knows (calls hist)).stars, ∃ b ∈ (knows (calls hist)).stars, ∃ c ∈ (knows (calls hist)).stars,
      (∃ t ∈ T.alignment.triangles, T.alignment.vertices[t.p1]?.map VertexPair.actual = some a.at' ∧
        T.alignment.vertices[t.p2]?.map VertexPair.actual = some b.at' ∧ T.alignment.vertices[t.p3]?.map VertexPair.actual = some c.at') ∧ (a.at' ≠ b.at' ∧ b.at' ≠ c.at' ∧ c.at' ≠ a.at') ∧ (ty = .triangleIn → Inside (1 / 10) z a.at' b.at' c.at') ∧
      ∀ h : ℚ, 1 / 1000 ≤ h → Tall h a.at' b.at' c.at' →
        ∃ f : Pt ℚ → Pt ℚ, IsAffine f ∧ (∀ k ∈ [a, b, c], StoodAt (2⁻¹ ^ 42) k (f k.at') ∧ |(f k.at').y| ≤ 91) ∧
          ∀ M, Accurate M → |(f z).y| ≤ 200 → ∀ lat lst : ℚ, |lat| ≤ 361 → |lst| ≤ 361 →
            ∃ ra dec, getCalibratedOrientation M (setOrientation T z) lat lst = .ok (ty, ra, dec) ∧ -2⁻¹ ^ 1000 ≤ ra ∧ ra ≤ 360 ∧ |dec| ≤ 90 + 2⁻¹ ^ 42 ∧
              NearDirection (1 / (250000 * h ^ 2)) (f z).x (f z).y ra dec lat lst := by
  have hR : Rep T (knows (calls hist)) := run_known hF hr
  have hpos : 0 < (knows (calls hist)).stars.length := List.length_pos_iff.2 hs
  have h1 : 1 ≤ T.alignment.numVertices := by rw [hR.inv.num]; exact hpos
  have ht : T.alignment.triangles ≠ [] := by
    intro ht
    unfold Align64.getTransformationType at hty
    rw [ht] at hty
    simp only [Except.ok.injEq] at hty
    rw [← hty] at hty'
    split at hty'
    · rcases hty' with h | h <;> cases h
    · split at hty' <;> rcases hty' with h | h <;> cases h
  obtain ⟨i, t, ti, tm, tc⟩ := choice hz.2 (hR.corners h1) ht
  obtain ⟨i1, i2, i3, i4, i5, i6⟩ := (hR.ready h1).2 t (List.mem_of_getElem? ti)
  obtain ⟨u, w, x, stray, u1, w1, x1, s1, m1⟩ := (hR.ready h1).1.tri i t ti
  obtain ⟨u', u2, u3, a, ha, u4⟩ := hR.inv.index i1
  rw [u1] at u2; cases u2
  obtain ⟨w', w2, w3, b, hb, w4⟩ := hR.inv.index i2
  rw [w1] at w2; cases w2
  obtain ⟨x', x2, x3, c, hc, x4⟩ := hR.inv.index i3
  rw [x1] at x2; cases x2
  refine ⟨a, ha, b, hb, c, hc, ⟨t, List.mem_of_getElem? ti, ?_, ?_, ?_⟩, ⟨?_, ?_, ?_⟩, ?_, ?_⟩
  · rw [u1, ← u4.at_eq]; rfl
  · rw [w1, ← w4.at_eq]; rfl
  · rw [x1, ← x4.at_eq]; rfl
  · rw [← u4.at_eq, ← w4.at_eq]; exact hR.inv.distinct u3 w3 i4
  · rw [← x4.at_eq, ← w4.at_eq]; exact hR.inv.distinct w3 x3 i5
  · rw [← u4.at_eq, ← x4.at_eq]; exact hR.inv.distinct x3 u3 i6
  · intro hin
    subst hin
    rcases tc with ⟨-, h, -⟩ | ⟨h, -⟩
    · rw [inTri_ok u1 w1 x1] at h
      rw [← u4.at_eq, ← w4.at_eq, ← x4.at_eq]
      exact inside_near hz.2 u4.sane.2 w4.sane.2 x4.sane.2 h
    · rw [hty] at h; cases h
  · intro h hh H
    rw [← u4.at_eq, ← w4.at_eq, ← x4.at_eq] at H
    have win : ∀ {p : Pt ℚ}, SaneDirection p → Within 360 p := fun h => ⟨h.2.1, h.2.2.trans (by norm_num)⟩
    obtain ⟨f, ⟨hf, f1, f2, f3⟩, m, em, am⟩ := C78_degrees h stray u.actual w.actual x.actual u.reference w.reference x.reference H hh (win u4.sane)
      (win w4.sane) (win x4.sane) u4.sane.1 w4.sane.1 x4.sane.1 s1 u4.ref w4.ref x4.ref
    obtain ⟨t1, -, t3⟩ := tri_small H hh u4.sane.2 w4.sane.2 x4.sane.2
    rw [u4.at_eq] at f1
    rw [w4.at_eq] at f2
    rw [x4.at_eq] at f3
    refine ⟨f, hf, ?_, ?_⟩
    · intro k hk
      simp only [List.mem_cons, List.not_mem_nil, or_false] at hk
      rcases hk with rfl | rfl | rfl
      · rw [f1]; exact ⟨u4.place, u4.alt⟩
      · rw [f2]; exact ⟨w4.place, w4.alt⟩
      · rw [f3]; exact ⟨x4.place, x4.alt⟩
    intro M hM hfz lat lst hlat hlst
    obtain ⟨o, o1, o2, o3, o4⟩ := am z (win hz)
    obtain ⟨ra, dec, e1, r1, r2, r3, n⟩ := report_near hM o2 o3 o4 (by linarith) hlat hlst
    refine ⟨ra, dec, read_eq hty ?_ o1 e1, r1, r2, r3, near_mono t1 n⟩
    rw [tm]; unfold Align64.matrixAt; rw [m1]; exact em

/-- **C79.** Readings of type `triangle`.  They use three known stars `a`, `b`, `c`, synced at three different orientations; if the reading is of the type
`inside`, the direction is in the triangle of the three orientations, up to a tenth of a square degree.  If the heights of the triangle are at
least `h ≥ 1/1000` degrees, the reading is the position of the horizontal direction `f z`, up to `1/(250000 h²)`, for the affine map `f` that takes
the three orientations to the places where the stars stood (up to `2^-42`). -/
theorem C79_triangle (hist : List (Libm × Align64.Env σ × Op)) (hF : ∀ e ∈ hist, Fair e) (T : Tel) (hr : run hist new = .ok T)
    (hs : (knows (calls hist)).stars ≠ []) (z : Pt ℚ) (hz : SaneDirection z) (ty : TType) (hty : Align64.getTransformationType T.alignment z = .ok ty)
    (hty' : ty = .triangleIn ∨ ty = .triangleOut) :
    ∃ a ∈ (knows (calls hist)).stars, ∃ b ∈ (knows (calls hist)).stars, ∃ c ∈ (knows (calls hist)).stars,
      (a.at' ≠ b.at' ∧ b.at' ≠ c.at' ∧ c.at' ≠ a.at') ∧ (ty = .triangleIn → Inside (1 / 10) z a.at' b.at' c.at') ∧
      ∀ h : ℚ, 1 / 1000 ≤ h → Tall h a.at' b.at' c.at' →
        ∃ f : Pt ℚ → Pt ℚ, IsAffine f ∧ (∀ k ∈ [a, b, c], StoodAt (2⁻¹ ^ 42) k (f k.at') ∧ |(f k.at').y| ≤ 91) ∧
          ∀ M, Accurate M → |(f z).y| ≤ 200 → ∀ lat lst : ℚ, |lat| ≤ 361 → |lst| ≤ 361 →
            ∃ ra dec, getCalibratedOrientation M (setOrientation T z) lat lst = .ok (ty, ra, dec) ∧ -2⁻¹ ^ 1000 ≤ ra ∧ ra ≤ 360 ∧ |dec| ≤ 90 + 2⁻¹ ^ 42 ∧
              NearDirection (1 / (250000 * h ^ 2)) (f z).x (f z).y ra dec lat lst := by
  obtain ⟨a, ha, b, hb, c, hc, -, h⟩ := triangle_reading hist hF T hr hs z hz ty hty hty'
  exact ⟨a, ha, b, hb, c, hc, h⟩

theorem tall_perm {h : ℚ} {p q r x y z : Pt ℚ} (H : Tall h p q r) (hx : x = p ∨ x = q ∨ x = r) (hy : y = p ∨ y = q ∨ y = r) (hz : z = p ∨ z = q ∨ z = r)
    (h1 : x ≠ y) (h2 : y ≠ z) (h3 : z ≠ x) : Tall h x y z := by
  obtain ⟨a0, a1, a2, a3, a4⟩ := H
  have sym : ∀ u v : Pt ℚ, dist2 v u = dist2 u v := fun u v => by unfold dist2; ring
  have rot : ∀ u v w : Pt ℚ, orient v w u = orient u v w := fun u v w => by unfold orient; ring
  have sw : ∀ u v w : Pt ℚ, orient v u w = -orient u v w := fun u v w => by unfold orient; ring
  have R : ∀ {u v w : Pt ℚ}, Tall h u v w → Tall h v w u := by
    rintro u v w ⟨b0, b1, b2, b3, b4⟩
    refine ⟨b0, ?_, ?_, ?_, ?_⟩ <;> rw [rot] <;> assumption
  have S : ∀ {u v w : Pt ℚ}, Tall h u v w → Tall h v u w := by
    rintro u v w ⟨b0, b1, b2, b3, b4⟩
    refine ⟨b0, ?_, ?_, ?_, ?_⟩ <;> rw [sw]
    · exact neg_ne_zero.2 b1
    · rw [neg_sq, sym]; exact b2
    · rw [neg_sq, sym]; exact b4
    · rw [neg_sq, sym]; exact b3
  have H : Tall h p q r := ⟨a0, a1, a2, a3, a4⟩
  rcases hx with rfl | rfl | rfl <;> rcases hy with rfl | rfl | rfl <;> rcases hz with rfl | rfl | rfl <;>
    first
      | exact absurd rfl h1
      | exact absurd rfl h2
      | exact absurd rfl h3
      | exact H
      | exact R H
      | exact R (R H)
      | exact S H
      | exact S (R H)
      | exact S (R (R H))

/-- **C79.** Three known stars, the heights of the triangle of their orientations at least `h ≥ 1/1000` degrees.  Pointing at one of them as during its sync
is recognised as inside the triangle, and reports its position, up to `1/(100000 h²)` (radians), at any sidereal time - unless the triangulation
has found no triangle, when the readings are of type `line` (C79_line). -/
theorem C79_three_stars (hist : List (Libm × Align64.Env σ × Op)) (hF : ∀ e ∈ hist, Fair e) (T : Tel) (hr : run hist new = .ok T) (a b c : Star)
    (hs : (knows (calls hist)).stars = [a, b, c]) (h : ℚ) (hh : 1 / 1000 ≤ h) (H : Tall h a.at' b.at' c.at') (M : Libm) (hM : Accurate M)
    (s : Star) (hk : s ∈ [a, b, c]) (lst : ℚ) (hlst : |lst| ≤ 361) :
    (∀ z, Align64.getTransformationType T.alignment z = .ok .line) ∨
    ∃ ra dec, getCalibratedOrientation M (setOrientation T s.at') s.lat lst = .ok (.triangleIn, ra, dec) ∧ -2⁻¹ ^ 1000 ≤ ra ∧ ra ≤ 360 ∧ |dec| ≤ 90 + 2⁻¹ ^ 42 ∧
      SamePlace (1 / (100000 * h ^ 2)) s ra dec lst := by
  have hR : Rep T (knows (calls hist)) := run_known hF hr
  have hn : T.alignment.numVertices = 3 := by rw [hR.inv.num, hs]; rfl
  by_cases ht : T.alignment.triangles = []
  · left
    intro z
    unfold Align64.getTransformationType; rw [ht]; simp only; rw [if_neg (by omega), if_pos (by omega)]
  right
  have h1 : 1 ≤ T.alignment.numVertices := by omega
  have hk' : s ∈ (knows (calls hist)).stars := by rw [hs]; exact hk
  have sane : ∀ k ∈ [a, b, c], SaneDirection k.at' ∧ |k.lat| ≤ 361 := by
    intro k hk
    obtain ⟨v, -, hv⟩ := hR.inv.stores.mem (e := k) (by rw [hs]; exact hk)
    exact ⟨hv.at_eq ▸ hv.sane, hv.lat⟩
  obtain ⟨hz, hlat⟩ := sane s hk
  -- the star is a corner of the triangle that is used
  have hty : Align64.getTransformationType T.alignment s.at' = .ok .triangleIn := by
    obtain ⟨i, t, ti, -, tc⟩ := choice hz.2 (hR.corners h1) ht
    rcases tc with ⟨h, -⟩ | ⟨-, h⟩
    · exact h
    · exfalso
      have tm := List.mem_of_getElem? ti
      have hf := h t tm
      obtain ⟨i1, i2, i3, i4, i5, i6⟩ := (hR.ready h1).2 t tm
      obtain ⟨v, hv, hve⟩ := hR.inv.stores.mem hk'
      obtain ⟨j, hj⟩ := List.mem_iff_getElem?.1 hv
      have hj3 : j < 3 := by
        obtain ⟨b1, -⟩ := List.getElem?_eq_some_iff.1 hj
        unfold Align64.State.used at b1
        rw [List.length_take] at b1
        omega
      have hjv : T.alignment.vertices[j]? = some v := by
        unfold Align64.State.used at hj
        rw [List.getElem?_take, if_pos (by omega)] at hj
        exact hj
      obtain ⟨u, u1, -, _, -, u4⟩ := hR.inv.index i1
      obtain ⟨w, w1, -, _, -, w4⟩ := hR.inv.index i2
      obtain ⟨x, x1, -, _, -, x4⟩ := hR.inv.index i3
      have hcases : j = t.p1 ∨ j = t.p2 ∨ j = t.p3 := by omega
      rw [inTri_ok u1 w1 x1] at hf
      have := corner_inside (z := s.at') u4.sane.2 w4.sane.2 x4.sane.2 (by
        rw [← hve.at_eq]
        rcases hcases with rfl | rfl | rfl
        · rw [hjv] at u1; cases u1; exact Or.inl rfl
        · rw [hjv] at w1; cases w1; exact Or.inr (Or.inl rfl)
        · rw [hjv] at x1; cases x1; exact Or.inr (Or.inr rfl))
      rw [this] at hf
      cases hf
  obtain ⟨a', ha, b', hb, c', hc, ⟨n1, n2, n3⟩, -, rd⟩ := C79_triangle hist hF T hr (by rw [hs]; simp) s.at' hz _ hty (Or.inl rfl)
  rw [hs] at ha hb hc
  simp only [List.mem_cons, List.not_mem_nil, or_false] at ha hb hc
  have at3 : ∀ {k : Star}, k = a ∨ k = b ∨ k = c → k.at' = a.at' ∨ k.at' = b.at' ∨ k.at' = c.at' := by
    intro k hk; rcases hk with rfl | rfl | rfl <;> simp
  have H' := tall_perm H (at3 ha) (at3 hb) (at3 hc) n1 n2 n3
  obtain ⟨f, -, f1, rd⟩ := rd h hh H'
  have hin : s ∈ [a', b', c'] := by
    simp only [List.mem_cons, List.not_mem_nil, or_false] at hk ⊢
    have e1 : a' ≠ b' := fun h => n1 (by rw [h])
    have e2 : b' ≠ c' := fun h => n2 (by rw [h])
    have e3 : c' ≠ a' := fun h => n3 (by rw [h])
    rcases ha with rfl | rfl | rfl <;> rcases hb with rfl | rfl | rfl <;> rcases hc with rfl | rfl | rfl <;>
      first
        | exact absurd rfl e1
        | exact absurd rfl e2
        | exact absurd rfl e3
        | tauto
  obtain ⟨g1, g2⟩ := f1 s hin
  obtain ⟨ra, dec, e, r1, r2, r3, n⟩ := rd M hM (by linarith) s.lat lst hlat hlst
  obtain ⟨-, t2, -⟩ := tri_small H hh (sane a (by simp)).1.2 (sane b (by simp)).1.2 (sane c (by simp)).1.2
  obtain ⟨m1, m2, m3⟩ := same_place (by positivity) (by positivity) g1 n
  exact ⟨ra, dec, e, r1, r2, r3, m1.trans t2, m2.trans t2, m3.trans t2⟩

end Verif.Telescope64
