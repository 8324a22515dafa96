import Verif.Lemmas.Telescope64Read
import Verif.Props.Linalg64

/-!
# The alignment in IEEE arithmetic: readings
-/

namespace Verif.Telescope64

open Verif Verif.Align Verif.Linalg Verif.Linalg64 Verif.Coord64 Verif.Spec Verif.Align64

theorem near_mono {t t' A a α δ φ l : ℝ} (h : t ≤ t') (n : NearDirection t A a α δ φ l) : NearDirection t' A a α δ φ l :=
  ⟨n.1.trans h, n.2.trans h, n.3.trans h⟩

/-- From the calibrated direction to the reported position. -/
theorem report_near {M : Libm} (hM : Accurate M) {o v : Pt ℚ} {e : ℚ} (h1 : o.x ≤ 360) (h2 : -2⁻¹ ^ 1000 ≤ o.x) (hn : NearTurn e o v) (hv : |v.y| + e ≤ 361)
    {lat lst : ℚ} (hl : |lat| ≤ 361) (ht : |lst| ≤ 361) :
    ∃ ra dec, horizontalToEquatorial M o.x o.y lat lst = .ok (ra, dec) ∧ -2⁻¹ ^ 1000 ≤ ra ∧ ra ≤ 360 ∧ |dec| ≤ 90 + 2⁻¹ ^ 42 ∧
      NearDirection (2⁻¹ ^ 43 + (e + e) * (3.15 / 180)) v.x v.y ra dec lat lst := by
  obtain ⟨⟨k, n1⟩, n2⟩ := hn
  have p1 : (2⁻¹ : ℚ) ^ 1000 ≤ 1 := pow_le_one₀ (by norm_num) (by norm_num)
  obtain ⟨ra, dec, h, r1, r2, r3, n⟩ := C69_h2e M hM o.x o.y lat lst (by rw [abs_le]; constructor <;> linarith)
    (by have := abs_sub_abs_le_abs_sub o.y v.y; linarith) hl ht
  refine ⟨ra, dec, h, r1, r2, r3, OneStar64.near_shift n ⟨-k, ?_⟩ ?_⟩
  · have : ((|o.x - v.x - 360 * k| : ℚ) : ℝ) ≤ (e : ℝ) := by exact_mod_cast n1
    push_cast at this
    rw [← abs_neg]
    refine le_trans (le_of_eq (congrArg abs ?_)) this
    push_cast; ring
  · have : ((|o.y - v.y| : ℚ) : ℝ) ≤ (e : ℝ) := by exact_mod_cast n2
    push_cast at this
    rwa [abs_sub_comm]

theorem same_place {k : Star} {p : Pt ℚ} {t1 t2 : ℝ} {ra dec t' : ℚ} (h0 : 0 ≤ t1) (h1 : 0 ≤ t2) (h : StoodAt t1 k p)
    (h' : NearDirection t2 p.x p.y ra dec k.lat t') : SamePlace (2 * (t1 + t2)) k ra dec t' := by
  obtain ⟨m1, m2, m3⟩ := near_near h h'
  exact ⟨m1, m2.trans (by linarith), m3⟩

/-! ### What the test for containment says -/

theorem err64 {q : ℚ} (k : ℕ) (h : |q| < 2 ^ k) (hk : k ≤ 60) : |rnd b64 q - q| ≤ 2 ^ k / 2 ^ 54 := by
  have := rnd_error_lt (F := b64) (q := q) (k := k) (by exact_mod_cast h) (by simp [b64]; omega)
  refine this.trans (le_of_eq ?_)
  rw [show ((k : ℤ) - b64.prec - 1) = (k : ℤ) - 54 by simp [b64]; ring, zpow_sub₀ (by norm_num)]
  norm_cast

theorem err32 {q : ℚ} (k : ℕ) (h : |q| < 2 ^ k) (hk : k ≤ 60) : |rnd b32 q - q| ≤ 2 ^ k / 2 ^ 25 := by
  have := rnd_error_lt (F := b32) (q := q) (k := k) (by exact_mod_cast h) (by simp [b32]; omega)
  refine this.trans (le_of_eq ?_)
  rw [show ((k : ℤ) - b32.prec - 1) = (k : ℤ) - 25 by simp [b32]; ring, zpow_sub₀ (by norm_num)]
  norm_cast

theorem term_near {x y z : ℚ} (hx : |x| ≤ 360) (hy : |y| ≤ 91) (hz : |z| ≤ 91) : |term x y z - x * (y - z)| ≤ 1 / 10 ^ 11 := by
  obtain ⟨-, a2⟩ := op64 (q := y - z) 182 ((abs_sub _ _).trans (by push_cast; linarith)) (by norm_num)
  have e1 := err64 (q := y - z) 8 ((abs_sub _ _).trans_lt (by norm_num; linarith)) (by norm_num)
  have b : |x * rnd b64 (y - z)| ≤ 360 * 182 := by
    rw [abs_mul]; exact mul_le_mul hx (by exact_mod_cast a2) (abs_nonneg _) (by norm_num)
  have e2 := err64 (q := x * rnd b64 (y - z)) 16 (b.trans_lt (by norm_num)) (by norm_num)
  have e3 : |x * rnd b64 (y - z) - x * (y - z)| ≤ 360 * (2 ^ 8 / 2 ^ 54) := by
    rw [← mul_sub, abs_mul]; exact mul_le_mul hx e1 (abs_nonneg _) (by norm_num)
  unfold term
  refine (abs_sub_le _ (x * rnd b64 (y - z)) _).trans ((add_le_add e2 e3).trans (by norm_num))

theorem area_near {p q r : Pt ℚ} (hp : Range p) (hq : Range q) (hr : Range r) : abs (2 * area p q r - |orient p q r|) ≤ 1 / 10 ^ 9 := by
  obtain ⟨-, a2⟩ := term_ok hp.1 hq.2 hr.2
  obtain ⟨-, b2⟩ := term_ok hq.1 hr.2 hp.2
  obtain ⟨-, c2⟩ := term_ok hr.1 hp.2 hq.2
  have a3 := term_near hp.1 hq.2 hr.2
  have b3 := term_near hq.1 hr.2 hp.2
  have c3 := term_near hr.1 hp.2 hq.2
  obtain ⟨-, d2⟩ := op64 (q := term p.x q.y r.y + term q.x r.y p.y) 131040 ((abs_add_le _ _).trans (by push_cast; linarith)) (by norm_num)
  have d3 := err64 (q := term p.x q.y r.y + term q.x r.y p.y) 17 ((abs_add_le _ _).trans_lt (by norm_num; linarith)) (by norm_num)
  have e0 : |rnd b64 (term p.x q.y r.y + term q.x r.y p.y) + term r.x p.y q.y| ≤ 196560 := (abs_add_le _ _).trans (by push_cast at d2; linarith)
  obtain ⟨-, e2⟩ := op64 (q := rnd b64 (term p.x q.y r.y + term q.x r.y p.y) + term r.x p.y q.y) 196560 (by exact_mod_cast e0) (by norm_num)
  have e3 := err64 (q := rnd b64 (term p.x q.y r.y + term q.x r.y p.y) + term r.x p.y q.y) 18 (e0.trans_lt (by norm_num)) (by norm_num)
  have f3 := err64 (q := rnd b64 (rnd b64 (term p.x q.y r.y + term q.x r.y p.y) + term r.x p.y q.y) / 2) 17
    (by rw [abs_div, abs_two]; push_cast at e2; norm_num; linarith) (by norm_num)
  unfold area
  have eo : orient p q r = p.x * (q.y - r.y) + q.x * (r.y - p.y) + r.x * (p.y - q.y) := by unfold orient; ring
  rw [show (2 : ℚ) * |rnd b64 (rnd b64 (rnd b64 (term p.x q.y r.y + term q.x r.y p.y) + term r.x p.y q.y) / 2)| =
    |2 * rnd b64 (rnd b64 (rnd b64 (term p.x q.y r.y + term q.x r.y p.y) + term r.x p.y q.y) / 2)| by rw [abs_mul, abs_two]]
  refine (abs_abs_sub_abs_le_abs_sub _ _).trans ?_
  rw [eo]
  rw [abs_le] at a3 b3 c3 d3 e3 f3 ⊢
  norm_num at a3 b3 c3 d3 e3 f3 ⊢
  obtain ⟨_, _⟩ := a3
  obtain ⟨_, _⟩ := b3
  obtain ⟨_, _⟩ := c3
  obtain ⟨_, _⟩ := d3
  obtain ⟨_, _⟩ := e3
  obtain ⟨_, _⟩ := f3
  constructor <;> linarith

/-- A direction that passes the test is in the triangle, up to a tenth of a square degree. -/
theorem inside_near {z p q r : Pt ℚ} (hz : Range z) (hp : Range p) (hq : Range q) (hr : Range r) (h : Align64.isInTriangle z p q r = .ok true) :
    Inside (1 / 10) z p q r := by
  have hl : fl b64 (1 / 10000) = .ok (rnd b64 (1 / 10000)) := by decide +kernel
  have l1 : rnd b64 (1 / 10000) < 1 / 1000 := by decide +kernel
  obtain ⟨a1, a2, a3⟩ := area_ok hp hq hr
  obtain ⟨b1, b2, b3⟩ := area_ok hz hq hr
  obtain ⟨c1, c2, c3⟩ := area_ok hp hz hr
  obtain ⟨d1, d2, d3⟩ := area_ok hp hq hz
  have o : ∀ {x : ℚ}, 0 ≤ x → x ≤ 98280 → fl b32 x = .ok (rnd b32 x) ∧ |rnd b32 x| ≤ (98280 : ℕ) := fun h0 h1 =>
    op32 98280 (by rw [abs_of_nonneg h0]; exact_mod_cast h1) (by norm_num)
  have er : ∀ {x : ℚ}, 0 ≤ x → x ≤ 98280 → |rnd b32 x - x| ≤ 2 ^ 17 / 2 ^ 25 := fun h0 h1 =>
    err32 17 (by rw [abs_of_nonneg h0]; norm_num; linarith) (by norm_num)
  obtain ⟨a4, a5⟩ := o a2 a3
  obtain ⟨b4, b5⟩ := o b2 b3
  obtain ⟨c4, c5⟩ := o c2 c3
  obtain ⟨d4, d5⟩ := o d2 d3
  push_cast at a5 b5 c5 d5
  have s1 : |rnd b32 (area z q r) + rnd b32 (area p z r)| ≤ 196560 := (abs_add_le _ _).trans (by linarith)
  obtain ⟨e1, e2⟩ := op32 (q := rnd b32 (area z q r) + rnd b32 (area p z r)) 196560 (by exact_mod_cast s1) (by norm_num)
  push_cast at e2
  have s2 : |rnd b32 (rnd b32 (area z q r) + rnd b32 (area p z r)) + rnd b32 (area p q z)| ≤ 294840 := (abs_add_le _ _).trans (by linarith)
  obtain ⟨f1, f2⟩ := op32 (q := rnd b32 (rnd b32 (area z q r) + rnd b32 (area p z r)) + rnd b32 (area p q z)) 294840 (by exact_mod_cast s2) (by norm_num)
  push_cast at f2
  obtain ⟨g1, -⟩ := op32 (q := rnd b32 (area p q r) - rnd b32 (rnd b32 (rnd b32 (area z q r) + rnd b32 (area p z r)) + rnd b32 (area p q z))) 400000
    ((abs_sub _ _).trans (by push_cast; linarith)) (by norm_num)
  have e3 := err32 (q := rnd b32 (area z q r) + rnd b32 (area p z r)) 18 (s1.trans_lt (by norm_num)) (by norm_num)
  have f3 := err32 (q := rnd b32 (rnd b32 (area z q r) + rnd b32 (area p z r)) + rnd b32 (area p q z)) 19 (s2.trans_lt (by norm_num)) (by norm_num)
  unfold Align64.isInTriangle at h
  simp only [a1, b1, c1, d1, bind_ok, a4, b4, c4, d4, e1, f1, g1, hl, pure_ok, Except.ok.injEq, decide_eq_true_eq] at h
  obtain ⟨D, hD⟩ : ∃ D, D = rnd b32 (area p q r) - rnd b32 (rnd b32 (rnd b32 (area z q r) + rnd b32 (area p z r)) + rnd b32 (area p q z)) := ⟨_, rfl⟩
  rw [← hD] at h
  have hD1 : |D| < 2 ^ 0 := by
    by_contra hc
    have hc := not_lt.1 hc
    rw [pow_zero] at hc
    have r1 : rnd b32 1 = 1 := by decide +kernel
    have : 1 ≤ |rnd b32 D| := by
      rcases le_abs'.1 hc with h' | h'
      · have := rnd_mono (F := b32) (by decide) h'
        rw [rnd_neg, r1] at this
        rw [abs_of_nonpos (by linarith)]; linarith
      · have := rnd_mono (F := b32) (by decide) h'
        rw [r1] at this
        exact this.trans (le_abs_self _)
    linarith
  have g3 := err32 (q := D) 0 hD1 (by norm_num)
  have a6 := er a2 a3
  have b6 := er b2 b3
  have c6 := er c2 c3
  have d6 := er d2 d3
  have a7 := area_near hp hq hr
  have b7 := area_near hz hq hr
  have c7 := area_near hp hz hr
  have d7 := area_near hp hq hz
  unfold Inside
  rw [abs_le] at a6 b6 c6 d6 e3 f3 g3
  rw [abs_sub_le_iff] at a7 b7 c7 d7
  rw [abs_lt] at h
  norm_num at a6 b6 c6 d6 e3 f3 g3 h l1 a7 b7 c7 d7
  linarith [a6.1, a6.2, b6.1, b6.2, c6.1, c6.2, d6.1, d6.2, e3.1, e3.2, f3.1, f3.2, g3.1, g3.2, h.1, h.2, a7.1, a7.2, b7.1, b7.2, c7.1, c7.2, d7.1, d7.2]

/-! ### One star, no star -/

theorem point_near {v : VertexPair ℚ} {z : Pt ℚ} (a1 : |v.actual.x| ≤ 360) (a2 : |v.actual.y| ≤ 91) (a3 : |v.reference.x| ≤ 361) (a4 : |v.reference.y| ≤ 91)
    (hz : Range z) : ∃ o, calibrate (Align64.pointMatrix v) z = .ok o ∧ o.x ≤ 360 ∧ -2⁻¹ ^ 1000 ≤ o.x ∧
      NearTurn (2⁻¹ ^ 41) o ⟨v.reference.x + (z.x - v.actual.x), v.reference.y + (z.y - v.actual.y)⟩ := by
  have he := Helper.eps_pos
  have hs := Helper.eps_small
  norm_num at hs
  obtain ⟨a11, a12⟩ := abs_le.1 a1
  obtain ⟨a21, a22⟩ := abs_le.1 a2
  obtain ⟨a31, a32⟩ := abs_le.1 a3
  obtain ⟨a41, a42⟩ := abs_le.1 a4
  obtain ⟨z1, z2⟩ := hz
  obtain ⟨z11, z12⟩ := abs_le.1 z1
  obtain ⟨z21, z22⟩ := abs_le.1 z2
  obtain ⟨dx, hdx, ex⟩ := Helper.wide_fl_near NexStar.wide_b64 10 (by norm_num) (v.reference.x - v.actual.x) (by rw [abs_lt]; norm_num; constructor <;> linarith)
  obtain ⟨dy, hdy, ey⟩ := Helper.wide_fl_near NexStar.wide_b64 8 (by norm_num) (v.reference.y - v.actual.y) (by rw [abs_lt]; norm_num; constructor <;> linarith)
  obtain ⟨ex1, ex2⟩ := abs_le.1 ex
  obtain ⟨ey1, ey2⟩ := abs_le.1 ey
  norm_num at ex1 ex2 ey1 ey2
  obtain ⟨p1, hp1, f1⟩ := Helper.wide_fl_near NexStar.wide_b64 9 (by norm_num) (1 * z.x) (by rw [one_mul, abs_lt]; norm_num; constructor <;> linarith)
  obtain ⟨f1a, f1b⟩ := abs_le.1 f1
  norm_num at f1a f1b
  have y1 : fl b64 (0 * z.y) = .ok 0 := by rw [zero_mul]; decide +kernel
  obtain ⟨p2, hp2, f2⟩ := Helper.wide_fl_near NexStar.wide_b64 9 (by norm_num) (p1 + 0) (by rw [abs_lt]; norm_num; constructor <;> linarith)
  obtain ⟨f2a, f2b⟩ := abs_le.1 f2
  norm_num at f2a f2b
  obtain ⟨p3, hp3, f3⟩ := Helper.wide_fl_near NexStar.wide_b64 10 (by norm_num) (dx * 1) (by rw [mul_one, abs_lt]; norm_num; constructor <;> linarith)
  obtain ⟨f3a, f3b⟩ := abs_le.1 f3
  norm_num at f3a f3b
  obtain ⟨x, hx, f4⟩ := Helper.wide_fl_near NexStar.wide_b64 11 (by norm_num) (p2 + p3) (by rw [abs_lt]; norm_num; constructor <;> linarith)
  obtain ⟨f4a, f4b⟩ := abs_le.1 f4
  norm_num at f4a f4b
  have y2 : fl b64 (0 * z.x) = .ok 0 := by rw [zero_mul]; decide +kernel
  obtain ⟨q1, hq1, g1⟩ := Helper.wide_fl_near NexStar.wide_b64 7 (by norm_num) (1 * z.y) (by rw [one_mul, abs_lt]; norm_num; constructor <;> linarith)
  obtain ⟨g1a, g1b⟩ := abs_le.1 g1
  norm_num at g1a g1b
  obtain ⟨q2, hq2, g2⟩ := Helper.wide_fl_near NexStar.wide_b64 7 (by norm_num) (0 + q1) (by rw [abs_lt]; norm_num; constructor <;> linarith)
  obtain ⟨g2a, g2b⟩ := abs_le.1 g2
  norm_num at g2a g2b
  obtain ⟨q3, hq3, g3⟩ := Helper.wide_fl_near NexStar.wide_b64 8 (by norm_num) (dy * 1) (by rw [mul_one, abs_lt]; norm_num; constructor <;> linarith)
  obtain ⟨g3a, g3b⟩ := abs_le.1 g3
  norm_num at g3a g3b
  obtain ⟨y, hy, g4⟩ := Helper.wide_fl_near NexStar.wide_b64 9 (by norm_num) (q2 + q3) (by rw [abs_lt]; norm_num; constructor <;> linarith)
  obtain ⟨g4a, g4b⟩ := abs_le.1 g4
  norm_num at g4a g4b
  have rx : Representable b64 x := OneStar64.fl_rep (by decide) hx
  have ry : Representable b64 y := OneStar64.fl_rep (by decide) hy
  have ap : Linalg64.apply (Align64.pointMatrix v) z = .ok ⟨x, y⟩ := by
    show (do
      let x ← add (add (mulD (.ok 1) (.ok z.x)) (mulD (.ok 0) (.ok z.y))) (mulD (sub (.ok v.reference.x) (.ok v.actual.x)) (.ok 1))
      let y ← add (add (mulD (.ok 0) (.ok z.x)) (mulD (.ok 1) (.ok z.y))) (mulD (sub (.ok v.reference.y) (.ok v.actual.y)) (.ok 1))
      return (⟨x, y⟩ : Pt ℚ)) = _
    simp only [add, mulD, sub, bind_ok, hp1, y1, hp2, hdx, hp3, hx, y2, hq1, hq2, hdy, hq3, hy, pure_ok]
  have e42 : (2⁻¹ : ℚ) ^ 42 = 2048 * Helper.eps := by unfold Helper.eps; norm_num
  obtain ⟨o, o1, o2, o3, ⟨k, o4⟩, o5⟩ := calibrate_near (v := ⟨v.reference.x + (z.x - v.actual.x), v.reference.y + (z.y - v.actual.y)⟩) (e := 2 * 2⁻¹ ^ 42 - 1 / 2 ^ 45) ap ⟨rx, ry⟩
    (by rw [abs_le]; norm_num; constructor <;> linarith) (by
      have e45 : (1 : ℚ) / 2 ^ 45 = 256 * Helper.eps := by unfold Helper.eps; norm_num
      rw [e42, e45]
      constructor <;> rw [abs_le] <;> constructor <;> simp only <;> linarith)
  exact ⟨o, o1, o2, o3, ⟨k, o4.trans (by norm_num)⟩, o5.trans (by norm_num)⟩

theorem identity_near {z : Pt ℚ} (hz : Range z) : ∃ o, calibrate identity z = .ok o ∧ o.x ≤ 360 ∧ -2⁻¹ ^ 1000 ≤ o.x ∧ NearTurn (2⁻¹ ^ 41) o z := by
  have hi : Align64.pointMatrix ⟨⟨0, 0⟩, ⟨0, 0⟩⟩ = identity := by
    have z0 : fl b64 (0 - 0) = .ok 0 := by decide +kernel
    unfold Align64.pointMatrix sub
    simp only [bind_ok, z0]
    rfl
  obtain ⟨o, o1, o2, o3, o4⟩ := point_near (v := ⟨⟨0, 0⟩, ⟨0, 0⟩⟩) (z := z) (by simp) (by simp) (by simp) (by simp) hz
  rw [hi] at o1
  simp only [zero_add, sub_zero] at o4
  exact ⟨o, o1, o2, o3, o4⟩

/-! ### The stored points behind the indices -/

theorem Inv.index {s : Align64.State} {L : List Star} (hI : Inv s L) {i : Nat} (h : i < s.numVertices) :
    ∃ v, s.vertices[i]? = some v ∧ s.used[i]? = some v ∧ ∃ k ∈ L, StandsFor v k := by
  have hl : i < s.vertices.length := by rw [hI.len]; have := hI.num; have := hI.cap; omega
  have hu : s.used[i]? = some s.vertices[i] := by
    unfold Align64.State.used
    rw [List.getElem?_take, if_pos h, List.getElem?_eq_getElem hl]
  exact ⟨_, List.getElem?_eq_getElem hl, hu, hI.stores.mem' (List.mem_of_getElem? hu)⟩

theorem Inv.distinct {s : Align64.State} {L : List Star} (hI : Inv s L) {i j : Nat} {v w : VertexPair ℚ} (hv : s.used[i]? = some v) (hw : s.used[j]? = some w)
    (h : i ≠ j) : v.actual ≠ w.actual := by
  have hn : (s.used.map VertexPair.actual).Nodup := hI.stores.actual.nodup_iff.2 hI.nodup
  intro he
  have h1 : (s.used.map VertexPair.actual)[i]? = some v.actual := by rw [List.getElem?_map, hv]; rfl
  have h2 : (s.used.map VertexPair.actual)[j]? = some v.actual := by rw [List.getElem?_map, hw, he]; rfl
  obtain ⟨b1, b2⟩ := List.getElem?_eq_some_iff.1 h1
  obtain ⟨c1, c2⟩ := List.getElem?_eq_some_iff.1 h2
  exact h ((List.Nodup.getElem_inj_iff hn).1 (b2.trans c2.symm))

theorem Inv.lowest {s : Align64.State} {L : List Star} (hI : Inv s L) {i : Nat} {v : VertexPair ℚ} (hv : s.used[i]? = some v) {k : Star} (hk : k ∈ L) :
    v.actual.x ≤ k.at'.x ∨ ∃ j < i, ∃ w, s.used[j]? = some w ∧ w.actual = k.at' := by
  obtain ⟨w, hw, hs⟩ := hI.stores.mem hk
  obtain ⟨j, hj⟩ := List.mem_iff_getElem?.1 hw
  by_cases h : j < i
  · exact Or.inr ⟨j, h, w, hj, hs.at_eq⟩
  · left
    obtain ⟨b1, b2⟩ := List.getElem?_eq_some_iff.1 hj
    obtain ⟨c1, c2⟩ := List.getElem?_eq_some_iff.1 hv
    rw [← hs.at_eq]
    rcases Nat.lt_or_ge i j with h' | h'
    · have := List.pairwise_iff_getElem.1 hI.sorted i j c1 b1 h'
      rw [b2, c2] at this; exact this
    · have : i = j := by omega
      subst this
      rw [b2] at c2; rw [c2]

theorem Rep.corners {T : Tel} {k : Knows} (hR : Rep T k) (h : 1 ≤ T.alignment.numVertices) : Corners T.alignment T.alignment.triangles := by
  intro t ht
  obtain ⟨h1, h2, h3, -⟩ := (hR.ready h).2 t ht
  obtain ⟨a, a1, -, ka, -, a2⟩ := hR.inv.index h1
  obtain ⟨b, b1, -, kb, -, b2⟩ := hR.inv.index h2
  obtain ⟨c, c1, -, kc, -, c2⟩ := hR.inv.index h3
  exact ⟨a, b, c, a1, b1, c1, a2.sane.2, b2.sane.2, c2.sane.2⟩

end Verif.Telescope64
