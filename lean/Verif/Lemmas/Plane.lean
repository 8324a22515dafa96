import Verif.Spec.Align
import Mathlib.Tactic.LinearCombination
import Mathlib.Tactic.Linarith
import Mathlib.Tactic.Positivity
import Mathlib.Tactic.FieldSimp

/-!
# Plane geometry over an ordered field

Orientation, power of a point with respect to a circle, circles through two common points, crossing numbers.
-/

namespace Verif.Align

variable {K : Type} [Field K] [LinearOrder K] [IsStrictOrderedRing K]

set_option linter.unusedSectionVars false

theorem orient_cycle (a b c : Pt K) : orient b c a = orient a b c := by unfold orient; ring

theorem orient_flip (a b c : Pt K) : orient b a c = -orient a b c := by unfold orient; ring

/-- Power of the point `w` with respect to the circle: negative inside, zero on it, positive outside. -/
def Circle.pow (o : Circle K) (w : Pt K) : K := (w.x - o.xc) ^ 2 + (w.y - o.yc) ^ 2 - o.rsqr

/-- The circle passes through the three points. -/
def Circle.Through (o : Circle K) (a b c : Pt K) : Prop := o.pow a = 0 ∧ o.pow b = 0 ∧ o.pow c = 0

theorem Circle.Through.cycle {o : Circle K} {a b c : Pt K} (h : o.Through a b c) : o.Through b c a := ⟨h.2.1, h.2.2, h.1⟩

/-- Two circles through `a` and `b`: the difference of the powers is a multiple of the distance from the line `a b`. -/
theorem pencil {o o' : Circle K} {a b : Pt K} (ha : o.pow a = 0) (hb : o.pow b = 0) (ha' : o'.pow a = 0) (hb' : o'.pow b = 0)
    (u w : Pt K) : (o'.pow w - o.pow w) * orient a b u = (o'.pow u - o.pow u) * orient a b w := by
  unfold Circle.pow at *
  unfold orient
  linear_combination ((u.x - b.x) * (w.y - b.y) - (u.y - b.y) * (w.x - b.x)) * (ha' - ha)
    - ((u.x - a.x) * (w.y - a.y) - (u.y - a.y) * (w.x - a.x)) * (hb' - hb)

/-- There is only one circle through three points that are not collinear. -/
theorem pow_unique {o o' : Circle K} {a b c : Pt K} (h : o.Through a b c) (h' : o'.Through a b c) (hn : orient a b c ≠ 0) (w : Pt K) :
    o'.pow w = o.pow w := by
  have := pencil h.1 h.2.1 h'.1 h'.2.1 c w
  rw [h.2.2, h'.2.2, sub_zero, zero_mul] at this
  have := (mul_eq_zero.1 this).resolve_right hn
  linarith

/-- Neighbours: if the circle through `b a d` does not contain `c` strictly and `p` lies beyond the edge `a b` (or on its line) inside the
circle through `a b c`, then `p` lies inside the circle through `b a d`. -/
theorem neighbour_covers {o o' : Circle K} {a b c p : Pt K} (ho : o.Through a b c) (ha' : o'.pow a = 0) (hb' : o'.pow b = 0)
    (hc : orient a b c < 0) (hce : 0 ≤ o'.pow c) (hp : 0 ≤ orient a b p) (hop : o.pow p ≤ 0) : o'.pow p ≤ 0 := by
  have h := pencil ho.1 ho.2.1 ha' hb' c p
  rw [ho.2.2, sub_zero] at h
  -- (o' p - o p) * L c = o' c * L p ≥ 0, L c < 0
  have h1 : 0 ≤ (o'.pow p - o.pow p) * orient a b c := by rw [h]; exact mul_nonneg hce hp
  have h2 : o'.pow p - o.pow p ≤ 0 := by
    by_contra hcon
    push Not at hcon
    have := mul_neg_of_pos_of_neg hcon hc
    linarith
  linarith

/-- The circle through an edge `a b` and a new point `p` on the side of `c`, inside the circle through `a b c`: on this side it contains
nothing that the old circle did not contain. -/
theorem new_empty_near {o n : Circle K} {a b c p w : Pt K} (ho : o.Through a b c) (hn : n.Through a b p) (hp : orient a b p < 0)
    (hop : o.pow p ≤ 0) (hw : orient a b w ≤ 0) (how : 0 ≤ o.pow w) : 0 ≤ n.pow w := by
  have h := pencil ho.1 ho.2.1 hn.1 hn.2.1 p w
  rw [hn.2.2, zero_sub] at h
  -- (n w - o w) * L p = - o p * L w ≤ 0
  have h1 : (n.pow w - o.pow w) * orient a b p ≤ 0 := by
    rw [h]; exact mul_nonpos_of_nonneg_of_nonpos (by linarith) hw
  by_contra hcon
  push Not at hcon
  have : 0 < (n.pow w - o.pow w) * orient a b p := mul_pos_of_neg_of_neg (by linarith) hp
  linarith

/-- On the other side it contains nothing that the neighbour's circle, which does not contain `p`, did not contain. -/
theorem new_empty_far {o n : Circle K} {a b p w : Pt K} (ha : o.pow a = 0) (hb : o.pow b = 0) (hn : n.Through a b p)
    (hp : orient a b p < 0) (hop : 0 ≤ o.pow p) (hw : 0 ≤ orient a b w) (how : 0 ≤ o.pow w) : 0 ≤ n.pow w := by
  have h := pencil ha hb hn.1 hn.2.1 p w
  rw [hn.2.2, zero_sub] at h
  have h1 : (n.pow w - o.pow w) * orient a b p ≤ 0 := by
    rw [h]; exact mul_nonpos_of_nonpos_of_nonneg (by linarith) hw
  by_contra hcon
  push Not at hcon
  have : 0 < (n.pow w - o.pow w) * orient a b p := mul_pos_of_neg_of_neg (by linarith) hp
  linarith

/-! ### Crossing numbers -/

/-- The edge `a b` runs to the right over the vertical line through `q`, above `q`. -/
def Above (a b q : Pt K) : Prop := a.x ≤ q.x ∧ q.x < b.x ∧ orient a b q < 0

instance (a b q : Pt K) : Decidable (Above a b q) := inferInstanceAs (Decidable (_ ∧ _ ∧ _))

/-- Signed crossing of the edge `a b` with the upward vertical ray from `q`. -/
def crossing (q a b : Pt K) : ℤ := (if Above a b q then 1 else 0) - (if Above b a q then 1 else 0)

theorem crossing_anti (q a b : Pt K) : crossing q b a = -crossing q a b := by unfold crossing; ring

/-- How often the boundary of the triangle winds around `q` (clockwise). -/
def cover (q a b c : Pt K) : ℤ := crossing q a b + crossing q b c + crossing q c a

theorem cover_cycle (q a b c : Pt K) : cover q b c a = cover q a b c := by unfold cover; ring

/-- Comparison of two edges that start in `a`, at the abscissa of `q`. -/
theorem edges_from (a b c q : Pt K) : (b.x - a.x) * orient a c q - (c.x - a.x) * orient a b q = -((q.x - a.x) * orient a b c) := by
  unfold orient; ring

theorem fan_left {a b c q : Pt K} (hcw : orient a b c < 0) (ha : a.x ≤ q.x) (hb : q.x < b.x) (hc : q.x < c.x) (h : orient a c q < 0) :
    orient a b q < 0 := by
  have e := edges_from a b c q
  have h1 : 0 ≤ -((q.x - a.x) * orient a b c) := by nlinarith
  by_contra hcon
  push Not at hcon
  have h2 : (b.x - a.x) * orient a c q < 0 := mul_neg_of_pos_of_neg (by linarith) h
  have h3 : 0 ≤ (c.x - a.x) * orient a b q := mul_nonneg (by linarith) hcon
  linarith

theorem fan_right {a b c q : Pt K} (hcw : orient a b c < 0) (ha : q.x < a.x) (hb : b.x ≤ q.x) (hc : c.x ≤ q.x) (h : orient b a q < 0) :
    orient c a q < 0 := by
  have e : (a.x - b.x) * orient c a q - (a.x - c.x) * orient b a q = (a.x - q.x) * orient a b c := by unfold orient; ring
  by_contra hcon
  push Not at hcon
  have h1 : (a.x - q.x) * orient a b c < 0 := mul_neg_of_pos_of_neg (by linarith) hcw
  have h2 : (a.x - c.x) * orient b a q < 0 := mul_neg_of_pos_of_neg (by linarith) h
  have h3 : 0 ≤ (a.x - b.x) * orient c a q := mul_nonneg (by linarith) hcon
  linarith

/-- One corner left of the line (or on it), two right of it. -/
theorem cover_left {a b c q : Pt K} (hcw : orient a b c < 0) (ha : a.x ≤ q.x) (hb : q.x < b.x) (hc : q.x < c.x) :
    cover q a b c = (if orient a b q < 0 then 1 else 0) - (if orient a c q < 0 then 1 else 0) ∧ 0 ≤ cover q a b c ∧ cover q a b c ≤ 1 := by
  have e : cover q a b c = (if orient a b q < 0 then 1 else 0) - (if orient a c q < 0 then 1 else 0) := by
    unfold cover crossing Above
    have n1 : ¬ (b.x ≤ q.x) := not_le.2 hb
    have n2 : ¬ (c.x ≤ q.x) := not_le.2 hc
    simp only [ha, hb, hc, n1, n2, true_and, false_and, if_false]
    ring
  refine ⟨e, ?_, ?_⟩
  · rw [e]
    have := fan_left hcw ha hb hc
    split_ifs with h1 h2 h2
    · norm_num
    · norm_num
    · exact absurd (this h2) h1
    · norm_num
  · rw [e]
    split_ifs <;> norm_num

/-- Two corners left of the line (or on it), one right of it. -/
theorem cover_right {a b c q : Pt K} (hcw : orient a b c < 0) (ha : q.x < a.x) (hb : b.x ≤ q.x) (hc : c.x ≤ q.x) :
    cover q a b c = (if orient c a q < 0 then 1 else 0) - (if orient b a q < 0 then 1 else 0) ∧ 0 ≤ cover q a b c ∧ cover q a b c ≤ 1 := by
  have e : cover q a b c = (if orient c a q < 0 then 1 else 0) - (if orient b a q < 0 then 1 else 0) := by
    unfold cover crossing Above
    have n1 : ¬ (a.x ≤ q.x) := not_le.2 ha
    have n2 : ¬ (q.x < b.x) := not_lt.2 hb
    have n3 : ¬ (q.x < c.x) := not_lt.2 hc
    simp only [ha, hb, hc, n1, n2, n3, true_and, false_and, if_false, and_false]
    ring
  refine ⟨e, ?_, ?_⟩
  · rw [e]
    have := fan_right hcw ha hb hc
    split_ifs with h1 h2 h2
    · norm_num
    · norm_num
    · exact absurd (this h2) h1
    · norm_num
  · rw [e]
    split_ifs <;> norm_num

theorem cover_none_left {a b c q : Pt K} (ha : a.x ≤ q.x) (hb : b.x ≤ q.x) (hc : c.x ≤ q.x) : cover q a b c = 0 := by
  unfold cover crossing Above
  have n1 : ¬ (q.x < a.x) := not_lt.2 ha
  have n2 : ¬ (q.x < b.x) := not_lt.2 hb
  have n3 : ¬ (q.x < c.x) := not_lt.2 hc
  simp [n1, n2, n3]

theorem cover_none_right {a b c q : Pt K} (ha : q.x < a.x) (hb : q.x < b.x) (hc : q.x < c.x) : cover q a b c = 0 := by
  unfold cover crossing Above
  have n1 : ¬ (a.x ≤ q.x) := not_le.2 ha
  have n2 : ¬ (b.x ≤ q.x) := not_le.2 hb
  have n3 : ¬ (c.x ≤ q.x) := not_le.2 hc
  simp [n1, n2, n3]

/-- A clockwise triangle covers every point at most once. -/
theorem cover_bounds {a b c : Pt K} (q : Pt K) (hcw : orient a b c < 0) : 0 ≤ cover q a b c ∧ cover q a b c ≤ 1 := by
  have h2 : orient b c a < 0 := by rw [orient_cycle]; exact hcw
  have h3 : orient c a b < 0 := by rw [orient_cycle]; exact h2
  rcases le_or_gt a.x q.x with ha | ha <;> rcases le_or_gt b.x q.x with hb | hb <;> rcases le_or_gt c.x q.x with hc | hc
  · rw [cover_none_left ha hb hc]; norm_num
  · have := (cover_right h3 hc ha hb).2
    rwa [cover_cycle, cover_cycle] at this
  · have := (cover_right h2 hb hc ha).2
    rwa [cover_cycle] at this
  · exact (cover_left hcw ha hb hc).2
  · exact (cover_right hcw ha hb hc).2
  · have := (cover_left h2 hb hc ha).2
    rwa [cover_cycle] at this
  · have := (cover_left h3 hc ha hb).2
    rwa [cover_cycle, cover_cycle] at this
  · rw [cover_none_right ha hb hc]; norm_num

/-- `q` lies strictly inside the clockwise triangle. -/
def Inside (q a b c : Pt K) : Prop := orient a b q < 0 ∧ orient b c q < 0 ∧ orient c a q < 0

theorem Inside.cycle {q a b c : Pt K} (h : Inside q a b c) : Inside q b c a := ⟨h.2.1, h.2.2, h.1⟩

theorem orient_sum (a b c q : Pt K) : orient a b q + orient b c q + orient c a q = orient a b c := by unfold orient; ring

theorem bary_x (a b c q : Pt K) :
    orient b c q * (a.x - q.x) + orient c a q * (b.x - q.x) + orient a b q * (c.x - q.x) = 0 := by unfold orient; ring

theorem cover_inside {q a b c : Pt K} (h : Inside q a b c) : cover q a b c = 1 := by
  have hcw : orient a b c < 0 := by rw [← orient_sum a b c q]; linarith [h.1, h.2.1, h.2.2]
  have h2 : orient b c a < 0 := by rw [orient_cycle]; exact hcw
  have h3 : orient c a b < 0 := by rw [orient_cycle]; exact h2
  obtain ⟨i1, i2, i3⟩ := h
  have bx := bary_x a b c q
  rcases le_or_gt a.x q.x with ha | ha <;> rcases le_or_gt b.x q.x with hb | hb <;> rcases le_or_gt c.x q.x with hc | hc
  · -- all on the left: all on the line
    exfalso
    have e1 : 0 ≤ orient b c q * (a.x - q.x) := mul_nonneg_of_nonpos_of_nonpos i2.le (by linarith)
    have e2 : 0 ≤ orient c a q * (b.x - q.x) := mul_nonneg_of_nonpos_of_nonpos i3.le (by linarith)
    have e3 : 0 ≤ orient a b q * (c.x - q.x) := mul_nonneg_of_nonpos_of_nonpos i1.le (by linarith)
    have z1 : orient b c q * (a.x - q.x) = 0 := by linarith
    have z2 : orient c a q * (b.x - q.x) = 0 := by linarith
    have z3 : orient a b q * (c.x - q.x) = 0 := by linarith
    have x1 := (mul_eq_zero.1 z1).resolve_left i2.ne
    have x2 := (mul_eq_zero.1 z2).resolve_left i3.ne
    have x3 := (mul_eq_zero.1 z3).resolve_left i1.ne
    have : orient a b c = 0 := by
      unfold orient
      have : b.x - a.x = 0 := by linarith
      have h' : c.x - a.x = 0 := by linarith
      rw [this, h']; ring
    linarith
  · have e := (cover_right h3 hc ha hb).1
    rw [cover_cycle, cover_cycle] at e
    rw [e, if_pos i2, if_neg (by rw [orient_flip]; linarith)]; norm_num
  · have e := (cover_right h2 hb hc ha).1
    rw [cover_cycle] at e
    rw [e, if_pos i1, if_neg (by rw [orient_flip]; linarith)]; norm_num
  · rw [(cover_left hcw ha hb hc).1, if_pos i1, if_neg (by rw [orient_flip]; linarith)]; norm_num
  · rw [(cover_right hcw ha hb hc).1, if_pos i3, if_neg (by rw [orient_flip]; linarith)]; norm_num
  · have e := (cover_left h2 hb hc ha).1
    rw [cover_cycle] at e
    rw [e, if_pos i2, if_neg (by rw [orient_flip]; linarith)]; norm_num
  · have e := (cover_left h3 hc ha hb).1
    rw [cover_cycle, cover_cycle] at e
    rw [e, if_pos i3, if_neg (by rw [orient_flip]; linarith)]; norm_num
  · exfalso
    have e1 : orient b c q * (a.x - q.x) < 0 := mul_neg_of_neg_of_pos i2 (by linarith)
    have e2 : orient c a q * (b.x - q.x) < 0 := mul_neg_of_neg_of_pos i3 (by linarith)
    have e3 : orient a b q * (c.x - q.x) < 0 := mul_neg_of_neg_of_pos i1 (by linarith)
    linarith

/-! ### Overlap -/

/-- A small positive number that keeps two negative quantities negative. -/
theorem exists_small {A A' : K} (B B' : K) (hA : A < 0) (hA' : A' < 0) : ∃ t : K, 0 < t ∧ t < 1 ∧ (1 - t) * A + t * B < 0 ∧ (1 - t) * A' + t * B' < 0 := by
  have key : ∀ X Y : K, X < 0 → ∃ s : K, 0 < s ∧ s < 1 ∧ ∀ t, 0 < t → t ≤ s → (1 - t) * X + t * Y < 0 := by
    intro X Y hX
    have hd : 0 < -X + |Y| + 1 := by have := abs_nonneg Y; linarith
    refine ⟨-X / (2 * (-X + |Y| + 1)), by apply div_pos <;> linarith, ?_, ?_⟩
    · rw [div_lt_one (by linarith)]; have := abs_nonneg Y; linarith
    · intro t ht hts
      rw [le_div_iff₀ (by linarith)] at hts
      have hY := le_abs_self Y
      have h1 : t * Y ≤ t * |Y| := mul_le_mul_of_nonneg_left hY ht.le
      have h0 := abs_nonneg Y
      nlinarith
  obtain ⟨s, hs, hs1, h⟩ := key A B hA
  obtain ⟨s', hs', hs1', h'⟩ := key A' B' hA'
  refine ⟨min s s', lt_min hs hs', lt_of_le_of_lt (min_le_left _ _) hs1, h _ (lt_min hs hs') (min_le_left _ _), h' _ (lt_min hs hs') (min_le_right _ _)⟩

/-- Two clockwise triangles on the same directed edge overlap. -/
theorem overlap_edge {a b c d : Pt K} (hc : orient a b c < 0) (hd : orient a b d < 0) : ∃ q, Inside q a b c ∧ Inside q a b d := by
  have h1 : orient b d a < 0 := by rw [orient_cycle]; exact hd
  have h2 : orient d a b < 0 := by rw [orient_cycle]; exact h1
  obtain ⟨t, t0, t1, e1, e2⟩ := exists_small (A := orient b d a / 2) (A' := orient d a b / 2) (orient b d c) (orient d a c) (by linarith) (by linarith)
  set q : Pt K := ⟨(1 - t) / 2 * a.x + (1 - t) / 2 * b.x + t * c.x, (1 - t) / 2 * a.y + (1 - t) / 2 * b.y + t * c.y⟩ with hq
  have f1 : orient a b q = t * orient a b c := by rw [hq]; unfold orient; ring
  have f2 : orient b c q = (1 - t) / 2 * orient a b c := by rw [hq]; unfold orient; ring
  have f3 : orient c a q = (1 - t) / 2 * orient a b c := by rw [hq]; unfold orient; ring
  have g2 : orient b d q = (1 - t) * (orient b d a / 2) + t * orient b d c := by rw [hq]; unfold orient; ring
  have g3 : orient d a q = (1 - t) * (orient d a b / 2) + t * orient d a c := by rw [hq]; unfold orient; ring
  refine ⟨q, ⟨?_, ?_, ?_⟩, ⟨?_, ?_, ?_⟩⟩
  · rw [f1]; exact mul_neg_of_pos_of_neg t0 hc
  · rw [f2]; exact mul_neg_of_pos_of_neg (by linarith) hc
  · rw [f3]; exact mul_neg_of_pos_of_neg (by linarith) hc
  · rw [f1]; exact mul_neg_of_pos_of_neg t0 hc
  · rw [g2]; exact e1
  · rw [g3]; exact e2

end Verif.Align
