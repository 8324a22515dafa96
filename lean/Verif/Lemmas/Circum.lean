import Verif.Lemmas.Mesh
import Verif.Lemmas.Triangulate

/-!
# The geometric tests of the triangulation, computed exactly
-/

namespace Verif.Align

variable {K : Type} [Field K] [LinearOrder K] [IsStrictOrderedRing K]

set_option linter.unusedSectionVars false

/-- The altitudes are equal or at least `EPSILON` apart. -/
def AltSep (a b : Pt K) : Prop := a.y = b.y ∨ eps ≤ |a.y - b.y|

theorem AltSep.symm {a b : Pt K} (h : AltSep a b) : AltSep b a := by
  rcases h with h | h
  · exact Or.inl h.symm
  · exact Or.inr (by rw [abs_sub_comm]; exact h)

theorem eps_pos : (0 : K) < eps := by unfold eps; positivity

theorem AltSep.eq {a b : Pt K} (h : AltSep a b) (hl : |a.y - b.y| < eps) : a.y = b.y := by
  rcases h with h | h
  · exact h
  · exact absurd hl (not_lt.2 h)

theorem ne_of_far {x y : K} (h : ¬ |x - y| < eps) : x - y ≠ 0 := by
  intro h0
  rw [h0, abs_zero] at h
  exact h eps_pos

theorem circumCircle_exact {a b c : Pt K} (hn : orient a b c ≠ 0) (h1 : AltSep a b) (h2 : AltSep b c) :
    ∃ o, circumCircle a b c = .ok (some o) ∧ o.Through a b c := by
  have hflat : ¬ (|a.y - b.y| < eps ∧ |b.y - c.y| < eps) := by
    rintro ⟨l1, l2⟩
    have e1 := h1.eq l1
    have e2 := h2.eq l2
    apply hn
    unfold orient
    rw [e1, e2]; ring
  unfold circumCircle
  rw [if_neg hflat]
  unfold centre
  by_cases l1 : |b.y - a.y| < eps
  · have e1 : b.y = a.y := h1.symm.eq l1
    have hd : c.y - b.y ≠ 0 := by
      intro h0
      apply hn
      have : c.y = a.y := by linarith
      unfold orient
      rw [this, e1]; ring
    rw [if_pos l1]
    refine ⟨_, rfl, ?_, ?_, ?_⟩ <;> unfold Circle.pow <;> simp only <;> rw [e1] at * <;> field_simp <;> ring
  · have hd1 := ne_of_far l1
    rw [if_neg l1]
    by_cases l2 : |c.y - b.y| < eps
    · have e2 : c.y = b.y := h2.symm.eq l2
      rw [if_pos l2]
      refine ⟨_, rfl, ?_, ?_, ?_⟩ <;> unfold Circle.pow <;> simp only <;> rw [e2] at * <;> field_simp <;> ring
    · have hd2 := ne_of_far l2
      rw [if_neg l2]
      have hm : -(b.x - a.x) / (b.y - a.y) - -(c.x - b.x) / (c.y - b.y) = orient a b c / ((b.y - a.y) * (c.y - b.y)) * (-1) := by
        unfold orient
        field_simp
        ring
      have hm0 : -(b.x - a.x) / (b.y - a.y) - -(c.x - b.x) / (c.y - b.y) ≠ 0 := by
        rw [hm]
        exact mul_ne_zero (div_ne_zero hn (mul_ne_zero hd1 hd2)) (by norm_num)
      simp only
      rw [if_neg hm0]
      refine ⟨_, rfl, ?_⟩
      set m1 := -(b.x - a.x) / (b.y - a.y) with em1
      set m2 := -(c.x - b.x) / (c.y - b.y) with em2
      set xc := (m1 * ((a.x + b.x) / 2) - m2 * ((b.x + c.x) / 2) + (b.y + c.y) / 2 - (a.y + b.y) / 2) / (m1 - m2) with exc
      have f1 : m1 * (b.y - a.y) = -(b.x - a.x) := by rw [em1]; field_simp
      have f2 : m2 * (c.y - b.y) = -(c.x - b.x) := by rw [em2]; field_simp
      have f3 : (m1 - m2) * xc = m1 * ((a.x + b.x) / 2) - m2 * ((b.x + c.x) / 2) + (b.y + c.y) / 2 - (a.y + b.y) / 2 := by
        rw [exc]; field_simp
      clear_value m1 m2 xc
      refine ⟨?_, ?_, ?_⟩ <;> unfold Circle.pow <;> simp only
      · linear_combination 2 * (xc - (a.x + b.x) / 2) * f1
      · ring
      · linear_combination -2 * (xc - (b.x + c.x) / 2) * f2 - 2 * (c.y - b.y) * f3

theorem covers_iff (o : Circle K) (p : Pt K) : o.covers p = true ↔ o.pow p ≤ 0 := by
  unfold Circle.covers Circle.pow
  rw [decide_eq_true_eq]
  constructor <;> intro h <;> nlinarith [h]

/-- If the circle is left of `p`, it covers no point that is not left of `p`. -/
theorem leftOf_sound {o : Circle K} {p q : Pt K} (h : o.leftOf p = true) (hq : p.x ≤ q.x) : 0 < o.pow q := by
  unfold Circle.leftOf at h
  rw [decide_eq_true_eq] at h
  unfold Circle.pow
  nlinarith [h.1, h.2, sq_nonneg (q.y - o.yc), mul_nonneg (sub_nonneg.2 hq) h.1.le, sq_nonneg (q.x - p.x)]

/-- The code's test for a triangle that is not degenerate. -/
theorem exactTest_exact {a b c : Pt K} (hn : orient a b c ≠ 0) (h1 : AltSep a b) (h2 : AltSep b c) (st : Option (Circle K)) (p : Pt K) :
    ∃ o, o.Through a b c ∧ exactTest st p a b c = .ok ⟨o.covers p, o.leftOf p, some o⟩ := by
  obtain ⟨o, ho, ht⟩ := circumCircle_exact hn h1 h2
  refine ⟨o, ht, ?_⟩
  unfold exactTest
  rw [ho]
  rfl

end Verif.Align
