import Mathlib.Tactic.LinearCombination
import Verif.Spec.Align
import Verif.Lemmas.Float

/-!
# C45: the point-in-triangle test
-/

namespace Verif.Align

section Exact
variable {K : Type} [Field K] [LinearOrder K] [IsStrictOrderedRing K]

set_option linter.unusedSectionVars false

/-- `p` lies in the closed triangle `a b c`: it is a convex combination of the corners. -/
def InClosedTriangle (p a b c : Pt K) : Prop :=
  ∃ x y z : K, 0 ≤ x ∧ 0 ≤ y ∧ 0 ≤ z ∧ x + y + z = 1 ∧
    p.x = x * a.x + y * b.x + z * c.x ∧ p.y = x * a.y + y * b.y + z * c.y

theorem area_orient (a b c : Pt K) : triangleArea a b c = |orient a b c| / 2 := by
  unfold triangleArea
  rw [abs_div, abs_of_pos (by norm_num : (0 : K) < 2)]
  congr 2
  simp only [orient]; ring

theorem orient_split (p a b c : Pt K) : orient p b c + orient a p c + orient a b p = orient a b c := by
  simp only [orient]; ring

/-- **C45** In exact arithmetic every point of the closed triangle is accepted. -/
theorem C45_exact_accepts (p a b c : Pt K) (h : InClosedTriangle p a b c) : isInTriangle id p a b c = true := by
  obtain ⟨x, y, z, hx, hy, hz, hs, h1, h2⟩ := h
  have e1 : orient p b c = x * orient a b c := by
    simp only [orient, h1, h2]
    have : x = 1 - y - z := by linarith
    subst this; ring
  have e2 : orient a p c = y * orient a b c := by
    simp only [orient, h1, h2]
    have : x = 1 - y - z := by linarith
    subst this; ring
  have e3 : orient a b p = z * orient a b c := by
    simp only [orient, h1, h2]
    have : x = 1 - y - z := by linarith
    subst this; ring
  simp only [isInTriangle, id, area_orient, e1, e2, e3, abs_mul, abs_of_nonneg hx, abs_of_nonneg hy, abs_of_nonneg hz,
    decide_eq_true_eq]
  have : |orient a b c| / 2 - (x * |orient a b c| / 2 + y * |orient a b c| / 2 + z * |orient a b c| / 2) = 0 := by
    linear_combination (-|orient a b c| / 2) * hs
  rw [this, abs_zero]
  norm_num

/-- **C45** In exact arithmetic the test accepts exactly the points for which the areas of the three triangles they form with
the edges exceed the area of the triangle by less than 0.0001. -/
theorem C45_exact_iff (p a b c : Pt K) : isInTriangle id p a b c = true ↔
    triangleArea p b c + triangleArea a p c + triangleArea a b p < triangleArea a b c + 1 / 10000 := by
  have hge : triangleArea a b c ≤ triangleArea p b c + triangleArea a p c + triangleArea a b p := by
    simp only [area_orient]
    rw [← orient_split p a b c]
    have h1 := abs_add_le (orient p b c + orient a p c) (orient a b p)
    have h2 := abs_add_le (orient p b c) (orient a p c)
    linarith
  simp only [isInTriangle, id, decide_eq_true_eq]
  rw [abs_of_nonpos (by linarith)]
  constructor <;> intro h <;> linarith

/-- **C45** No point that lies outside by more than 0.0001, measured as twice the area of the triangle it forms with an edge
it lies beyond, is accepted. -/
theorem C45_exact_rejects (p a b c : Pt K)
    (h : (0 < orient a b c ∧ orient a b p ≤ -(1 / 10000)) ∨ (orient a b c < 0 ∧ 1 / 10000 ≤ orient a b p)) :
    isInTriangle id p a b c = false ∧ isInTriangle id p b c a = false ∧ isInTriangle id p c a b = false := by
  have cyc : ∀ u v w : Pt K, orient v w u = orient u v w := by intro u v w; simp only [orient]; ring
  have hs := orient_split p a b c
  have key : ¬ (triangleArea p b c + triangleArea a p c + triangleArea a b p < triangleArea a b c + 1 / 10000) := by
    simp only [area_orient]
    have h1 := abs_add_le (orient p b c) (orient a p c)
    rcases h with ⟨h0, h⟩ | ⟨h0, h⟩
    · rw [abs_of_pos h0, abs_of_neg (by linarith : orient a b p < 0)]
      have h2 := le_abs_self (orient p b c + orient a p c)
      linarith
    · rw [abs_of_neg h0, abs_of_pos (by linarith : 0 < orient a b p)]
      have h2 := neg_abs_le (orient p b c + orient a p c)
      linarith
  have swap : ∀ u v w : Pt K, isInTriangle id p u v w = isInTriangle id p v w u := by
    intro u v w
    apply Bool.eq_iff_iff.2
    rw [C45_exact_iff, C45_exact_iff]
    simp only [area_orient]
    rw [← cyc u v w, ← cyc p v w, ← cyc v w p, ← cyc u v p, ← cyc u p w]
    constructor <;> intro h <;> linarith
  have h1 : isInTriangle id p a b c = false := by
    cases hb : isInTriangle id p a b c with
    | false => rfl
    | true => exact absurd ((C45_exact_iff p a b c).1 hb) key
  refine ⟨h1, by rw [← swap]; exact h1, by rw [swap]; exact h1⟩

end Exact

/-! ### the `float` variables of the code -/

theorem rnd32_error (q : ℚ) : |rnd b32 q - q| ≤ |q| / 2 ^ 24 + 1 / 2 ^ 100 := by
  by_cases h : (2 : ℚ) ^ (b32.emin + b32.prec - 1) ≤ |q|
  · have := rnd_rel (F := b32) h
    have e : ((2 : ℚ) ^ (-(b32.prec : ℤ))) = 1 / 2 ^ 24 := by norm_num [b32]
    rw [e] at this
    have h2 : (0 : ℚ) < 1 / 2 ^ 100 := by positivity
    rw [mul_one_div] at this
    linarith
  · have hk : |q| < (2 : ℚ) ^ (b32.emin + b32.prec) := by
      refine lt_of_lt_of_le (not_le.1 h) ?_
      exact zpow_le_zpow_right₀ (by norm_num) (by omega)
    have := rnd_error_lt (F := b32) hk (by omega)
    have e : (2 : ℚ) ^ (b32.emin + ↑b32.prec - ↑b32.prec - 1) ≤ 1 / 2 ^ 100 := by norm_num [b32]
    have h2 : 0 ≤ |q| / 2 ^ 24 := by positivity
    linarith

/-- **C45** With the `float` variables of the code (round to nearest, 24 bits) every point of a closed triangle whose area is at
most 400 square degrees is accepted. -/
theorem C45_float_accepts (p a b c : Pt ℚ) (h : InClosedTriangle p a b c) (hA : triangleArea a b c ≤ 400) :
    isInTriangle (rnd b32) p a b c = true := by
  have hs : triangleArea p b c + triangleArea a p c + triangleArea a b p = triangleArea a b c := by
    obtain ⟨x, y, z, hx, hy, hz, hs, h1, h2⟩ := h
    have e1 : orient p b c = x * orient a b c := by
      simp only [orient, h1, h2]
      have : x = 1 - y - z := by linarith
      subst this; ring
    have e2 : orient a p c = y * orient a b c := by
      simp only [orient, h1, h2]
      have : x = 1 - y - z := by linarith
      subst this; ring
    have e3 : orient a b p = z * orient a b c := by
      simp only [orient, h1, h2]
      have : x = 1 - y - z := by linarith
      subst this; ring
    simp only [area_orient, e1, e2, e3, abs_mul, abs_of_nonneg hx, abs_of_nonneg hy, abs_of_nonneg hz]
    linear_combination (|orient a b c| / 2) * hs
  have n0 : 0 ≤ triangleArea a b c := abs_nonneg _
  have n1 : 0 ≤ triangleArea p b c := abs_nonneg _
  have n2 : 0 ≤ triangleArea a p c := abs_nonneg _
  have n3 : 0 ≤ triangleArea a b p := abs_nonneg _
  unfold isInTriangle
  simp only [decide_eq_true_eq]
  generalize triangleArea a b c = A at *
  generalize triangleArea p b c = A1 at *
  generalize triangleArea a p c = A2 at *
  generalize triangleArea a b p = A3 at *
  have f0 := rnd32_error A
  have f1 := rnd32_error A1
  have f2 := rnd32_error A2
  have f3 := rnd32_error A3
  rw [abs_of_nonneg n0] at f0
  rw [abs_of_nonneg n1] at f1
  rw [abs_of_nonneg n2] at f2
  rw [abs_of_nonneg n3] at f3
  have r1 : 0 ≤ rnd b32 A1 := rnd_nonneg n1
  have r2 : 0 ≤ rnd b32 A2 := rnd_nonneg n2
  have r3 : 0 ≤ rnd b32 A3 := rnd_nonneg n3
  generalize rnd b32 A = B at *
  generalize rnd b32 A1 = B1 at *
  generalize rnd b32 A2 = B2 at *
  generalize rnd b32 A3 = B3 at *
  have g1 := rnd32_error (B1 + B2)
  rw [abs_of_nonneg (by linarith : 0 ≤ B1 + B2)] at g1
  have r12 : 0 ≤ rnd b32 (B1 + B2) := rnd_nonneg (by linarith)
  generalize rnd b32 (B1 + B2) = B12 at *
  have g2 := rnd32_error (B12 + B3)
  rw [abs_of_nonneg (by linarith : 0 ≤ B12 + B3)] at g2
  generalize rnd b32 (B12 + B3) = S at *
  rw [abs_le] at f0 f1 f2 f3 g1 g2
  have hd : |B - S| ≤ 99 / 1000000 := by
    rw [abs_le]
    norm_num at f0 f1 f2 f3 g1 g2 ⊢
    constructor <;> linarith
  have g3 := rnd32_error (B - S)
  rw [abs_le] at g3
  have hle : |rnd b32 (B - S)| ≤ |B - S| + (|B - S| / 2 ^ 24 + 1 / 2 ^ 100) := by
    rw [abs_le]
    have := abs_le.1 (le_refl |B - S|)
    constructor <;> linarith [this.1, this.2, g3.1, g3.2]
  refine lt_of_le_of_lt hle ?_
  norm_num
  linarith

/-- **C45** (finding) Without a bound on the area it can reject points inside: a point well inside the triangle
(0, 0), (360, 0), (0, 90). -/
theorem C45_float_rejects_inside :
    InClosedTriangle (⟨3276807 / 32768, 983043 / 32768⟩ : Pt ℚ) ⟨0, 0⟩ ⟨360, 0⟩ ⟨0, 90⟩ ∧
    isInTriangle (rnd b32) ⟨3276807 / 32768, 983043 / 32768⟩ ⟨0, 0⟩ ⟨360, 0⟩ ⟨0, 90⟩ = false := by
  refine ⟨⟨1 - 3276807 / 32768 / 360 - 983043 / 32768 / 90, 3276807 / 32768 / 360, 983043 / 32768 / 90, ?_⟩, ?_⟩
  · norm_num
  · decide +kernel

/-- The hypotheses of the theorems above are met: a point on an edge, and one beyond an edge. -/
example : InClosedTriangle (⟨5, 0⟩ : Pt ℚ) ⟨0, 0⟩ ⟨10, 0⟩ ⟨0, 10⟩ := ⟨1 / 2, 1 / 2, 0, by norm_num⟩
example : 0 < orient (⟨0, 0⟩ : Pt ℚ) ⟨10, 0⟩ ⟨0, 10⟩ ∧ orient (⟨0, 0⟩ : Pt ℚ) ⟨10, 0⟩ ⟨5, -1⟩ ≤ -(1 / 10000) := by
  norm_num [orient]
example : triangleArea (⟨0, 0⟩ : Pt ℚ) ⟨20, 0⟩ ⟨0, 40⟩ ≤ 400 := by norm_num [triangleArea]

end Verif.Align
