import Verif.Spec.Align

/-!
# Specification for the alignment in double arithmetic: how good a triangle or a pair of stars is
-/

namespace Verif.Linalg64

open Verif Verif.Align

/-- Square of the distance of two points. -/
def dist2 (a b : Pt ℚ) : ℚ := (a.x - b.x) ^ 2 + (a.y - b.y) ^ 2

/-- Every height of the triangle is at least `h`: the height over a side is twice the area (`|orient|`) divided by the length of that
side. -/
def Tall (h : ℚ) (p q r : Pt ℚ) : Prop :=
  0 < h ∧ orient p q r ≠ 0 ∧ h ^ 2 * dist2 p q ≤ orient p q r ^ 2 ∧ h ^ 2 * dist2 q r ≤ orient p q r ^ 2 ∧ h ^ 2 * dist2 r p ≤ orient p q r ^ 2

/-- Both coordinates are at most `S` in magnitude. -/
def Within (S : ℚ) (p : Pt ℚ) : Prop := |p.x| ≤ S ∧ |p.y| ≤ S

/-- Both coordinates are `double` values. -/
def IsDouble (p : Pt ℚ) : Prop := Representable b64 p.x ∧ Representable b64 p.y

/-- The two points differ by at most `e` in each coordinate. -/
def Near (e : ℚ) (p q : Pt ℚ) : Prop := |p.x - q.x| ≤ e ∧ |p.y - q.y| ≤ e

/-- The two readings differ by at most `e` in each coordinate, the azimuth up to full turns. -/
def NearTurn (e : ℚ) (p q : Pt ℚ) : Prop := (∃ k : ℤ, |p.x - q.x - 360 * k| ≤ e) ∧ |p.y - q.y| ≤ e

end Verif.Linalg64
