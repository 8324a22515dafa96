import Verif.Spec.Align

/-!
# Specification of the triangulation

Positions are points of a plane over an ordered field; nothing here refers to how the triangulation is computed.
-/

namespace Verif.Align

variable {K : Type} [Field K] [LinearOrder K] [IsStrictOrderedRing K]

/-- Squared distance. -/
def dist2 (m q : Pt K) : K := (q.x - m.x) ^ 2 + (q.y - m.y) ^ 2

/-- `m` is the centre of the circle through `a`, `b`, `c`. -/
def Circumcentre (m a b c : Pt K) : Prop := dist2 m a = dist2 m b ∧ dist2 m b = dist2 m c

/-- Strictly inside the triangle: a convex combination with positive weights. -/
def StrictlyIn (q a b c : Pt K) : Prop :=
  ∃ u v w : K, 0 < u ∧ 0 < v ∧ 0 < w ∧ u + v + w = 1 ∧ q.x = u * a.x + v * b.x + w * c.x ∧ q.y = u * a.y + v * b.y + w * c.y

/-- Inside or on the border of the triangle. -/
def ClosedIn (q a b c : Pt K) : Prop :=
  ∃ u v w : K, 0 ≤ u ∧ 0 ≤ v ∧ 0 ≤ w ∧ u + v + w = 1 ∧ q.x = u * a.x + v * b.x + w * c.x ∧ q.y = u * a.y + v * b.y + w * c.y

/-- The positions of the three corners of a triangle. -/
def CornersAre (mem : List (VertexPair K)) (t : Tri) (a b c : Pt K) : Prop :=
  mem[t.p1]?.map VertexPair.actual = some a ∧ mem[t.p2]?.map VertexPair.actual = some b ∧ mem[t.p3]?.map VertexPair.actual = some c

/-- Positions the triangulation is made for: two altitudes are equal or at least 10⁻⁶ degrees apart, and some two positions
differ by at least 2·10⁻⁶ degrees in azimuth or in altitude. -/
def Generic (pts : List (Pt K)) : Prop :=
  (∀ a ∈ pts, ∀ b ∈ pts, a.y = b.y ∨ 1 / 1000000 ≤ |a.y - b.y|) ∧
    ∃ a ∈ pts, ∃ b ∈ pts, 2 / 1000000 ≤ |a.x - b.x| ∨ 2 / 1000000 ≤ |a.y - b.y|

/-- Three positions that belong together beyond doubt: they are not collinear, the circle through them has no other position
inside or on it, and its radius is less than nine times the spread of the positions in azimuth or in altitude. -/
def Belong (pts : List (Pt K)) (a b c : Pt K) : Prop :=
  a ∈ pts ∧ b ∈ pts ∧ c ∈ pts ∧ orient a b c ≠ 0 ∧ ∃ m, Circumcentre m a b c ∧
    (∀ q ∈ pts, q ≠ a → q ≠ b → q ≠ c → dist2 m a < dist2 m q) ∧
    ∃ y ∈ pts, ∃ z ∈ pts, dist2 m a < (9 * (y.x - z.x)) ^ 2 ∨ dist2 m a < (9 * (y.y - z.y)) ^ 2

/-- No three positions are nearly collinear: twice the area of their triangle is zero or at least 0.0001 square degrees. -/
def NoSliver (pts : List (Pt K)) : Prop :=
  ∀ a ∈ pts, ∀ b ∈ pts, ∀ c ∈ pts, orient a b c = 0 ∨ 1 / 10000 ≤ |orient a b c|

end Verif.Align
