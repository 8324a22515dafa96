import Verif.Spec.Delaunay
import Verif.Spec.Linalg64
import Verif.Model.Telescope64

/-!
# Positions that double precision can tell apart

The triangulation asks whether a position lies in the circumcircle of three others.  `Clear` says that the answer does not hang on the last digits: the
difference between the squares of distance and radius is larger than a bound for the rounding errors, given by the geometry of the four positions.
-/

namespace Verif.Align64

open Verif Verif.Align

/-- Ratio of the differences in azimuth and in altitude; 0 for equal altitudes (Lean's division). -/
def steep (a b : Pt ℚ) : ℚ := |b.x - a.x| / |b.y - a.y|

/-- How steep the perpendicular bisectors of two sides are, at least 1. -/
def steepness (a b c : Pt ℚ) : ℚ := max 1 (max (steep a b) (steep b c))

/-- How badly the intersection of the two bisectors is determined, at least 1. -/
def conditioning (a b c : Pt ℚ) : ℚ := max 1 (|b.y - a.y| * |c.y - b.y| / |orient a b c|)

/-- The larger of the two coordinates, disregarding signs. -/
def extent (p : Pt ℚ) : ℚ := max |p.x| |p.y|

/-- The largest coordinate, at least 1. -/
def reach (m a b c p : Pt ℚ) : ℚ := max 1 (max (extent m) (max (extent p) (max (extent a) (max (extent b) (extent c)))))

/-- Double precision can tell whether `p` lies in the circumcircle of `a`, `b`, `c`. -/
def Clear (a b c p : Pt ℚ) : Prop :=
  ∀ m, Circumcentre m a b c → steepness a b c ^ 2 * conditioning a b c * reach m a b c p ^ 2 / 2 ^ 40 < |dist2 m p - dist2 m a|

/-- The corners of the supertriangle, as the program calculates them (they depend only on the extent of the positions). -/
def Corners (pts : List (Pt ℚ)) (s : Pt ℚ × Pt ℚ × Pt ℚ) : Prop := ∃ p ps, pts = p :: ps ∧ superPts p ps = .ok s

/-- Positions for which double precision is enough: different doubles of moderate size; two altitudes are equal or at least 2·10⁻⁶ degrees apart; some two
positions differ by at least 10⁻⁵ degrees in azimuth or altitude; and for any three positions (or corners of the supertriangle) that are not collinear it is
clear whether another position is in their circumcircle. -/
structure WellPlaced (pts : List (Pt ℚ)) : Prop where
  doubles : ∀ a ∈ pts, Linalg64.IsDouble a ∧ |a.x| ≤ 1000 ∧ |a.y| ≤ 1000
  distinct : pts.Nodup
  apart : ∀ a ∈ pts, ∀ b ∈ pts, a.y = b.y ∨ 2 / 1000000 ≤ |a.y - b.y|
  spread : ∃ a ∈ pts, ∃ b ∈ pts, 1 / 100000 ≤ |a.x - b.x| ∨ 1 / 100000 ≤ |a.y - b.y|
  clear : ∀ s, Corners pts s → ∀ a ∈ [s.1, s.2.1, s.2.2] ++ pts, ∀ b ∈ [s.1, s.2.1, s.2.2] ++ pts, ∀ c ∈ [s.1, s.2.1, s.2.2] ++ pts,
    orient a b c < 0 → ∀ p ∈ pts, p ≠ a → p ≠ b → p ≠ c → Clear a b c p

/-- The triangles `ts`, whose corners are numbers of stored positions, are a Delaunay triangulation of the positions `pts`: their corners are in clockwise
order and no position is inside the circle through them; they do not overlap; a position inside or on the border of a triangle is one of its corners; three
positions that belong together form a triangle; there are at most `2 n - 4` triangles for `n` positions. -/
structure Delaunay (pts : List (Pt ℚ)) (mem : List (VertexPair ℚ)) (ts : List Tri) : Prop where
  empty : ∀ t ∈ ts, ∃ a ∈ pts, ∃ b ∈ pts, ∃ c ∈ pts, CornersAre mem t a b c ∧ orient a b c < 0 ∧
    ∃ m, Circumcentre m a b c ∧ ∀ q ∈ pts, dist2 m a ≤ dist2 m q
  apart : ts.Pairwise (fun t t' => ∀ a b c a' b' c' q, CornersAre mem t a b c → CornersAre mem t' a' b' c' →
    ¬ (StrictlyIn q a b c ∧ StrictlyIn q a' b' c'))
  own : ∀ t ∈ ts, ∀ a b c, CornersAre mem t a b c → ∀ q ∈ pts, ClosedIn q a b c → q = a ∨ q = b ∨ q = c
  complete : ∀ a b c, Belong pts a b c → ∃ t ∈ ts, ∃ a' b' c', CornersAre mem t a' b' c' ∧ [a', b', c'].Perm [a, b, c]
  count : ts.length + 4 ≤ 2 * pts.length

/-- At most one position, or well-placed ones. -/
def Placed (pts : List (Pt ℚ)) : Prop := pts.length ≤ 1 ∨ WellPlaced pts

/-- The environment of a program that calculates with doubles and the square root of the library.  What it does with numbers that are not finite is open.  The
variables `xc` and `r`, which it may read before they are set, hold some numbers up to `2^1000`. -/
def IeeeEnv (M : Coord64.Libm) (env : Env (Option (ℚ × ℚ))) : Prop :=
  ∃ (guess : Pt ℚ → Pt ℚ → Pt ℚ → Pt ℚ → Bool × Bool) (o : ℚ × ℚ), env.test = ieeeTest (fun x => .ok (M.sqrt x)) guess ∧ env.init = some o ∧
    |o.1| ≤ 2 ^ 1000 ∧ |o.2| ≤ 2 ^ 1000

end Verif.Align64
