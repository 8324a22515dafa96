import Verif.Model.Telescope64
import Verif.Spec.Linalg64
import Verif.Spec.Coord64

/-!
# Specification of the telescope in IEEE arithmetic: histories, known stars, agreement of directions
-/

namespace Verif.Telescope64

open Verif Verif.Align Verif.Linalg64 Verif.Coord64 Verif.Spec

variable {σ : Type}

/-- The calls that change a telescope: a new orientation from the sensors, a sync, a reset of the alignment. -/
inductive Op where
  | orient (o : Pt ℚ)
  | sync (ra dec latitude lst : ℚ)
  | clear

/-- One call, with the C library and the environment of that call. -/
def step (M : Libm) (env : Align64.Env σ) : Op → Tel → C Tel
  | .orient o, T => .ok (setOrientation T o)
  | .sync ra dec lat lst, T => addReferencePoint M env T ra dec lat lst
  | .clear, T => .ok (clear T)

/-- A history of calls. -/
def run : List (Libm × Align64.Env σ × Op) → Tel → C Tel
  | [], T => .ok T
  | (M, env, op) :: h, T => do
    let T' ← step M env op T
    run h T'

/-- A known star: where the telescope pointed when it was synced, the position given, latitude and sidereal time (degrees). -/
structure Star where
  at' : Pt ℚ
  ra : ℚ
  dec : ℚ
  lat : ℚ
  lst : ℚ
  deriving DecidableEq

/-- The orientation of the telescope and the stars it knows. -/
structure Knows where
  now : Pt ℚ
  stars : List Star
  deriving DecidableEq

/-- What a call changes: a sync adds a star unless one was synced at exactly this orientation; the 64th star discards all. -/
def Knows.step (k : Knows) : Op → Knows
  | .orient o => { k with now := o }
  | .sync ra dec lat lst =>
    if k.now ∈ k.stars.map Star.at' then k
    else if k.stars.length = 63 then { k with stars := [] }
    else { k with stars := k.stars ++ [⟨k.now, ra, dec, lat, lst⟩] }
  | .clear => { k with stars := [] }

/-- After a history, starting with a new telescope. -/
def knows (ops : List Op) : Knows := ops.foldl Knows.step ⟨⟨0, 0⟩, []⟩

/-- An orientation the sensors can deliver: `double`s, azimuth up to 360 and altitude up to 91 degrees in magnitude. -/
def SaneDirection (o : Pt ℚ) : Prop := IsDouble o ∧ |o.x| ≤ 360 ∧ |o.y| ≤ 91

/-- Arguments in degrees that make sense. -/
def Sane : Op → Prop
  | .orient o => SaneDirection o
  | .sync ra dec lat lst => |lst - ra| ≤ 360 ∧ |dec| ≤ 361 ∧ |lat| ≤ 361
  | .clear => True

/-- The requirements on a call: an accurate C library, a `qsort` that sorts, a moderate number behind the matrix that is inverted, sane arguments. -/
def Fair (e : Libm × Align64.Env σ × Op) : Prop :=
  Accurate e.1 ∧ IsSort e.2.1.sort ∧ (∀ i, |e.2.1.stray i| ≤ 1) ∧ Sane e.2.2

/-- The position reported at sidereal time `t'` is that of the star `k`, as it was synced: the unit vectors given by declination and hour angle differ
by at most `tol` in each component. -/
def SamePlace (tol : ℝ) (k : Star) (ra dec t' : ℚ) : Prop :=
  |cosd dec * cosd (t' - ra) - cosd k.dec * cosd (k.lst - k.ra)| ≤ tol ∧ |cosd dec * sind (t' - ra) - cosd k.dec * sind (k.lst - k.ra)| ≤ tol ∧
    |sind dec - sind k.dec| ≤ tol

/-- The horizontal direction `p` is the one in which the star stood when it was synced, up to `tol`. -/
def StoodAt (tol : ℝ) (k : Star) (p : Pt ℚ) : Prop := NearDirection tol p.x p.y k.ra k.dec k.lat k.lst

/-- The direction lies in the triangle, up to `slack` (in square degrees): the three triangles it forms with the sides have together at most the area
of the triangle (all areas doubled) and the slack. -/
def Inside (slack : ℚ) (z a b c : Pt ℚ) : Prop := |orient z b c| + |orient a z c| + |orient a b z| ≤ |orient a b c| + slack

end Verif.Telescope64
