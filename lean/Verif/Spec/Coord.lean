import Verif.Model.Coord

/-!
# Spherical astronomy: how horizontal and equatorial coordinates are related

Azimuth is measured from north over east, all angles in degrees; the hour angle is sidereal time minus right ascension.
-/

namespace Verif.Spec

open Real

/-- Sine of an angle in degrees. -/
noncomputable def sind (x : ℝ) : ℝ := sin (x * π / 180)

/-- Cosine of an angle in degrees. -/
noncomputable def cosd (x : ℝ) : ℝ := cos (x * π / 180)

/-- The direction with azimuth `A` and altitude `a`, seen from latitude `φ` at sidereal time `t`, is the direction with
right ascension `α` and declination `δ`: both have the same components towards north, east and zenith. -/
structure SameDirection (A a α δ φ t : ℝ) : Prop where
  north : cosd a * cosd A = sind δ * cosd φ - cosd δ * cosd (t - α) * sind φ
  east : cosd a * sind A = -(cosd δ * sind (t - α))
  zenith : sind a = sind δ * sind φ + cosd δ * cosd (t - α) * cosd φ

end Verif.Spec
