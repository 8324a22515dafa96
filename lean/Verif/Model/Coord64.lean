import Verif.Model.Coord
import Verif.Model.Helper

/-!
# The coordinate conversions in IEEE arithmetic

`Model/Coord.lean` treats `double` as `ℝ`.  Here finite `double` values are rationals, every operation rounds to nearest even (`fl b64`),
and `sin`, `cos`, `sqrt`, `atan2` are whatever functions the C library supplies (`Libm`); how accurate they have to be is `Accurate`.

The sign of a zero is not represented.  It matters in one place: C's `atan2(-0., x)` is `-π` for negative `x`.  So `Accurate` allows
both `π` and `-π` there, and the theorems hold for each `Libm`, a different one in each call.
-/

namespace Verif.Coord64

open Coord

/-- The functions of `<math.h>` the conversions use. -/
structure Libm where
  sin : ℚ → ℚ
  cos : ℚ → ℚ
  sqrt : ℚ → ℚ
  atan2 : ℚ → ℚ → ℚ

/-- `telescope.h:16` `PI`: the `double` constant `M_PI`. -/
def PI : ℚ := 884279719003555 / 281474976710656

/-- `telescope.cpp:50-53` `rad`. -/
def rad (degrees : ℚ) : C ℚ := do
  let a ← fl b64 (degrees * PI)
  fl b64 (a / 180)

/-- `telescope.cpp:55-58` `deg`. -/
def deg (radians : ℚ) : C ℚ := do
  let a ← fl b64 (radians * 180)
  fl b64 (a / PI)

/-- `telescope.cpp:79-92` and, with other names, `telescope.cpp:133-148`: the rotation and the two angles of the result. -/
def turn (M : Libm) (lon lat phi : ℚ) : C (ℚ × ℚ) := do
  let sl := M.sin lon
  let cl := M.cos lon
  let st := M.sin lat
  let ct := M.cos lat
  let sp := M.sin phi
  let cp := M.cos phi
  let x1 ← fl b64 (-cl * ct)
  let x2 ← fl b64 (x1 * sp)
  let x3 ← fl b64 (st * cp)
  let x ← fl b64 (x2 + x3)
  let y ← fl b64 (-sl * ct)
  let z1 ← fl b64 (cl * ct)
  let z2 ← fl b64 (z1 * cp)
  let z3 ← fl b64 (st * sp)
  let z ← fl b64 (z2 + z3)
  let xx ← fl b64 (x * x)
  let yy ← fl b64 (y * y)
  let s ← fl b64 (xx + yy)
  let r := M.sqrt s
  let a := if r ≠ 0 then M.atan2 y x else 0
  return (a, M.atan2 z r)

/-- `telescope.cpp:73-94` `horizontalToEquatorial`: right ascension and declination. -/
def horizontalToEquatorial (M : Libm) (azimuth altitude latitude lst : ℚ) : C (ℚ × ℚ) := do
  let az ← rad azimuth
  let el ← rad altitude
  let phi ← rad latitude
  let (ha, d) ← turn M az el phi
  let dec ← deg d
  let h ← deg ha
  let a ← fl b64 (lst - h)
  let ra ← Helper.fModIEEE a 360
  return (ra, dec)

/-- `telescope.cpp:127-128`: the hour angle. -/
def hourAngle (ra lst : ℚ) : C ℚ := do
  let h ← fl b64 (lst - ra)
  if 0 ≤ h then rad h else do
    let h ← fl b64 (h + 360)
    rad h

/-- `telescope.cpp:125-151` `equatorialToHorizontal`: azimuth and altitude. -/
def equatorialToHorizontal (M : Libm) (ra dec latitude lst : ℚ) : C (ℚ × ℚ) := do
  let ha ← hourAngle ra lst
  let dec ← rad dec
  let phi ← rad latitude
  let (a, el) ← turn M ha dec phi
  let az ← if a < 0 then fl b64 (a + 2 * PI) else .ok a
  let az ← deg az
  let alt ← deg el
  return (az, alt)

end Verif.Coord64
