import Verif.Model.Coord

/-!
# Model of the coordinate conversion of `node-server/src/server.ts`

As in `Model/Coord.lean`, `number` is `ℝ` here and the `Math` functions are the real functions; `Math.atan2 y x` is the
argument of `x + y i`.
-/

namespace Verif.Node

open Real

/-- `server.ts:124-126` `rad`. -/
noncomputable def rad (degrees : ℝ) : ℝ := degrees * π / 180

/-- `server.ts:128-130` `deg`. -/
noncomputable def deg (radians : ℝ) : ℝ := radians / π * 180

/-- `server.ts:132-134` `degToHours`. -/
noncomputable def degToHours (degrees : ℝ) : ℝ := degrees / 360 * 24

/-- `server.ts:98-122` `fromHorizontalPosition`: the new `position` (right ascension in hours, declination in degrees). -/
noncomputable def fromHorizontalPosition (azimuth altitude latitude localSiderealTimeDegrees : ℝ) : ℝ × ℝ :=
  let az := rad azimuth
  let el := rad altitude
  let phi := rad latitude
  let sa := sin az
  let ca := cos az
  let se := sin el
  let ce := cos el
  let sp := sin phi
  let cp := cos phi
  let x := -ca * ce * sp + se * cp
  let y := -sa * ce
  let z := ca * ce * cp + se * sp
  let r := √(x * x + y * y)
  let ha := if r ≠ 0 then Coord.atan2 y x else 0
  let dec := deg (Coord.atan2 z r)
  let ra := degToHours (localSiderealTimeDegrees - deg ha)
  (if ra < 0 then ra + 24 else ra, dec)

end Verif.Node
