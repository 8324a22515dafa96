import Mathlib.Analysis.SpecialFunctions.Complex.Arg
import Verif.Model.NexStar

/-!
# Model of the coordinate conversions of `lib/telescope/src/telescope.cpp`

`double` is `ℝ`; `sin`, `cos`, `sqrt` are the real functions and `atan2 y x` is the argument of the complex number `x + y i`
(which is C's `atan2` up to signed zeros: `atan2(0, 0) = 0` and `atan2(0, x) = π` for negative `x`).
-/

namespace Verif.Coord

open Real

/-- `mytypes.h:21-28` `Horizontal`. -/
@[ext] structure Horizontal where
  az : ℝ
  alt : ℝ

/-- `<math.h>` `atan2`. -/
noncomputable def atan2 (y x : ℝ) : ℝ := Complex.arg ⟨x, y⟩

/-- `telescope.cpp:50-53` `rad`. -/
noncomputable def rad (degrees : ℝ) : ℝ := degrees * π / 180

/-- `telescope.cpp:55-58` `deg`. -/
noncomputable def deg (radians : ℝ) : ℝ := radians * 180 / π

/-- `telescope.cpp:60-63` `degToHours`. -/
noncomputable def degToHours (degrees : ℝ) : ℝ := Helper.fMod (degrees / 360 * 24) 24

/-- `telescope.cpp:73-94` `horizontalToEquatorial`. -/
noncomputable def horizontalToEquatorial (azimuth altitude latitude lst : ℝ) : Equatorial ℝ :=
  let az := rad azimuth
  let el := rad altitude
  let phi := rad latitude
  let x := -cos az * cos el * sin phi + sin el * cos phi
  let y := -sin az * cos el
  let z := cos az * cos el * cos phi + sin el * sin phi
  let r := √(x * x + y * y)
  let ha := if r ≠ 0 then atan2 y x else 0
  ⟨Helper.fMod (lst - deg ha) 360, deg (atan2 z r)⟩

/-- `telescope.cpp:125-151` `equatorialToHorizontal`. -/
noncomputable def equatorialToHorizontal (ra dec latitude lst : ℝ) : Horizontal :=
  let hourAngle := lst - ra
  let ha := if 0 ≤ hourAngle then rad hourAngle else rad (hourAngle + 360)
  let dec := rad dec
  let phi := rad latitude
  let x := -cos ha * cos dec * sin phi + sin dec * cos phi
  let y := -sin ha * cos dec
  let z := cos ha * cos dec * cos phi + sin dec * sin phi
  let r := √(x * x + y * y)
  let a := if r ≠ 0 then atan2 y x else 0
  let az := if a < 0 then a + 2 * π else a
  ⟨deg az, deg (atan2 z r)⟩

end Verif.Coord
