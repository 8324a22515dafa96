import Verif.Model.Main
import Verif.Model.Telescope
import Verif.Model.Pitch

/-!
# The whole firmware: `src/main.cpp` with the telescope of `lib/telescope`

`Model/Main.lean` leaves open what the telescope computes; here it is `Model/Telescope.lean`, with `double` as `ℝ`.
-/

namespace Verif.System

open Verif.Align Verif.Coord Verif.Linalg

variable {σ : Type}

/-- `mytypes.h:57-64`: the numbers of the enumerators of `TransformationType`, as `main.cpp:649` prints them. -/
def code : TType → Nat
  | .none => 0
  | .point => 1
  | .line => 2
  | .triangleOut => 3
  | .triangleIn => 4

/-- `main.cpp:687-690`: the elements of a matrix by rows. -/
def rows (m : Mat3 ℝ) : List ℝ := [m.a00, m.a01, m.a02, m.a10, m.a11, m.a12, m.a20, m.a21, m.a22]

/-- What `main.cpp` calls: `lib/telescope/src/telescope.cpp:17-48`, `lib/alignment/src/alignment.cpp` and the pitch of `main.cpp:471`. -/
noncomputable def real (env : Env ℝ σ) : Main.Tel ℝ Telescope.Tel where
  calibrated T lat t := (Telescope.getCalibratedOrientation env T lat t).map fun r => (code r.1, r.2)
  addReferencePoint := Telescope.addReferencePoint env
  setOrientation T heading pitch := Telescope.setOrientation T ⟨heading, pitch⟩
  clear := Telescope.clear
  toHorizontal e lat t := let h := equatorialToHorizontal e.ra e.dec lat t; (h.az, h.alt)
  pitch := Imu.pitch
  vertices T := T.alignment.used.map fun v => ((v.actual.x, v.actual.y), (v.reference.x, v.reference.y))
  triangles T := T.alignment.triangles.length
  matrix T := (getTransformationMatrix env T.alignment (Telescope.toPt T.orientation)).map rows

end Verif.System
