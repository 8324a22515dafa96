import Verif.Model.Align
import Verif.Model.Coord

/-!
# Model of `lib/telescope/src/telescope.cpp`: class `Telescope`

`double` is `ℝ`.  The environment (`Align.Env`) of each call is arbitrary: answers of the geometric tests, order of equal sort
keys, values behind the matrices, `float` rounding.
-/

namespace Verif.Telescope

open Verif.Align Verif.Coord

variable {σ : Type}

/-- `telescope.h:27-31`: the members `alignment` and `orientation`; `isCalibrated` is in `NexStar.Scope`. -/
structure Tel where
  alignment : Align.State ℝ
  orientation : Horizontal

/-- `mytypes.cpp:12` `Point(Horizontal)`. -/
def toPt (h : Horizontal) : Pt ℝ := ⟨h.az, h.alt⟩

/-- `mytypes.cpp:7` `Horizontal(Point)`. -/
def ofPt (p : Pt ℝ) : Horizontal := ⟨p.x, p.y⟩

/-- `telescope.cpp:3-5`, `mytypes.h:21-28`: a new telescope points at (0, 0). -/
noncomputable def new : Tel := ⟨fresh, ⟨0, 0⟩⟩

/-- `telescope.cpp:17-27` `setOrientation`. -/
def setOrientation (T : Tel) (o : Horizontal) : Tel := { T with orientation := o }

/-- `telescope.cpp:29-36` `addReferencePoint`; the result of `addVertexPair` is ignored. -/
noncomputable def addReferencePoint (env : Env ℝ σ) (T : Tel) (reference : Equatorial ℝ) (latitude lst : ℝ) : C Tel := do
  let r := equatorialToHorizontal reference.ra reference.dec latitude lst
  let a ← addVertexPair env T.alignment (toPt T.orientation) (toPt r)
  let s ← triangulateActual env a.2
  return { T with alignment := s }

/-- `telescope.cpp:38-48` `getCalibratedOrientation`: the position and the transformation type. -/
noncomputable def getCalibratedOrientation (env : Env ℝ σ) (T : Tel) (latitude lst : ℝ) : C (TType × Equatorial ℝ) := do
  let ty ← getTransformationType env T.alignment (toPt T.orientation)
  let p ← Align.getCalibratedOrientation env T.alignment (toPt T.orientation)
  let h := ofPt p
  return (ty, horizontalToEquatorial h.az h.alt latitude lst)

/-- `main.cpp:155`: `telescope.alignment.clearAll()`. -/
def clear (T : Tel) : Tel := { T with alignment := clearAll T.alignment }

/-- The two methods `NexStar::handleRequest` calls, for `Model/NexStar.lean`. -/
noncomputable def ops (env : Env ℝ σ) : NexStar.TelOps ℝ Tel where
  position T lat t := (getCalibratedOrientation env T lat t).map (·.2)
  addReferencePoint := addReferencePoint env

end Verif.Telescope
