import Verif.Model.Telescope
import Verif.Spec.Align

/-!
# Specification of the telescope: histories of calls and the stars it knows
-/

namespace Verif.Telescope

open Verif.Align Verif.Coord

variable {σ : Type}

/-- The calls that change a telescope: a new orientation from the sensors, a sync, a reset of the alignment. -/
inductive Op where
  | orient (o : Horizontal)
  | sync (reference : Equatorial ℝ) (latitude lst : ℝ)
  | clear

/-- One call. -/
noncomputable def step (env : Env ℝ σ) : Op → Tel → C Tel
  | .orient o, T => .ok (setOrientation T o)
  | .sync r lat t, T => addReferencePoint env T r lat t
  | .clear, T => .ok (clear T)

/-- A history: calls, each in its own environment. -/
noncomputable def run : List (Env ℝ σ × Op) → Tel → C Tel
  | [], T => .ok T
  | (env, op) :: h, T => do
    let T' ← step env op T
    run h T'

/-- A known star: the orientation of the telescope when it was synced, the position given, latitude and sidereal time. -/
structure Star where
  at' : Horizontal
  ref : Equatorial ℝ
  lat : ℝ
  lst : ℝ

/-- The orientation of the telescope and the stars it knows. -/
structure Knows where
  now : Horizontal
  stars : List Star

/-- What a call changes: a sync adds a star unless one was synced at exactly this orientation; the 64th star discards all. -/
noncomputable def Knows.step (k : Knows) : Op → Knows
  | .orient o => { k with now := o }
  | .sync r lat t =>
    open Classical in
    if k.now ∈ k.stars.map Star.at' then k
    else if k.stars.length = 63 then { k with stars := [] }
    else { k with stars := k.stars ++ [⟨k.now, r, lat, t⟩] }
  | .clear => { k with stars := [] }

/-- After a history, starting with a new telescope. -/
noncomputable def knows (ops : List Op) : Knows := ops.foldl Knows.step ⟨⟨0, 0⟩, []⟩

/-- Where the sky has moved a star `d` degrees of sidereal time later, for a fixed horizontal direction: the right ascension
that is now seen in the direction where `ref` was. -/
noncomputable def later (ref : Equatorial ℝ) (d : ℝ) : Equatorial ℝ := ⟨Helper.fMod (ref.ra + d) 360, ref.dec⟩

end Verif.Telescope
