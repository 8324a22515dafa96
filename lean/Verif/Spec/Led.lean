import Verif.Model.Led

/-! # Specification of the LED patterns -/

namespace Verif.Main

/-- The time windows `[a, b)`, in milliseconds within the period, in which the LED is lit, and the period. -/
def pattern : LedMode → Option (Nat × List (Nat × Nat))
  | .off => some (1, [])
  | .on => some (1, [(0, 1)])
  | .blink10Hz => some (100, [(0, 50)])
  | .blink1Hz => some (1000, [(0, 500)])
  | .flash1x => some (5000, [(4990, 5000)])
  | .flash2x => some (5000, [(4550, 4600), (4950, 5000)])
  | .flash4x => some (5000, [(3750, 3800), (4150, 4200), (4550, 4600), (4950, 5000)])
  | .ready => none

/-- At the time `µs` the pattern is lit. -/
def Lit (period : Nat) (windows : List (Nat × Nat)) (micros : Nat) : Prop :=
  ∃ w ∈ windows, w.1 ≤ micros / 1000 % period ∧ micros / 1000 % period < w.2

end Verif.Main
