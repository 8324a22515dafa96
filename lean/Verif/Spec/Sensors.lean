import Verif.Spec.Main

/-!
# Specification: what the firmware read from its sensors

Which task a call of `loop()` runs depends on the times of the calls only; so the sequence of readings is a function of the events.
-/

namespace Verif.Main

variable {K : Type}

/-- The timers after a sequence of events. -/
def timersOf : Timers → List (Event K) → Timers
  | t, [] => t
  | t, .loop i :: h => timersOf (schedule t i.now).2 h
  | t, _ :: h => timersOf t h

/-- The accelerometer readings of a sequence of events: one for every call of `loop()` that runs the filter task. -/
def accReadings : Timers → List (Event K) → List (K × K × K)
  | _, [] => []
  | t, .loop i :: h =>
    (if (schedule t i.now).1 = some .filter then [i.acc] else []) ++ accReadings (schedule t i.now).2 h
  | t, _ :: h => accReadings t h

/-- The encoder readings of a sequence of events: one word for every call of `loop()` that runs the 100 ms task. -/
def encReadings : Timers → List (Event K) → List UInt16
  | _, [] => []
  | t, .loop i :: h =>
    (if (schedule t i.now).1 = some .t100ms then [frame i.encoder.1 i.encoder.2] else []) ++ encReadings (schedule t i.now).2 h
  | t, _ :: h => encReadings t h

end Verif.Main
