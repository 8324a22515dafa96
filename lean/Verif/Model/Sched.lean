/-!
# Model of the task scheduler in `src/main.cpp`: the frame of `loop()`
-/

namespace Verif.Main

/-- `main.cpp:124-130`: the tasks of `loop()`. -/
inductive Task where
  | filter | t25ms | t100ms | t500ms | t1s | t2s | t30s
  deriving DecidableEq, Repr

/-- `main.cpp:115,442,455,464,555,699,707,774`: the period of each task in microseconds. -/
def Task.period : Task → UInt32
  | .filter => 1000000 / 50
  | .t25ms => 25000
  | .t100ms => 100000
  | .t500ms => 500000
  | .t1s => 1000000
  | .t2s => 2000000
  | .t30s => 30000000

/-- `main.cpp:124-130`: `task…Timer`, one variable per task. -/
abbrev Timers := Task → UInt32

/-- `main.cpp:124-130`: all timers start at 0. -/
def Timers.init : Timers := fun _ => 0

/-- `(timestamp - timer) > period`, in unsigned 32-bit arithmetic. -/
def isDue (T : Timers) (now : UInt32) (k : Task) : Bool := decide (now - T k > k.period)

/-- `timer = timestamp` -/
def Timers.stamp (T : Timers) (k : Task) (now : UInt32) : Timers := fun j => if j = k then now else T j

/-- `main.cpp:438-789` frame of `loop()`: the task that runs in this call, if any, and the timers afterwards. -/
def schedule (T : Timers) (now : UInt32) : Option Task × Timers :=
  if isDue T now .filter then (some .filter, T.stamp .filter now)            -- main.cpp:442-452
  else if isDue T now .t25ms then (some .t25ms, T.stamp .t25ms now)          -- main.cpp:455-461
  else if isDue T now .t100ms then (some .t100ms, T.stamp .t100ms now)       -- main.cpp:464-552
  else if isDue T now .t500ms then (some .t500ms, T.stamp .t500ms now)       -- main.cpp:555-696
  else if isDue T now .t1s then (some .t1s, T.stamp .t1s now)                -- main.cpp:699-704
  else if isDue T now .t2s then (some .t2s, T.stamp .t2s now)                -- main.cpp:707-771
  else if isDue T now .t30s then (some .t30s, T.stamp .t30s now)             -- main.cpp:774-788
  else (none, T)

/-- Consecutive calls of `loop()`; `micros()` returns the true time (in microseconds since power-up) modulo 2^32. -/
def calls : List Nat → Timers → List (Option Task)
  | [], _ => []
  | t :: ts, T =>
    let r := schedule T (UInt32.ofNat t)
    r.1 :: calls ts r.2

/-- The timers after these calls. -/
def timersAfter : List Nat → Timers → Timers
  | [], T => T
  | t :: ts, T => timersAfter ts (schedule T (UInt32.ofNat t)).2

end Verif.Main
