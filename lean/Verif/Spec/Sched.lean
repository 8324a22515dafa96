import Verif.Model.Sched

/-! # Specification of the scheduler -/

namespace Verif.Main

/-- The tasks, most urgent first. -/
def priorities : List Task := [.filter, .t25ms, .t100ms, .t500ms, .t1s, .t2s, .t30s]

/-- Periods in microseconds, as documented: 20 ms, 25 ms, 100 ms, 500 ms, 1 s, 2 s, 30 s. -/
def Task.micros : Task → Nat
  | .filter => 20000
  | .t25ms => 25000
  | .t100ms => 100000
  | .t500ms => 500000
  | .t1s => 1000000
  | .t2s => 2000000
  | .t30s => 30000000

/-- The more urgent tasks. -/
def Task.above : Task → List Task
  | .filter => []
  | .t25ms => [.filter]
  | .t100ms => [.filter, .t25ms]
  | .t500ms => [.filter, .t25ms, .t100ms]
  | .t1s => [.filter, .t25ms, .t100ms, .t500ms]
  | .t2s => [.filter, .t25ms, .t100ms, .t500ms, .t1s]
  | .t30s => [.filter, .t25ms, .t100ms, .t500ms, .t1s, .t2s]

/-- More than the period of `k` has passed since its timer was set, as far as a 32-bit microsecond clock can tell. -/
def Due (T : Timers) (now : UInt32) (k : Task) : Prop := k.micros < (2 ^ 32 + now.toNat - (T k).toNat) % 2 ^ 32

end Verif.Main
