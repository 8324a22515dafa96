/-!
# Model of `lib/ledmanager/src/ledmanager.cpp`
-/

namespace Verif.Main

/-- `ledmanager.h:10-20` `LEDMode`. -/
inductive LedMode where
  | off | on | blink10Hz | blink1Hz | flash4x | flash2x | flash1x | ready
  deriving DecidableEq, Repr

/-- `ledmanager.cpp:15-118` `LEDManager::update(micros)`: the level written to the pin, `none` if nothing is written. -/
def ledUpdate (mode : LedMode) (micros : UInt32) : Option Bool :=
  let millis := micros / 1000
  match mode with
  | .off => some false                                                -- ledmanager.cpp:18-21
  | .on => some true                                                  -- ledmanager.cpp:23-26
  | .blink10Hz => some (decide (millis % 100 < 50))                   -- ledmanager.cpp:27-37
  | .blink1Hz => some (decide (millis % 1000 < 500))                  -- ledmanager.cpp:38-48
  | .flash1x =>                                                       -- ledmanager.cpp:49-60
    let seq := millis % 5000
    some (if seq < 4990 then false else true)
  | .flash4x =>                                                       -- ledmanager.cpp:61-96
    let seq := millis % 5000
    some (if seq < 3750 then false else if seq < 3800 then true else if seq < 4150 then false else if seq < 4200 then true
      else if seq < 4550 then false else if seq < 4600 then true else if seq < 4950 then false else true)
  | .flash2x =>                                                       -- ledmanager.cpp:98-117
    let seq := millis % 5000
    some (if seq < 4550 then false else if seq < 4600 then true else if seq < 4950 then false else true)
  | .ready => none                                                    -- no branch

end Verif.Main
