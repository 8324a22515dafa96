import Verif.Model.Main

/-!
# Model of `setup()` in `src/main.cpp`

The answers of the hardware are inputs, the calls it gets are recorded in order.  The compile-time switches are a parameter.
Simplifications: logging and the listing of the files (`main.cpp:292-304`) leave no trace here; pins, `Serial2.begin` and `AMT22.begin`
(`main.cpp:383-396`) are not modelled; a configuration call whose result is not looked at (`softAPConfig`, `enableSSP`, …) is part of
the call before it.
-/

namespace Verif.Setup

open Main

/-- `main.cpp:45-55`: the compile-time switches. -/
structure Switches where
  wifi : Bool
  wifiAuto : Bool
  forceAP : Bool
  mqtt : Bool
  orientation : Bool
  broker : Bool
  bluetooth : Bool

/-- `main.cpp:45-55`: their values. -/
def shipped : Switches := ⟨true, true, false, true, true, true, true⟩

/-- What the hardware answers: `WiFi.status() == WL_CONNECTED` at its `k`-th call; `WiFi.softAP(…)`; `SPIFFS.begin(true)`;
`I2CBus.begin(…)`; `imu.begin()` (`lsm6wrapper.cpp:12-29`: whether the chip answers); `bluetooth.begin(…)`. -/
structure Answers where
  status : Nat → Bool
  softAP : Bool
  spiffs : Bool
  i2c : Bool
  imu : Bool
  bluetooth : Bool

/-- Calls to the hardware. -/
inductive Call where
  | led (on : Bool)
  | delay (ms : Nat)
  | wifiBegin
  | wifiHandlers
  | wifiDisconnect
  | softAP
  | mount
  | i2cBegin
  | imuBegin
  | tcpServer (port : Nat)
  | broker (port : Nat)
  | mqttServer (port : Nat)
  | bluetooth
  | bluetoothHandlers
  deriving DecidableEq, Repr

/-- `main.cpp:74-90,122`: the globals `setup()` writes, and the calls made so far. -/
structure St where
  checks : Nat := 0
  clientMode : Bool := false
  apMode : Bool := false
  filesystem : Bool := false
  sensor : Bool := false
  mqtt : Bool := false
  broker : Bool := false
  bluetooth : Bool := false
  stage : Nat := 0
  ledMode : LedMode := .on
  calls : List Call := []

/-- A call. -/
def St.call (s : St) (c : Call) : St := { s with calls := s.calls ++ [c] }

/-- `initStage++` -/
def St.next (s : St) : St := { s with stage := s.stage + 1 }

/-- `WiFi.status() == WL_CONNECTED` -/
def St.check (a : Answers) (s : St) : Bool × St := (a.status s.checks, { s with checks := s.checks + 1 })

/-- `main.cpp:239-244`: `while ((WiFi.status() != WL_CONNECTED) && ((retries--) > 0)) delay(1000);` -/
def waitWifi (a : Answers) : (retries : Nat) → St → St
  | 0, s => (s.check a).2
  | r + 1, s =>
    let c := s.check a
    if c.1 then c.2 else waitWifi a r (c.2.call (.delay 1000))

/-- `main.cpp:234-259`: joining the network. -/
def joinWifi (a : Answers) (s : St) : St :=
  let s := s.call .wifiBegin
  let s := waitWifi a 5 s
  let c := s.check a
  if c.1 then { c.2.call .wifiHandlers with clientMode := true } else c.2.call .wifiDisconnect

/-- `main.cpp:263-273`: the access point. -/
def startAP (a : Answers) (s : St) : St :=
  let s := s.call .softAP
  if a.softAP then { s with apMode := true } else s

/-- `main.cpp:230-276` -/
def setupWifi (w : Switches) (a : Answers) (s : St) : St :=
  if w.wifi then
    let s := if w.wifiAuto && !w.forceAP then joinWifi a s else s
    let s := if (w.wifiAuto && !s.clientMode) || w.forceAP then startAP a s else s
    s.next
  else s

/-- `main.cpp:278-305`: the file system. -/
def setupFiles (a : Answers) (s : St) : St :=
  let s := s.call .mount
  let s := if a.spiffs then { s with filesystem := true } else s
  let s := s.next
  if s.filesystem then s.next else s

/-- `main.cpp:307-335`: the orientation sensor. -/
def setupSensor (w : Switches) (a : Answers) (s : St) : St :=
  if w.orientation then
    let s := (s.call (.delay 500)).next
    let s := s.call .i2cBegin
    if a.i2c then
      let s := s.next.call .imuBegin
      if a.imu then { s.next with sensor := true } else s
    else s
  else s

/-- `main.cpp:337-360`: the servers. -/
def setupServers (w : Switches) (s : St) : St :=
  if s.clientMode || s.apMode then
    let s := (s.call (.tcpServer 10001)).next
    let s := if w.broker then { s.call (.broker 1883) with broker := true } else s
    if w.mqtt && s.clientMode then { (s.call (.mqttServer 1883)).next with mqtt := true } else s
  else s

/-- `main.cpp:362-381`: Bluetooth. -/
def setupBluetooth (w : Switches) (a : Answers) (s : St) : St :=
  if w.bluetooth then
    let s := s.call .bluetooth
    if a.bluetooth then { s.call .bluetoothHandlers with bluetooth := true } else s
  else s

/-- `main.cpp:211-400` `setup()`. -/
def setup (w : Switches) (a : Answers) : St :=
  let s : St := {}
  let s := (s.call (.led true)).next
  let s := (s.call (.delay 500)).next
  let s := s.next
  let s := setupWifi w a s
  let s := setupFiles a s
  let s := setupSensor w a s
  let s := setupServers w s
  let s := setupBluetooth w a s
  { s with ledMode := .ready }

/-- What the main loop depends on. -/
def St.config (p : Platform) (s : St) : Config where
  platform := p
  sensor := s.sensor
  mqtt := s.mqtt
  broker := s.broker
  wifi := s.clientMode || s.apMode

end Verif.Setup
