import Verif.Model.Main
import Verif.Model.Imu32
import Verif.Model.Session64

/-!
# The whole firmware in IEEE arithmetic

`Model/Main.lean` once more, with every `float` and `double` operation on the way from the sensors to the bytes sent rounded: `Model/Imu32.lean` (pitch),
`Model/Heading.lean` (heading), `Model/Session64.lean` (sidereal time, protocols) and `Model/Telescope64.lean` (telescope).  The parts of `Model/Main.lean` that
do not calculate (scheduler, sample buffer, connections, GNSS, MQTT, LED, buffers) are used as they are.  A calculation that leaves the finite numbers ends the run.
-/

namespace Verif.Firmware64

open Verif Verif.Main Verif.Align Verif.Linalg Verif.Linalg64 Verif.Coord64 Verif.Telescope64 Printf Net Imu

variable {σ : Type}

/-- `double` is binary64 and `float` binary32; `wide` is the format of `long double`, `arc` that of `atan2` applied to two `float`s and of its product with 180. -/
structure Formats where
  wide : Fmt
  arc : Fmt

/-- What is not in the repository: the C library (`atan2f` is its `atan2` for `float`), the environment of the triangulation, and what `printf` makes of
the elements of a matrix that are not finite. -/
structure World (σ : Type) where
  libm : Libm
  atan2f : ℚ → ℚ → ℚ
  env : Align64.Env σ
  odd : Nat → List UInt8

/-- The globals with the telescope of `Model/Telescope64.lean`. -/
abbrev Sys := Main.Sys ℚ Telescope64.Tel

/-- `mqttCallback` needs of the telescope only `clearAll`; the other entries are never used. -/
def reset : Main.Tel ℚ Telescope64.Tel where
  calibrated _ _ _ := .error .nonfinite
  addReferencePoint _ _ _ _ := .error .nonfinite
  setOrientation T _ _ := T
  clear := Telescope64.clear
  toHorizontal _ _ _ := (0, 0)
  pitch _ := 0
  vertices _ := []
  triangles _ := 0
  matrix _ := .error .nonfinite

/-- `nexstar.cpp:12-142`: the bodies of the branches.  Those that do not calculate are as in `Model/NexStar.lean`. -/
def body (F : Formats) (P : Platform) (W : World σ) (g : Nmea.Gnss) (sc : NexStar.Scope Tel) (request : List UInt8) (b : NexStar.Branch) :
    C (Option (List UInt8) × NexStar.Scope Tel) :=
  match b with
  | .position => do                                                          -- nexstar.cpp:51-56
    let o ← Session64.reply F.wide P W.libm g sc.core
    return (some o, sc)
  | .sync => do                                                              -- nexstar.cpp:89-132
    let core ← Session64.sync F.wide P W.libm W.env g sc.core request
    return (some [35], ⟨core, true⟩)
  | b => NexStar.body P reset.ops g sc request b

/-- `nexstar.cpp:9-143` `NexStar::handleRequest` (cf. `NexStar.handleRequest`). -/
def handleRequest (F : Formats) (P : Platform) (W : World σ) (g : Nmea.Gnss) (sc : NexStar.Scope Tel) (request : List UInt8) (requestLength : Nat)
    (response : List UInt8) (responseMaxLength : Nat) : C (UInt32 × List UInt8 × NexStar.Scope Tel) := do
  let b ← NexStar.branch request requestLength
  let (out, sc') ← body F P W g sc request b
  match out with
  | none => return (0, response, sc')
  | some o => do
    let (n, r) ← NexStar.snprintf response responseMaxLength o
    return (n, r, sc')

/-- `main.cpp:201-209` `onBluetoothData(buffer, size)`. -/
def onBluetoothData (F : Formats) (cfg : Config) (W : World σ) (s : Sys) (buffer : List UInt8) : C (Sys × List Out) := do
  let (n, tx, scope) ← handleRequest F cfg.platform W s.gnss s.scope buffer buffer.length s.tx 256
  if n > 0 then do
    let bytes ← readBytes tx n.toNat
    return ({ s with tx, scope, nexStarMode := true }, [.bluetooth bytes])
  else return ({ s with tx, scope }, [])

/-- `main.cpp:469-485`: sensors to orientation. -/
def readSensors (F : Formats) (W : World σ) (s : Sys) (i : In ℚ) : C Sys := do
  let pitch ← Imu32.measure F.arc W.atan2f s.imu
  let heading ← headingStep (fl b32) (fl b64) s.heading (frame i.encoder.1 i.encoder.2)
  let scope := { s.scope with core := setOrientation s.scope.core ⟨heading, pitch⟩ }
  return { s with heading, pitch, scope }

/-- `main.cpp:502-511`: a message that is not a NexStar command. -/
def tcpGoto (F : Formats) (W : World σ) (s : Sys) (received : UInt32) : C Sys := do
  let core ← Session64.goto F.wide W.libm W.env s.gnss s.scope.core s.rx received.toNat
  return { s with scope := { s.scope with core } }

/-- `main.cpp:487-513`: data from the TCP client. -/
def tcpInput (F : Formats) (cfg : Config) (W : World σ) (s : Sys) (c : Conn) (r : TcpRead) : C (Sys × List Out) := do
  let (received, rx) ← tcpReceive s.rx r
  let s := { s with rx }
  if received > 0 then do
    let (n, tx, scope) ← handleRequest F cfg.platform W s.gnss s.scope s.rx 256 s.tx 256
    let s := { s with tx, scope }
    if n > 0 then do
      let bytes ← readBytes tx n.toNat
      return ({ s with nexStarMode := true }, [.tcp c bytes])
    else do
      let s ← tcpGoto F W s received
      return (s, [])
  else return (s, [])

/-- `main.cpp:487-513` -/
def tcpTask (F : Formats) (cfg : Config) (W : World σ) (s : Sys) (r : TcpRead) : C (Sys × List Out) :=
  match client s with
  | some c => tcpInput F cfg W s c r
  | none => .ok (s, [])

/-- `main.cpp:464-552`: the 100 ms task. -/
def task100 (F : Formats) (cfg : Config) (W : World σ) (s : Sys) (i : In ℚ) : C (Sys × List Out) := do
  let s ← readSensors F W s i
  let (s, o1) ← tcpTask F cfg W s i.tcp
  let (s, o2) ← mqttTask cfg reset s i.messages
  let s := { s with ledMode := chooseLed s }
  let s := if cfg.wifi then { s with net := checkForConnections s.net } else s
  return (s, o1 ++ o2)

/-- `main.cpp:588-596`: the position packet for a Stellarium client. -/
def sendPosition (cfg : Config) (s : Sys) (position : ℚ × ℚ) : C (Sys × List Out) :=
  match client s with
  | some c =>
    if s.gnssAvailable && !s.nexStarMode then do
      let (length, tx) ← Codec.packPosition64 cfg.platform position.1 position.2 0 s.tx 256
      if length = 24 then do
        let bytes ← readBytes tx 24
        return ({ s with tx }, [.tcp c bytes])
      else return ({ s with tx }, [])
    else return (s, [])
  | none => return (s, [])

/-- `mytypes.h:57-64`: the numbers of the enumerators of `TransformationType`. -/
def code : TType → Nat
  | .none => 0
  | .point => 1
  | .line => 2
  | .triangleOut => 3
  | .triangleIn => 4

/-- `main.cpp:598-655`: the numbers published every 500 ms; `hours` is the sidereal time divided by 15. -/
def report (s : Sys) (ty : Nat) (position corrected : ℚ × ℚ) (hours : ℚ) : List (String × List UInt8) :=
  [("home/appliance/telescope/alt", fmtF 3 corrected.2),
   ("home/appliance/telescope/az", fmtF 3 corrected.1),
   ("home/appliance/telescope/ra", fmtF 3 position.1),
   ("home/appliance/telescope/dec", fmtF 3 position.2),
   ("home/appliance/telescope/lst", fmtF 3 hours),
   ("home/appliance/telescope/pitch", fmtF 3 s.pitch),
   ("home/appliance/telescope/heading", fmtF 3 s.heading),
   ("home/appliance/telescope/temp", fmtF 1 s.temperature),
   ("home/appliance/telescope/alignment", ascii "{\"vertices\":" ++ fmtI s.scope.core.alignment.numVertices ++
      ascii ",\"triangles\":" ++ fmtI s.scope.core.alignment.triangles.length ++ ascii ", \"type\": " ++ fmtI ty ++ ascii "}")]

/-- `main.cpp:687-690`: `%.2f` of the elements of the matrix by rows; the ones that are not finite are printed in some way. -/
def elements (W : World σ) (m : Mat3 D) : List (List UInt8) :=
  [m.a00, m.a01, m.a02, m.a10, m.a11, m.a12, m.a20, m.a21, m.a22].mapIdx fun i d =>
    match d with
    | .ok x => fmtF 2 x
    | .error _ => W.odd i

/-- `main.cpp:581-693`: the part of the 500 ms task that needs the orientation sensor. -/
def reportAll (F : Formats) (cfg : Config) (W : World σ) (s : Sys) : C (Sys × List Out) := do
  let lst ← Helper.localSiderealTime64 F.wide s.gnss.utc s.gnss.longitude
  let p ← getCalibratedOrientation W.libm s.scope.core s.gnss.latitude lst
  let corrected ← Coord64.equatorialToHorizontal W.libm p.2.1 p.2.2 s.gnss.latitude lst
  let (s, o1) ← sendPosition cfg s p.2
  let hours ← fl b64 (lst / 15)
  let (tx, o2) ← publishAll cfg (report s (code p.1) p.2 corrected hours) s.tx
  let (tx, o3) ← publishVertices cfg "home/appliance/telescope/actual" (s.scope.core.alignment.used.map fun v => (v.actual.x, v.actual.y)) tx
  let (tx, o4) ← publishVertices cfg "home/appliance/telescope/reference" (s.scope.core.alignment.used.map fun v => (v.reference.x, v.reference.y)) tx
  let m ← Align64.getTransformationMatrix s.scope.core.alignment s.scope.core.orientation
  let (tx, o5) ← publish cfg "home/appliance/telescope/matrix" ([91] ++ commaList (elements W m) ++ [93]) tx
  return ({ s with tx }, o1 ++ o2 ++ o3 ++ o4 ++ o5)

/-- `main.cpp:555-696`: the 500 ms task. -/
def task500 (F : Formats) (cfg : Config) (W : World σ) (s : Sys) (i : In ℚ) : C (Sys × List Out) := do
  let s ← pollGnss cfg s i.serial
  if cfg.sensor then reportAll F cfg W s else return (s, [])

/-- `main.cpp:438-789` `loop()`. -/
def loop (F : Formats) (cfg : Config) (W : World σ) (s : Sys) (i : In ℚ) : C (Sys × List Out) :=
  let r := schedule s.timers i.now
  let s := { s with timers := r.2 }
  match r.1 with
  | some .filter => taskFilter cfg s i
  | some .t25ms => .ok (task25 s i)
  | some .t100ms => task100 F cfg W s i
  | some .t500ms => task500 F cfg W s i
  | some .t1s => .ok (s, [])
  | some .t2s => task2s cfg s i
  | some .t30s => .ok (s, [])
  | none => .ok (s, [])

/-- One event. -/
def step (F : Formats) (cfg : Config) (W : World σ) (s : Sys) : Event ℚ → C (Sys × List Out)
  | .loop i => loop F cfg W s i
  | .bluetooth b => onBluetoothData F cfg W s b
  | .arrive c => .ok ({ s with net := Net.step s.net (.arrive c) }, [])
  | .gone c => .ok ({ s with net := Net.step s.net (.gone c) }, [])

/-- A history. -/
def run (F : Formats) (cfg : Config) : List (World σ × Event ℚ) → Sys → C (Sys × List Out)
  | [], s => .ok (s, [])
  | (W, e) :: h, s => do
    let (s, o) ← step F cfg W s e
    let (s, o') ← run F cfg h s
    return (s, o ++ o')

/-- `main.cpp:74-136` after `setup()`: as `Main.boot`, the offsets of the accelerometer rounded to `float` (`main.cpp:321`). -/
def boot (cfg : Config) : C Sys := do
  let imu ← if cfg.sensor then Imu32.setCalibration Imu.init else .ok Imu.init
  return { Main.boot cfg Telescope64.new with imu }

/-- `main.cpp`: from power-up. -/
def firmware (F : Formats) (cfg : Config) (h : List (World σ × Event ℚ)) : C (Sys × List Out) := do
  let s ← boot cfg
  run F cfg h s

end Verif.Firmware64
