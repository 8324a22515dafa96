import Verif.Model.Sched
import Verif.Model.Led
import Verif.Model.Heading
import Verif.Model.Imu
import Verif.Model.Net
import Verif.Model.Printf
import Verif.Model.NexStar
import Verif.Model.Codec

/-!
# Model of `src/main.cpp`: the firmware as a transition system

One step is one call of `loop()`, one Bluetooth callback, or an event on the network.  Sensors, sockets and the MQTT client are inputs.
The telescope is reached through an interface (`Tel`), so that everything proved about the firmware holds for whatever it computes;
`Model/System.lean` supplies the real one.  `double`/`float` of the telescope are an exact ordered field `K`.

Simplifications: `onBluetoothData` runs in a task of its own and is modelled as atomic with respect to `loop()` (but see `Model/Race.lean`); the MQTT client delivers
messages only inside `mqttClient.loop()` (as `PubSubClient` does); logging is not modelled.  `setup()` has completed (it is in
`Model/Setup.lean`); the connection to the MQTT server (`main.cpp:424-436,761-764`) is in `Model/Link.lean`.
-/

namespace Verif.Main

open Printf Net Imu

variable {K : Type} [Field K] [LinearOrder K] [IsStrictOrderedRing K] [FloorRing K] {S : Type}

/-- The methods of `Telescope` and `Alignment` the firmware calls, and the pitch formula. -/
structure Tel (K S : Type) where
  /-- `getCalibratedOrientation(latitude, lst, type)`: number of the transformation type, position -/
  calibrated : S → K → K → C (Nat × Equatorial K)
  addReferencePoint : S → Equatorial K → K → K → C S
  setOrientation : S → K → K → S
  /-- `alignment.clearAll()` -/
  clear : S → S
  /-- `equatorialToHorizontal`: azimuth, altitude -/
  toHorizontal : Equatorial K → K → K → K × K
  /-- `main.cpp:471` -/
  pitch : K × K × K → K
  /-- the points of `alignment`: (actual x, actual y), (reference x, reference y) -/
  vertices : S → List ((K × K) × (K × K))
  triangles : S → Nat
  /-- `alignment.getTransformationMatrix(orientation)`: the nine elements by rows -/
  matrix : S → C (List K)

/-- What `NexStar::handleRequest` sees of it. -/
def Tel.ops (T : Tel K S) : NexStar.TelOps K S where
  position s lat t := (T.calibrated s lat t).map (·.2)
  addReferencePoint := T.addReferencePoint

/-- What `setup()` found out (`main.cpp:74-92`): `orientationSensorAvailable`, `mqttAvailable`, `localBrokerAvailable`,
`wifiClientMode || wifiAccessPointMode`. -/
structure Config where
  platform : Platform
  sensor : Bool
  mqtt : Bool
  broker : Bool
  wifi : Bool

/-- The global variables. -/
structure Sys (K S : Type) where
  timers : Timers
  imu : Imu K
  heading : ℚ
  pitch : K
  temperature : K
  gnss : Nmea.Gnss
  scope : NexStar.Scope S
  nexStarMode : Bool
  gnssAvailable : Bool
  gnssTimeout : UInt32
  tx : List UInt8
  rx : List UInt8
  ledMode : LedMode
  net : Net

/-- Observable effects. -/
inductive Out where
  | tcp (c : Conn) (bytes : List UInt8)
  | bluetooth (bytes : List UInt8)
  | mqtt (topic : String) (payload : List UInt8)
  | broker (topic : String) (payload : List UInt8)
  | pin (level : Bool)
  deriving DecidableEq, Repr

/-- `remoteClient.read(rxBuffer, 256)`: -1, or the bytes copied (none if nothing arrived). -/
inductive TcpRead where
  | failed
  | data (bytes : List UInt8)

/-- What one call of `loop()` gets from outside. -/
structure In (K : Type) where
  now : UInt32
  acc : K × K × K
  encoder : UInt8 × UInt8
  tcp : TcpRead
  serial : List UInt8
  messages : List (List UInt8 × List UInt8)
  temperature : K

/-- `main.cpp:54` -/
def CONTROL_TOPIC : List UInt8 := ascii "home/appliance/telescope/control"

/-- `main.cpp:138-168` `mqttCallback(topic, payload, length)`. -/
def mqttCallback (T : Tel K S) (s : Sys K S) (topic payload : List UInt8) : C (Sys K S × List Out) :=
  if payload.length < 1 then .ok (s, [])
  else if (findSub CONTROL_TOPIC topic).isNone then .ok (s, [])
  else do
    let p0 ← readByte payload 0
    if p0 = 49 then do
      let scope := { s.scope with core := T.clear s.scope.core }
      let tx ← storeByte s.tx 0 48
      let bytes ← readBytes tx 1
      return ({ s with scope, tx }, [.mqtt "home/appliance/telescope/control" bytes])
    else return (s, [])

/-- `main.cpp:517` `mqttClient.loop()`: the callback for each message that arrived. -/
def mqttLoop (T : Tel K S) : List (List UInt8 × List UInt8) → Sys K S → C (Sys K S × List Out)
  | [], s => .ok (s, [])
  | (topic, payload) :: rest, s => do
    let (s, o) ← mqttCallback T s topic payload
    let (s, o') ← mqttLoop T rest s
    return (s, o ++ o')

/-- `main.cpp:201-209` `onBluetoothData(buffer, size)`. -/
def onBluetoothData (cfg : Config) (T : Tel K S) (s : Sys K S) (buffer : List UInt8) : C (Sys K S × List Out) := do
  let (n, tx, scope) ← NexStar.handleRequest cfg.platform T.ops s.gnss s.scope buffer buffer.length s.tx 256
  if n > 0 then do
    let bytes ← readBytes tx n.toNat
    return ({ s with tx, scope, nexStarMode := true }, [.bluetooth bytes])
  else return ({ s with tx, scope }, [])

/-- `main.cpp:442-452`: the filter task. -/
def taskFilter (cfg : Config) (s : Sys K S) (i : In K) : C (Sys K S × List Out) :=
  if cfg.sensor then do
    let imu ← accSample s.imu i.acc
    return ({ s with imu }, [])
  else .ok (s, [])

/-- `main.cpp:455-461`: the 25 ms task. -/
def task25 (s : Sys K S) (i : In K) : Sys K S × List Out :=
  match ledUpdate s.ledMode i.now with
  | some b => (s, [.pin b])
  | none => (s, [])

/-- `main.cpp:469-485`: sensors to orientation.  `headingOffset` is 0 and never changed (`main.cpp:91`). -/
def readSensors (T : Tel K S) (s : Sys K S) (i : In K) : C (Sys K S) := do
  let mean ← getMeanAcc s.imu
  let pitch := T.pitch (calibrate s.imu mean)
  let heading ← headingStep (fl b32) (fl b64) s.heading (frame i.encoder.1 i.encoder.2)
  let scope := { s.scope with core := T.setOrientation s.scope.core (heading : K) pitch }
  return { s with heading, pitch, scope }

/-- `main.cpp:489`: the value of `received` (a `uint32_t`) and the receive buffer afterwards. -/
def tcpReceive (rx : List UInt8) : TcpRead → C (UInt32 × List UInt8)
  | .failed => .ok (0xFFFFFFFF, rx)
  | .data bytes => do
    let b := bytes.take 256
    let rx ← storeSeq rx 0 b
    return (UInt32.ofNat b.length, rx)

/-- `main.cpp:502-511`: a message that is not a NexStar command. -/
def tcpGoto (T : Tel K S) (s : Sys K S) (received : UInt32) : C (Sys K S) := do
  let (ok, ref) ← Codec.unpackPosition ⟨(0 : K), 0, none⟩ s.rx received.toNat
  if ok then do
    let t ← Helper.localSiderealTime s.gnss.utc (s.gnss.longitude : K)
    let core ← T.addReferencePoint s.scope.core ⟨ref.ra, ref.dec⟩ (s.gnss.latitude : K) t
    return { s with scope := { s.scope with core } }
  else return s

/-- `main.cpp:487-513`: data from the TCP client. -/
def tcpInput (cfg : Config) (T : Tel K S) (s : Sys K S) (c : Conn) (r : TcpRead) : C (Sys K S × List Out) := do
  let (received, rx) ← tcpReceive s.rx r
  let s := { s with rx }
  if received > 0 then do
    let (n, tx, scope) ← NexStar.handleRequest cfg.platform T.ops s.gnss s.scope s.rx 256 s.tx 256
    let s := { s with tx, scope }
    if n > 0 then do
      let bytes ← readBytes tx n.toNat
      return ({ s with nexStarMode := true }, [.tcp c bytes])
    else do
      let s ← tcpGoto T s received
      return (s, [])
  else return (s, [])

/-- `main.cpp:487`: is there a client to talk to, and which? -/
def client (s : Sys K S) : Option Conn := if s.net.connected then s.net.remote else none

/-- `main.cpp:520-531`: the LED mode. -/
def chooseLed (s : Sys K S) : LedMode :=
  if !s.gnss.valid then .blink1Hz else if s.net.connected then .flash2x else .flash1x

/-- `main.cpp:487-513` -/
def tcpTask (cfg : Config) (T : Tel K S) (s : Sys K S) (r : TcpRead) : C (Sys K S × List Out) :=
  match client s with
  | some c => tcpInput cfg T s c r
  | none => .ok (s, [])

/-- `main.cpp:515-518` -/
def mqttTask (cfg : Config) (T : Tel K S) (s : Sys K S) (messages : List (List UInt8 × List UInt8)) : C (Sys K S × List Out) :=
  if cfg.mqtt then mqttLoop T messages s else .ok (s, [])

/-- `main.cpp:464-552`: the 100 ms task. -/
def task100 (cfg : Config) (T : Tel K S) (s : Sys K S) (i : In K) : C (Sys K S × List Out) := do
  let s ← readSensors T s i
  let (s, o1) ← tcpTask cfg T s i.tcp
  let (s, o2) ← mqttTask cfg T s i.messages
  let s := { s with ledMode := chooseLed s }
  let s := if cfg.wifi then { s with net := checkForConnections s.net } else s
  return (s, o1 ++ o2)

/-- `main.cpp:561-578`: polling the GNSS receiver.  `fromBuffer` always terminates (`C21_terminates`), so its `none` never occurs. -/
def pollGnss (cfg : Config) (s : Sys K S) (serial : List UInt8) : C (Sys K S) := do
  let b := serial.take 255
  if 0 < b.length then do
    let rx ← storeSeq s.rx 0 b
    let rx ← storeByte rx b.length 0
    match ← Nmea.fromBuffer cfg.platform s.gnss (rx.take b.length) with
    | none => .error .nonfinite
    | some (sentences, gnss) =>
      if 0 < sentences then return { s with rx, gnss, gnssTimeout := 4 * 5, gnssAvailable := true }
      else return { s with rx, gnss }
  else
    let gnssTimeout := s.gnssTimeout - (if s.gnssTimeout > 0 then 1 else 0)
    return { s with gnssTimeout, gnssAvailable := decide (gnssTimeout > 0) }

/-- `if (mqttAvailable) mqttClient.publish(topic, txBuffer, len);` -/
def sendMqtt (cfg : Config) (topic : String) (tx : List UInt8) (len : Nat) : C (List Out) :=
  if cfg.mqtt then (readBytes tx len).map fun b => [Out.mqtt topic b] else .ok []

/-- `if (localBrokerAvailable) broker.publish(topic, (char *)txBuffer);` -/
def sendBroker (cfg : Config) (topic : String) (tx : List UInt8) : C (List Out) :=
  if cfg.broker then (readCString tx).map fun b => [Out.broker topic b] else .ok []

/-- Both, in the order of the 500 ms task. -/
def send (cfg : Config) (topic : String) (tx : List UInt8) (len : Nat) : C (List Out) := do
  let o1 ← sendMqtt cfg topic tx len
  let o2 ← sendBroker cfg topic tx
  return o1 ++ o2

/-- `len = snprintf((char *)txBuffer, sizeof(txBuffer), …)` and publication. -/
def publish (cfg : Config) (topic : String) (out : List UInt8) (tx : List UInt8) : C (List UInt8 × List Out) := do
  let (len, tx) ← snprintfAt tx 0 256 out
  let o ← send cfg topic tx len
  return (tx, o)

/-- A list of publications one after the other. -/
def publishAll (cfg : Config) : List (String × List UInt8) → List UInt8 → C (List UInt8 × List Out)
  | [], tx => .ok (tx, [])
  | (topic, out) :: rest, tx => do
    let (tx, o) ← publish cfg topic out tx
    let (tx, o') ← publishAll cfg rest tx
    return (tx, o ++ o')

/-- `main.cpp:662-663,675-676` `"[%.2f,%.2f],"` -/
def vertexText (p : K × K) : List UInt8 := [91] ++ fmtF 2 p.1 ++ [44] ++ fmtF 2 p.2 ++ [93, 44]

/-- `main.cpp:660-664,673-677`: the loop; `sizeof(txBuffer) - len` is evaluated in unsigned 32-bit arithmetic. -/
def vertexLoop : List (K × K) → (len : Nat) → List UInt8 → C (Nat × List UInt8)
  | [], len, tx => .ok (len, tx)
  | p :: ps, len, tx => do
    let (n, tx) ← snprintfAt tx len ((2 ^ 32 + 256 - len) % 2 ^ 32) (vertexText p)
    vertexLoop ps (len + n) tx

/-- `main.cpp:658-669,671-682`: publication of a list of points. -/
def publishVertices (cfg : Config) (topic : String) (ps : List (K × K)) (tx : List UInt8) : C (List UInt8 × List Out) := do
  let tx ← storeByte tx 0 91
  let (len, tx) ← vertexLoop ps 1 tx
  let tx ← storeByte tx len 93
  let o ← send cfg topic tx (len + 1)
  return (tx, o)

/-- Elements separated by `", "`. -/
def commaList : List (List UInt8) → List UInt8
  | [] => []
  | [x] => x
  | x :: xs => x ++ [44, 32] ++ commaList xs

/-- `main.cpp:598-655`: the numbers published every 500 ms. -/
def report (T : Tel K S) (s : Sys K S) (ty : Nat) (position : Equatorial K) (corrected : K × K) (lst : K) : List (String × List UInt8) :=
  [("home/appliance/telescope/alt", fmtF 3 corrected.2),
   ("home/appliance/telescope/az", fmtF 3 corrected.1),
   ("home/appliance/telescope/ra", fmtF 3 position.ra),
   ("home/appliance/telescope/dec", fmtF 3 position.dec),
   ("home/appliance/telescope/lst", fmtF 3 (lst / 15)),
   ("home/appliance/telescope/pitch", fmtF 3 s.pitch),
   ("home/appliance/telescope/heading", fmtF 3 s.heading),
   ("home/appliance/telescope/temp", fmtF 1 s.temperature),
   ("home/appliance/telescope/alignment", ascii "{\"vertices\":" ++ fmtI (T.vertices s.scope.core).length ++
      ascii ",\"triangles\":" ++ fmtI (T.triangles s.scope.core) ++ ascii ", \"type\": " ++ fmtI ty ++ ascii "}")]

/-- `main.cpp:588-596`: the position packet for a Stellarium client. -/
def sendPosition (cfg : Config) (s : Sys K S) (position : Equatorial K) : C (Sys K S × List Out) :=
  match client s with
  | some c =>
    if s.gnssAvailable && !s.nexStarMode then do
      let (length, tx) ← Codec.packPosition cfg.platform position.ra position.dec 0 s.tx 256
      if length = 24 then do
        let bytes ← readBytes tx 24
        return ({ s with tx }, [.tcp c bytes])
      else return ({ s with tx }, [])
    else return (s, [])
  | none => return (s, [])

/-- `main.cpp:581-693`: the part of the 500 ms task that needs the orientation sensor. -/
def reportAll (cfg : Config) (T : Tel K S) (s : Sys K S) : C (Sys K S × List Out) := do
  let lst ← Helper.localSiderealTime s.gnss.utc (s.gnss.longitude : K)
  let (ty, position) ← T.calibrated s.scope.core (s.gnss.latitude : K) lst
  let corrected := T.toHorizontal position (s.gnss.latitude : K) lst
  let (s, o1) ← sendPosition cfg s position
  let (tx, o2) ← publishAll cfg (report T s ty position corrected lst) s.tx
  let (tx, o3) ← publishVertices cfg "home/appliance/telescope/actual" ((T.vertices s.scope.core).map (·.1)) tx
  let (tx, o4) ← publishVertices cfg "home/appliance/telescope/reference" ((T.vertices s.scope.core).map (·.2)) tx
  let m ← T.matrix s.scope.core
  let (tx, o5) ← publish cfg "home/appliance/telescope/matrix" ([91] ++ commaList (m.map (fmtF 2)) ++ [93]) tx
  return ({ s with tx }, o1 ++ o2 ++ o3 ++ o4 ++ o5)

/-- `main.cpp:555-696`: the 500 ms task. -/
def task500 (cfg : Config) (T : Tel K S) (s : Sys K S) (i : In K) : C (Sys K S × List Out) := do
  let s ← pollGnss cfg s i.serial
  if cfg.sensor then reportAll cfg T s else return (s, [])

/-- `main.cpp:738-750`: the GNSS report. -/
def gnssText (g : Nmea.Gnss) : List UInt8 :=
  ascii "{\"valid\":" ++ ascii (if g.valid then "true" else "false") ++ ascii ",\"lat\":" ++ fmtF 3 g.latitude ++
  ascii ",\"lng\":" ++ fmtF 3 g.longitude ++ ascii ",\"alt\":" ++ fmtF 0 g.altitude ++
  ascii ",\"date\":\"" ++ fmtU 4 g.utc.year ++ [45] ++ fmtU 2 g.utc.mon ++ [45] ++ fmtU 2 g.utc.mday ++
  ascii "\",\"time\":\"" ++ fmtU 2 g.utc.hour ++ [58] ++ fmtU 2 g.utc.min ++ [58] ++ fmtU 2 g.utc.sec ++
  ascii "\",\"satUse\":" ++ fmtU 0 g.satUsed.toNat ++ ascii ",\"satView\":" ++ fmtU 0 g.satView.toNat ++ ascii "}"

/-- `main.cpp:717-759`: publication of the GNSS report, to the local broker first. -/
def reportGnss (cfg : Config) (s : Sys K S) : C (Sys K S × List Out) :=
  if s.gnssAvailable then do
    let (len, tx) ← snprintfAt s.tx 0 256 (gnssText s.gnss)
    let o1 ← sendBroker cfg "home/appliance/telescope/gnss" tx
    let o2 ← sendMqtt cfg "home/appliance/telescope/gnss" tx len
    return ({ s with tx }, o1 ++ o2)
  else .ok (s, [])

/-- `main.cpp:707-771`: the 2 s task. -/
def task2s (cfg : Config) (s : Sys K S) (i : In K) : C (Sys K S × List Out) := do
  let tx ← storeByte s.tx 0 0
  let tx ← storeByte tx 1 0
  let rx ← storeByte s.rx 0 1
  let rx ← storeByte rx 1 2
  let (s, o) ← reportGnss cfg { s with tx, rx }
  return ({ s with temperature := if cfg.sensor then i.temperature else s.temperature }, o)

/-- `main.cpp:438-789` `loop()`. -/
def loop (cfg : Config) (T : Tel K S) (s : Sys K S) (i : In K) : C (Sys K S × List Out) :=
  let r := schedule s.timers i.now
  let s := { s with timers := r.2 }
  match r.1 with
  | some .filter => taskFilter cfg s i
  | some .t25ms => .ok (task25 s i)
  | some .t100ms => task100 cfg T s i
  | some .t500ms => task500 cfg T s i
  | some .t1s => .ok (s, [])
  | some .t2s => task2s cfg s i
  | some .t30s => .ok (s, [])
  | none => .ok (s, [])

/-- Everything that can happen. -/
inductive Event (K : Type) where
  | loop (i : In K)
  | bluetooth (buffer : List UInt8)
  | arrive (c : Conn)
  | gone (c : Conn)

/-- One event. -/
def step (cfg : Config) (T : Tel K S) (s : Sys K S) : Event K → C (Sys K S × List Out)
  | .loop i => loop cfg T s i
  | .bluetooth b => onBluetoothData cfg T s b
  | .arrive c => .ok ({ s with net := Net.step s.net (.arrive c) }, [])
  | .gone c => .ok ({ s with net := Net.step s.net (.gone c) }, [])

/-- A history: events, each with what the telescope computes at that time. -/
def run (cfg : Config) : List (Tel K S × Event K) → Sys K S → C (Sys K S × List Out)
  | [], s => .ok (s, [])
  | (T, e) :: h, s => do
    let (s, o) ← step cfg T s e
    let (s, o') ← run cfg h s
    return (s, o ++ o')

/-- `main.cpp:74-136` after `setup()`: the initial values of the globals; `core` is the new telescope.  The heading starts at 180. -/
def boot (cfg : Config) (core : S) : Sys K S where
  timers := Timers.init
  imu := if cfg.sensor then setCalibration Imu.init else Imu.init
  heading := 180
  pitch := 0
  temperature := 0
  gnss := Nmea.Gnss.init 48 11
  scope := ⟨core, false⟩
  nexStarMode := false
  gnssAvailable := false
  gnssTimeout := 0
  tx := List.replicate 256 0
  rx := List.replicate 256 0
  ledMode := .ready
  net := Net.init

end Verif.Main
