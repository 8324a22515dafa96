import Verif.Model.Main

/-!
# Model of the connection to the remote MQTT server

`Model/Main.lean` leaves open which messages `mqttClient.loop()` finds and whether a publication reaches anybody.  Here the connection is
part of the state: `reconnectMQTTClient` (`main.cpp:424-436`), its call in the 2 s task (`main.cpp:761-764`), and a server that passes
the messages of a topic to its subscribers - the device included - in order.

`PubSubClient` as used: `loop()` handles at most one message; `publish` without a connection does nothing; a session is new after `connect`
(no subscription survives a lost connection).  Messages are not lost while the connection stands (the size limit of `PubSubClient`
is not modelled).
-/

namespace Verif.Link

open Main

variable {K : Type} [Field K] [LinearOrder K] [IsStrictOrderedRing K] [FloorRing K] {S : Type}

/-- The firmware and its connection: is it there, is the control topic subscribed, messages on their way to the device. -/
structure Dev (K S : Type) where
  sys : Sys K S
  connected : Bool
  subscribed : Bool
  queue : List (List UInt8 × List UInt8)

/-- What can happen.  `connects` and `subscribes`: whether `mqttClient.connect` and `mqttClient.subscribe` work if they are called now. -/
inductive Event (K : Type) where
  | device (e : Main.Event K) (connects subscribes : Bool)
  | published (topic payload : List UInt8)
  | lost

/-- What can be seen: outputs of the device (those for the remote server only if they get there), and attempts to connect. -/
inductive Seen where
  | out (o : Out)
  | attempt
  deriving DecidableEq, Repr

/-- `PubSubClient::publish` without a connection returns false and sends nothing. -/
def deliver (connected : Bool) (o : List Out) : List Out :=
  o.filter fun
    | .mqtt _ _ => connected
    | _ => true

/-- The device's own publications on the control topic come back to it. -/
def echo (o : List Out) : List (List UInt8 × List UInt8) :=
  o.filterMap fun
    | .mqtt t b => if t = "home/appliance/telescope/control" then some (CONTROL_TOPIC, b) else none
    | _ => none

/-- `main.cpp:517`: what `mqttClient.loop()` finds in this call. -/
def received (l : Dev K S) : List (List UInt8 × List UInt8) := if l.connected then l.queue.take 1 else []

/-- The event with these messages. -/
def withMessages (e : Main.Event K) (ms : List (List UInt8 × List UInt8)) : Main.Event K :=
  match e with
  | .loop i => .loop { i with messages := ms }
  | e => e

/-- The task the event runs. -/
def runs (s : Sys K S) : Main.Event K → Option Task
  | .loop i => (schedule s.timers i.now).1
  | _ => none

/-- `main.cpp:424-436` `reconnectMQTTClient()`. -/
def reconnect (l : Dev K S) (connects subscribes : Bool) : Dev K S :=
  if connects then { l with connected := true, subscribed := subscribes } else l

/-- One event. -/
def step (cfg : Config) (T : Tel K S) (l : Dev K S) : Event K → C (Dev K S × List Seen)
  | .published topic payload =>
    if l.connected && l.subscribed && topic == CONTROL_TOPIC then .ok ({ l with queue := l.queue ++ [(topic, payload)] }, []) else .ok (l, [])
  | .lost => .ok ({ l with connected := false, subscribed := false, queue := [] }, [])
  | .device e connects subscribes => do
    let task := runs l.sys e
    let (sys, o) ← Main.step cfg T l.sys (withMessages e (received l))
    let o := deliver l.connected o
    let queue := if cfg.mqtt && task == some .t100ms && l.connected then l.queue.tail else l.queue
    let queue := if l.subscribed then queue ++ echo o else queue
    let l : Dev K S := { l with sys, queue }
    if cfg.mqtt && task == some .t2s && !l.connected then                     -- main.cpp:761-764
      return (reconnect l connects subscribes, o.map .out ++ [.attempt])
    else return (l, o.map .out)

/-- A history. -/
def run (cfg : Config) : List (Tel K S × Event K) → Dev K S → C (Dev K S × List Seen)
  | [], l => .ok (l, [])
  | (T, e) :: h, l => do
    let (l, o) ← step cfg T l e
    let (l, o') ← run cfg h l
    return (l, o ++ o')

/-- After `setup()`: not connected yet (`main.cpp:351-359` only names the server). -/
def boot (cfg : Config) (core : S) : Dev K S := ⟨Main.boot cfg core, false, false, []⟩

end Verif.Link
