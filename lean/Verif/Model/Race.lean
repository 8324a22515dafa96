import Verif.Model.Main

/-!
# The shared transmit buffer under concurrency

`onBluetoothData` (`main.cpp:201-209`) is called from the task of the Bluetooth stack, `loop()` from the Arduino task; both build their
messages in the one `txBuffer` (`main.cpp:135`), without any lock.  `Model/Main.lean` runs one after the other; here the two tasks are
interleaved byte by byte.

What a task does with the buffer is a sequence of *actions*: storing bytes in consecutive cells (as `snprintf`, `packPosition` and
assignments do, in ascending order, the terminating NUL last) and handing a number of bytes, or the string, at the start of the buffer to
a driver, which reads them one by one.

Simplifications: what the messages *say* is computed before the actions begin (races on the telescope object, i.e. a Bluetooth sync while
`loop()` computes a position, are in `Model/Shared.lean`); memory is sequentially consistent (the buffer is in internal RAM, which is not cached);
formally the C++ standard leaves every such race undefined.
-/

namespace Verif.Race

open Verif.Main Printf

/-- Where bytes are handed to. -/
inductive Chan where
  | tcp (c : Net.Conn)
  | bluetooth
  | mqtt (topic : String)
  | broker (topic : String)

/-- The observable effect (`Model/Main.lean`). -/
def Chan.out : Chan → List UInt8 → Out
  | .tcp c, b => .tcp c b
  | .bluetooth, b => .bluetooth b
  | .mqtt t, b => .mqtt t b
  | .broker t, b => .broker t b

/-- One thing a task does with `txBuffer`. -/
inductive Act where
  /-- store `bytes` from cell `i` on -/
  | store (i : Nat) (bytes : List UInt8)
  /-- hand the first `n` bytes to a driver -/
  | send (n : Nat) (c : Chan)
  /-- hand the C string at the start to a driver -/
  | sendStr (c : Chan)

/-- The program of a task, one access at a time. -/
inductive Prog where
  | done
  | put (i : Nat) (b : UInt8) (k : Prog)
  | get (i : Nat) (k : UInt8 → Prog)
  | emit (o : Out) (k : Prog)

/-- Stores to consecutive cells. -/
def putAll (i : Nat) : List UInt8 → Prog → Prog
  | [], k => k
  | b :: bs, k => .put i b (putAll (i + 1) bs k)

/-- Reads `n` cells from `i` on; `acc` are the bytes read so far. -/
def getAll (i : Nat) : (n : Nat) → (acc : List UInt8) → (List UInt8 → Prog) → Prog
  | 0, acc, k => k acc
  | n + 1, acc, k => .get i fun b => getAll (i + 1) n (acc ++ [b]) k

/-- Reads cells from `i` on up to a NUL; `fuel` cells of the buffer are left, the read after the last one fails. -/
def getStr (i : Nat) : (fuel : Nat) → (acc : List UInt8) → (List UInt8 → Prog) → Prog
  | 0, acc, k => .get i fun _ => k acc
  | n + 1, acc, k => .get i fun b => if b = 0 then k acc else getStr (i + 1) n (acc ++ [b]) k

/-- The accesses of a sequence of actions; `sizeof(txBuffer)` is 256. -/
def ofActs : List Act → Prog
  | [] => .done
  | .store i bs :: r => putAll i bs (ofActs r)
  | .send n c :: r => getAll 0 n [] fun bytes => .emit (c.out bytes) (ofActs r)
  | .sendStr c :: r => getStr 0 256 [] fun bytes => .emit (c.out bytes) (ofActs r)

/-- What a step did. -/
inductive Ev where
  | put (i : Nat) (b : UInt8)
  | get (i : Nat) (b : UInt8)
  | emit (o : Out)

/-- One access. -/
def step : Prog → List UInt8 → C (Prog × List UInt8 × List Ev)
  | .done, mem => .ok (.done, mem, [])
  | .put i b k, mem => do
    let mem ← storeByte mem i b
    return (k, mem, [.put i b])
  | .get i k, mem => do
    let b ← readByte mem i
    return (k b, mem, [.get i b])
  | .emit o k, mem => .ok (k, mem, [.emit o])

/-- A task on its own: the buffer afterwards and what was sent. -/
def exec : Prog → List UInt8 → C (List UInt8 × List Out)
  | .done, mem => .ok (mem, [])
  | .put i b k, mem => do
    let mem ← storeByte mem i b
    exec k mem
  | .get i k, mem => do
    let b ← readByte mem i
    exec (k b) mem
  | .emit o k, mem => do
    let (mem, os) ← exec k mem
    return (mem, o :: os)

/-- The two tasks. -/
inductive Task where
  | bluetooth
  | loop
  deriving DecidableEq

/-- The other one. -/
def Task.other : Task → Task
  | .bluetooth => .loop
  | .loop => .bluetooth

/-- Both tasks together: the schedule says which task makes the next access.  The result are the rests of the programs, the buffer and
everything that happened, in order. -/
def par : List Task → (Task → Prog) → List UInt8 → C ((Task → Prog) × List UInt8 × List (Task × Ev))
  | [], ps, mem => .ok (ps, mem, [])
  | t :: sched, ps, mem => do
    let (p, mem, evs) ← step (ps t) mem
    let (ps, mem, log) ← par sched (Function.update ps t p) mem
    return (ps, mem, evs.map (fun e => (t, e)) ++ log)

/-! ### What the tasks do -/

/-- `snprintf(txBuffer, sizeof(txBuffer), …)` with the formatted bytes `out`. -/
def printActs (out : List UInt8) : List Act := [.store 0 (out.take 255 ++ [0])]

/-- `main.cpp:203-206` with the reply `o` of `handleRequest`; `none` stands for an unknown command. -/
def bluetoothActs : Option (List UInt8) → List Act
  | none => []
  | some o => printActs o ++ [.send o.length .bluetooth]

/-- `main.cpp:493-497` -/
def tcpActs (c : Net.Conn) : Option (List UInt8) → List Act
  | none => []
  | some o => printActs o ++ [.send o.length (.tcp c)]

/-- `main.cpp:156-157`: the answer to a reset request. -/
def resetActs : List Act := [.store 0 [48], .send 1 (.mqtt "home/appliance/telescope/control")]

/-- `if (mqttAvailable) …; if (localBrokerAvailable) …` as in `main.cpp:600-603`. -/
def sendActs (cfg : Config) (topic : String) (len : Nat) : List Act :=
  (if cfg.mqtt then [.send len (.mqtt topic)] else []) ++ (if cfg.broker then [.sendStr (.broker topic)] else [])

/-- `main.cpp:599-655`: one publication. -/
def publishActs (cfg : Config) (topic : String) (out : List UInt8) : List Act := printActs out ++ sendActs cfg topic out.length

/-- `main.cpp:591-594`: the position packet. -/
def packetActs (c : Net.Conn) (bytes : List UInt8) : List Act := [.store 0 bytes, .send 24 (.tcp c)]

/-- `main.cpp:660-664`: the loop over the points. -/
def textsActs : List (List UInt8) → (len : Nat) → List Act
  | [], _ => []
  | x :: xs, len => .store len (x.take (256 - len - 1) ++ [0]) :: textsActs xs (len + x.length)

/-- `main.cpp:658-669,671-682`: a list of points, `texts` being the formatted points.  Only for lists that leave room in the buffer
(see C53 for the others). -/
def verticesActs (cfg : Config) (topic : String) (texts : List (List UInt8)) : List Act :=
  [.store 0 [91]] ++ textsActs texts 1 ++ [.store (1 + texts.flatten.length) [93]] ++ sendActs cfg topic (2 + texts.flatten.length)

/-- `main.cpp:713-714`: the beginning of the 2 s task. -/
def clearActs : List Act := [.store 0 [0], .store 1 [0]]

/-- `main.cpp:738-759`: the GNSS report, to the local broker first. -/
def gnssActs (cfg : Config) (out : List UInt8) : List Act :=
  printActs out ++ (if cfg.broker then [.sendStr (.broker "home/appliance/telescope/gnss")] else []) ++
    (if cfg.mqtt then [.send out.length (.mqtt "home/appliance/telescope/gnss")] else [])

/-- What `loop()` does with the buffer, message by message. -/
inductive Work where
  /-- the reply to a NexStar command received over TCP -/
  | reply (c : Net.Conn) (o : List UInt8)
  | reset
  | packet (c : Net.Conn) (bytes : List UInt8)
  | publish (topic : String) (out : List UInt8)
  | points (topic : String) (texts : List (List UInt8))
  | clear
  | gnss (out : List UInt8)

/-- The actions of one message. -/
def Work.acts (cfg : Config) : Work → List Act
  | .reply c o => tcpActs c (some o)
  | .reset => resetActs
  | .packet c b => packetActs c b
  | .publish t o => publishActs cfg t o
  | .points t xs => verticesActs cfg t xs
  | .clear => clearActs
  | .gnss o => gnssActs cfg o

end Verif.Race
