import Verif.Model.Telescope64
import Verif.Model.Codec64
import Verif.Model.Sidereal64
import Verif.Model.Printf

/-!
# An observing session in IEEE arithmetic

The parts of `src/main.cpp` and `lib/nexstar/src/nexstar.cpp` between the bytes of the two protocols and the telescope, with every floating-point
operation rounded: `Model/Codec64.lean`, `Model/Sidereal64.lean` and `Model/Telescope64.lean` put together.  The GNSS data of the moment and the orientation
found by the sensors are inputs.  Buffers, timers and connections are in `Model/Main.lean`.
-/

namespace Verif.Session64

open Verif Verif.Align Verif.Coord64 Verif.Telescope64

variable {σ : Type}

/-- `main.cpp:502-511`: a message that is not a NexStar command (`rx` is the receive buffer, `received` the number of bytes received). -/
def goto (L : Fmt) (M : Libm) (env : Align64.Env σ) (g : Nmea.Gnss) (T : Tel) (rx : List UInt8) (received : Nat) : C Tel := do
  let (ok, ref) ← Codec.unpackPosition64 ⟨0, 0, none⟩ rx received
  if ok then do
    let t ← Helper.localSiderealTime64 L g.utc g.longitude
    addReferencePoint M env T ref.ra ref.dec g.latitude t
  else return T

/-- `nexstar.cpp:89-103`: a sync request. -/
def sync (L : Fmt) (P : Platform) (M : Libm) (env : Align64.Env σ) (g : Nmea.Gnss) (T : Tel) (request : List UInt8) : C Tel := do
  let ra ← NexStar.syncAngle64 L P request 1
  let dec ← NexStar.syncAngle64 L P request 10
  let dec ← NexStar.wrapDec64 dec
  let t ← Helper.localSiderealTime64 L g.utc g.longitude
  addReferencePoint M env T ra dec g.latitude t

/-- `main.cpp:491,205`: a NexStar request, as far as it changes the telescope (`handleRequest`, `nexstar.cpp:12-142`). -/
def request (L : Fmt) (P : Platform) (M : Libm) (env : Align64.Env σ) (g : Nmea.Gnss) (T : Tel) (bytes : List UInt8) : C Tel := do
  match ← NexStar.branch bytes bytes.length with
  | .sync => sync L P M env g T bytes
  | _ => .ok T

/-- `main.cpp:583-594`: the position packet of the 500 ms task, written to the buffer `tx`. -/
def packet (L : Fmt) (P : Platform) (M : Libm) (g : Nmea.Gnss) (T : Tel) (tx : List UInt8) : C (List UInt8) := do
  let t ← Helper.localSiderealTime64 L g.utc g.longitude
  let p ← getCalibratedOrientation M T g.latitude t
  let r ← Codec.packPosition64 P p.2.1 p.2.2 0 tx 256
  Printf.readBytes r.2 24

/-- `nexstar.cpp:49-57`: the reply to `e`. -/
def reply (L : Fmt) (P : Platform) (M : Libm) (g : Nmea.Gnss) (T : Tel) : C (List UInt8) := do
  let t ← Helper.localSiderealTime64 L g.utc g.longitude
  let p ← getCalibratedOrientation M T g.latitude t
  NexStar.positionBytes64 L P ⟨p.2.1, p.2.2⟩

end Verif.Session64
