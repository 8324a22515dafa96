import Verif.Model.Gnss
import Verif.Model.Helper

/-!
# Model of `lib/nexstar/src/nexstar.cpp`: the NexStar hand-controller protocol

`NexStar::handleRequest` talks to the telescope through two of its methods and one flag.  The methods are a parameter
(`TelOps`), so that everything proved here holds for whatever the telescope computes; `Model/Telescope.lean` supplies the
real ones.  `double`/`long double` is an exact ordered field `K`.
-/

namespace Verif

/-- `mytypes.h` `Equatorial`: right ascension and declination in degrees. -/
structure Equatorial (K : Type) where
  ra : K
  dec : K
  deriving DecidableEq, Repr

namespace NexStar
open Verif.Nmea

/-- What `handleRequest` calls on the telescope: `getCalibratedOrientation(latitude, lst)` (`telescope.cpp:44-48`) and
`addReferencePoint(reference, latitude, lst)` (`telescope.cpp:29-36`); `S` is the telescope state these two act on. -/
structure TelOps (K S : Type) where
  position : S → K → K → C (Equatorial K)
  addReferencePoint : S → Equatorial K → K → K → C S

/-- The telescope object as `handleRequest` sees it; `isCalibrated` is `telescope.h:39`. -/
structure Scope (S : Type) where
  core : S
  isCalibrated : Bool
  deriving DecidableEq, Repr

/-- `snprintf(response, max, …)` (C11 7.21.6.5) once the conversion produced the bytes `out`: nothing is written when
`max` is 0, otherwise at most `max - 1` bytes and a terminating NUL; the result is the untruncated length. -/
def snprintf (response : List UInt8) (max : Nat) (out : List UInt8) : C (UInt32 × List UInt8) :=
  if max = 0 then .ok (UInt32.ofNat out.length, response)
  else do
    let r ← storeSeq response 0 (out.take (max - 1) ++ [0])
    return (UInt32.ofNat out.length, r)

/-- `%c`: the `int` argument converted to `unsigned char`. -/
def fmtC (z : ℤ) : UInt8 := UInt8.ofNat (z % 256).toNat

/-- Upper-case hexadecimal digit. -/
def hexDigitU (n : Nat) : UInt8 := if n < 10 then UInt8.ofNat (48 + n) else UInt8.ofNat (55 + n)

/-- `%08X` of an `uint32_t` (always exactly 8 characters). -/
def fmt08X (v : UInt32) : List UInt8 :=
  [28, 24, 20, 16, 12, 8, 4, 0].map fun s => hexDigitU (v.toNat / 2 ^ s % 16)

/-- The branches of the `if`/`else if` chain of `handleRequest`. -/
inductive Branch where
  | echo | version | deviceVersion | model | location | position | time | goto | aligned | tracking | sync | unknown
  deriving DecidableEq, Repr

/-- C's `&&` with its evaluation order. -/
def cAnd (a b : C Bool) : C Bool := a >>= fun t => if t then b else .ok false

/-- `request[i] == c` -/
def byteIs (request : List UInt8) (i : Nat) (c : UInt8) : C Bool := (readByte request i).map (· == c)

/-- `requestLength >= k && request[0] == c` -/
def cmdIs (request : List UInt8) (requestLength k : Nat) (c : UInt8) : C Bool :=
  cAnd (.ok (decide (k ≤ requestLength))) (byteIs request 0 c)

/-- C's `||` with its evaluation order. -/
def cOr (a b : C Bool) : C Bool := a >>= fun t => if t then .ok true else b

/-- `nexstar.cpp:22-24`: the condition of the device-version request. -/
def isDeviceVersion (request : List UInt8) (n : Nat) : C Bool :=
  cAnd (cmdIs request n 8 80) <|
  cAnd (byteIs request 1 0x01) <|
  cAnd (cOr (byteIs request 2 0x10) (cOr (byteIs request 2 0x11) (cOr (byteIs request 2 0xb0) (byteIs request 2 0xb2)))) <|
  cAnd (byteIs request 3 0xfe) <| cAnd (byteIs request 4 0) <| cAnd (byteIs request 5 0) <|
  cAnd (byteIs request 6 0) <| byteIs request 7 2

/-- First branch whose condition holds. -/
def firstBranch : List (C Bool × Branch) → C Branch
  | [] => .ok .unknown
  | (c, b) :: rest => c >>= fun t => if t then .ok b else firstBranch rest

/-- `nexstar.cpp:12-87`: the conditions of the `if`/`else if` chain, in order. -/
def branch (request : List UInt8) (n : Nat) : C Branch :=
  firstBranch [
    (cmdIs request n 2 75, .echo),
    (cmdIs request n 1 86, .version),
    (isDeviceVersion request n, .deviceVersion),
    (cmdIs request n 1 109, .model),
    (cmdIs request n 1 119, .location),
    (cmdIs request n 1 101, .position),
    (cmdIs request n 1 104, .time),
    (cmdIs request n 1 76, .goto),
    (cmdIs request n 1 74, .aligned),
    (cmdIs request n 1 116, .tracking),
    (cmdIs request n 18 115, .sync)]

/-- `nexstar.cpp:39-40,43-44`: the degree and minute bytes of one coordinate, in `float` arithmetic (IEEE rounding);
`floor` and `abs` of a float are exact. -/
def degMin (P : Platform) (v : ℚ) : C (UInt8 × UInt8) := do
  let deg ← castU8 P (|(⌊v⌋ : ℚ)|)
  let d ← fl b32 (|v| - |(⌊v⌋ : ℚ)|)
  let m ← fl b32 (d * 60)
  let min ← castU8 P m
  return (deg, min)

/-- `nexstar.cpp:38-46`: the bytes of the location response. -/
def locationBytes (P : Platform) (g : Gnss) : C (List UInt8) := do
  let (d1, m1) ← degMin P g.latitude
  let (d2, m2) ← degMin P g.longitude
  return [d1, m1, 0, if g.north then 0 else 1, d2, m2, 0, if g.east then 0 else 1, 35]

/-- `nexstar.cpp:61-69`: the bytes of the time response.  Simplification: `tm_year - 2000` does not overflow `int`. -/
def timeBytes (g : Gnss) : List UInt8 :=
  [fmtC g.utc.hour, fmtC g.utc.min, fmtC g.utc.sec, fmtC g.utc.mon, fmtC g.utc.mday, fmtC (g.utc.year - 2000), 0, 0, 35]

/-- `strncpy(dst, src, 8)` (C11 7.24.2.4): characters up to a NUL, the rest filled with NULs; `k` characters remain. -/
def strncpyFrom (src : List UInt8) (i : Nat) : (k : Nat) → C (List UInt8)
  | 0 => .ok []
  | k + 1 => do
    let b ← readByte src i
    if b = 0 then .ok (List.replicate (k + 1) 0)
    else (strncpyFrom src (i + 1) k).map (b :: ·)

section
variable {K : Type} [Field K] [LinearOrder K] [IsStrictOrderedRing K] [FloorRing K]

/-- `nexstar.cpp:54-56`: the bytes of the position response. -/
def positionBytes (P : Platform) (p : Equatorial K) : C (List UInt8) := do
  let ra ← castU32 P (p.ra / 360 * 4294967296)
  let dec ← castU32 P (p.dec / 360 * 4294967296)
  return fmt08X ra ++ [44] ++ fmt08X dec ++ [35]

/-- `nexstar.cpp:92-93,95-96`: one number of a sync request.  `hexString[8]` is the NUL of the initialiser. -/
def syncAngle (P : Platform) (request : List UInt8) (i : Nat) : C K := do
  let s ← strncpyFrom request i 8
  let (v, _) ← strtoul P true (s ++ [0])
  return (v : K) * 360 / 4294967296

/-- `nexstar.cpp:99`: wrap for negative declinations. -/
def wrapDec (dec : K) : K := if 270 < dec then dec - 360 else dec

/-- `nexstar.cpp:51,101`: local sidereal time from the GNSS time and longitude. -/
def lst (g : Gnss) : C K := Helper.localSiderealTime g.utc (g.longitude : K)

variable {S : Type}

/-- `nexstar.cpp:89-103`: the effect of a sync request.  Not modelled: the logging of lines 105-131. -/
def doSync (P : Platform) (ops : TelOps K S) (g : Gnss) (sc : Scope S) (request : List UInt8) : C (Scope S) := do
  let ra : K ← syncAngle P request 1
  let dec : K ← syncAngle P request 10
  let t ← lst g
  let core ← ops.addReferencePoint sc.core ⟨ra, wrapDec dec⟩ (g.latitude : K) t
  return ⟨core, true⟩

/-- `nexstar.cpp:134-141`: the unknown-command branch; the Arduino build logs eight request bytes. -/
def unknownLog (P : Platform) (request : List UInt8) : C Unit :=
  if P.arduino then do
    let _ ← readByte request 0
    let _ ← readByte request 1
    let _ ← readByte request 2
    let _ ← readByte request 3
    let _ ← readByte request 4
    let _ ← readByte request 5
    let _ ← readByte request 6
    let _ ← readByte request 7
    return ()
  else .ok ()

/-- The bodies of the branches: the formatted response (`none` for the unknown command, which prints nothing) and
the telescope afterwards. -/
def body (P : Platform) (ops : TelOps K S) (g : Gnss) (sc : Scope S) (request : List UInt8) :
    Branch → C (Option (List UInt8) × Scope S)
  | .echo => (readByte request 1).map fun b => (some [b, 35], sc)           -- nexstar.cpp:14
  | .version => .ok (some [4, 10, 35], sc)                                   -- nexstar.cpp:19
  | .deviceVersion => .ok (some [1, 0, 35], sc)                              -- nexstar.cpp:26
  | .model => .ok (some [12, 35], sc)                                        -- nexstar.cpp:31
  | .location => (locationBytes P g).map fun o => (some o, sc)               -- nexstar.cpp:38-46
  | .position => do                                                          -- nexstar.cpp:51-56
    let t ← lst g
    let p ← ops.position sc.core (g.latitude : K) t
    let o ← positionBytes P p
    return (some o, sc)
  | .time => .ok (some (timeBytes g), sc)                                    -- nexstar.cpp:61-69
  | .goto => .ok (some [0, 35], sc)                                          -- nexstar.cpp:74
  | .aligned => .ok (some [if sc.isCalibrated then 1 else 0, 35], sc)        -- nexstar.cpp:79
  | .tracking => .ok (some [1, 35], sc)                                      -- nexstar.cpp:84
  | .sync => (doSync P ops g sc request).map fun sc' => (some [35], sc')     -- nexstar.cpp:89-132
  | .unknown => (unknownLog P request).map fun _ => (none, sc)               -- nexstar.cpp:134-142

/-- `nexstar.cpp:9-143` `NexStar::handleRequest(request, requestLength, response, responseMaxLength)`: `request` and
`response` are the memory that really exists at the two pointers; the result is the return value, the new content of the
response memory and the telescope afterwards. -/
def handleRequest (P : Platform) (ops : TelOps K S) (g : Gnss) (sc : Scope S) (request : List UInt8) (requestLength : Nat)
    (response : List UInt8) (responseMaxLength : Nat) : C (UInt32 × List UInt8 × Scope S) := do
  let b ← branch request requestLength
  let (out, sc') ← body P ops g sc request b
  match out with
  | none => return (0, response, sc')
  | some o => do
    let (n, r) ← snprintf response responseMaxLength o
    return (n, r, sc')

end
end NexStar
end Verif
