import Verif.C.Float

/-!
# Model of `node-server/src/server.ts`, the TypeScript telescope server

JavaScript numbers are IEEE binary64: every arithmetic operation is the exact rational operation followed by `rnd b64`.
Simplification: overflow to `Infinity` and NaN are not represented; every number formed below is far below `2^1024`.
A `RangeError` thrown inside the `data` callback is not caught anywhere and ends the server process; it is the error
outcome.  The accesses to `Buffer` follow the Node.js documentation (`buf.readInt32LE`, `buf.writeUInt32LE`, …): reads and
writes outside the buffer and values outside the range of the integer type throw, fractions are cut off.
-/

namespace Verif.Node

/-- What ends the server process: an uncaught `ERR_OUT_OF_RANGE`. -/
inductive Throw where
  | rangeError
  deriving DecidableEq, Repr

/-- Outcome of a JavaScript computation. -/
abbrev J (α : Type) := Except Throw α

instance instDecidableEqJ {α : Type} [DecidableEq α] : DecidableEq (J α)
  | .ok a, .ok b => if h : a = b then isTrue (h ▸ rfl) else isFalse (fun e => h (Except.ok.inj e))
  | .error a, .error b => if h : a = b then isTrue (h ▸ rfl) else isFalse (fun e => h (Except.error.inj e))
  | .ok _, .error _ => isFalse (fun e => by cases e)
  | .error _, .ok _ => isFalse (fun e => by cases e)

/-- `server.ts:15-18` `interface Equatorial`: hours and degrees. -/
structure Equatorial where
  ra : ℚ
  dec : ℚ
  deriving DecidableEq, Repr

/-- A JavaScript arithmetic result. -/
def num (q : ℚ) : ℚ := rnd b64 q

/-- One byte of a `Buffer`. -/
def byteAt (b : List UInt8) (i : Nat) : J ℤ :=
  match b[i]? with
  | some v => .ok v.toNat
  | none => .error .rangeError

/-- `buf.readUInt32LE(offset)`. -/
def readUInt32LE (b : List UInt8) (i : Nat) : J ℤ := do
  let b0 ← byteAt b i
  let b1 ← byteAt b (i + 1)
  let b2 ← byteAt b (i + 2)
  let b3 ← byteAt b (i + 3)
  return b0 + b1 * 2 ^ 8 + b2 * 2 ^ 16 + b3 * 2 ^ 24

/-- `buf.readInt32LE(offset)`: the last byte is shifted as a signed 32-bit number. -/
def readInt32LE (b : List UInt8) (i : Nat) : J ℤ := do
  let b0 ← byteAt b i
  let b1 ← byteAt b (i + 1)
  let b2 ← byteAt b (i + 2)
  let b3 ← byteAt b (i + 3)
  return b0 + b1 * 2 ^ 8 + b2 * 2 ^ 16 + (if b3 < 128 then b3 else b3 - 256) * 2 ^ 24

/-- `k` bytes of an integer in two's complement, least significant first. -/
def bytesLE (k : Nat) (z : ℤ) : List UInt8 :=
  (List.range k).map fun i => UInt8.ofNat ((z / 256 ^ i) % 256).toNat

/-- `buf.writeUInt32LE(value, …)`: range check on the number as given, then the fraction is cut off. -/
def writeUInt32LE (v : ℚ) : J (List UInt8) :=
  if v > 4294967295 ∨ v < 0 then .error .rangeError else .ok (bytesLE 4 (truncZ v))

/-- `buf.writeInt32LE(value, …)`. -/
def writeInt32LE (v : ℚ) : J (List UInt8) :=
  if v > 2147483647 ∨ v < -2147483648 then .error .rangeError else .ok (bytesLE 4 (truncZ v))

/-- `buf.writeBigInt64LE(value, …)`. -/
def writeBigInt64LE (z : ℤ) : J (List UInt8) :=
  if z > 2 ^ 63 - 1 ∨ z < -2 ^ 63 then .error .rangeError else .ok (bytesLE 8 z)

/-- `server.ts:39,58`: `0x80000000 / 12.`, units per hour of right ascension. -/
def raScale : ℚ := num (2147483648 / 12)

/-- `server.ts:40,59`: `0x40000000 / 90.`, units per degree of declination. -/
def decScale : ℚ := num (1073741824 / 90)

/-- `server.ts:31-44` `packCurrentPosition`; `now` is `Date.now()` in milliseconds.  The buffer is filled from the front, so
it is the concatenation of the fields; `Date.now() * 1000` is an integral number (the rounding of an integer), which is what
`BigInt` requires. -/
def packCurrentPosition (now : Nat) (position : Equatorial) : J (List UInt8) := do
  let time ← writeBigInt64LE (truncZ (num ((now : ℚ) * 1000)))
  let ra ← writeUInt32LE (num (position.ra * raScale))
  let dec ← writeInt32LE (num (position.dec * decScale))
  return bytesLE 2 24 ++ bytesLE 2 0 ++ time ++ ra ++ dec ++ bytesLE 4 0

/-- `server.ts:53-61` `unpackGoto`.  Not modelled: the `length`, `type` and `timestamp` members, which are only printed. -/
def unpackGoto (input : List UInt8) : J Equatorial := do
  let ra ← readUInt32LE input 12
  let dec ← readInt32LE input 16
  return ⟨num ((ra : ℚ) / raScale), num ((dec : ℚ) / decScale)⟩

/-- `server.ts:64-73` the members of `class Telescope`. -/
structure Telescope where
  position : Equatorial
  offset : Equatorial
  deriving DecidableEq, Repr

/-- `server.ts:75-80` `getCorrected`. -/
def getCorrected (t : Telescope) : Equatorial :=
  ⟨num (t.position.ra + t.offset.ra), num (t.position.dec + t.offset.dec)⟩

/-- `server.ts:86-90` `calibrate`. -/
def calibrate (t : Telescope) (reference : Equatorial) : Telescope :=
  { t with offset := ⟨num (reference.ra - t.position.ra), num (reference.dec - t.position.dec)⟩ }

/-- What `new Date()` delivers to the time request: local hours, minutes, seconds, month (0-11), day, full year. -/
structure LocalTime where
  hours : Nat
  minutes : Nat
  seconds : Nat
  month : Nat
  date : Nat
  fullYear : ℤ
  deriving DecidableEq, Repr

/-- `String.fromCharCode(n)`: the code unit `n` modulo `2^16`. -/
def fromCharCode (z : ℤ) : Nat := (z % 65536).toNat

/-- The character class `[A-Za-z0-9]`. -/
def isAlnum (b : UInt8) : Bool := (65 ≤ b && b ≤ 90) || (97 ≤ b && b ≤ 122) || (48 ≤ b && b ≤ 57)

/-- `server.ts:140-205` `NexStar.handleRequest`: the request is the received bytes read as Latin-1, so its code units are the
bytes; the result is the list of code units of the response string.  The patterns `/^X$/` match exactly the string `X` (no
`m` flag), `/^s/` matches every string that begins with `s`. -/
def handleRequest (today : LocalTime) (request : List UInt8) : List Nat :=
  match request with
  | [75, x] => if isAlnum x then [x.toNat, 35] else []
  | [86] => [fromCharCode 4, fromCharCode 10, 35]
  | [80, 1, d, 0xfe, 0, 0, 0, 2] => if d = 0x10 ∨ d = 0x11 ∨ d = 0xb0 ∨ d = 0xb2 then [1, 0, 35] else []
  | [109] => [0x0c, 35]
  | [119] => [0x30, 0x0f, 0x29, 0x00, 0x0a, 0x3b, 0x01, 0x00, 35]
  | [101] => [51, 52, 65, 66, 48, 53, 48, 48, 44, 49, 50, 67, 69, 48, 53, 48, 48, 35]
  | [104] => [fromCharCode today.hours, fromCharCode today.minutes, fromCharCode today.seconds, fromCharCode (today.month + 1),
      fromCharCode today.date, fromCharCode (today.fullYear - 2000), 1, 0, 35]
  | [76] => [0, 35]
  | [74] => [0, 35]
  | [116] => [1, 35]
  | 115 :: _ => [35]
  | _ => []

/-- `socket.write(string)` encodes the string as UTF-8; a lone surrogate becomes U+FFFD. -/
def utf8 (c : Nat) : List UInt8 :=
  if c < 0x80 then [UInt8.ofNat c]
  else if c < 0x800 then [UInt8.ofNat (0xC0 + c / 64), UInt8.ofNat (0x80 + c % 64)]
  else if 0xD800 ≤ c ∧ c ≤ 0xDFFF then [0xEF, 0xBF, 0xBD]
  else [UInt8.ofNat (0xE0 + c / 4096), UInt8.ofNat (0x80 + c / 64 % 64), UInt8.ofNat (0x80 + c % 64)]

/-- `server.ts:231-262`: the callback for a `data` event.  The result is the telescope of the connection and the bytes
written to the socket (none: the empty list).  Not modelled: the log output. -/
def onData (now : Nat) (today : LocalTime) (t : Telescope) (data : List UInt8) : J (Telescope × List UInt8) :=
  let response := handleRequest today data
  if response.length > 0 then .ok (t, response.flatMap utf8)
  else if data.length ≥ 20 then do
    let message ← unpackGoto data
    let t := calibrate t message
    let out ← packCurrentPosition now (getCorrected t)
    return (t, out)
  else .ok (t, [])

/-- One `data` event with the clock readings its callback sees. -/
structure Event where
  now : Nat
  today : LocalTime
  data : List UInt8
  deriving DecidableEq, Repr

/-- A connection: the `data` events in order; the result is the telescope and what was written for each event. -/
def connection (t : Telescope) : List Event → J (Telescope × List (List UInt8))
  | [] => .ok (t, [])
  | e :: es => do
    let (t, out) ← onData e.now e.today t e.data
    let (t, outs) ← connection t es
    return (t, out :: outs)

/-- `server.ts:215-218`: the offset a new connection starts with. -/
def initialOffset : Equatorial := ⟨num (-18416198265134298 / 10 ^ 18), num (-2824170708658258 / 10 ^ 17)⟩

end Verif.Node
