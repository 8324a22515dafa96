import Verif.Model.Codec
import Verif.Model.NexStar

/-!
# The two protocol codecs in IEEE arithmetic

`Model/Codec.lean` and `Model/NexStar.lean` treat `double` as an exact ordered field.  Here the arithmetic of the number
conversions is carried out as the hardware does it: finite `double` values are rationals and every operation rounds to nearest
even (`fl b64`).  `long double` is a format `L` (binary64 on the ESP32, the 80-bit extended format on the x86 test host).
-/

namespace Verif

/-- The x87 80-bit extended format (`long double` of the native test build): 64 significant bits. -/
def x87 : Fmt := ⟨64, -16445, 16384⟩

namespace Codec

/-- `telescope.cpp:211,217`: `static_cast<uint32_t>(floor(0.5 + x * static_cast<double>(0x80000000) / 180.))`, every
operation rounded; `floor` is exact. -/
def encodeAngle64 (P : Platform) (x : ℚ) : C UInt32 := do
  let a ← fl b64 (x * 2147483648)
  let b ← fl b64 (a / 180)
  let c ← fl b64 (1 / 2 + b)
  castU32 P ((⌊c⌋ : ℤ) : ℚ)

/-- `telescope.cpp:180-230` `Telescope::packPosition`, as `packPosition` but with IEEE arithmetic. -/
def packPosition64 (P : Platform) (ra dec : ℚ) (timestamp : UInt64) (buffer : List UInt8) (bufferSize : Nat) :
    C (UInt32 × List UInt8) :=
  if bufferSize < 24 then
    .ok (0, buffer)
  else do
    let b ← storeSeq buffer 0 (bytes16 MESSAGE_CURRENT_POSITION_LENGTH)
    let b ← storeSeq b 2 (bytes16 MESSAGE_CURRENT_POSITION_TYPE)
    let b ← storeSeq b 4 (bytes64 timestamp)
    let encoded ← encodeAngle64 P ra
    let b ← storeSeq b 12 (bytes32 encoded)
    let encoded ← encodeAngle64 P dec
    let b ← storeSeq b 16 (bytes32 encoded)
    let b ← storeSeq b 20 [0, 0, 0, 0]
    return (24, b)

/-- `telescope.cpp:271-275`: `static_cast<double>(...) / static_cast<double>(0x80000000) * 180.`, every operation rounded. -/
def decodeAngle64 (v : UInt32) : C ℚ := do
  let a ← fl b64 (v.toNat : ℚ)
  let b ← fl b64 (a / 2147483648)
  fl b64 (b * 180)

/-- `telescope.cpp:249-283` `Telescope::unpackPosition`, as `unpackPosition` but with IEEE arithmetic. -/
def unpackPosition64 (out : UnpackOut ℚ) (data : List UInt8) (dataLength : Nat) : C (Bool × UnpackOut ℚ) := do
  let d0 ← readByte data 0
  let d1 ← readByte data 1
  let length := d0.toUInt32 + (d1.toUInt32 <<< 8)
  if length.toNat < 20 ∨ dataLength < length.toNat then
    return (false, out)
  else
    let d2 ← readByte data 2
    let d3 ← readByte data 3
    let type := d2.toUInt32 + (d3.toUInt32 <<< 8)
    if type ≠ 0 then
      return (false, out)
    else
      let ts ← match out.timestamp with
        | none => pure none
        | some _ => do
          let t0 ← readByte data 4
          let t1 ← readByte data 5
          let t2 ← readByte data 6
          let t3 ← readByte data 7
          let t4 ← readByte data 8
          let t5 ← readByte data 9
          let t6 ← readByte data 10
          let t7 ← readByte data 11
          pure (some (assemble64 t0 t1 t2 t3 t4 t5 t6 t7 / 1000))
      let r0 ← readByte data 12
      let r1 ← readByte data 13
      let r2 ← readByte data 14
      let r3 ← readByte data 15
      let ra ← decodeAngle64 (assemble32 r0 r1 r2 r3)
      let e0 ← readByte data 16
      let e1 ← readByte data 17
      let e2 ← readByte data 18
      let e3 ← readByte data 19
      let dec ← decodeAngle64 (assemble32 e0 e1 e2 e3)
      return (true, { ra := ra, dec := dec, timestamp := ts })

end Codec

namespace NexStar
open Verif.Nmea

/-- `nexstar.cpp:55,56`: `uint32_t(x / 360.0L * 4294967296.0L)`, each operation rounded to `long double`. -/
def positionNumber64 (L : Fmt) (P : Platform) (x : ℚ) : C UInt32 := do
  let a ← fl L (x / 360)
  let b ← fl L (a * 4294967296)
  castU32 P b

/-- `nexstar.cpp:54-56`: the bytes of the position response. -/
def positionBytes64 (L : Fmt) (P : Platform) (p : Equatorial ℚ) : C (List UInt8) := do
  let ra ← positionNumber64 L P p.ra
  let dec ← positionNumber64 L P p.dec
  return fmt08X ra ++ [44] ++ fmt08X dec ++ [35]

/-- `nexstar.cpp:92-93,95-96`: `(double)strtoul(hexString, NULL, 16) * 360L / 4294967296.0L`: the cast and the product with the
integer `360L` are `double` operations, the division is a `long double` operation, the assignment narrows to `double`. -/
def syncAngle64 (L : Fmt) (P : Platform) (request : List UInt8) (i : Nat) : C ℚ := do
  let s ← strncpyFrom request i 8
  let (v, _) ← strtoul P true (s ++ [0])
  let a ← fl b64 (v : ℚ)
  let b ← fl b64 (a * 360)
  let c ← fl L (b / 4294967296)
  fl b64 c

/-- `nexstar.cpp:99`: wrap for negative declinations, the subtraction rounded. -/
def wrapDec64 (dec : ℚ) : C ℚ := if 270 < dec then fl b64 (dec - 360) else .ok dec

variable {S : Type}

/-- `nexstar.cpp:89-103`: the effect of a sync request (`doSync` with IEEE arithmetic on the two numbers; the sidereal time and
what the telescope makes of the reference stay parameters). -/
def doSync64 (L : Fmt) (P : Platform) (ops : TelOps ℚ S) (g : Gnss) (sc : Scope S) (request : List UInt8) : C (Scope S) := do
  let ra ← syncAngle64 L P request 1
  let dec ← syncAngle64 L P request 10
  let dec ← wrapDec64 dec
  let t ← lst g
  let core ← ops.addReferencePoint sc.core ⟨ra, dec⟩ (g.latitude : ℚ) t
  return ⟨core, true⟩

/-- The bodies of the branches: `body` with the numbers of the position and sync branches in IEEE arithmetic. -/
def body64 (L : Fmt) (P : Platform) (ops : TelOps ℚ S) (g : Gnss) (sc : Scope S) (request : List UInt8) (b : Branch) :
    C (Option (List UInt8) × Scope S) :=
  match b with
  | .position => do                                                          -- nexstar.cpp:51-56
    let t ← lst g
    let p ← ops.position sc.core (g.latitude : ℚ) t
    let o ← positionBytes64 L P p
    return (some o, sc)
  | .sync => (doSync64 L P ops g sc request).map fun sc' => (some [35], sc') -- nexstar.cpp:89-132
  | b => body P ops g sc request b

/-- `nexstar.cpp:9-143` `NexStar::handleRequest`, as `handleRequest` with the protocol numbers in IEEE arithmetic. -/
def handleRequest64 (L : Fmt) (P : Platform) (ops : TelOps ℚ S) (g : Gnss) (sc : Scope S) (request : List UInt8) (requestLength : Nat)
    (response : List UInt8) (responseMaxLength : Nat) : C (UInt32 × List UInt8 × Scope S) := do
  let b ← branch request requestLength
  let (out, sc') ← body64 L P ops g sc request b
  match out with
  | none => return (0, response, sc')
  | some o => do
    let (n, r) ← snprintf response responseMaxLength o
    return (n, r, sc')

end NexStar
end Verif
