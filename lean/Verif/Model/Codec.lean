import Verif.C.Basic

/-!
# Model of the Stellarium telescope protocol codec

`lib/telescope/src/telescope.cpp` lines 172-294 (`packPosition`, `unpackPosition`).

`double` is an exact ordered field `K` with floor.  The buffer is a byte list (the memory that really exists);
`bufferSize`/`dataLength` are the sizes the caller claims.
-/

namespace Verif.Codec
open Verif

variable {K : Type} [Field K] [LinearOrder K] [IsStrictOrderedRing K] [FloorRing K]

/-- `telescope.h:19` `MESSAGE_CURRENT_POSITION_LENGTH`. -/
def MESSAGE_CURRENT_POSITION_LENGTH : UInt16 := 24
/-- `telescope.h:20` `MESSAGE_CURRENT_POSITION_TYPE`. -/
def MESSAGE_CURRENT_POSITION_TYPE : UInt16 := 0

/-- `telescope.cpp:211,217`: `static_cast<uint32_t>(floor(0.5 + x * static_cast<double>(0x80000000) / 180.))`. -/
def encodeAngle (P : Platform) (x : K) : C UInt32 :=
  castU32 P ((⌊(1 / 2 : K) + x * 2147483648 / 180⌋ : ℤ) : K)

/-- `telescope.cpp:192-193,196-197`: the two bytes of a 16-bit header field. -/
def bytes16 (v : UInt16) : List UInt8 :=
  [(v &&& 0xFF).toUInt8, ((v >>> 8) &&& 0xFF).toUInt8]

/-- `telescope.cpp:212-215,218-221`: the four bytes of `encoded`. -/
def bytes32 (v : UInt32) : List UInt8 :=
  [(v &&& 0xFF).toUInt8, ((v >>> 8) &&& 0xFF).toUInt8,
   ((v >>> 16) &&& 0xFF).toUInt8, ((v >>> 24) &&& 0xFF).toUInt8]

/-- `telescope.cpp:200-208`: the eight bytes of `timestamp`. -/
def bytes64 (v : UInt64) : List UInt8 :=
  [(v &&& 0xFF).toUInt8, ((v >>> 8) &&& 0xFF).toUInt8,
   ((v >>> 16) &&& 0xFF).toUInt8, ((v >>> 24) &&& 0xFF).toUInt8,
   ((v >>> 32) &&& 0xFF).toUInt8, ((v >>> 40) &&& 0xFF).toUInt8,
   ((v >>> 48) &&& 0xFF).toUInt8, ((v >>> 56) &&& 0xFF).toUInt8]

/-- `telescope.cpp:180-230` `Telescope::packPosition(ra, dec, timestamp, buffer, bufferSize)`.
Returns the C return value and the new content of the buffer.  The code interleaves the two angle conversions
with the byte writes; the model keeps that order (a UB conversion happens after the earlier bytes were written,
which is unobservable because UB ends the execution). -/
def packPosition (P : Platform) (ra dec : K) (timestamp : UInt64) (buffer : List UInt8) (bufferSize : Nat) :
    C (UInt32 × List UInt8) :=
  if bufferSize < 24 then
    .ok (0, buffer)
  else do
    let b ← storeSeq buffer 0 (bytes16 MESSAGE_CURRENT_POSITION_LENGTH)
    let b ← storeSeq b 2 (bytes16 MESSAGE_CURRENT_POSITION_TYPE)
    let b ← storeSeq b 4 (bytes64 timestamp)
    let encoded ← encodeAngle P ra
    let b ← storeSeq b 12 (bytes32 encoded)
    let encoded ← encodeAngle P dec
    let b ← storeSeq b 16 (bytes32 encoded)
    let b ← storeSeq b 20 [0, 0, 0, 0]
    return (24, b)

/-- The variables `unpackPosition` writes through its pointers; `timestamp = none` models a `NULL` pointer. -/
structure UnpackOut (K : Type) where
  ra : K
  dec : K
  timestamp : Option UInt64
  deriving DecidableEq, Repr

/-- `telescope.cpp:271-274,277-280`: little-endian assembly of 32 bits from `data[i..i+3]`. -/
def assemble32 (d0 d1 d2 d3 : UInt8) : UInt32 :=
  d0.toUInt32 + (d1.toUInt32 <<< 8) + (d2.toUInt32 <<< 16) + (d3.toUInt32 <<< 24)

/-- `telescope.cpp:261-268`: little-endian assembly of 64 bits. -/
def assemble64 (d0 d1 d2 d3 d4 d5 d6 d7 : UInt8) : UInt64 :=
  d0.toUInt64 + (d1.toUInt64 <<< 8) + (d2.toUInt64 <<< 16) + (d3.toUInt64 <<< 24) +
  (d4.toUInt64 <<< 32) + (d5.toUInt64 <<< 40) + (d6.toUInt64 <<< 48) + (d7.toUInt64 <<< 56)

/-- `telescope.cpp:271-275`: `static_cast<double>(...) / static_cast<double>(0x80000000) * 180.` -/
def decodeAngle (v : UInt32) : K := (v.toNat : K) / 2147483648 * 180

/-- `telescope.cpp:249-283` `Telescope::unpackPosition`.  `data` is the readable memory at the `data` pointer,
`out` the previous content of the output variables; the result is the return value and their new content. -/
def unpackPosition (out : UnpackOut K) (data : List UInt8) (dataLength : Nat) : C (Bool × UnpackOut K) := do
  let d0 ← readByte data 0
  let d1 ← readByte data 1
  let length := d0.toUInt32 + (d1.toUInt32 <<< 8)
  if length.toNat < 20 ∨ dataLength < length.toNat then
    return (false, out)
  else
    let d2 ← readByte data 2
    let d3 ← readByte data 3
    let type := d2.toUInt32 + (d3.toUInt32 <<< 8)
    if type ≠ 0 then
      return (false, out)
    else
      let ts ← match out.timestamp with
        | none => pure none
        | some _ => do
          let t0 ← readByte data 4
          let t1 ← readByte data 5
          let t2 ← readByte data 6
          let t3 ← readByte data 7
          let t4 ← readByte data 8
          let t5 ← readByte data 9
          let t6 ← readByte data 10
          let t7 ← readByte data 11
          pure (some (assemble64 t0 t1 t2 t3 t4 t5 t6 t7 / 1000))
      let r0 ← readByte data 12
      let r1 ← readByte data 13
      let r2 ← readByte data 14
      let r3 ← readByte data 15
      let e0 ← readByte data 16
      let e1 ← readByte data 17
      let e2 ← readByte data 18
      let e3 ← readByte data 19
      return (true, { ra := decodeAngle (assemble32 r0 r1 r2 r3)
                      dec := decodeAngle (assemble32 e0 e1 e2 e3)
                      timestamp := ts })

end Verif.Codec
